/-!
# Tables of `/repo/src/constants/fixed_bases/nullifier_k.rs`, generated from that file

Each entry of `U`, an array of 32 bytes, is given as the integer it encodes, little-endian.
-/

namespace Orchard.Tables.NullifierK

/-- `constants/fixed_bases/nullifier_k.rs:18-26` `Z`. -/
def z : List Nat := [
  34374, 173069, 40776, 220066, 45494, 37762, 5245, 11979, 33386, 238556,
  128731, 12128, 89982, 85351, 9804, 12820, 80455, 100009, 24382, 17854,
  26367, 7067, 102106, 64293, 114999, 172304, 36687, 11287, 66386, 41470,
  182654, 12214, 36528, 16257, 26179, 15660, 106189, 211703, 12936, 2506,
  149799, 82965, 117810, 98881, 296, 146201, 63200, 31766, 78221, 6587,
  27974, 126041, 19927, 79339, 210060, 127148, 10109, 19815, 107452, 10296,
  642, 11828, 3985, 2984, 30806, 12554, 1815, 19894, 16790, 33748,
  12879, 1742, 30858, 118563, 26855, 75617, 10167, 17660, 33638, 89236,
  50234, 30489, 67488, 50229, 29277]

/-- `constants/fixed_bases/nullifier_k.rs:30-2921` `U`. -/
def u : List (List Nat) := [
  [0x18301b5a4ee7c38610812354d8930137d016f7b5971780fe83a97f685a75b108,
    0x3ccecd64dfdf81b250ff88887f06dbec2bf5974ddca0009da46b5ccb891e3455,
    0x254bc3a197547e25c25730fbc57121d0752f11bb4399ae62273595c23512ab4,
    0x29f58e701e23eb583b4fc98f68beb7bbe473d24350bbca5750f1eeed4b7f9878,
    0x216cdfc78b33feae7c57034d8e53e486e088564a9dab0bcaf398246f03cccb89,
    0x320f9ed5aa625722ee5237291096c20f81dee14ea0a1c32f90892f31805a3dfd,
    0x332d59d95bb32eee03d55f2f86d879f60abdb50bea8a150053a390fc0f74eb2f,
    0x1c9a480799f12ae17d1a2901491fecf3a5d1b38f09105c092e97b51e1cd2250e],
  [0x1257cc9f7e1aeeaa51c05eebba9ab7b2a8d1df8ac4444b9101df588e696b179b,
    0x4bfdd77ff6e012491766ec291a2561f754b2db7e547f00492345d2a97d48f17,
    0x1a056ed7bda3fcbe63dcc4668817277e41407c23140bc0d6b9762b2a2877c72b,
    0x7a5908efa7c1144a05acd04493f5577fd18551a83fba1c6251b36be1289dde7,
    0x1b3b5691b4a77619dcb8a39d09e0fcf9d5e4e98421cc9b1fd4e6739c35ce3253,
    0x3cd54f9e7e69f0519068e418977a007cb6127c2aa74810b85e624c8fc96ad6f5,
    0x359b114106bad834ba9f111c04c7798a611ad6f0361cc39a899fa14509773b75,
    0x15a6334f1587a7b00d5772955cdac447d2fc90df1eadb7d1278cf3fb83094a83],
  [0x1bef4737a2f5846ccc974ef0a706d8aac21f11759f9fb9de3b365468f39356a,
    0x6e2aee1a16b0cc5d42e79c0a09ee1e64ca756f75061d7c553460de59b8bd7d1,
    0x1fa56c0c3c1081153e13d357977bc74ce68ce10f6edc33208708206e165ea070,
    0x1bdb8f9af78a2c6f4e638474c0713d00e2347e381466dbfa6776563058401ecc,
    0x2d33c69b2b3be2b1619789ad89007e8543a2920d2e26cd1ad1fed29d11b0afea,
    0x25d02f3e7fad63c228612c3ae063e9a003eafd1d69523412ff04f250c15660c5,
    0x23ee9495f79bd62a1101bc4cdf6c73c4e80621f13990e65e4665da01a3f99516,
    0x35899d3ce87689a2583f534b1595220abca5678a9abd943202d15654824a570d],
  [0x375972a679cb0084a80c7adc7d0dd2882714fb3e1eec3440805ff4fcaf854ae9,
    0x3b97269faa0a26db7b784a1d19c84cdea873e7c1e8706befbf604a82fe511017,
    0x2c74d3b33f1995112034c3305b475096d28d0752df33a63181f4883cd527367b,
    0x37e2c48752e99520c5bb8db9092ac197562beab5aa555eb0ca1008d6dd75d46d,
    0x36d4d4672d78a6208d4b61eb8a3c023416b2aa2ee53032a6b65277218c63a0a7,
    0x12d656cf8099e6a3b6f2bc3b326c43ec1ad452b554c9d670315d2758281f6d7f,
    0x1f07610d4d22abf46422ffd362a1ddd755b3ff9553516a44ee1911dff0a8e8f6,
    0x1bb69d8de023845d453550c06384ab19a7496c460880f79a3b2f1bae4a8f1ccb],
  [0x11289c6431cf6e762ac85aff9f185784b8e4ee2f11577c0f4d93c8b71ad0af9e,
    0x2079405746800621eaaf4c41a2b90c269579d50eb8679d2bed550e7a5a8f50d6,
    0x315abb972a89d1b97aeab485010af9ebe7f6c43ad42271d5a7d279e5ac08ccef,
    0xde2077031cf28bb3c4c780027bd0a52b9684a38ace720a8f7d5727699ccc926,
    0x166ff3470d94b63083ce8b813de699e9d822dd45face0742228b1111b3188a31,
    0x150af5f04e191d415f9f3db8ab691afa980256f056f31fd57371d5402e1658c4,
    0x4377664eb62d3652de9d6efc62d0e451ea4d90b98f0c428f23b42e6c3081c4e,
    0x2d5de0367cf0bc26d64b43ca6a5cbf84a1647c8373f299730f811ed47ed1e04e],
  [0x1724d3e2d2b846711d124de925ecc0aa193cd278fa2f83e0725f86b64f6ef4d9,
    0x1fdd6446d1dba4b7ceb1f6a8cbebba20607b4b9346c3ad39ff3cbcbb12d81961,
    0x5a40fd041dad973399aba8090eaab58d13d85b7d0a864880e1e60eb8f684167,
    0x32408c0f7d1c929037c797a7c9d297bffe77c1d1d336be7665c672df8b7d1181,
    0x27d114c124346cd04444686ca1fbdf9c605fe7ed76404ec1949c55fe49bf729d,
    0xb9336dbd7912f84e921608d563db37e82b63c49b575ff06b5902961f449dd99,
    0x1340c2e314d4778db4fb3830b131c6ddebb9f362173515d895cd1746dbb96b5e,
    0x153f80403f447d05dfb3a6cc5acc45cd9324415c271f017a0661b624e2799455],
  [0x102b811289fcdbfae0e24531e26efb59a60b30b139a6ef963d7cb9d4cb19a902,
    0x1f53c1fea946a29fffb3eab6ffd5e7403519e56174d50c8945a6b05762d126e8,
    0x203e2405c9d39891d7d6786107c39ca882ff509c245402612672e586a9aa2378,
    0x357911d1a2968e39a4bdc9e2f54f1b09fcf2f449823aef2aa82ba0a879ff7539,
    0x231b0648e43f9406c36665643b46df9db5741703ae9985215d6199f09e023424,
    0x4788f78f34fc718e5ecc5b579173b4586bcb0e0fa65077568c8d5388ce2c534,
    0x348c242e8e1a58ab0cd0868a829800a5c394b9016a10e39b838cffea8120b594,
    0x3ee1293682144f6d5f038ee69c3332ed736de560c7130f784359c34c2b2c0ab8],
  [0x1d7d63f3bc121ea91f1b051926198b6db1cc756188b98cc1467e40dca326e3ab,
    0x34faef9bd1e49b5a4b3d8871e053c33e080106bcd018415f424439964358bf16,
    0xdda0a362a8e5d8cd9684b6cea52e6cbc42fa6f9e79f5305ac0dfce636f16e40,
    0x88dc3181bca8f5ada644b173ef0835af262f2c6504f7208f41b1a054454d77,
    0x3ad59bc24bfc48281baee4602b4370d84f98d43f495492aa451c716597c045f,
    0x2237543d9e2a1ef5b6840e1c31e8cecb98427f299a51694348e93ed7fd42d1b9,
    0x3ac3861540b74d0cfcb36c22b2a5b3a6075023cbcda9e83f08fce6bcd98424a8,
    0x34c4a6176f75dceeb0a6fd47c8205268bd3a30b27b307e155ff6bf6238e9aa7],
  [0x21a847335ccece4ee1a671f2d3aa5433a3596bb6f93045814a38a5bbe8e72311,
    0x38d188c7ea3c2b870ed7171f44debb9fb50b40d9ccb4ee772a10f3c96c6320da,
    0xcc8b7722c2021487f49972d2923fb2a1a694f1e853b16e1b3e2605d6b1459e5,
    0x1adb4f730e0dc08141303ac4c01e9fef4b1d76054bf22d64d13acb9e5777d600,
    0x3f9902f487a9d1d5a8a6196d9bd8fd13da5e5e8efb5fccc29718f946b2ec5862,
    0x1d6f35427195bc38e2f31d81aca436b036efd8b9eea74df8e09dec463b998938,
    0x3dc9da0860793af1b492f866a1b513dfad3ac11790ae9abb36056c14ce8527af,
    0x9649b66cefdcb83427ed7441fb60670708d08e4c9d5f49f8e70c520e266ffd6],
  [0x3f633fde0788856ed0720cff201700dd384d8148a11a4f110f759f3d4c0ab786,
    0x2fd8718436fb6ecd3bc83e789f4c067786e644251b790f1a5d2269a7c935bc90,
    0x34e24d719f80837c35679d2247819a79f460622083687fee8a64b36e7fbaf2e2,
    0xd6e7862ff0ce386d71b4c2463e84d27afea497e172e8676d8016bffd6c0bc95,
    0x30f6a1ca90026cc61f6ee961b8e3d15db68f989cdeed7b67f9f8c4031e6f1337,
    0xd10d9e28cf01c7773355beaa83b23d0d40adec409fe93bb2d14ba0d1cb76959,
    0x1556382f85caa8ccf024982bf049ec5c88e0841e18504ccc315265acb8c45a47,
    0x2250943a907be2083862b08ddf589201c66d2bd452b84667df17d60ff2637b89],
  [0x133e4867fbd4d992ac5ef2baea9d264102c1384c1ce325f5079c943a976cb70,
    0x319163cff0e7a26d54e553fce3df33a011f39e6ab8d312c986dfc877dc6d5243,
    0x2154d7df2208bec9f6d253018e602f631b29424297dc32481a2b514748cd267f,
    0x1c570f35d03dbb834d3412cf51ed07468ac8bc9e58904d457e0d9efd2ff841c4,
    0x16493965664ddce4d896cbbb4e38e4cd7a28ecb24f6ae55f9f1122a46fba458e,
    0x17d4fc2acee9ac4fdf3a5c2bc2786674e4d2b23919f1bcc15d2796fa64346122,
    0x13406b1fa08c9403450f76b82e25536b07cdbe4b52e8b1dc26d0174ab94c3fff,
    0x2927c98de02f97957d2e6d30fdcae5dc1bc5c172d6cbefd390668d0b51144a0c],
  [0x3cfe249d1f8495da285cf2faa2a905f8e239ae96bdd5c85af5452e5e56c82d30,
    0x117b4d37d4cdf83189b26cb7b4fe81d93355a156d2500f00200a6d26c7367951,
    0x317d5b7dfee75ac8c7410bebd5a05b5713d6175f8b2b4a7dee91e51acc9ff825,
    0x20993aa1318ceadc7d48fe7aaa2c32755cfdb38ee88f48f41ea0c9b1e46b0cb2,
    0x3ae47b8c6f6f84580e8a17e4893e5ba5b51e534db03093448b749265db84edf7,
    0x1574eda3c8cbba7753472d3159312eb103209218e23d1f0396ebeeb2a0c1e912,
    0xadd7cb689cad8b12e20fe6b493a51da83b61d8b8b1879b44183e79f724e9073,
    0x290908951ce4e98a37f5d54756703fa07ccc2000f0baa147b047c7b3abad0edf],
  [0x2ae442d53fb25ccee350648eef3fda15d0ddc4344693b60298ae4d2a3e830615,
    0x3234f87b9682c10b7875856d364450d75cd2d080ed47aef2752a45ffe96862ea,
    0x12cbe85745c800a87607718ebf2910e37a9fece323b3116304dcda8ec5d7612a,
    0x2d33c77ba44d4dc3e77ab5aa2478bdbb41a6669e3a243f6b8507344b62d865cc,
    0x198cd9a8b34d17caf584e094b9eb24eba7c4252f2261728ee3d285a04dbd345,
    0x35ac3da278e77a8d290bef6d1bfe300e0ee7ab9c9c71e87893478547af64b128,
    0x269efa16bbce4310e16cf313845595d21e3f9fe2bb886d355bf2f6584de6038a,
    0x31190930a3595c156ca7b5c6518851801da75f7ed8b30d2c82f84515143de636],
  [0x15bc94098bf6cbac66b02c0c21ffe9cfc545fbbee576784bd84b309cbaaf44d5,
    0x237cdcd344e2df3b96a2f8eae341716d97c3a010f139b0feb704be00e74e743b,
    0x191d829b6370288801443e1cb80415197392ae357cc1fdb4dc3f146fda74f19d,
    0x1bcb2260f0c0c177ad71f2e2891702eb09d801dc93cbd03194cdd9aabbc30e6b,
    0x17681fd015850b506c84607ee5d8920b58ba8cb496ea20acd17602b3ff9ebddc,
    0x36d5fbdebfd7c150d845a23b60751402d981ec72dd78506437855ead33be6822,
    0x30f4845b32cebcb0102797159eff1757509a1a3ff23d9189519e8b3e732eadd9,
    0x3dd1d434555e551ffeae84fa198bad85f740a763d5b902a0486b843c8a04887d],
  [0x39b5bc1390ae2d00f7bc063a83d390f3561c3728098f9d8b178a4f551a30a0dc,
    0x8aa4813e512972f42ed5e71b087e3b53a87ffec009f9d7e2ef889ce09198067,
    0x290a782a7748993de709e610be015f4a5be1e16c2b7bd7319b82b2259fa97a2e,
    0x23eeb76faf0f5b8b678f2cd5f195a37edb417beb76139b0255eb17c0cba5b3bd,
    0x201c7739031c0d884e4cd13671889d7e2a0fc93fea76e72876878b975dfa7234,
    0x36f3d72164a5916ac28429d719142af95b030bda1016efb5c301582b9955dff1,
    0x154c029dcc612b0b90211de7e638152b424e5054da84db8b52834bbd83154b9,
    0x2e881083fcbbdf43e1925d397e4485c0c5c9527f94cc8ea7b51b062526c56f74],
  [0x37250aab0f40208eafeb6f5a293d5583dcab72fd0ca88a8930363100d797c2e5,
    0x248890485eb3d17868309bec371016059b7e4e48ef0914420abffd551ef81eb3,
    0xbe9a4f265cb8b8fb34a30460dac2178deffb2fb405668b828b3974852e45505,
    0x32916b4337c317c605960e0e03f4f11c299e83631aff6266fb0986df2dc2d79b,
    0x2e22e76a6badaf08310c9aa8ae0c2e76474f4ab695ca66b9f769731873dc42f2,
    0x1bdebd88b1026e8d4eae9c6dce6aa44d41ad22118981e5b1ba1bf7da99a80ada,
    0x2e5c5d5f03ba5f081ee7ca2f71fed8a03dbb346325e902939155730efce3ce3f,
    0x1d21460bcbb6aeefefe9136b78f852dfcf8887e1185668ff0eff355430b173c2],
  [0x23b603144c20e72dcb19a49f7f76314516dde8333071764992da7580d4a943ff,
    0x200837be490f8ef9c5ef6b6581913c2bf1b506e709b38769434b6f04de2dc080,
    0x2723447afe17c8747e6bb655ed468a327ba0c731f33f4b6ce1122dc8fcddab4b,
    0xe1185756eaa440aa86c4bf0210ee4f3544dc11e5840a6725d99c90ea561ccdc,
    0x184d6de4e30dae5dc7762578c8bd822c6dacbedf887f1ca0f851647c3a770807,
    0xc50c06f38628fd714a1f743196762097d6a7493f403c69c6ab9bf22fb5a3075,
    0x19dac690b745d71850c4889cc5f5128c1bfe1cbd37a1731fde0449c0c092964b,
    0xb4b42555fbd153a270f4e3c182e85368ba24d9237946faefe9bbb5505893b04],
  [0x20533331dbaccddd32333ed1d9e396376411e275282db3fcc5077e3d5b9f0c26,
    0x1d1d4cff95c6075569fb6341536ddb6453f3e7f4bd562f18f55178556d2c7a39,
    0x10e0ba3cbae6aeb4e87190bb48fc97fb823736acf7a4bc8aa3e2cebdbbff853,
    0x313a06ae89933ff4691ee3037bd3af74b36c6d31760ecc0b22c8f04605e54103,
    0x2521774761921cf3d8f2cb5022aea8ecddeaf620b50dbfcd4f65497d31b82cff,
    0x1f05682aa7e6fa329d0f37604028c093bd7d018b62853867a3b472843842e942,
    0x31beebeab3390b2fb037a8555229812e8d3a2e53c8e1ddab39e4bf4d089b706,
    0x24bc8e5d421d2e5ed581877158e57f1378f422acd18d74d167ac6173eccbf681],
  [0x23d20b0485ea55c70ff5105476a2e8cd4f75b6358ce744d95d071c06a256cac2,
    0x361533d8fb6551f7c37961a669f0bb74c1f35dae5aa9107ac19c68ea27c5919d,
    0xae9df03c6a922b35025db597cbd26353464e53bf1474913079c892621cc8f3d,
    0x2c6cfab4b62abf63411e144851af170be55399bf1f899f83b95bf1d12cb22fcc,
    0x2632fac0671074b399ab51ea5669684068db29fed7f8b63ef4b2b115e6cbdbdf,
    0x2e1a5091a5dd39c4617337fffbbd4662388b39a48c90343e26e6887c5b6f0fb3,
    0x28f6c9ee35cf6eb6ed3d3d2c564723f080ee1f47fd64c6a9a4296a8f38096715,
    0x23baf85c90d5cbc1f1877edf0939ac155f258ea9dacb3db01b5e2f400bd8b1cc],
  [0x19440df26d0e730207b1aa4a3b16b6d7453fa12d8cd30b090d82feff6a6d4be4,
    0x21553690093f0d64dae9457495c4365cc2fdb3ceb41082c0aa8c3aab42b3de06,
    0x24f0ce07824e45881ba4cc937894a7d477e85f49c6add79a38553e313814215f,
    0x3bc1353d90b736296fbbad1553cfb959e4c675e5f248e3f42fac9867a4d7266d,
    0x16f90299bb29f03c3fcfe7cbe89767f2ef0436b20db968c97beedd0c8833da43,
    0x8446e540b10e8301f2c128014920cc2c21010e6bf79f875b478285dbea7ceaf,
    0x1c64503f782f586b5df4c553ead46e34f93d6103a504473437aecd8666789c88,
    0x264747932cefb4fcb332dc1a320a9a4c80d4dcf7817414c4acb9a319486a84ed],
  [0x2ba0a7996f0837e1ae388988fc9c32ea2c44e0d6dade4ff7ac5397e865e27ec3,
    0x7bede7fe1f4a4da700b07c2eba851d98ac2527c3175f39360e03a23a50b72f1,
    0x2fb5f22b4f14f7bf4524d5354dc03b939168068a48d5200ffb0f2c2e6a926dd2,
    0x7fa7ecbe7425123e02f96cfb475f7d93014c6f6d21ed65432b6eb9025a355cc,
    0x3f5b6ca723e51e3768a2530214c30e35e8b99b89f3096b9e4a633d75c530ebfb,
    0xa4082dc752e10c227bc4c293c583275ff4bfc4d556ab6baf0dfabac39b96be6,
    0xf10f112bbff95d957e0110dfeb174e8d79802e8322b65e14f61678ac3909ce4,
    0x293393b850acfcde25dadb12428bc5f71f4acffe07984fcd940951452271ad53],
  [0x3808a9db51047dc1c89b0128889fbbf9eb49e368e09d0278f308128a57375900,
    0x2bacaf3d3092422c983bc3246085a8ce1aa35f17aac1ddda7e9e386b279d1d74,
    0x392de766d6be787a2a729686e03fe38ab9baaf0a999044feac00a0ab56630d5,
    0xb3919ab1c2c7406320d357f289dfebbe08e52719a220fe2848174959a6951a5,
    0x2d655a4a68389021e10269309da7aa83736dd9d1beee67d0add42db79489ad89,
    0x2083d0b1a201446a5c478038bf447c9b05cdb341aa3e5465f80fefa6bb20d225,
    0x333309b77f92b1884a93d5a6d89e4425f2cc726512584d58dc56e949bc972814,
    0x3c3b4024f72732e1fb0b3621b5263cddd389cf59720499b63e5a962572fcfa23],
  [0x28c5972e4464c5424dfbf91cb5d5912f8b6da6d51070b4c52fa7689b3db02c03,
    0x176c33d49a02ee9519ac3f32f5b2df851d030f574a5811bce9ec14017ff723e5,
    0xd826107bd8314d1ca833d48a214513892b5979484e97b2f7fd9585893610dba,
    0x383b8a50228de71b6c1cd894d2e74c89076ff2ed345b44d4daf6f074971b998b,
    0xbca9581453dcc9eee06c333674f00d4d4e77c1f879310fecaf94902a52d64fd,
    0x284ee3142127e8f5c8b5dedc3984ccac6b6319cd3f151f4932f2332c5031be67,
    0x3e86a4c29adf36d9ec9b2777c926f3bb4c0a1fb40d8d528f384827d92b47d455,
    0x1f9c1d87615a199fe401a72bcad28f73bc64f262619d8666fd9e45f1b880054d],
  [0x1d8856dd6dc7a63e4b88d24aed6c6d3e8add16c2d60c3b6eec708aa955a14824,
    0x13ebfe1e5d17b70dd9327dce67c16d2e782b6b2857f975890a8e35bdb8c8028c,
    0x28b60b8a885bced873c354f259857101c42e72e18cdee9c4c99f5c3a536cff87,
    0x183ec821f98775d93e8cb5bed98d232c5f437045bcde8fd3e96ac2ce19e4382b,
    0x156dead029acb6477b0f61069a11deb6bfb382f4f0d588d29b07e483bfdb561b,
    0x17fff61d2367b6f136ffa49656c85d78581c6cf142b847292c06a97d615116df,
    0xd04a025e3acdcff84d0a388402bab520e3e7730a448125b3134c4abb8e834d2,
    0xab267f48a1957870817d35e4818bd60cad4505d341a1f89628639b0dfd5b59e],
  [0x3721d563697d59997ab50d90828f56f7f70723fb4d7007d1f173214a834bd8f0,
    0x1129d83d5c2e49eafebe22034f479b0bf91a57594eaec8e40f00163b9ec9eb91,
    0x3f6b29c141d67fd2ae88578cc24b46388e24c94c4bdc79a4d55651c23014382b,
    0xbf2c0e61972125923ea2457b307386bd4dbf946d199ee6e0d1405cce2db5cd5,
    0x30ed9e62de6333d46d76178c975a9a1e176f3fdc370c470bf2850a10bfa2dfe2,
    0x107080cd12adcf2f2d0d7d8b1571a467d3a4f619e7893bb3ec447a99e66d2614,
    0x32b2dfb95e62f4f44c4c26632569a7710c7e7c9ab9c0a4a86025ddd9211a0085,
    0x26ea2f9646d8c72a9a55c19c6ca44eb18b6e6b10d22304858cb13a0bbc42fa78],
  [0x187d852c708ce5c213bce9b001883ef05fb4e04484c16e9ad86609817ac5fa5b,
    0x2da3049001fe5beb31ed1a8247720579d64c4cb063417e1f1bd8ee362d260ff9,
    0x14875cbf3f7ac7a418814698cce842672fe3c6c117e560756988c49a85c0e5ff,
    0x100c9b8a9de5655de0bfb192e24b7d8ab2a47abbfdfa1a4f7aff28f1025a2c91,
    0x87fb94e687f469ec7e93339e3f0fb88256a760f2a6112a0e67e15064e797a8b,
    0x980d0e84d7bda2c0381bde83ceb0918b5a9c79e29514a9e6a5847156b37c7c8,
    0x3e910256b9e42570a511c2ac422632384bed8f6c9677719db64c3953de70c757,
    0x1c0daa274fbc4576553dd7a661df217b8fc77d49c393528f57283cb694c248c],
  [0x2f6e63af4f05746948e4adc907d9c94352bc84ea3ef88e3b8cdcc06eed7f4061,
    0x3a42d2af5300fbb4ac6225ca9409d02bf26802e2128005a511c6aab696ab5996,
    0x33feb5c6a262ada86cd1e7ee8f18b7fdac54be59316ad8f11fba0a991651ad11,
    0x1410a472d2f1387deb052a177fccd0508f2fc5912fd24a706b61af1d8469d289,
    0x2b661ec10cf7c1b36cfe4469fad192922f8c5c73b4f07561b16b7fee55ef1484,
    0x1a8e381cf79eefe9e1cc92e72498028a2ba2ae1a7dcf82e00d4e9db326e27e91,
    0xafa954b343a153de395cc751c85f9df9b5728f736573eff6344af1a573ca45b,
    0xf645d692688ba875d8714a0b0d6eeea4f3d6f0cdcf5a383821a544d473fbfed],
  [0x70ce7b8c6bb77fa8a1ef66ed98168f8bc730b63222502f8d36ad04dbe42aadf,
    0x26b8e6c5e4255b40adce0b1840c43ef9028f2f0e52a9c9341beca762cf488578,
    0x2ebc126874208237a1711963fc70416cd47d5c609900b73adf48632a7da30bd5,
    0x8ae2c1a8434313e88245134c6562e2630e9b6b8563f3a21c4444fd140c4ac8e,
    0x1e2a32428eb87911897fcecd87c44c71e8b1a505bfc1163a4827b384ec9d4f4f,
    0x3c027a106ca7bf4c42c9dda53c9497c636033dc6f881449ec36ea13bbf17938c,
    0x35acabbf5dcb366e363e70a9d44f39194240237b80236e172e3d4126a7e1fe6,
    0x9042f3d54a04cda3d2b82c834d4d893cb88c5e6e681b50c6ab95282c70a6483],
  [0xd16e3b11221d2949a54881a73f1e0cebf7d80801a725020e39812636ce8cc37,
    0x31e7140deb6a63b53264f1ae21259b8ca06da553fb8d7a9a6b82af33027c7290,
    0x30759d6d9571c206f37582149dd489e18f0d6e50dc4a619f52c31f9f109ce0d8,
    0x2aacbd18d223d793f7efeffd712bbaa14ce0576f84609fac808174edd4a098cb,
    0x3e74852a2ae6640f2f20ad8750bd64670fe5f80e341ce0b8abfe8dcce5ba067f,
    0x36b0eca2d61e55c8ac78892a35952ca79dec5da34d182b75db45ccf58db2b62,
    0x3a8f49d0ce56f0aab47c32e24cb74661badb5d3b5ccfa259f81fd4323c6a7bf0,
    0x3ad69341babcf59c9c360aca8c0e6e45537deefc81ccec5d7748fa127d952244],
  [0x1abc9ffa0fbc542b481c011b6fc670a4d3c7cfc1492478d7f5a444d1f9a19464,
    0xd0718bb91183d18c046a5f9389cc98481dc1e5e75b5fdc8fad514565b27e8fd,
    0xab5f5d0174d9d7c49089635c48a1a60f8003f4a6a02b3eea1de0d4b8588a0eb,
    0x1a72345afb65a99d58cf11808cab55314cd029d62f5817ad2c4be688a5a0b4e0,
    0x313a4f81f7d10413dde7698f9b43a4ff5c5ab0917ed8f16e7ea0dcbd0b81f7fb,
    0x363672562cd0a35cec5756c93daebbeed8299bb21c53210a531c80c64f013a37,
    0x2850a714ee73bd07de398dff1a24109acfc958de6e16683079dd5ac1af5fa939,
    0x36937eaa0e5152f8e5110eb6b43c8edb6e2cab7e3ad4534f4a73913a3869b52f],
  [0x30e5b13757365ab558362728e455492a74f8ba214c088f2a3ba2e6ac112d1480,
    0x16a1e56e7258c8ff1915b9f5472cbf70491b876b280c2744231fe23772c7ad66,
    0x1ef3b67c9ca68e453877c71fbb9df967e1f79a3662547f32f5c1765f243e0df2,
    0x2868486e748c16bf5f12231198024dea11545e9683371a806048a1454a612ca9,
    0x3e154cad2dc9cb376097ccb6aab8bb2fcb45530ae5f21e7618e08b0b15426317,
    0x418f8fdf34c9aa5e4c01ab3834b9e04c0b0ebc807a3b7edc5ca81225af38ae,
    0x3c6203480cc44a905b83989f4eda99327f468028bfc7be69fbf0b8e9e9e8fc69,
    0x26144e92385711dda54aa657c70ee576ae0ce6cd026c9f0e3aee772c0ccc7656],
  [0x101657d05c1521310250aa506f3cb78a8ed4d39517276eca05099cb80cdd211,
    0x15a0e1701d384d23733893c7953a5b8f54d20bc89fe04c87c534d21ce2183934,
    0x34413d37103df101ff395a1975b56e54a21e69617893fa6f710a99a8324a9d67,
    0x74bfdd708654aa23816cb8040fe15df1ef37b5a5184f5332a76e8975809a1f1,
    0x3c837aa7e981d74c37b19351a70816bbcc61dbf9a207b1d8547f298d616f34a8,
    0x3451ca9d2c12e6c7cf031b4454de89e717279e9cd46914c6a11128f49a979d94,
    0x1247e8945b52ff97c4f1ff2791161a809c822126bcae5bec79519f59654f4d4d,
    0x363a53938645ae341b65e4e5b79daaf16c015c77c781bbd4630a4b39ee6fc4c2],
  [0x37b970a4d57105e5f3ce9ac8b6677c179a1f3cc0fc146280c382ce6408c53ff1,
    0x261d9b751d1beb0101f0ccdb51685bbb68e5071a7c54dd008bad0b572e7bf269,
    0x3ab09ba75c77e4ac7302b538225b6e02fd20db171839e72876925a72b428f7e1,
    0x1e473af8a134cc37f49640d4676066adf70e8689440a6350621cfece51568f9,
    0x1834a84cc6ea55e529b19ec87a1eaa72ebf1e1a0759ded543365911d725090c3,
    0x21cbab22bf8468d42b78ebae0f9d7533447f76b7db4548609d3f60bf31ffd278,
    0x2ae42a54fed79e1e810ed98a9770f92d89b9bc55d94ba30c74a5fdc42d3ca92c,
    0x311362f6f3fc340f188dcf325cc121914de0f8b2ad585480b72809413ef9a8cb],
  [0x1bd08ae0e4408eea467ebe1c3c7b74f107b956424431fe492dc81e8866a536ed,
    0x301ae6fd1700848fd6e43b5f14d65b9e2eb953c2673f8a37545767c584cf3963,
    0x7daf302cad80f8303514542c0f241b02ad314108198ce81c5f3f215e2deef7b,
    0x193405e3cfdd1df7f286114930da1f2c83656603792d4bc4e153beefd1cc1a1f,
    0x10e72c231a5103f6ff2950e18ee5fd3b0821ad4de91238606cefcff6c0500eca,
    0x186b199cbdb9ef76122da6c7412f8a26f365d7045da9c2a890c855dfe8fa4a79,
    0x398eb2e600e168cd02aed222e1f1d9ddf113c9c6f43ac78f1139e2805b77b04e,
    0x1a17c415d5fd49c95ed1deaa5b34ec83c27e340d58f8c3707b3cddb42df96994],
  [0xc4f94c118a27bcde86eff774dd2399d4ccce2902b9aa68c1d6ec140055bd4b6,
    0xbbe00cd93dedb32bf9d30b6d33436e6077b8e86d740869f394745a9c56cee24,
    0x160270d1f89016b18861352e99eca861a73197fba0c64f7566382bb4d9850523,
    0x3abe6e680bc606c27c4ea3d5b8fb1b1cfe32b5353fbb3b5c2b3551a5669eb9bd,
    0x300af28f68d0dd282725176ea547de484b127cacc89ca58f7f1f9d7f9af4c174,
    0x121b6b9cd74aa027f7f358551bba1ea58794850ce6f4beb26dde41242ac18db7,
    0x11291ee6e8765e81456829c38897cd63e7ab3e993d22a12a7100aca95dae84b2,
    0x14591d13d57c62b3a577816c1d158ef49e653bccb2f41a059aafc584317afea8],
  [0x208c195a819ac129e775de20066a8ba27b57ec88cf4c73ed4558cdabf14a713a,
    0x24b21f29bdef7980f120e82f91fcffb02d9a2792d7155ddefdc8e66f1f6f72e6,
    0x3bf2eddf8020e2e1e99342fb8d0fcc4b6fe2c2f59694d842fc7def4ad1cd44ae,
    0x26e06814f9dfa14fed615f79b3eda77e8937ca025b0c40e482cc9bff4d127903,
    0x28445fcc8981cf68f3cf5ffe31b7a9bba3b394ad610f86664078b2b6cdc3c7c8,
    0x26a721aba59d9e8ecf3371aee52c8d7d0f32039addb38634f3329629b70718cd,
    0x233c48a264fa783c469e368af1c133383bb13edc45ae48ec6862d7297d4005d,
    0x29dc49f12cfd7ae67db4c40cb52fd24e92cf291f1ebb5906532525a277747e3b],
  [0x33a7178502f5b5dbd66b8b05a48114d5a9450986e368a7ed9a7c543f9735e35d,
    0xd673bccbff327d9e5dc21b102dcce463d2076748dacd005f821cfd58024d034,
    0x33b28eb3f81d341fefa38a007f5c9bb8edf29343311e09de42f2c3dbdc1f0089,
    0xa702cf98b9090fe4f05355b61de3882fea92dcbed3b705ccdbd5fe54648f709,
    0x30fc81565768cc47f5e27213a8c06ddc39dc472d8303042175c10c848789b68e,
    0x195a7994706c6ff1ed68d7a80bad3ec686122b19c610788d5addba8684d4d49b,
    0xef1a9983c55cf24ff6e6ce20526dbd5baea2cb601a34ae9a60e0d15697e39ed,
    0x1d86b75d9f0d20e3c2d3d64b35009ab586ba0a5a1403c03cd53eb248cb152bdb],
  [0x13640167fbfcb3976f4c7c21fd3abac3d70949f3eb18297bc299136392b81031,
    0x36e496c67faf7680bcf0d082ea102289b7fb0589f6042be471d437685847ad0f,
    0x2559e0d1e9bd7790ebecc46452f92d4b4af3306a118276f1df259218d9dbc213,
    0x16f08f916b688afb18399ae0e6cd7e13dd4636f76501c3fcf7d5cf4f14d2cc05,
    0x2a0cad99ce47ff2b5a092ad07d946e81a886f806726ac90f4a194ac1d4c2e9b2,
    0x3feae1598ea89baaf00f6a4927179e7dcff7ffd703788f5775a0181f06024477,
    0xff390c91fdf5b6e78d907b87b64fd01bf18ce7be44766588ec96a3c5929fc02,
    0x2ddaa282f2369c3987bcb63991948dc8b01ade09a3193cf4c09b0faa295d285d],
  [0x20c2d87ff6ff91ea881a0a68829435012cc84b1e72f0430278fbede951f645d6,
    0x3f5d655739866dce0a331cecba807acd6e83bd3e964ac4976fc49b0ea4434108,
    0x3b30d0c70d351d8d8c905e824f6303e52adb498d153a1a80f64b80b11bdefb44,
    0x30f553cc590d63d327147c0ebf9f272ce97e1645f5358c531cbac3c9a592a979,
    0x258cc516dd997d7de17a024f1f413aa298900c9c314247111eac8f1e47375bf1,
    0x3148c46d80442b83082e36fd1d5229ab6327f4ace5c73f455c2f233ab9bdfc7c,
    0x7edea8d75be8081cb606bdeefdc5027020cba3423b152faa02c834a43b7a997,
    0x3bed575cde8b3e7862d3753ae207cbbafa5a7711667713ab6dcc063b327854fb],
  [0x3f5e4e1b93a6cc01de8779a0665fe51c7172c29f7e60e6124d0ee31f0c8884bf,
    0x3dffba04a1543adc035be1cfbfdf40b9048fab4047677520884ad8497699bd29,
    0x116ba331f190bd4fbd944d8dbf611d3c2e713454ec3bd8622457a2c27bee6edc,
    0x15db4ac755b7fa7226f8380c238e6fe2cc49d89405f663c9622e7705664b3a0c,
    0x2a2018dfa78737165e0153025b151102f45da79e1514f1768c9b13287de1b554,
    0x11c30cb15d4e2b0a0da02f856b1f864cee60e0ab3d53f5b3893efd0176e76406,
    0x134fd8a345a930d1b3f245dc10f44b28118ccea1dd995dd831f0b3513a8a2251,
    0x133776d933a2cc5afb1971f3289ed4afdda52eedccec5e0739da78bf735cd3c],
  [0x2f38f46a167743a63dfe565b0400ee7713bc82ee9b6f2c80380ec252be150f1b,
    0xadebd56b8eae2dbeac53569aaf5996c6a474cd7a6db42164e68c20ab7a13417,
    0x174697feb1bc882bf67f27a408e14f0dca589c863a7b2fd187d0423a5f7305e7,
    0x2f1385a7e2858dc4cef6be57d23ee06e00be6d226a21129fd6b33780176df856,
    0x2a702ccd19c77a6f24f710e1bd2be90e626ce808d65f58e5a01edbed79713a46,
    0x1a4c41ba7263f91273f0801f63f5d70f96686ff20b43fa1e3c8b93743b2861b8,
    0x83b05a30fcf7a75c5263ed3685886979dcbd13618b0089c4f36d24e0a215ab7,
    0x95583def0d6f6a7c7992920dfdb1b7a250dc26c8e23206584952d7dd3ab0e29],
  [0x1e19c12d3c2a29a12afc75faa0d50d91bbb5dd370179a8a2bc6073bdfa764992,
    0x2daf370a156a9763ec7c9a069bad0fc0e95e3ff52e50ef538adc426683027e26,
    0x310d592ed6bd4413be374249421b743eb6ebf1feb7b9270fafb4cecb8f38a393,
    0x23939d20b80fbe592769b9d41a0a44d86526deb54eb10bb1e2e98cc45de9f879,
    0xd294a5c307e37b66955716e9fc1d84bc34198dcf629d6077234ca255d466c43,
    0x351e1908c85755d0754a151299ad333940c6801084f2ca37e18e2b60110f3742,
    0x2a1b0c73c86aa645a31dc7fb773ca1737e09d88ed38a506e6a9b02bcce89ad8e,
    0x7a4a7d31c3855d6feebe904755b8581dec80ed48d045b56de4a63f698fb1c05],
  [0x11eb4f0088dc89f3d059214a19f255f5e32b90fa43133e49afc72b740738f8c7,
    0x1297f31166e15bb3a1ee66b962aa9d05d7f34c79650cb5bf022af3f95eb1578d,
    0x3bd420202f6e20ecc3815292debf9bb79d8a61f94acc2232ddc9c079257ca505,
    0x1a1332b6b1dea8d457a3e77998891cf879da179d93ea2b792b235c78e3191509,
    0x355e50cc290dabb09d92d6b1b6d93889f1e7a6238bf112dda33cc3687129f0d6,
    0x3ac9f55f766002aca155f9535c3c90736605b6725fc13cc08c60663f1d1ba005,
    0x1b04f0e9acfff5b7fbeeec3607e6db86b3131fbd00fa5be95a7b8d7bed1fa123,
    0x102bd74da5b9923a4f00a276d5a9bf07780ff0001330d721a3bb2ebe4c6da502],
  [0x279fba2c9132a3e90842e79d7cebb4399f0d4cf3c97a1d888bd0a9a8c584af8b,
    0x1320b433ee3af7aeea2e754e9cab0b673ec81e3df2dc03e87b2572326ddfd712,
    0x221778ca5c9595e599351b13e87e77c6e8897319057ff7a985ceec1781f9e965,
    0x1cd568749b5c82c51262c536606983461c40323d4043884c4ec62fae60d8e2c3,
    0x152fa5007272d16f00fbb97bf3cfad712882b194e934227c5d28a8ba4bdba504,
    0x26dfe43b41522db74ee52ffbb8c410c38dd329facb54ccee41f62fec1826d30f,
    0x2a1058af5102810808a44821fc7a15d6d7bc0f010f9dfd3567945c71aaacd0e2,
    0x20bc956f2a088e52447e7ff53a3a68e74830f8927eb13d846c61a9dabc7a7078],
  [0x3ecedfc8d4e6b2c907821c239e20d131d7b06a3839399267f0df4c74eab6085f,
    0x38c1f9dfb20b27cd0345e454ff0f0b9ff053b558ba4f7657fe8ac5e3441f42ef,
    0x3e48fce3db114330193944c50f7a218d01699c0180685d91d5e909c9ec3e999f,
    0x316d2ed2571e338555b2ae2614db0b1824631ba0a2dcaf4b44aa92a3ac7f1649,
    0x2d0b94c8d677784e00142e23c006f82cd0a32e2d91765c946272adf66df33b25,
    0x224af51754d6230cb72eda1ea952dd4cff455b45d01003f9fb86c12dd154c98e,
    0x3c9557aae34f537bd6aa8072c80e8f799376318be68445da9b6da67505782ea9,
    0x32ecaa98670d91fff05cb4d51b23fc867a4adefea8f9e0f72875291172328c3f],
  [0x10363308095f2197fb5f6ae29fcd4a153f5faa34be431f7ef604b8b3946d9ad7,
    0xdc0758c6f398093bd103d6f07c73fc8c6c85379b0253f7b8991733ee081d37d,
    0x24a9ca8bb2090cee2466d45f36778058f29ca5f2baa5f201769c65a2caea23e,
    0x159a345834ae6dbe7bc03dd69e91a30e1d26aab6c2927c81debf0774668e9b4a,
    0x22f5cf0c3c661a67e23d7d458d45429243ba702a6be1422b5170f5c0a8416ed2,
    0xe75ade4dc31c1fd3d5da33455621348bd6e4c6f4711cd1864d899aefea6d00,
    0x3bb038bb265d7c3a35b1c36457671a6f9c9d84e1559b93f580f49413c07ea93e,
    0x1a7f061cdb56d743de4a138c3ed1544c99e3325bcc1e806e9fe9243723f1d8e0],
  [0x3b90e7515093f4e5575936a2d454e847c20b7b575ec2ed7856223ee2a3a3efc4,
    0x1e72fc8fc2759c3e6810cf40d4171029ec16dea41693add264f3003745d6b703,
    0x2da824fcf8391503d99090acd26059d43addde7b7ad2cb166090a0016447f253,
    0x1c549360f97dadf6e82b66c93daecb9df8a059d3d9497cbe916028e028da55a2,
    0x2a6c0f61e042811e529a75a652640a30d687d994996a14f64d1d3ddb80b6a47f,
    0x3fd7fd8479cc9f486f25c5fec82bdb7ce2583c2dd960a1d5736a89a54091192c,
    0x229f5dd6d63c10e78c96c247d053955c863be206394fa88359e47f7b36997182,
    0x1dd3a7298f349fa2c16e8869d2e8d409071b393316484ed5b4aacd7ddc4d38c6],
  [0x155e603b5e793b3c9e4d505a08e6d52449f23702f7e6d8481558065724fea5a0,
    0x131ca36f98f7054e2ad0c91b074b2fdeeddb4ddad5a0d3fccec39b70560db02d,
    0xad15b7d8bb82692e929360bc9a3992a46b5a56c00eb7c35c95b69324bd847c7,
    0x34404b73958f6063ef576e3e92f681a0f90c6f136b0fbbbd41e95bdb9eea8956,
    0x15623f1885bd12bf180e7f0539b4cf7d9dfd577617dc2353e08593fb068f7262,
    0x36ab6a3e209b923f22035e75fc33f4e0c49d59b5860ccea93e065d36ce3fd07,
    0x15dd55703949715fbe8f43dde1e3b726e24e7a250e8a4cb5c650a4493b9bf619,
    0x1aa0fb41e1f6225521767be6e2dda493f50a2cc7eeecc4119943cf805a4d5e95],
  [0x3a0e58f35bc22938556bbe79fb4dd7a116e481b5e5f7f3369af0b6940a521ec6,
    0x1119553ed00592a854ca88cc68e482c331693bf8b243543cee5899c3e7b6f6ca,
    0x326479c4b07ec6e0f8d3f5ea84984af664235315b2edf537c65b2b049dc74077,
    0x391f9c9b454b99df2ae37c7dff42daa513d0dc8ef9a2e9fd995d706d46685565,
    0x1b05a961722fc39956d7e4b2f3cee335f1226df82eccca8135796bc2708b373f,
    0x3a7d50cab20735f2ac1f3fb88e1b9a1a42b39b0286d299f53bfe11281d64b35,
    0x531ffe7d6be86535df7b81dbabda3bd625beba2da28c31559862240c5eb24eb,
    0x36b212b25de3c4751aaafac388c7dc912ff4932dff0dce979cfb6ab205e23524],
  [0x2cd6813c5c253654639a9149c9dd4fbd9b9e978974b9e0afb89778826f23445b,
    0x32a0dba3d5da3043fee2d241d97ecb2385d9204e8665c00ef8c29aede1311ce7,
    0x32de154276c6cf5bd589cd17aa166317748a467020e9b233ff1b134d9ac97cc3,
    0x11f4cd3a1e9e7c74d706ed1d3cbf6e6d54865ef9a9299e573a5464469ced5995,
    0x1a7217fb5498554849ea4da101642dfef242fba75199a681d783835f5468b350,
    0x3dc6908951b1f0bb20d8292bfba517c8c5452b4f5fd291463bad8e043a47da7a,
    0x3f1070dad0e73ca22a108f9f819dae22483f1f80d8db38cf4c3935416f7efa28,
    0x256100953898e8b459348b2298b3478ff4b62af466798645c5d2054d01f810cb],
  [0x356b4e9f2b3dcf480a4f1496e97f0f90c0955aecebd661b4d1245e2104cf5905,
    0x107a632dfa1f531bdd0325bf97fccff2550ec65b051dde8d620daaf7010cba4f,
    0x31a01e8b02e10accb09fa9c8802193578aac3345ac6f4be051fbc5e6d93e7c89,
    0x144022d412fad70563754703873cf120683059a1bf628bb89c6430873e8a0766,
    0x2b4162b6bcb9419cb807340a3a47c9547e2723896c5ed98c4d8eb31f74e4a1c5,
    0x212484ae4cf5f1b4349cc44b93b8c383ffece0ed44452201023c84b497399cf,
    0x7e829a1588c4388d4199a823a1cfab1f59651a1b511649d4c481a43d8b1e8b9,
    0x3cb0583b9db106a2f9118e7db7b404fb36788f43420bcbc7e85297bc28aaf951],
  [0x32e4142931dc6aea6b253b295c898d5b238814b385f1f9fd4e11655746742705,
    0x56ba583561717a67224c31717b5ece07051b34a00ea2aa0993d2031db22e0ef,
    0x4e8f9b6b07d32dc92856caddcc1dfad8bb17fa9cb3b66483ea238fb8cb65c9d,
    0xae089928dc3b171fba478210dfbd574808e0f05eb0a590b0416ddb2e612c03f,
    0x371f1e928783e2a2f087ca74619e76b89d5d0837ed32811db82f0ac812f7ab92,
    0x3176693516840857242896cd32ca61f062c1d82f03a020d57a88202fed29e9f0,
    0x249b34a24b6e1ad8c30c985fe7a3646262b8f63b9f0cb55074a2736d346de63a,
    0x19e57daf6c266d613bf6a3bc9d6b8dd84883c15c2750ef78dfa1b0dd505ba001],
  [0x4da7e368ebd8e10c86f5fdf22e44e3e36d974625dc46f04da4cb3459601952e,
    0x1913d7216ca2a476b150b80b4c0e7566a7241e09037b80796a8e0b2c3e6dcafb,
    0x3aa4591838f889f77870775c75ad3373869fc4cdf32fbc454be8d45507a8cec6,
    0x56b2a891e3f9486a7fb45dcf01806ec6e8e7e9a6e697375357092a16eee8f0a,
    0x2c54b5077486596d0131b344083a2284048df5c4e0850e772e5c30613966d28f,
    0x161179682702d21d7171e848a3112502860978dc7e8e396b76c7ea8a5e3eaa9a,
    0x2e746931087250290240e4446530aa172ece96493005f46f61e2b83a9ed8332,
    0x1aa00f9679033eb7d3340912c2aa9863185effb57dcc9c934c13e2b5bb73ae8d],
  [0x3180ad077bc54c79bdf66c4b94473de4782a1473aeb83664c698c8fa5fe270a,
    0x1370ddc1a515cb59781461c044ae1bae4c2ca67dac139304aa332bbc1a002ffb,
    0x3b09b55a376321726fee082aeb7bc53da0edf7e4b71d0cc5875b8b6f91495a67,
    0x2fe794f5b080fe0832e18c895f6cdba90f7a01cc9d9799a49c759b3805c9f988,
    0x2c371600ecc2ec0b6616160dc0d1d47c9dfa143430f82daea9033d85bc78e3b9,
    0x3e8ed936bf789a5aa6bb80ab2edbcb9ad7f8774919fffc99be79a5d0739d8ac,
    0x107f0f6d93ef0e0f7bf8b2bcf2d92672636abe2d52fb389b774686a21027c55e,
    0x9bdb7f71ae18ab8c440b293fc506d9a34056d6f0de44655a8baed16c3bf9e98],
  [0x235a3359bcc8fac4f67ffdbcaf43ab1b0c2584e2c4e7be33ba7b97e5b1a74699,
    0x2d28c236126ad2956475374d24b6645ae90e64aa1b1dd4fc12cb904c873f2f07,
    0x1134f5703f72ea17c4da97d86024e86f130cc30a2673bcea679e055a11b78a91,
    0x37a8c26126b0e973d17c1989cee4fc4332a692dcb8ed234942ac131e24e2bfbc,
    0x4624b89c1ef1f43dd42dc545d0e2f694727d59cf7d04db41a75278b0be9549c,
    0x1fae73f8e7bfeed47e3cfb65e938a43f325cb5cdb5385c620de90d58b8270113,
    0x36b938dc33326a888472cd3167ebea1ccd60f3baf6e204b5b54ef897bf098e2d,
    0x27cd2c081a9fe8e6ea93bdd9675c492c8b3756425eb48e9e603bcdd36e701e6],
  [0x11eb85329cfa0b9f28f32f7ccf96c9082542f6bb0474cace525622124c17f71,
    0x39ec1c50db37e71e5fa86349844abcb0ff64891eb87920693e40420643dbbc3c,
    0x19ad7e84710e59e1feadca74190070c616392941940c943d67c13b1a9060dda2,
    0x2edfc55b2b735f8636d5102e824c0ca11bf273a095841a53303319f6ab8a92d3,
    0x2a33a9be4530d75ef612e09fc864383dd6356a8271abc22f482577e43af593a4,
    0x3d954c3d6bbd46628ec2b8c0977a442e9df8dd9dfc17b9a73a39658fcf78fd84,
    0x2723624c598dafae158502bdc92c84bd9c389682bb954daddb069347e3ab26e3,
    0x23f0730283254e76f82debeac84293cb33483ec3b81d6e6ac7f3c081a7e22170],
  [0x158de0984fb757062c71afc78500d00b2d69b37575281fc30c94f4b10625e1d,
    0x22f5b6b8c6a3e2b978d7ee8bcdf12b62b4efe1e362572acce2f613501c3b9fb7,
    0x215992faf3031e28997dc5fce0abb099f1add4f1332f8497902a8a77ae700bc5,
    0x1992ed553bafe05644c60171da42b1337214f6856c50788d7990b734fb51cee5,
    0xe9e9981884169a18a45d5f428ddd0263ee636970f22acfb2cfb223bbf7fb0c7,
    0x135c583bd0eff557a04547546034139790689559155d55ee771866e15772c252,
    0x2a5955d0f48db640a555606425bfd9fe99dec86d865983be4d172d3cbae459b6,
    0x2250cfb1bb0c35e18560b43ba1d16281f3947f90235321ce92bca229328ed8c1],
  [0x25ad7cde10e796558d57629a28599f1d057de82f11c538016f43b158a9db2993,
    0x301bb71f79154ff6e5b2d7f28b2a7c7a38c0dddc42fedb3e4cfdd5689f77d3ca,
    0xefbd6fd5487612606c8aa0a5e1ec5259c55f54fdc5bc5ba901948bf4160da7e,
    0x339824cea871d993a4fe11e42abc0f54ca0d64ec6fa820971b95ed849fb0630,
    0x2350aae221b7d6be57f8e985cb2622c856c2b59b8c28c395e0cd0486b0ca78b2,
    0x20912fe67de72b19336cd26ee73fe9e8ace144da66278073140b4a3bed428713,
    0x198913cf91ff5f38e1bbcd33cc9e3e39019c68078fb186b07944cf36f9a6a5ec,
    0x1d57832f02cf5a8b4a019ef74a9c8a650bb2997ade9a9c670140114dd02e64c1],
  [0x192f808661d1e8a53f098bbd5d0df14cb8c08628fac00cf1d31aef9761d89709,
    0x366b56ca4f86a80e769d69302d77040bc637bb72ce0f20455548218ce126d706,
    0x6385d73ead06fc7cf38d1333853b6ad8b172e472d20429633017213c53b8f9b,
    0x2e44d68f9bd6c9311017ece82888118f0884487bf5fe598b8694f4b9b01f5145,
    0x4a6a81a4c2d7ab2747ced3c28e6283bcdca542f0d5142d19b6eafb4da930767,
    0x3bf6c0bbf548803d29e304a399fa393a8dde0e012d15bc75bfc30ac01c3562fc,
    0x31d7aa53a2356554849e64393d07dd1bc1def7283c490aea3a0a659c718f55e2,
    0x152d2e1a761e78efa2697d4d7d53e1aa38363a014618a20c81f2ed3ffefc2081],
  [0x3b33494ff0e49d77684b8c384f20cfa90c82a117f401f4d76700479604e78d53,
    0x1d8214a28e063391fc075897393ae5ade24f4bb64c0cc8ae1034d1502a8865ea,
    0x2267483a7b783b008691f039c488c4b130cfd7def8a3d15d4ed195e5914c0a81,
    0xb218836186274a15d6ddae3b2dd0c01a81ffe8aa9d33a43cb684871571c7f9f,
    0x1439de87b66abcacc1d263932b187938da674b3ca17b3d803332b28c64921dad,
    0x33471ae6dfa521bf3f877931529223cb6260528fb7b719036f24c6186b491da6,
    0x3bcef1ccec38447e58c116b5216ace4d03bbad9c379a4094ff40c90c9d6d778c,
    0x5782b9523f699e8a2dec1aaf36ae0d644013783a5439a626c59f57105ead5df],
  [0x315ce936ac265e26ac4fe8bec40633b6905d304eea2b848b25a0cdc227ef7a5a,
    0x1143d6176e590577079750fa43861b2134435b215ad96c3258c91e9917fc6a9e,
    0xa2bcf519f4879a63d024fe69eecba46940aa9631f43f2ff0cb6effc6210fbdf,
    0xe45c28d59937dc0d934363060eb376640d751330989dba1da9767bc72c44158,
    0x38187cdc2dfab2f8d82d4fdf298234c6330e3b1b1823bf0ea84d152fa2194b92,
    0x29e45ad5a4c23cf774a0e43fe013fbaa801660cb6bde2a030210f0e20ab0f68d,
    0x2cb3b633b508eda54c01c92fceda265194ebd80a37836ae4c0ad0223359559c1,
    0x3a2fa1ebe61435146db69eb8f8aaecebedfeb1629daaea47c6922987b3ac6ed0],
  [0x2f7fe2afd5a7fde5e53cba5861cce36681ba8df87f4ba0d86eb320799ecad4ad,
    0x307cd199e43937eb16e0de7d757c771e1af36c556dd21c1ce809f21dda781796,
    0x1d1f1d91361af25ca02a61b6194960750d39feb93e3f1a141f929dba63ad27a7,
    0x490039f2cc9223e13280c335cd26e72c4c8c40224bb822e9a87c1154c8a751b,
    0x25644865671b9f4b11f9685bce386728cf94a44facc9bcc103eca95592ccebd2,
    0x100632fdc52e4e3ec296c71bda549d5ffbb5442842d488d3c6cf831a2a183481,
    0x3bd74b183e681c1e208e0dfdb80ee3ab815f01985f61c000d6aaadcc8e4c4da,
    0x285d392b27a06ca88ed192179bc97eed3d11e2db8e7ed0037257c5fb7f704bb8],
  [0x34e107952c79676793a31676b4e22fc56c2f8d80ba48f772c1ef7c0b972aa15f,
    0xd7f392ceb2085063c5efbaed58e54216ebcdbf483d76e804f27aaf3977df5c5,
    0x184b7e44e1ab7f8c6648d2d8555e8e60d0e858ef044ef5dcf6f23f71a29a08fc,
    0x687a7befccbe721f638cedf762a3f309007deee6578d28504843743bb14e756,
    0x260bcecaf91bc2dbcd766831c7c92ccd4816010ecc97df29c758776e09b8d65e,
    0x186f50bcc7540497787237d3a55fd22e9b3cec21db2b7fd9c16e5356640bbdee,
    0x1076e6312b7b43a5ee78350d24d0b0a11cdac2b49dcd85cac3c96dc44360844b,
    0x4fd2cc6f0cc3d47e9f71a55318051f90f337ff8b64b005bc6ee1e95e70e35d8],
  [0x3856dd4d642509e633efff844aa8a760cb265cafd00e7c85f560f016ba684f75,
    0x22a8b4fb4b92b8e86d0163eb8e13b3b3b7e4bd7f34a7804dd0da27cff49a387c,
    0xab78a560ecc9ca4aa996daea989707013e7ba1044b6af683f34c6cf4df15126,
    0x2c1c8bfeafdda1fe84f84c1262f4ae7a9101f0e5c00e13e9453335445f9064e0,
    0x27e1b86c3b378710de07618f6c5ed41b7684b1c1fd276ba97059b448acb7186a,
    0xa09479dbd02a63dddb195ebcee0469c1cbfffdcd4177cbdba296932bd8b5cb9,
    0x32e891b9ebe7b9fedd6e7e44a89a6a1f9fd6102abafa1e560ade0ee6d4dccd2e,
    0x39828097857749d5fefa4e60906e950750a00e3b30a09ff8633b77bfefda609e],
  [0x440c973972e5125ab08b17ef0a329b4620b411c8eaffab9959d812828039237,
    0x14693602f5008fad5042dd2f9e1169d998fe786bead427aeb7880c7834d8ab21,
    0x29fb750d8f09a58259ca7c45715646e57c337b68d1e6d99e0317ad5616e04da5,
    0xa44713e1785f5e03e24419a35292857133cd9a77e7f19ef2cf72d01488d0096,
    0x33d4e8227a8342b5f78cd41abbffb2b5118483462c31ef730dc7d8e74f62adf0,
    0x1cdd807bbd4f292d53746729de6673f570b0bd8d11286cdd2709586b56966180,
    0x2d0730e9b23f0eff97b79bb2fd44cee8ef62dde777ca7ba079e493a61a90477c,
    0x3e9c96975e372ea965994172e069b81e4a04535faaf141084be6b759a7d995f7],
  [0x28bcec7f70f9c5a7ba09c6a1e230ae865c39e7ba15353eeacf26cae6fb8e9ae0,
    0x173ef22031c84a2cfb6df8307ed08cd4380ae3e7d47e2fa52956d9b59e58c47,
    0x14cb6d00b736a8ef0397b26456f067bf996ff4b15eafbe06405c0eaf0823402,
    0x1a492fb67f5637e16130602929cd0bf07908ba6bba3d0c48c9333bfbbb8237c3,
    0x3a6c471adcf626ebfff628b43269e695520201f55a873be995c0c5298e0a55fc,
    0x3b503ad7722ee58847521bfac6de15488f8c79e83ba5c74a97f273f1f270ea2d,
    0x1234ff19ee8660d86480471a9cf3b03e7d67180a39bf59fb3e7bed426c721e4c,
    0x3908d9c8f81e19b4d15d1d1dae33adf93bb8173427405e0458685273d5cd0979],
  [0x2cf0f07eca501295631dcce098937dc1316c19f8e199a524c59326e8bfcaf31d,
    0x1686a1b1b0c9681b113c357321c052b73c7b91a7500c7289098df011b5daffb,
    0x15b44d90fd830e9c531f590958dc3284c1cb1ed35c5bc21cc19a4bc4c4f16be5,
    0x7b34900e783f3ada8a585f85b0b08de1b83966603092c82ad6842ef63e156fe,
    0x1c81c52b3facaf6d77bee4db8616b3b955362cc46f55a80bdffd5d6c1f6f0ebc,
    0x379601eb12fce3dee28d25422dba758d287b3ddc70015c51e137fd427be04d64,
    0x37125e3f0ee2021d5a15955e5c91cd66ef264e2510c14e25f7f576f7a2273c15,
    0x19e62f0f8f6a2c1eabaaaac0d8d3327ac98da607dca9928a11be2f0d745e1e20],
  [0x5c79fafeb87375cee27d62cb05d97cc2d1a664a36e01705233d72374541f04d,
    0x9be364d05c321f6899138dd60e468af7ea77f00493b49102341da85e4620d7a,
    0x1647348ba318f9218e2ddbcb35e70367404d3b2ae0c6832a39d95648fcede2ae,
    0x3e28e961f085cf7f49164389a3335b08aa29cea7c14dcf81b62f46ee9d63c1a5,
    0x1370a35ace10c03c1464865e32e34566384dcd719e81d7f9091c4ac7dc75444,
    0x3233215a0ca490acac3b8917a62299d85c8c61cbb060191758761c17ed42e603,
    0x8a8993f7783fd7141a6456ef802362dcbe77231af8c078ae1d0260aac4d91d0,
    0x1511988b8b4491a9e98a0e419c80d6fd35858d6ba121de851b2b16b39ca21b40],
  [0x268d043e80fe9b77e43210f4d149bc682ada9802e94810095d8b47459161f3c,
    0x4c74255e2bc40d7c734518e400dbd085d0652d3843b757dcd200901bf72a99b,
    0x3bad4638338be317114aff03cf69dfd751313942d8067e7add4f0754f23e8887,
    0x3f6cac4214b8ea8add3b60c7f8f1da33bcf42366751f1284a2138faa467d9fb4,
    0x16f1751913643349b33335fab26eeff31e40fd7330e6b3e528f241a3b96cb640,
    0x31044ae55a37f9952ea978bc1fc2fa034dcd318987a68ba14bf886ffe5b723e7,
    0x16c84050ee6aceefae4819cd4ed9e20a35122954f94f1c7bd268dec1c669e518,
    0x2090c2e9ca3405e0c310e2cd556f03176e80b037dac297eaba2bc4e2b60fb0de],
  [0x1744b71d3fdd6c7579d2fe8b46f59ca7c15376e4877f63df5a41c78eda19bc41,
    0x35c940215b82460505edd0f6170b1a86f4e86b6dce95f18590fbfa442138f62d,
    0x7fc2f4db0977a06a52a06cf5d1ce5eff79d9424092711b2fd6b6754e573c0ca,
    0x341a8a4497e4da68c59d03886a6bae27b172dffdb19c17cdfef43da96e5155cf,
    0x7ef5b8e0278e016cdd93dcdfc75bc388422f24425a2209cc18fec5b37155b32,
    0x286f15a18c73fac280735fa07cd4ef8e559844535f8d94efe7c74b968cf4d962,
    0x1f78fc7cfbd71374959c806c42e63b22f5332526f988b94e61dac35308281367,
    0x16de7d9d36040971ced429445b25d1d53ac5bacdd3ea1202c7343c19f2ae00dc],
  [0x116003fac63bd04bdf067730b3742c21e257bdd3e0b208da3e7240e5306a5f3c,
    0x2e125dffc951e740dd8f64ccb50f311f8494695591e187b3461ce025b80bb45f,
    0x156fdd90ccc70a00806be0753a45afed1eb3e4cf7fbb9166d78afaf824d6cea3,
    0x37142cf9e724d63acf8cbcc22c0aec9a20612e3c43343408b064bae5d5c3c241,
    0x3b724b83ed48f9103e57738bb0109a9988696b3e0ecabd4c2c90d591c296e715,
    0x2ace7fe65f18a9224236b492567eb54c294f9783c750feb1a9d930747894b4dd,
    0xebfc1b4792f28e15e7e7335cba9a1cee689d873c1e374c5b0740a390cccc699,
    0x297ef17020248044cbe3162f5ea864e049b3a9912041627608dbcc83c94b3784],
  [0x1985c844928abe7acd0be4f2a2f8e79ea72e8e462b26a2b9dce1d4273fca82b9,
    0x1892fcd337862f0e6d17b106ee4bba3a60b2121dc241878ea7e735e18310a3d5,
    0x34ced4b2c98b53cd6a784d09667f7d707b8120c8548c747b5387114e7bf4a409,
    0x689e53ffedfe9b0a2028651df5ae59e6e960eab5c224eade10ae161b5bf9a02,
    0x30085775256dad75f688c38556769e1c4bdf0381ae4d25a29264f28e6c4da63a,
    0xd4a1c2ea36b7d82a5eb21f154d52df7431c194bb78de665fa8caba3f6b0c959,
    0x101326b1f1e8560c986123b8435579f764c68198e056a4969eaa3f7a50e92c66,
    0x3e9877fe39b2722d3ed2d48f11fc7246348c85998642bcc40315ce120b014680],
  [0xde81ed686febcc8d1bfaed870cfda72df45503a99522aff61f6a314d2291d56,
    0x3d15c36f21cf41565b113b3f7d045eff4768a2e89c3c1b686484da2308224a92,
    0xb21464434462963289eb8d3c956f67db6da3857041647e91cacadc73e2d5a53,
    0x2f190117eda77612c64e13b12786f7c9841adc055e571e2080ec4eb770ae3ea0,
    0x114746239792ae2bfc5dd0e22784dfc6c06ac6346f0235c8f6d0c3ad2a6189b5,
    0x2584c9736045bc25a6f1158e68490d640d6c033f8bec73a59794543a5c2fd5b9,
    0x2eb6e76a776217a9f1b7d32422c6b4263657b1ec2f7a0c56497c8ce65070aae3,
    0x15918843ebc9ee13d41952fdf7602578a17796896721184afa289517f68ccd3],
  [0x3779943e697a4a1ef722b690b38ef62e30d5de903490426dc8148fad0febec3d,
    0x3da26ab90f200ec69f10c0296aff4c2ebc3df6451ddbc591ea15a76cc5e4f78a,
    0x3eb0d9f4bfa6676e2c740b569d27fc86c012c3b2a0e8dcc32f768adecaffe8dd,
    0x1107a009f3976202d1b3ab5cf62064fe67bfdc70c9362fbf2325f585718a3167,
    0x3d12f3803976da0cb5c93e70833a5a9181133b4565accf5f97fb51a16265dac2,
    0x24abb782a05303d782f7997003c1adc1524856a279350c6ba7fa6cf5a2097288,
    0xf0323968b73468dea5e26cd2452ebe2eaa5568985075d7bd9772bc43e28ff48,
    0xfda7370be1beec7fc8ed8e8baa7ac696f9bb101e2e8639747648c3da8f0c289],
  [0x25724006fff8991d2f6a171fe7638a31a7fb5d30184382599fecf74b7b52b4d2,
    0xb41135ccfd267d1ac89f6749f436d6e2758e7e87695ab7b70fb84437656e7d5,
    0x338916d2341936f6e5f0f92b496eda24f543a4df79607e9e98d271c2c14009f,
    0x119a49458623a1b8e8940a6f88130bbefaaf5276f51f1bdd3942433d7cd43c08,
    0x3460e0786650fd38644ab8b7f65df1371e9494d8e3954cb0a612c830b8bb7f91,
    0x3715d68f821bd1ea0cab787c687acef46abbc97f8d0bd109305f4b499977a2c6,
    0x1659998bca005bbb9a60baf01be7ccb52a18a783ac19c1d726c5d232b3e966bb,
    0x117f032291db1720027acaff6a102149ac728476de19529b29e7fd495ad4068b],
  [0xc415ded8f43cdd6beb1f177cbef192610243cd5ee85a9fb46a5582f0401da0f,
    0x317bbc9c99eccd6ce801d3add152cf863519440fae7d9a442727a08f9526f68b,
    0x32ddae27e66b5b60f4516fc0883e7da32bb8865ec0848a496536a20ac57dcba6,
    0x103b961aa8cf4ef350cfafdbb1d26484530ca57ee7e086f3992e8af85cc711cb,
    0x119255dea624ad78245b3c797bd07102fbe0c8f2949592e8d70a518d719573d2,
    0x1ec3e0f6a2f5eb9bb7837a48909f1c2cc8475047769a1745d7c91cc0b9fb270f,
    0xbf0ed13dfa39b660ed070b04d598dd4c4955311db4ad744f159eface83863c0,
    0x292fbe3334356b1d51c53a12865bb859847a89328988fa6bf918308d8ebc860b],
  [0x13df4dfa48670da61798c8cf44b82bc4e467bede661df29389072522100f60d8,
    0x27384d7de3d880bcee6db7003f127713ccff17fa320e5047ade7d5715b340511,
    0xf80e31d28bb24008f49c950dcd0e7ccde6484fc58b9f17132b0756fa0fe4589,
    0x258a7429e2271a74dd2a81a290d1d1e2e59fbc55b5a03b53b55e3478a97e1355,
    0x5535d037a251efe25434a1b4335792cf4ac805fe6662a7732e395f38a262788,
    0x1a8da181c1d86ec0bb847d7d274d6269628d113ff8f253439a947650418bb412,
    0x38a75352457e6fb249070dfc7b3ee81c5d0ee4fca0b7e48eb3e1c2c7aa7aaf0c,
    0x2ff7bac20ff3879d68721fef0e4d1c81b9b0c105fb6479337f2f91af7e326222],
  [0x3f68595717f57402066d1f82efd1937188c1fdbde6bab7f8e5aeaa52aec6d4ea,
    0x242d8376dad9ba45b74fcbaffbb7ae82b4ac556ab90b884f51167b26c0caeafe,
    0x3d00b0c8019e5d947eee6966a8bebf071d5792e67c99deba779910cb2949119c,
    0x2c152bf57767ebb01e7ba72b1eb0f2f5ef37607b815025407ba642438c4ba01c,
    0x3c87fd44af3185264a0d5efc2df343f75d899e8c77c2b34d4c43ee47581723a3,
    0x11392556ce9fcef942f60badc17d01514a766189d1fba14c7b734034fe7e5e52,
    0x354d4c0ccbff142881478e74990bcab364661bd16d9767655b8f969283b23933,
    0x34902fa80329fe748fc27e9c306bed77b50d875d6778dca4a3a120c1d0d8bcf2],
  [0x352a1b934ff624c4ecd1679ce1b844326b3afae6418a1dfe3ea39d66a002110b,
    0xacb30e195e11a93f1b291b0c269036407365ff1a12ec91b76af7d6b763b2121,
    0x29f6eabf5003985e8f21004160b9fd687dc2f0beade40beab7c11205a3a50c42,
    0x1f987ab5c894f6694dbeb9067f72017ca202e634962427615281fb9babe46f6a,
    0x1c3e71226f38b53d5044a4630e8323c5878cf562de9bbc81d9b347dfe4c9804c,
    0x2c2231b2422cafc5a331c51704a1548328cb8e691abb448fa8a2bca16f3da2a1,
    0xc167c15bef12515a3ddb43606be31981097dce3494f9ff0e4c97914a114b60b,
    0x16f8262b22e230d05abead8eb12d0615050389a818963a7340796517f3b2c91e],
  [0x37e8a3ed3b6e4888ce59414f0793d4defe0586720df63c34526b3d2bb12ac49d,
    0x82dd098f869dc55ff5f36de667d61aa2ac511b14c4c9d0003b8ba69943ed480,
    0x31082dd4b0aa904be954b2ec1ae610d3a0ac7ba506332c1e6dbe2a2f55ab69e3,
    0xc9697d15bca210a3b11a430a5d62f6e4362f96fdd4f8fa7befcd7d82a01847,
    0x1386cc5a209b0eba6744bc7458a6da6969205368262a12f93d26b2fdcd889fc4,
    0x2fc5aa823aba926c1775ace99ec902e52cc4ef94926c13c3f018f65dcd54d0dc,
    0x23d384e3d9b880334801291a23f2c56be2a611bbd317038a917d00a5e86c1b30,
    0x16c6eb64865fddb2565ef344618fbaff68a2c7c89e94313b974c248f65e8425c],
  [0x2b8c99c400d27ce7206a148780c03828fdbd2c40c6f386765c5781dac6df8b26,
    0x1b1de3709e7a07a59ca500d16532a8df5b76aef9279fada9e50ba332b397c2b8,
    0x1ced0b2bbab2bfc9dad43e09e2db164e49025b197182988af09099fc2aae9c40,
    0x37d7ad9009e7a6e0dbb5a1ab01dad8d2b13cc6497a71e721d9d2a752f51a83e9,
    0x30ca20b18b6709dfcb329a2b5a1eb66f53719f4203a6857f4d647ec9e087901,
    0x10e5c3bf14b691d2cccdd36951849d8679182eb3aa1b9150c8b61c6bfdedc87,
    0x7274e6f1d47446f51e2d8873056d3a096c171f63cc1749d87e63daa16036371,
    0x347aeece65316690f137b78ee611212b377d29ca23c9531d8f1a1706ae740f4c],
  [0x177596f5e0cff42aed7ecb1f296374d878b0057ad621ac5ffbc0ce5e95308775,
    0x663ed921f5947ac93635541c0837c20a9863ca34ece96dbb6f19ebc453f8dd7,
    0x1b4abe07caef008c14f31d6ee6f535e2df1e3765a5a75e491e1a8327119fec70,
    0x3e14f17aee2748286069851dffe933e8d8a89c7418f31bd9dad270aac4102d2b,
    0x31773f503a7b175391e35cdebd68910c6d6987e4ce6e8c616af3b43f370a6170,
    0x2b149141235b53f28ef67530a3b37808d4fd07cb63a650024255d3dcc9546fde,
    0xc86541b59b037b55af02438eacabb7b894c3ae9c77ea198d97ddd6c7781620d,
    0x1c2c26f10766536b38b50dcd0748e66b81fc62285d91ddafeac20305e60a60c4],
  [0x64dae30b1ce918bc434acb531b3cc5283d151ba99c323e72256f1a7373fff31,
    0x3b3d9614413108eaedaa986ab80ba9188ec8a9702427d118600afbc0687fbfad,
    0x5ed1333b4e5a2cdd486c9517e754cf8aa67c6dcd3c81532f9c9eb79321614cd,
    0x28dc877848833a9cafeb19673b51a3a13fe820dacef347350c49c9a2dcc598a9,
    0x24d3d6c43abf9e206696a79f80c00a113ab57068efdea155123d7c7e20f19dae,
    0xcd488375f6d7aff15f23c5343c961c27225ae5c008f813839736aa42bcabdd4,
    0x1fc4a3289128174a0bc2522551c86baba8ec444e0652a19b3ff3341c27caac29,
    0x3a6a87ca146f2e0f19fa49674d71e12c096a2f95bc9101d45a32b5464af79277],
  [0x23246d41e2e6402f17e141cf858e8f25c187fee12d5b4491d5d355bedd4d0d6,
    0x16a898bd704af0428a33f4e430410ad5e2a47526af4fd08f5142f76710133e4b,
    0x16f8153bebcecdde070fec8710f9e3755cb68ec74e97ed806f3f24f6de3bf689,
    0x19b3e36bd686578d06c18a97e3c3bda61488482ff327435e1d2b32c7c23c3a86,
    0x6438a339748fbca0741c489e34f6c99bf8f21f632538f20b03e4952ae6941f0,
    0x360e5793a9977816d518a47b403cbecbdb7296ae7b7497f4a70f6098bcaba4f0,
    0xd1dafbcd887c124d69c7f6531f537d97f0725cd1580262c68e61c0a1ea0dced,
    0x16b6f88593d0575d1b5ee794c8232bdd68dceee4496e11356c737c7262960e9f],
  [0x1c9a682fcdb34870db8df7856fef0c3411e520d691f8403ecb93e2acb76b66c3,
    0x3a3b1276c36971fa7635fd31e1c43bbd2f4e3de9e3b8e2949760ae34fb05539a,
    0x1938becba7196962c1b5f2d2c5f7f9f32a577dfd9bd2c4e82fee6be07ce635fe,
    0x2d1fef0fa57fd28769e1cbc0ce8e4dde661abfbaf0f6d6eda79e08469fa82c77,
    0x197b9e521d07cac289939e22cedf536583d9b74f33842fda76a7878e93f30847,
    0x159d9a41edfbb57ff49bc669d76e7e27e1fd181872b87edd5fa0774f01a37199,
    0x374e252f200b10162a14dd4e07f85bdfaa49d4126d297bf1c2ebd360845fef87,
    0x2d69ac38eb0f5bfa003b2e4d54911617567916ed1f2b4746ae372519804e93cf]]

end Orchard.Tables.NullifierK
