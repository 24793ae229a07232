/-!
# Tables of `/repo/src/constants/fixed_bases/note_commit_r.rs`, generated from that file

Each entry of `U`, an array of 32 bytes, is given as the integer it encodes, little-endian.
-/

namespace Orchard.Tables.NoteCommitR

/-- `constants/fixed_bases/note_commit_r.rs:18-26` `Z`. -/
def z : List Nat := [
  253356, 149209, 114903, 10575, 6973, 30969, 55415, 206450, 18453, 24528,
  13099, 213949, 29959, 49929, 80867, 17465, 43715, 80241, 55983, 132629,
  66101, 24136, 31372, 107975, 161748, 24107, 72184, 9338, 232543, 13519,
  33536, 32530, 130885, 41578, 18166, 91947, 59796, 35560, 5631, 158600,
  24695, 42654, 138331, 11268, 54733, 92869, 33770, 169166, 94853, 7006,
  117687, 8073, 11865, 15349, 186445, 7696, 25167, 30146, 277659, 53921,
  19594, 41306, 30172, 8124, 46133, 38659, 61965, 92134, 43958, 86662,
  2047, 3542, 20976, 7411, 53574, 38271, 48233, 65338, 30516, 41201,
  40964, 8563, 36035, 6334, 176]

/-- `constants/fixed_bases/note_commit_r.rs:30-2921` `U`. -/
def u : List (List Nat) := [
  [0x15e2754f47484a92bd456bd898b91ca11800d274c80f2bf476072b050009f572,
    0x754f75cbe7ffb0a17ee4fdbac06fc5da454de5e33a7fbf5809e203c75a5eac6,
    0xc9c3b0b1bc10d18e36a6a6943738057351fef299e8d49147ffa2397dc0101f7,
    0x2d5742365bc7b6f2a3aa9ebe56fd6a1073e1290ae4cd70bfd95dd7dea41c12b6,
    0x13e0f73d6087c2bf8c9856c35f3bf231aa95350e81a311ab2997553afb02e955,
    0xf65e3fed556d5af1544287af3caac3dcfde04d5130d2da249a7221ea38d1a09,
    0x4de2f3e3c669b33baa2de3b1a8ec6a692edfc8822da8869a2ad84d50be37056,
    0x10cf7e468a4b16539fb529f95958e7eb2c2bd926531515acc23d5151172d5c56],
  [0x2a496446c4ea781568b5312a145d8cce4185aea4fcadf021d314933772fb1536,
    0x26e62f5eb75035b44f3bcee5e1435a1bd9e10945773cc568b2396151f6604ee,
    0x2e923e8abcc89e0d4f3a638e07ca180f4bc0cbdafa62239f2f56f272ea030047,
    0x35f710618ee9b97c1118d7a6bc9f72a366e3e1c192053530eb306eceef51a06e,
    0x2b722fe6a7262072e94e974e375a6dd69d617dca82b966720ca1ab9bba654a05,
    0x3cbe54b99d26218be731c86fb6e94ae7384a308c71be6aa5fffc2a345b9c912b,
    0x26c663b882364f55ccbf40a1f2cba9ab4e19125a3e401788dea3b0aab7d64023,
    0x8b478a4ef8b9b850598d9aebdf5cc21f4c1f92b11626f9b5aec8a9c3199ee06],
  [0x6cf065de6133ec96cdf2fbd286618aed46fde73deb74e2576eb49a9d49981e9,
    0x2c46c71bbe3ae59e6a76e04f00fb10c07f9695bdf4c1001b838e0bdadda57d0a,
    0x280a2559c658822adf80f3762794d62d0579346b5beaac6b9068dbd807fd5d2f,
    0x294383d3bc736c3cd944f38dcab9e49dd429301bab0f167988f16041e6ccd018,
    0x908f9200dae64eb93f1adf0e2fc16d45416b07e1a6bebe84c92faa4469cabe,
    0x2272293845fa99e02aeafa7018ccee080484a20d93d4b034bfb0f59ce72d26a6,
    0xd1d40293a41fa2fedef57f6974d445ca64128fa49e519211c9ccc11a9d924ab,
    0x616657238c3abf11bf8d267898c45fcdefd1ade3e06968ae378debae76b3411],
  [0x16dfbeaaaa35e42b65c153cb53c56fa330c4c2d63a309ebec52b052d294af9a7,
    0x1283bb6ed2494985545f28f75d38af4606c1eae9c2fee0831797a6cc2345bfa2,
    0x26433af867070f8bbad84acdf2809351358e01e3e2f7e40e4fbe68cef9c1fb56,
    0x34b0a371b3922570477084f830157de7d8744d815f6cc5c84f5a96732eded38d,
    0x32596eca07dca02d6f3100a5a10532fecfc2cadcf0c5fade3238ba774d144c76,
    0x3f2fcb09b70ac017073b0b34c793757e2e116eb856c701ccf5313a4dadae2566,
    0x2c298704ac2292b69feab5d2eab15ca656dd60e5c232c14c9d1644c3e8030350,
    0x2853b626ee1d5a4ad186a694997eb7b0a0f38cc98e07c1a3626dd5a5fb763fb],
  [0xa4ab4e2034e3fcbe2c618876a70b52d71ecbd640bd59853408ec6d59ea8b9a4,
    0x287805db4b5c77dce7dbd5c8d7133d87200df816130922557a98456e7e3cd4bd,
    0xb5b25cc82d576fca4acccf4fc9c54e601671914b7e1324e837b7d50a008f592,
    0x1edab7b0d0003b86b5e572397246520498dea849edb6c7c45b13e33ee2ce048e,
    0x6c6442a443ef90e18aa192f09cee72701ddb6e9635f6982297e4b83a0d11e40,
    0x180de9120a63a8a1fa4665026bc682dbc922440fc3e89d19c6189e4b7dda64ab,
    0x3518efd7a499feeb3fa067cdd94da5b939b82144adeb31d6ed9d2ebcd62fe25d,
    0x11801433a1d61e38d2d58bafdc85a149df106a950e9c1a98770e60eb9f8ffea8],
  [0x3e217a6bc98d828077847fe9542d40bd75237ff2784d221b6c480b0692ed9d5a,
    0x3389df6d6cd7473f800ceb225699c53b40b673440ac252acd3b76b5dd6e56ecd,
    0x2b12adea595a7fcea3ce5193d3edbe43958d3e697405f0d0d32b938f5f07b5d7,
    0x270d0eecb3f31b42837068a555a65ced72993940f16b1a9f4e8aaf71366be3ab,
    0x2d9dde7a8e844f4e4a78921186ac20d5b0e8e163a95a67004ebf02fe7c5b254a,
    0x6cbc5ee42052539463557a2907423e38f9789e37a5a95aa2cfec265aef1065f,
    0x34ad7e6d9a6cf59311148d2c65b8c76cdd9f5547ccf1dff8b9ffe4bbffc88d72,
    0x9836ad16ebae03c1c2e56ac8d6dad6693aeb61184d7ce67b0067e066a30dab0],
  [0x2c288c4068eee0379894c8665369367a2658e281c3ff67e7bd2059d234014005,
    0x12b199663cd6b02c2d1112997c1c0da22ad87dada530ed7f12f01f901fe65212,
    0x329e73942585cfa01118f92b7e6a22e547cf2058712668262b1f31ee5c14c70a,
    0x367466b4fdc332616500207a38d9f59b40008f9e3e3cd71f40e6ece3527bccdd,
    0x2f919b820a98dafb3a5af80d39391c6d1917943a84f1397fa54a07972dfc9dc5,
    0x2434ab9dc79d4fa8e2b02138b6d71333b5e36f3830140222668bb3adbeb40ace,
    0x309e8f294f4cd856633ffdaa1275fe659c0b0ce99db92c4a3be0fcb524578c89,
    0x9c643af1cd027c9db8be9048f78cf71b00897a647d00fb52e4fe9c92b93bd7d],
  [0xefc78a23e4c4ff272a6d0892647e4c5a9511ec2a39086947b398ceda0352516,
    0xc09a5c912af67352ff30600ca1f0619b13584664bdeac8cad46e213a9c769be,
    0x3b1c81eb1795c6dfb19f032aa3756c6595ec2428fd14afedbaf097aa0545816a,
    0xc9f9c836eef28a967ff579f676d4e2269e28e9089889065b3f6e338d3be4885,
    0x2460ba67b5528268544316e8e057bbea4d9fb0ba1355cc3f40bcec5494d3d7f5,
    0x18065d9f7d09b68077ab889cff842eb24244352960a333b0f54bdbda05919151,
    0x1a65932fa0cf27832bf7abf5a8f13ce5574d68ca94010866c8dfd9cde2dc0ae,
    0x2522d32a47b88196f2179be81297a40ec0058138ad381dfac6607aa38d6c7a91],
  [0x295b5aca139092abab6323e3dcfcf0418435c9fd68dc78983355d81d6142bbbd,
    0x1862956c6231d9360865df9f639bd0ca08ea44367e9a1af867bb5e7ae5ff9848,
    0x201ac06656151d960f41f32af989eaa1facfe8bf6697ec55dae11249cfafe832,
    0x2bb9cfe16ebf7aa2d68ca91b5284be18524be70b2bdab6e74327d404300cc128,
    0x3be9c782f723363c334eb7e21c00eacda867158b3a0aaaf8086688e4576401b1,
    0x5661d2bf667b1e20be235d7b4442d427d7680e02fad83310f3d658a7c17deb5,
    0x87fd9ee8342599527604e728f7c2b9ae55785e89651f6aed942f075f7627b40,
    0x17acbe00da1914db923a188f4dbdb139db1e312ec67117698469cd736c261673],
  [0x3504f0bac33adf3b645ec1fc881b8e03fee3063bd9140813a9bd3a0eada4c7a6,
    0xac62d6cf6da54b06c83fa99d5aae6fcf0226cd67a324c187c191ca14d20149d,
    0x3fb94d57ddd77c6a604030a9649274c2c306d695a230f63d3f402bd8c4cfea7c,
    0x1224b2bac7518712744989317f71fd468c50ecab91afd1956d0fa812990023b4,
    0x292f9098d76d4aa36f4787bf24e40b6620b9d3b255c7a461d1596f3a8f4c187c,
    0x14eaee2019dc2299fc0813adc06babf493604ff37699feaa987d214e6e61b796,
    0xf5c1e660b2ff0bccbc75d38e0450f935f408a88a78a23d81948bbaaa521c8e,
    0x1898e280d43a3c3990a41dbf46d8e8a013034ba552ec2ea8c2820bc8ee94d6c6],
  [0x1163d08654fc40ecba7ee45ea6436efa71b4b9af5c045f9f68ce702d64995e06,
    0x3a7590b54bd78163f39d6dce32352ff29559c082c6d04fe2a505d53d6fcfe086,
    0xd1f0799b8e5d3d6de73d6d5861f52e2630842720ea2c0ebebba6fab4345ae9b,
    0x24610eabaa3701a027b690ace668f5216e74cec9b38af5ada4a772b0961e64b5,
    0x1102059c5f6ce9420a2e663ea9ecbdbfa840b677cc7b6fd5d33f7206c103b61b,
    0x1323103f72cf6108c5d5b3d06e4fc503375789462b81f6ffacdc5a27a20ab8fc,
    0x14f3a7ef5157aa1f50a6201fe93bee757e2eb73a868eecb469dc600ef8545472,
    0x154071d4a2f2cdd7e148c0fd52b8242a7fcc65d662a5ede2079144c2848ce446],
  [0x17d7d34ce673a483391ddce679d74dcc65c3f2afb8cf50cd24e09b7fb07dc358,
    0x3e9caf82e2d69b1699cb8c294745b3e5d5ba63cf6357655c0fc631c7c6bdc3d5,
    0x33913882d998c49bfacd5feb311b35cc58a649b19edbeaae6ffb1efbda5b75a6,
    0x2ac50cd2872483b7a31ee2c5ee71cc37abe9b957d530b7b8517b5b9d7d32b40c,
    0x2e1487e4d808e1d94280eaf2e3016d7b5fb4e961f9ed6cf72fb2c6b68c27cdaf,
    0x4b0d895c57d4a7652c967ae0a74b03a471c680cb49861ceb90c65150b7530cc,
    0x37c42683ae584042716ece9baa1971433d7dffb45b76f8151afe1140bae29096,
    0x38883c01c7e4d78e4dbe48aea75dfc8b6be63844e946a100b7e34c3bbdd1b59d],
  [0xeae137bdbc7267b5135fdf373476748e4889679383a1b0e4c8ce516080d5cbe,
    0xcd6c8db79a3095d332ab0bfe936bff9fdce779b538f6ad58236fb00ba18bc07,
    0x2047f0309737be6679711b1966559e78916774a6f9228b9cd874b8165091a3c6,
    0x95722a90feef9e4d03a9852ab8164a59cf73d28482c1eaf118abb4eb27a3acc,
    0xeaed9bd2c4ce49599500d455f4a6d276abd010edcc4a0f3a93f644d0e73a886,
    0x2aed2e1a66b46d9a348dd284da51d4e8fa49fb269e4e156199445c46c0756a9f,
    0x2abd00e2b15afb5cfdffc6fd8a154b50f9374cf4431014cc182de43de514a30c,
    0x23c730bf5310d873df8282eda54b4f08504d6fcd9ce6583b9545c3410628ea7a],
  [0x1a766a242f48b5eb7c54b7992f8f27958c65835637150c8ee7765ee7ce1dce78,
    0x167759618431c08de6079b285ccc7cb352d2c8ecfb0e483c879887ac6b3589e4,
    0x225ff9433b8664f36ce7cd8cc21dc90e54f07c1c880f99111c418756c5e11dcf,
    0x3255ef671dd8ba661deb7aa42886ef278e995294a5edc10f0641a4b5a03654ea,
    0x3418d13f0976e397c1a68b47fc18aaea911e166d66907ad3dccea39a7288c23a,
    0x153aba3129cd0b36f4a1f0bb6d6b7936d3798dc033febd8a1853b85c97c05f45,
    0x39410a8ea84ede4196853b5a5dd9f43948b2aa4190d9af346cd8e561a5aa48ae,
    0x18172e1ae5c21d16795c1c56e95e2b1e0f79b05a6b9a137b90fce061094d3740],
  [0xf9e57c4c695e8434922532a25d476fb9eb1f2a29923bd1534d31cf07e783c4c,
    0x23ce95360182c7302d68cb750ebc4e898a4ddfc273d24a4132363f3d53419e9d,
    0x1d7db2488d6ebdb52c7f3f30a87d7e2a45a6932a2916be48bcc3d9fc47b9bfe7,
    0x37d749e0ef7ece400dd3b8f788f173c9a08708b1490f979318d48301aa7d405e,
    0x281444fd7b97c1ef421104cb83015f321c800be8ff52e19fb40ed4e7cebc250c,
    0x3ebc08b2964339bdd27e80c7f8817515f833ebbf41a40e8ad067ac57168a5030,
    0x313e6d24fc8c981ba8648cd7958a08bd81662b09b3faa8e5d6e78fa55db77362,
    0x25e75b419aaa4c47c7afdc55cb646b9706682615a082d3fbac26ff4baabb852],
  [0x2a5429a3248959b6ab559709d0222640df2c2d141381598fa39af099ce6ae1d1,
    0x903372bf6ce235b8f1ae8160ce7e649cb9c4d0321b8b0501e94457a5741bc92,
    0x2729d123af969b3414b9ff642331126b1e62028fde6949beea9f0ec00a5a7219,
    0x11696e8bfa5d036569b565fcce36123180b94cc718a3c2c715087705340799bf,
    0x3cff3924e90186284dca43ce4594d998f85531a4c135205c6ad70a98038ce0bb,
    0x6b64840767146f577bc8331971b1e8b155fe480cb640c05bf3410c5f12b1cae,
    0xea5770bdf15f29c6caf251326c0908543b8051dbfed0d4355852cadc422fc30,
    0x22d2257446166c83f33d04bc362782090e220c85ac6c19ee83583e59d500c564],
  [0x3b508ae57567d6b6a6782469c60aa1a24b1b404652997d86b10d152354b48aaa,
    0x39ae708e1874f328cabeb8c06c4450d55242438499373988a54554d277445f54,
    0x324317a9b3ace031067e6644b9521bb6cb7234cf81e50629e09d62d7c7b02958,
    0x277ed994a50582a79f02ee4d4291f47ca233f82962dd2c13fe8f0f279ca5270d,
    0x1b7485edd8bebbe1270a6f80686b70eb7a1431e99cb49dfcef9cc7d381ffb2f3,
    0x2c973272287ca7273eda56f3e21e0695eb146484b0173f892ae4b17c1b828c3e,
    0x3684e7d829f8daa885580354c7c1615071da3d4cee9ed55df57690b77b50ba99,
    0x3100af37eeb4db87adc65f8a51b4c293475e7c9270a57c5f208e5d4066e70d18],
  [0xb334d7b5f9daa7c6bf00c3f86a52e20683b2622e20c2970919063fde96d43bf,
    0x8c9b2cd5fb46f7c3aa80be4a12e10df8559226acb9a3082253d6671ffb2b0fd,
    0x1a9b7920273542d67920156e998181ecff4f17c4ecf003e2352388573a74332d,
    0x1221dcd0cf9080ab388e1b77cb54a33c823846810cc8c263825f3d80f93b37fd,
    0x1a550c21672e859efd8acd0f9a7a913ce275f79c94f2cafb35ceacc8b2d73bff,
    0x12bce414d6b104f259346a3ebadb7ae2f0bdd13613060e2409ea37bb1e811a33,
    0x30ef9f9f2647f997eced01154c038e7c01157df6c8524cf4c7eace07b3455d2b,
    0x109d21b2c3931aeeaa446de1d07951329e63845fda6322e9317f113ef1df4de6],
  [0x29d9519cd2188dc022bc0ec1c82ed74699ab6595b85cb1a56ca19f7959b2ba34,
    0x3e282e0b85be6403fd925d8596a6ac4a380f6f0035584d1d4d02e061748663cd,
    0xa8b0af9c14e661702afe44d790b6fd9795660dbc34c6cfff39b8023e5e378ca,
    0x130b203b7e6c20ad5a81e1d8cf1ff149c95a280f0820f5cd1b87c4bf965bdb80,
    0x3cc69ea99be7c302fef79bbec4827f2c37d1d5dd322273fad0457012bb76ac1f,
    0x15e3343a252fd83403fd84ccb551606372f20737dcbdaf0f92bd72df6acc6dcd,
    0x20422fc7d559e607e3e8b091b205fdbc2f547bede0fcce8523874cbe5f1c4ce8,
    0x19cbd24d3ef35fca6156e3cacad123592c6d2ba0a4b9a483e5c3085d4da9747],
  [0x2900876f48a3760e9055f5afa19fc76320171eb1f9d62cdf1d3499dff09ccf21,
    0x1ea37174296187c2c58fbd8c530ee4bab00e769258636a495b39163f2d5bf46e,
    0x1dd41a4304a722f03a8c3af1306b118f805dd3464fb5ae3c3474b5e47dfb5689,
    0x38b9e7ad2428eb98bbf481ba919ca8a33cd405fda66a54603d2fbfbf74ded96c,
    0x1a9152074f88d709dff25048382ac977c00ec3c2e89fff32aed4f8a398b8b90,
    0xef7af704a0b839ceb411a005690cfca5cf8628f5aea315bc0443f6c7301956d,
    0x5eb036062bd52abd58c7daba012021adc26640775b330576b0a979038f9c212,
    0x1be01d8ce6f13dac4155fc7b1df23c9ed61c879d960863fb28569680881f6c2c],
  [0x36b4a8a08808b04f1cfc390fa0e6ed1fe92553587bbc7e8654b0c78a2c516048,
    0xf520611a9d9bf2dee1d8fa2b1905bf3b2e19361a8d86a0c256e8d50d9a0ccec,
    0x72417b22de77aee97e9194bca6384269b811ffa8b355a40878b2f8b20a42597,
    0x4f071487e22f9f61e6a6d34e93db21acaf448ff43fadbe95f8fed320d36d391,
    0x3aab78beb5cbce8dc332a17b16fc78f2b2a65eb79acc57e25a12bcda0eca671,
    0x1639bdbfd9700d63c38cd4cebf29df0ef4a6f5e150926c9d9d4662143d475dec,
    0x20acc3b632f54428c60e573186e937c6190d9224589f3948e72bd6f2287e506e,
    0xb6ed390a6a3011b9fbd11234b0385fc0a0e0fa077736dc7f35b559b1c432f8a],
  [0x2054df93cd5b286ff26629ea2a5971ad3ee19ed9633c360183352142abb4f1f,
    0x356b7e1a885420dd640bec6d2abd78a30855cac853244e8394307a3968d9cc61,
    0x96bb016e6db3b5e69abbd18ee2afe44015099d55b12b06d8cc385756b1fc350,
    0x1c601c064451c0759161960cab03bd42461d9b7b828dc415af843d58ea75218d,
    0x27d48afe55c9e945b8ee7a0101ea4ed9a714af5eb9ff743e90cd5e4009a1a0c8,
    0x3096fd322cbfa067fa474eafb99b1b04a127e0fb8e527262b5e2dc33807ab96d,
    0x1855e747ce2a796b9a01ded918d983c60c3f5016ed96496f8b6a34d8c4193c3f,
    0x2da673663688b58ec84f2e255a6f3c2e66847b83ee207df26e2a31719877d06e],
  [0x3ee36fb898842d751f23015d5ce13198ef3ac34b0d72f1b3ef0956d9237f7541,
    0xaa0150896ee4beda7cd745d81160ef4959ec7cdd1e47c4dd0638e81eba0321c,
    0x237c2be115708fea8f232c160b5ed9cf203afc6123fba641c4b61b72e48e1ff0,
    0x36d8850fc81863d9c6f5e429637ef116e84379d87c5461ee30544371f26d754,
    0x3a79d0f5a20f4d5fc4581da3e0a2b71b1db32ec69276f84fef7dca4149a005f4,
    0x9283a22c23a45ee15bafb5bbd5216e917a0c53c9122dfaa27c12f8f70878e21,
    0x10698aa7ab10025e5eeee736416088173caac6e1c3a51d442b5d2e7ccb0fcd2e,
    0x337e25486f394fdd439c0305142175275e3cba8d9217054da308d1980447740a],
  [0x13740dbe1467a6a1a35b5be00e583c27f931e230eaf59e842e4d8ece5eb9a6bf,
    0x16de48094b7c9ec8f88b125ff5398782de2fbef62d897498e0f5e91863a4d833,
    0x2c41692485e4854831e3ee7a4074f30ec35cf670c0dd905b21b7abbbd36cc80b,
    0x1eab94b4c657eefbf2a4be796bc157d4944e2ecd9b084949d3b47e67c3beff61,
    0xac5dea4bd16eb6bb9a04b48c93ea0755347f337d59137d2060c6101d5c58292,
    0x9b7bbc40a5e6dc7c51d7858fcb49ddc68b6c02b7a03257c991b6500abe5eebb,
    0x29e7a381e4ec7a13bd951f48b0ba21c84121312f73fccf51575d86fea77c53f0,
    0x3e63353d90f0cc4bda8a9d9d1a0488bf370f8840f22341622b7b5b7a7f768208],
  [0x618555e9d0016eed4dacfec9b4ab97e81e38ae7dc450205f6437c86c4930ca0,
    0x2a084b0930bfe5ce28b75cbbe8577346c21a6e451a07216f5c329c19c2a3048a,
    0x2311647305bd9a4f529442811b32799e2a7fcc2fc46de1458945a565eb573d90,
    0x229c479eaf33b35b776f223deba13f61dd202e5400d054a09960ca1ac7b2da57,
    0x398fd28cd12e372904633650ea21a728a03532ce50ad04e9690064925f2696bd,
    0x32d8105a211b663f987f86d6d39574423023e7c714a46e98322d426c6be9b919,
    0xe2c157d2045f2a0527b8d736f2face2a8a1102976690f3148c2ac1b662e694d,
    0x428eee2d579c33746bafa0d89e30c680f66f7951862ed03187ae6bdb33c1c6],
  [0x50ee1f6e3faa9a27d42e6e1aca92d333e982d28d6ff6f68e9b43a55117bae4,
    0xf15463f8f6e4ec5db9e7621b7d700e03a0dbc4181a3291450dedc5e6e92ca8c,
    0xcae7e33ef57eda90511f1da5e4b6a9f4b3cda22ceb518a390ea09504ce89b47,
    0xa83b95a1d42a788711c3aaa43483f47443e849256f07152aadc75c768d90e44,
    0x1725967af14488952f9d70f092263a0d6d38b47e7670319dca3ef363c3c9df7c,
    0x3bed395eb42be859b8c6d68866fd95538e466d46501a660df08da8e7542fd913,
    0x1ada466857dd3cb3c6d2afc3a65b49e50dc26ff80d1ec56dd01737933271a402,
    0x362331cc1fee48ddacc09b64f6e44e573871db8b62afee40a12e2ebfee66a011],
  [0x3cfa1ba57d12f76f724854b02a7468eacc316997623dfb5c7084ce4c4e57ee2a,
    0x396b3260da2b64082708a0b8209f94cf8e51b77401b9807d47e7913138c9c3c0,
    0x37e7fffc82ac253d270970e9a57e8bdf284de9c148c76d0162e0ee9b608b1ca1,
    0x39398cfa5b9f6b725d78cc2646b6a2ecbc37ca41072d636a7b01ff2e1e17bd94,
    0x16e1df537405a65bd431ef2c397ba2f78ee163b781c757a8a0253e160a47be33,
    0xfa50fab0b27886b7df6da8cb1be5f2d9d1deb038fbaed2cf4ccc0cde20ccb69,
    0x2df115b96a8b439e08a462fa47b02f4dcf568445efeb0a69b0b9da80a18c3f28,
    0x35a62508b119fb8313f692e4577cb57f3523913337a6c595acde2f4c2079bb71],
  [0x39503dc87e1a2b8fb82a88944ef8ee1f1499dd4b7c72528809ea4603d1820112,
    0x2263a7752a596ff3c99700545db9f3b62051831b1d81ce49d6649ade254862e1,
    0x20ddd556ce20308998a10aeb842a319d0ab97c011f8bdc3c74359393e1d8e376,
    0x1f9cf02a1e99d5e568dc419c90324d15773861a8f9160ba925f394d13a6333fe,
    0x34b27f52274a1979371373f36621938164e09e92cfd8094650aa07471c0d00f,
    0x5c87096a06291d002800cf94afb97e3c757a95928e8db58b4b8c4b1c47996d2,
    0x5bd65935ee799bf7e560525d02e9792e2a14f679729bb9d18a002f64abcaffd,
    0x35d684cda3af12f0de4a753e019129497feacea8f747d6ece60f3b097cd1e0f],
  [0x14e60bcbc63155469e09f26162ea4ae36bf7fa23fe3a9e44302910181b880a48,
    0x3bf46092ac187f10e7db32ec88e327ec18f8244b3fff200620fa1f781a2bf3d6,
    0x3025605f7046000efab9ef501c5f68befc8a41eedb72aa359580702a54a5bf60,
    0x212769b6745122b420cf0163432149d795fd1119597e2700d3b794921ac88817,
    0x2dce9b40c56b2101fc399a1cd1b76a2b3fd61bea1950649f24696ae44cb85f57,
    0x3837c69963da2b521563b0e741a73250fa80bd72dca855cec0555ece0fe27d3d,
    0x2444f8b1cd9b1846f9e3280f37b6c86e8fc79e806066603a0f0197bbf9412915,
    0x1493a9a9e214e6561f54da51715304b50e36de95b2b7b08de853668b097c5d99],
  [0x73963d5bd81a394884e31464bdfa8e0696491a7d4e1b98e7995aa2ff245062a,
    0xee7ae4467b8d26a1fae01e5ea9798a2a34ca97a62b9d7b32bab7fb3a63130ca,
    0x1fcaa878d504e13f5a20929200e1f92391dc42a49c2efeaaee63d676badf0104,
    0x4f3fd59674e5065bf79f7c424d95d215041f4a7778211083b840302cf0702bf,
    0x2164745ff8d496215b055083ee7cf523ebf0bb2dbfdad0dee1939092e61ca09,
    0x2df881c1b5f1b1d272f90b60be61718b5917a69de4a5332c569f5ccce67a063c,
    0x139aa7d044a06c86c91b2f27f4f769a3515746194e031d46d6dda0c683cdbb7f,
    0x1394d6591673aa6b222b338cc5513248c8b46361808f42a10db5647a8501c658],
  [0x13461ec62327266c3937206226b059959bad3bf6a5f02bc6ed8ac782ca1d4fd1,
    0x3c40895b0386fdbac2349ccd37298ff3b0fe0032d1ef2e4c29b19b5d1ab78a3e,
    0x973aaf2afb390245b6ac5f5a3f04e27ef420c519e593a2761b2a201389ac150,
    0xdc24eb9b2306a952a2fe02b104f905bb166ed26b4c7c72003e2083dfdf23558,
    0x2f097f28606d65aaa1efbcccb8cfe7297dd04aa8281b75f1615ea5448145aab9,
    0x3589866901a5532585a0afe9155730e760c85cc5dcf27137100ed44b20d5d751,
    0x136a4a23205d4b5402a41c6079f3ccc4bdaa0963fd3764eb75346c679874af2a,
    0x3b76c6c7b8fb8778c34f17cb8eabae9944155864189ee795ef4004a8df1925cd],
  [0x15c6253a0bc26b2487c9bb82a1f103b3bc37e868a3bf8ec2f7aa6461b6ec48ec,
    0x3e7dd151d2098859c68566a59f46070881ff2c22987ada3080b807e5d5d26ca2,
    0x199b6d3f7b924d5174de1855167b10228f5efad5e8656c826950c33635d07a13,
    0x1e89b191c109285af5e9211a460986c9b7fc570391dca9c5e16ce41722c2ca14,
    0x21aeebb6fbb88240582c333cff6716d68de8c3cb115cc885627a566a4fc0768e,
    0x15c6cb57d146538f2fe081e2ca61d420b956badd391ab92b858dcc7b5c72ae88,
    0x333ce26ec8cd109654c8f731c6bf192c18fdf6ff34858c2cf47fbd56cd0edf3b,
    0x2db8f7159faf01305fa4ac989018802f9a32af524a9501ec2fcad31d30a441c4],
  [0x190242568688fa45f8121bd1ccad6cbccd9916214e8da6a49a8f88d483b93f71,
    0x25c0c4a0ceecc6171eb1550817ee772c1b1e83ae25c7d03a5fff9263a0c5d551,
    0x13162057ebe03f8877b4dca7cc22c517ff8fc33a58efa853ad67a677f06c8c89,
    0x3fb330265c6962ad1eeb76813cec33d4d8e5a1dd2e491f22ee44f2ace4017809,
    0x3595ad4fee05091a8583e70aebf86b68e48b632ce75a7f9b3a3307026ce0fe65,
    0x13d7a6ccfcfcc11a9764e95e9d07beeb4629dc6dc49ac42086ba30bb080daead,
    0x31c514539e9c1c69a1cd3a047759b7a8828ff6be101b329a7746ab5d55c65f1c,
    0x25cc289c4ab26710b08bb3ffe059f608db638b78b470de0796e7df9390c76a71],
  [0x3c265517242cbd166e73a187615aea4077f450355c271654789470dc47dd2226,
    0x790df70f285212dc3889851dccef4412e5e33c2b41615fdbe4b09ac3e5baad5,
    0xd263479d001cb5361743a94ee8771f7b2d6d574192b7b713af37aea0a674c1d,
    0x2e27cb339329fd186f11437325755c3b9a4569428eb8b69b1c341c0cc09d9817,
    0x22a2d8ef60892938c9eefbeab63890661974eb89927bf0539e0c0cd767b2cfff,
    0x241d878103666a78f3d0791fd1bfdc0e78f4a6caa3c9778d360f749fec8b9294,
    0x3e02fffa4a4f64b6bb9c006dfd4496ad4bccd3dd22130b169ccc5095e2e82550,
    0x3b5e7e894a5b4bfd0960a37f8d059472dd007250e9f56c15f085ad3f4b6ecf9b],
  [0x3a4b525603f0e7f75ad0fef701087cf63297754fd4e9c16664d883fc7ac396eb,
    0x9eca35a9a284b807de08dac772a8ff1f6dba97a3ec02abed7af604daa873129,
    0xf9b7c2b37c24cb1b21ef5d4650e07cbe0f5c7260416346fcbf0e99350a48ace,
    0x87f24a2559d300b579296bac872980b79df91a49dabdd3adbfde952bf7f1e5d,
    0x1e1d55ba16ac4628fb4d043ea4756088082f25be7c200ab7ec8a574adac9235f,
    0x28bb6dcfd34b80b173561a489d9f1f72cd30c5feaa9cc4ba1d7c678fe8bf1785,
    0x2ed072ad81ca7e6427cbb6286567d797ff1ac038b37ebf20ce41f7fae7c61281,
    0x1b13c8ef08e51749161a1c53e959abbaab784f85b21b685251f65ec9c65febe8],
  [0x222bea1171347367aa2ef58a26ae727e9c25e30d0410706fb93e2098d76c47d2,
    0x2c2abcb0bce89e414525186e28fffc01b38e57afabfdb054a38c5dbbf3939d2,
    0x39605774c2ae6a41adf83ac3d1ec5d66f975e233fe90a8997c6481795f304e02,
    0x26897c3fb88d06d10164a0b33a70cafa1e29e88d15e67063eac45dbe360a3cf1,
    0x15cf54d3789b28d0b216404278b14c274ccf1db53b8a6fda431012b38efe153a,
    0x19bd693b8b0c238fdb4fe91f0cb3ffc14f5a80648d2a75f3e254ddf219999fae,
    0x1235def14261a6b7b78674deb4f0d33ba162906d1edff84e256ec3ed5e2b44da,
    0x12f3e61220797d0bcbdae2467e67b625c875f866220b9659f6ab01c7c6bf94f5],
  [0x21187efc6d7f49b4ddd2ccb6c9b86800380e38064a9913669475fe3484d090ff,
    0xd296eaaab9b7baa4d6b0637aafcc11259bb42d1c15da54529189533a9d0992f,
    0x1b39d132baa07822a641be586a1880da7c3455bb080bcddd16d407309c7d86a8,
    0x10751c206272895fa00e101d4ed950dbc6249bc11ae0b99726ff2c1b5ff2e60c,
    0x1752df2e49d99d2b082da84d8c08c1d95c3b0f6d8dae7a0cb2a791b92782dd13,
    0x2dd3a366c8f4971fae648aa532ae58d8142188179ba9359948357c3d2ab7da0b,
    0x3966c44a0408ecfc4c4f3337e3c330591cb1ae85c5e3037f93d6d963dcb7d028,
    0x38b1381f77da956908ecb4eee41ac330bf5c2ff50e29f13a8fa7a144fba819d9],
  [0x10aeebd8414ae72d07546fb27b849b224f3677bad077aafa4b708cfd0523621f,
    0xbf3bb8f20e50208e776b65ceefb642035a9dbedc4b189df807bb6b9219d1cc5,
    0x31a1364433494cb35af47466f2c3e9391912dec321538c16bffe9320a4e3135,
    0x1cab16a0495b1d573337efe9b14e3c5d7354b5e4f23cd8fdc3ea4e754ee067a1,
    0x7c54d9c1f0824c3908899cd058877dc7756be7027ece6a4be2f7b9ea17a5e6a,
    0x9e418c43c659c7067439dfb757adb917589d6ff03668119d61285956f4fbd54,
    0x225cdab7423a8127f7cd6a4ea57e343ca20c70b083c105a8eb5e46d113b880dd,
    0x7614fd6cfbfd548133a9f9de0a004f17aba1ea30ee0358247b300c2479e5a25],
  [0xb77840cbed04c27855136d4e480eb36b78205ec8d2deef2c8197cc7968c4d11,
    0xd97946cd9d6dcc05ec6f7e6521929a60e5445597f527925c5b7a07128cd76b,
    0x117d47fa8cc54714680e1ccd9ba5c69b97c252182be641372faaaae56ab35e46,
    0x16e44fcc75734228005d547cfb1c3604121abd66870730d575cd43e0f5d9fc6a,
    0x1c79361c2b5d1527e8b577d4649762df1bf3f688d16b6da1ec8c3bbf58bb23f2,
    0xfef29ef8cf5c80d72cce039ca5857a272739596aadfb820313cd49e3649747,
    0x3e215c45ddc67de9c177ceb7d66a1fdd1dd49bcd6befbc2bfb02b7b4525d4487,
    0x137e2ef12dafd315ca46865b48f219a77ea94ed7060c70cf3be9ef155920101e],
  [0x29c79fd90f7f3d376e8d26d52bb093c10007000afd610f0b5948d466262184ef,
    0x35b64b3fe12bd6d6817fe4677bb9a3db3906c0b5a9fdeaf004f4eef31f97fdd6,
    0x3b603ff427147221fcd42ec09399ac056cd03186397f9a7a6e21470db3494f20,
    0x377ed54dc25a814c5a5e93b608d35328dc0b83c50ab5acd4c06c6ec62c6687eb,
    0xb4ef2f7326ef7d49b58e86183b5692dbe18fb0c0d7f0baaa3c580b73c032b86,
    0x146340d0d582e6dec4cdb76a7e3985e9e36b7c863f3d9f070f1feec9e487636b,
    0x28c08d898670cc6be372439d69fff9cb00274929577a65d2ce95c28fdd7abf88,
    0x2ae4a210b8ad5bf7bcfa7ac03e513bf0612e22ddf3774fdba244d3a506cafb35],
  [0x2a00b31abcc3b9c929df0a0f57d97cdc5ba6723cddf4556d5e0f2fe374cbbccf,
    0x2fa904d744d1958227253397e8595478a35b49bda105d91fa1af1e4fed2adea9,
    0x478f648ef93da1fa18d4a45b9bb8faed37ac0b69ad7be7bcade0147f0c053e3,
    0x1bd9b882c4b0163b1d002df5eca4641e446ed35f68e25dbaea0cd11d4f451b89,
    0x1c9f10ab085e7a27f01f9d0fd5f2ed13be5e084801d05160a62e31cbef093e1a,
    0x9bcfd490f80ce3a9b92393d3f3cdc8eeca5a4ed401d75ccb10dbbabf2eed5bf,
    0x244f1f0d3133434726dbd925f379ac72146d7baaec3659b8cc39168f802586b8,
    0x24f11e2fa66740fd2059aef99fcb4349a492370d33a476b2840b13a26dbdf],
  [0x1f83cbd7f8733f4a53b23fba5549d7921f6dda5ccc14a1434884b69a22d86c56,
    0x3b4df1902d213bbc895a53970223aff3848d4c727c33665d768550206efc9244,
    0x2acc9e6b237bb8293ca3114390796fdaab313b794d2212c42d075b925719a8c7,
    0x24304c93d9fedd7e8b61a73f86d248adadedbb55830dcc84d2d3d5da7e7a2251,
    0x2a06bfdcea8ad6226c1c5c085846c51499504d3fa07cfa5655daa031ee4e11d4,
    0x4bc16cec7c16710c91b3f59c176fdf9ebf546812f65355449f14ccf0a27db79,
    0x20aa23ace2163387d1143086f4c1155fc2e3759d50ac761c150b58275a9a8720,
    0x3e63e7fabf5993afa8239c432d93d43740b8af0a7ac6bee5c6cfd28d8097dd2b],
  [0xb283374a589073f7e519f2e9871cd0217aadd59d954738a8b902e5b414085f3,
    0x93024035c2d1abd60cb108ad1dd3a77cc9b097d21cdcfe17e39cee6f7695e6d,
    0x2cf699bf70d44540ed19d64956d786359f98333e256b791e8e1132d0db6bccfe,
    0x17199fce80da7953af6608d6c1dd3d45cb88af67d94a6b16f14deb83fd659463,
    0xdf51fb6d3ac1d0af7d32717662ba47e6d12c1c312d89734fce74f32f84f406f,
    0x162f86db2ccbacadea6147432d80246fe079b818d39210e69694239a181c5603,
    0xd539ed91cbf0755d0e2fcb0cd5edcd6522ee2264b2f155ec52cbceadf2f7f3e,
    0x425763cfac52aeff425ea551286c4d0c8a6833ae8a1443645c40a537948e160],
  [0x241f59433bc7082dca4a9ad39e064f5ff6d19f809368fe1d2ede14bcb40b9a64,
    0x30c67375fd685c9065df861a7aa657aa971488b1423339143f5b6b6a308dda3b,
    0x16e05cdb69fdb4bb45bdf2a1b09ac8ef8f1b162932be5d70ed4432d08beea06,
    0x219e4b2997b4828093c44d46fe9c2ce1283f3c6a151faa5a4f25145e96e5298b,
    0x250c6b59934ef1aa147ca43074651546c2705d4ae3116a703d677a29da036f8b,
    0xb13ddf53705a2186777f671a1e33b27deec69833ca6e0a59170813c49ea0a87,
    0xffd396fcba93373509a4b669ab971ce330f1ba23537632b22fdfff859bacc4f,
    0x4565de92ade4fcc8d7214b460ccefcfa001ec3820973cc8f86eb50e609646f1],
  [0x885f5457d052ce6d45a7bc650b96e1f4f333923c93a92f6c19fe909926c2a85,
    0x2d3dfce59302e7a3d5d5ccf4b08cfffbadd1c01f12ee9089b0c336d5665348e5,
    0x131bb458f23726789077179a54878f497861c3f6b8b8be06999a3d043d337f47,
    0x206be4c4937fa94a6208743afc0b9a1b6bad9c40b0b7f74d0ceebe9c4b3c344b,
    0x12b73eeed4949eeacca5a828c8d78383c7c19d1d4a7aae5155bdd8e32091eb94,
    0x2c24e925f6227b7dbf95f255cbcf446e6805e9a8cf2c450a6aed9846c9fcb59a,
    0x7ea44dcbdf3b77a18f10b809ab1d58a5a39e2c95e4aa3b16a7eacd23b3ee7d3,
    0x29bf0fcc7fb42de3e881efec3e829fa1367e7647db9724f85f654265817ceb38],
  [0x377416df08eefeb2006a19d749510b344d8447d2cf3e40cfca83ee72b48c073a,
    0x2f54a3e444da1b3b3be6946ef0f1da254377827232f7fbe30db0093593adf,
    0x3d4d2b437bd6a2eecc6eb07b333dad1c18f083674481575e1e70e3aca45b2a77,
    0x1e1f0acf72d4d749b800d571813b96615e9f9acc9060c28b93f7f5b7919b89ea,
    0x3aa2367d5ea7cb6cf53fcba2605fd239e1acb28e85def4b33b986271e6495a2a,
    0x7d4210bd2d2a9da43d0a0c9745d61b56eeab79ec29bbcd433e1b5d5ba4cc4f0,
    0x3c0f1649eda5fcc61f8556daff8c6e42c1fc1c40f6c519c2bded4525793e6944,
    0x112a4a98708e5bcfbdbab2cc490ad671ff9b0db0d378265110a02864f43f21d2],
  [0x301ee100e2bda1dc9e9265df0546835468b4e3b2813197178c3e1362a03be41,
    0x23cd9e1be0fbfca3dbb4d205fdbb4b020146db46db6fb9f8e9d730cd0432555e,
    0x287e126f9e946ab43c7835fc0ccdca80a6f0f756c8f0796825a408841e152d91,
    0xc88e15fb5c47d7df5a7296d5b61e2a783184496bd9499e4847939c591c2f35,
    0x79af60ee57a3acf9a55f1359581b8bb4f89c9f99d3317933e9ad6ba5492bb15,
    0x348193f9057ce0db24e0fb731f5f1c09a23dfc8246150598f6544553aee1e447,
    0x2f82d7fa7e8445750e527b22958c5c3385197f88417721e54899e43571365463,
    0xb8cb5c911f32ab84e470dbd6533539ee25bee913edc0a11376ee6b32b5b6c9e],
  [0xc7adcf82ba4dece792b20fd3452a7cafbae5b375c957323f9d1339e5104f1c2,
    0x49ce85e989f13b6d1fbc594a595cd18e5c8fd0df330c30c6f162db829d39a63,
    0x1bfdf2caf35e110e4bdd79765ee290cede7d5312a8daf4006f9fa35a95bc6400,
    0x28bd01808cece0785cb425851830a3846019833328df7c8f4f90e0b6f7022ef0,
    0x1530a188cb38ffac9532a3e6260963d16f05fadc9caa8348a59f118d775fdd77,
    0x24ef9e00d49122bb782ed47296acf20f0f74b665ae317054244c504d1f2d4d74,
    0x465d19401ce7c8d6e93f51eb33adbcec2eb87bb85b27bcaa67ac5a568a416ea,
    0x3f5ca88ae6e9696cd339a2f7286cc0dbd3b65aff261c49d8cd8cc6a9d9b149f2],
  [0x2d89b9b648799e45ec7d6dd25606450f14bd8e912ef739145624b77925a5fad,
    0x3b944096c5538befd13d20c100900c0be786c3dc3ccce88fc9461fa318ec4f96,
    0x2254d2c176d21e258f9c2f7c6756bc0b7736e0678bfd1034fbfddf7aa29f6c83,
    0xac1880b72343d0214bbc5bed7e175cf242d4e87d4cb92380610f0b1aae6ad2b,
    0x1606670b877bde021ba84d2ba86db443deec309041b0cd0b7c314f76794b4d0d,
    0x1fa9e6d11b3405d0e9afafcf3ae5aa65e1fb32f4628f12555a76d21929e9e8d6,
    0x3211ce6955f07a391bc5778e9aad99bad05d03bb2499f3c8f64f24b6b8948381,
    0xa52ee21ac538f274f60b05f403dcbe996bf190ba7a954ddeda2e29c6c094bf1],
  [0x1eb5aee23bd3361362070814dac90b7695b3c241b7e19b4121852df6332e40f9,
    0x7d11997be2e8f5145f378b8f8dcfa433df7facf74cd9726330e8b4a3621344e,
    0x28cb82aab71407f619d727486605502b30208dd21f6b5f56e672fa44435c2c75,
    0x3714782d888c9fc63d68ea83b4f363cba68e232df6fca49fbb2be6f563ec34f8,
    0x7576ca2fcd3a2774b24b4e738a25343695f06230041c77451d8128ea44efcc5,
    0x80be8c6409d1edf2d7711b0ad508b9021035ab2c4f0814800a353f2a6b72b43,
    0x60c58a0f8269287fd26fd560d6dab69fd45316e866578a259685848b1b8d8ec,
    0x3fd6f08b31a17737977cf83e35470ab2169e4da6637f005ccd15d36aae62c57],
  [0x20b606469bcbfce85988a6a7199b5aa9aa2d80416baca083e28a4a5c0d1b9d64,
    0x1a5368ecddf67492e38705865c944d6dd8748ae7148168fb4547f4e8c544c59f,
    0x4ca91de7ed4d925acb629825400e97c01026d8ea4ba76c67e3471d63b6c9e95,
    0xa56339ad8cd4546454eead1d07e1e8df302bc805e84c828b92195aafccdd5a5,
    0xdca3d449f1ebd67aa4acacd6b9b33645cbf05e13809e8e3df90db264c8e7a99,
    0x16f6b7a2d67f576c821e593b330129287c29078c97b1e0185ed68c41d8cb2686,
    0x3c9523ac7cc6e7f9b9ee0043a4dce254552bdf721fff1ed7b1a349f4a063c1bb,
    0x3ac1ac35d4880b0c1dda82267c608af084de3c96b885b12a2e5f00cfc04ba2d],
  [0xb0a5cb29b8318fc05fa1a6fc272ed2428b341d859ea1d7e561c4385e2562e5b,
    0xb107cdb7a378459324c5c96a9809efa13c9328bb758db1b357fbe947f4bd043,
    0x1094a87872782095865146541235f7934d198cfb5f5f14e078ae1c39c569f8c,
    0x1d09f7e065bff1ffe2b03ed64f6a1c2d00203a392f42745dd6a4b8f65bafb5fd,
    0x1c93e98477daef6fc0bb143a85aee4ede47349b13e94a3d4cf1917267780ebe9,
    0x33a2b2692767fcb261f6a9b00f17eb36b1921322e29b93d35e868d83f53ebf66,
    0x2f74aa3ce727b055732349cc75ce74593bb3323e5233c16e51ea986a81d93207,
    0x20c1a2d878b7332182185fa00ef240fef3474213af86e8e63bc926f127bbc44b],
  [0xdb8c5d8670dc58d48a9cbc4bf46a5c51afc76005c591c17175c752a2be78b50,
    0xf9e4d509ceed1a34a2d21d14ad21e4dd12981e8e439121b6aa605f0e88f98ab,
    0x2a90469b395eb4f15a225ceb30bf1ae40d0946130a129e65b47c7a3ddc988860,
    0x3df0dcde59ccec6826df3d0dbf17f8e8d89fd9ebc569c76e8893fd3b595cfcb3,
    0x170e8b1854cb2da4e01f901a5e520f4d5dadaa8e4258571293142c4445425bd9,
    0x37bd9e650ec1314e8a3994d1659c19b451f6d4300aa3d44fd73be4a72a7e8b3d,
    0x29497981f7f490c14a02b329dcbe85cfedf7b9b8175e99a86faed2b2ec2b069f,
    0x3b1194c8a21e653e2018eff8b59b5ecf12f47c4f2186db3f807bdb1ac5ae5149],
  [0x2a05087e91395f0ab6d276cb0911992334ac9a2d54d63c07245d3c8a7c980b15,
    0x1df265c23191d4d6e4c1e75445a9cd835631a1411cb49c7c083f5a760fa76547,
    0x15b692c3b13a02a4fb087b566f0c5ac81c46d64088844af1865362a146612207,
    0x20098ad23c5eaffd96ccbc76898b4364f21fd5a228d75dee614c4cb9910be6a4,
    0x2029fa208bb6d240f1f855e6998c5f80aee097b806ff1ca67298ea4e5fa2306c,
    0x82514bf652c8de9efe53298e9465c6ba0c8293821d652974e9afd6960ddc29a,
    0xd200944c8499723d8874510ef4299245d421cb39261f8fd85d34a8833c3f957,
    0x4372e1d6b30f08a094ff1312518db51d13fd9cb188a0a53c7f16f45138be5b8],
  [0x191bb3318f8833f2da1c38ac70771ebb8c27e64df9db1febe45c7982851b12de,
    0x322fbf06f38c02803bbc29b58fa5a2accfd4a492b00a1a7e7fa0219c50436302,
    0x33a00e9ba1a2e33785e55e33b3f0e264b25729472a614ec64b4b5f53e7439250,
    0x1fbb38e53d8370869fe8837187ae2b9ddc0d62844c7d28582f9d3d3b149752b8,
    0x372925caf69e04ffa93ba0e3d56147d19bfd7e9e33d8c6de9321ade5694b9f67,
    0x31a65432403af9caf90106a8e64767ef3e7e7fae2bb37c9f2239f8a299f52c46,
    0x14df4425155dc0a2ce38d6949bea42a0304ddc8de51e51363f62af8de0a90b18,
    0x25597e9e791bf19e374bdb08d80bb7baceb1cc4a5d8bfad8c3fea896f01ece0c],
  [0x73bce2a6ee4b066e75a4105051ef4112572cee58f318261326c3f8d54a1f47e,
    0x31a39651362c35c0ed815e81643ff3d5dc6718ffc8096593616233131b6efaab,
    0x5f2382302290582a3b2581d5f19cfe18453ac262e5a484cc86a9631f0e3ebcf,
    0x275eb222efe0db1ba57dee76102884d25afabcd45780e3b32d098551dafeeb96,
    0x260c825bd5d51c393cd4c657197ac68f7175aff9d9d6eee41677de0e309bd068,
    0x30d68b2b200513f45f5e2dee8cd2cdaadfaf9bf74e64b12cee7f874e9b6055c9,
    0x14d73e3755da3117b1ed4e02b8e48966d5f913a1df176b8f9736d501d735f0f9,
    0x2d309fce48e45aaeb49157b0ad5938841ae05e156ddcccaa0a695e9d13e2c960],
  [0xa1fc43a11b7c2760b2d2dc471563683050cab5654658095a6dbc60210374c71,
    0x1e093b240b60ee096985790fdc6da43cb2ba57b1c81bfc667d65e5363cdd7dac,
    0x299310d6e83f7bda2e611194797278ff738edb036e6e8889b177e8996c476cb7,
    0x2cadf58d7a0d423da4ed4ccaf79c140a76534bf402fce1b346368e56a6e0e7ad,
    0x14a4d889b933cc85598860e51fbe1d5464ff991e20af563a553f7512f94def6c,
    0x38d7a4a96f0588185620f8fd7a93859c96b5a92bf7f8e6b3cbf1f1204628dc3b,
    0x3844c9cfba405e7e610c2ba0519269fe5e35c5fcc90aaa871a5104cd8e4cd162,
    0x398193406a2ba47f30097dd83f993d3e6f6ea3d3b24d6f806ce2ae562ed2bec9],
  [0x397086a7ff2c30027ca017ebdf45a96ceca5f0338d5bfd9094c4d227c46af0ff,
    0x26b14f4840077d1c5495292fd5d23575389c9a47cc59b00dfef5ec8d4b50447c,
    0x55b98592a6470c5720e88a54c58ddf613712dddc34404b4c0fd64d5b9fb473d,
    0xba2f8dea074881221b4757b722ee2f345e78d62d90a42a66d6b287bd8fde22a,
    0x38934f435ef4a47180f3b5da1341e4a13fff23fc0f66127f445fab3f7baedc22,
    0x2528ba8a3c4b4b94aae2fa25579b4b4c5f17523247c4d424ba8509d240d338d1,
    0x95aabbba20480c07b8c2831c8c37795193455e79e562cb0a5dcebf41ad7a3dc,
    0x300e8e64365035ea07681a29a3febeea12931a5ae75dcfc637d54d6f155a07e1],
  [0x2410ff8803fc49caf19112150668b2dbd1d2cd183990bc297557d1223f293167,
    0x2f49ae3ef651597c13272325d8f90f9e59fedeb9b637ffbd2e41d3595c9d8d7e,
    0x6dc7491c1e02db3b14f304e46bc5b34b88206e3e2736455a08850b426e0e5e0,
    0xa56666d9857fba95738553dce18c4d08581c8e24203bbc83c757b18fb5259f0,
    0x7178c910a50160accdaf83ac096498cf3cdcd8eddabaa3580696d4d618978db,
    0x3ba2de2fcd7031f4173b3a52e77322a219e8de9ac5d8b5bbacc5079dd4993e61,
    0xf35a24c2ca99264e37963c79888509f933fe50faa64da253fe21e68991b3743,
    0x2d666a93c961c9ee614b5a52527e99d38e5e097c2044b4068af6b9e589418c2c],
  [0x3167a36a8f00f471a8d3f36e576b61e95f8a6a65ad8cb056feb59090af0d4e9a,
    0x83de91dceef5ebc6e33f9bd3bdd34d2c51a58ebd950657147181df0b065671,
    0x1d401b2166ed6641b2e6b447d8a268f3d93925dea4905fd3f6b8ac1c859e22ef,
    0x248f65d34c84e3134e8a1af88ecd654eb901d8102338c0025195a07e082f02bd,
    0x30bb013737773f1cf2452855c8c92c3e503ca2e00c8e4e8aa06ab49ba00ff409,
    0x94c3294825deeda2a7556f70e9d0c1e619601f1216c0f881828947a506434e6,
    0x29954a57eed97f39b0836822883163dbb680fe65140dd321c673af73e0d872cc,
    0x2adf60d3f84af5b815d041891df62a51b404a12cea76712250e28d9e0faa1cfc],
  [0x864e2d3a2e50964d01a0812d31b04d10866f3c1e1ad783412b1a02b2e394963,
    0x101b75724871c72f5a57df34830bd3329d883b639401f854a4fe96250e7a9459,
    0x8bf6ed7c6381b64a6ea90515d7de9a66b9006b1d3c8106168c679296810e036,
    0x3c554ad4b6c90694e3a315a54f7f00c5c7ea15f5fcc9377f5015c0ae6bba3178,
    0x178a71c8c6d8fc15a7f260ced77bbf8dfde0d54233b2b20c10f701f5b90dce20,
    0x34261f05b41013dd80ecead3981d748ab025b7b82f69da4ec7818c0d742f92d6,
    0x3630b4a311089fc3dafda495836e27244d98da7989fb5a987cb40a1936fb1635,
    0x16b2b2dc2cd93dd8ec0083e2d221dc5fd93cd104c464ad09daabcf4454afde4f],
  [0x258194077d1a4337d0c21603082d5596e8a192f850531d696d4b5236d95d696b,
    0x209ea3eb4a28e12fc1a17f5c7faf55f2ebdd6c3705e29245684c558d98305f1d,
    0x212b224d67a391831b887d09dae5c5ba87ae87bc2d2380bade497254e8b6f4e3,
    0x131e1e5799e214e1a38f6fef7d1cd481865ff884e09c039b036fd3d2647644c3,
    0x278e42dbe70a6a30ef8c5983002f783b2dd715a72c5e3c5f8416ab5467eff18e,
    0x507969d7abdfbc3995b66d811c30df08a11e81e51c49bde85ae3814a663dcc6,
    0x1e57949cf8fef6a575dbbe0888e227c29ba767f3951aa308c973a3fb50abef0d,
    0x1389e2daaf67eff709563a9da64f9188bbb944c2fa36dadd522380c39b1a9d68],
  [0x1f1f90fa8b3d081841ab067d96b3d74d5e1bd7a5608206c156d522670178de4c,
    0x14ebc404cec881a81183d9357628c0f804588edac15daa22f69c13d3a2721786,
    0x255906508deac22387e8cdd7f10940705f226e91e331114a91651b2ec26c23b5,
    0x1cc44ac308c7bc5b9c3ec9a74b10daa49cd46353a06c1d66976aed01323eb1b8,
    0x28335e5ec2382d33c53018da01f0c6759cab461a87d90dc02d2c028c5b3b5911,
    0xe8f5cf747a521a4297fce6b6a7eac98d8d8ab23d969d6843afe66bb37237a9e,
    0x75f86c3d4269c35990ebc09929b19853a160ceec982e8b02bb5bd9c78454778,
    0x3076df77e791e08c6392c6e41c39edf744dad5d1f02c09e010433adb73e5609d],
  [0x906e0997dd4db4656fd3b3a35be8e94cd7ec212d910171be25ba123e939cbd5,
    0x27ec6a9f7d828f466e2aad501304c72c66ea7406821b51f47967c7224113899b,
    0x165a1ea6a9842d2ef877061d16f0519acb466097c78b5c48ac1624537fb00a7a,
    0x3d504f98108ea1438f4846a20ffc83d2c2a562b2f2f603fe8949478e2d050d1a,
    0x1f4b604e3196015ab47e838ef9d83ee8bf4ea47698bcd9c970b09b18d1760d13,
    0x37e93d5aecdfb1b7f27667a9e59f8e82d78cfc550a8d56dbe2197ddda317f21a,
    0x3aed903c0bdabbfb92c592b39d51c2bef729459bea373a8dace9a6c0910dd00a,
    0x1c5b4828669d2d1a457254ce92d63c3e2f64992ee5886006c5bf27b02837cef0],
  [0x3bc9cc310195f15ffc8076aa02a193b972b1ed5e3281f211c8727bbc5afea12b,
    0x584bd7e68ef977995cbdf12c56044745b3cbed71bf3166f37577b7d96f0d97a,
    0xe5af362175bd3ee4d71afcc3040323b2c40a7024d2e27e9dee3168223d83979,
    0x16d49242ade997289740851ef0d033497501eb58642bce0cc9dafc24b51db55a,
    0x29de4eb5d67153ca3a1a1cd1c5c6cff4f4e1b7ca8cbb0b6494f0a4edf7ca7955,
    0x2db875b9ba51220f0f31730012b5117d9c72e05dab45038f07e3627da08ee7b4,
    0x1de063a78eee1b6323ac5683496617418500ce086b78059d8b3bef11ffadc442,
    0x386dca1d0ad708766a0b5513ac2272041c71b97a966a3bfd92475c4d4115ea57],
  [0x38863290fcf2c6d0291c5793c25227f65666485aa8c2c39c26a5a7ffa84e77cc,
    0x385120bf852642712ed0ba63157e2883bdcfcc88253541f93b70430b3e55a859,
    0xc56556e4de485ff6a7b25db5d0914276d33ed99534552f80bc0bc0139ab413b,
    0x717d1c82a5108fdfcf2fcfa749e15007437177f60bac9b7cf2b9cb2399c47dc,
    0x1f2d7829c45117e0895cfc3e9b07d74313515e1c15f372ee5c4b86f34df5e798,
    0x169acf7066731ffe2a9ad864d9b26dfb35f7f7e0596e9af5ed22bcc9cdd45658,
    0x3e1de208b1c6f7f9dd42ef8a148e2aba4648cd7d97561cf0c6dc527540a386e3,
    0x2fa674ca5d1dd6b9c8db9838dd3f4f2c97d80947486befb76b95530b8bf9e15a],
  [0x3752512e393be8f933fe0d1a73e420c55dfbd148979cf3ee9b79db4883cb19e4,
    0x346d7f925bda48b06a31bb6dc6fc3af0a9be3735971c1948330d7fcd9ff0804e,
    0x1f2ad76978d6678916898dfea47f9d1c2bc83f4a9c80e56e034cef65dd5e13f0,
    0x1374325b1821910c035dc278155aaa77f644a7c440f891b49734d356ffcc58da,
    0x144b09243ca1b1d70aa1f342aa19e0799801895e096f8def31ee41ff5bc38694,
    0x2bd6d90af5984c731e3e5735a4f5d5ffa2fa626d12a0cbac2f007455aab965b8,
    0x33554f689713aab07a1c85dd9ba077f97c85ea2673b803296fdb8743ac9d236f,
    0x3c13bd32bd635ae7faaa62782c060a1523fbd8c436d7b5df96c7c1e96f6defb5],
  [0x18a7fcfcbdbd5d44ebbf23c30dd518800d346bfb9a2fd757fc3adef72ec20c28,
    0x19d4da23d01c114f32111c7145019fb151769e5d7cdff41055690b8984496926,
    0x39718c1f47e1e47399506ad683b9ec6a7b3d285ddf4e66c80335d5bfcf21c64c,
    0x17f82cb6ba283e36f491c883a4d949cc28a96f3e4fc3ef006a7a6b73466b4fd6,
    0x2e20ce0bec484a4edbc6c5ccf022c21ce64b0db643a240aacb67135a20cdfef2,
    0x1c741c13f64878a4da503810f54e0fd4c24c5954b81164df0c92a9d3d34b1798,
    0x33d6916f25c3a7a4a94cb751a2f1fa4fddf3931fe580b80c03fb8d7eaa75054a,
    0x6c91ade5ba95a4c837ffc2496eb6fc6a4329d80aec99d396d198dbbdd23f347],
  [0x121ff424479bcae596425b86a22403b8ee10b99549c623cd846a795e92c2eed5,
    0x2a779d41108cacc217308a160ecbea66ac8e91699f2d0b24493be5005bae0672,
    0x1352d7c84054b92d1645b0c4c097c71d8afcb2ce29368d7ea81c1bcd396242f2,
    0x3f1d3e2c760a02aa07e5e801f2b97ff4f3baacfa0d0da4cf450e8174e185bd32,
    0x1a9c7861887e9818ebaf2dcfdf427d8ae001946a663af9e81b451f06f2e61486,
    0x1fdff2d07044f63a659e16264c0a5cb197c72ab0a10906370fe67089f0f845ce,
    0x12471cafc4f8792fd6c22bcd577d62cd49c1abe5770ee5105faa32366d9eb909,
    0x397a2e2934ae3c555fb331dbc7cb7dfc9b7a985c4d58bfff4a0373cff57d06a6],
  [0x2c09e60aa724dd68e253c055794f1dc6682f0b72309af61c5469d294aaf2c5d7,
    0x21c4389362bd46f878c84d7e23246ad0e0954b826602dba268276deb1b476526,
    0x25b65163aef6ca6b8f3c9beb292fa6959b2d1656ae25046d71c360b646c5fe2b,
    0xacf3e70d5f684ef160087e2560e6b4731e9086084792c8fbf70b89064785cc,
    0x28fe7482750cf17cfa512870ed40f3038c0cb239c2ee8b3b02832ea0c1d79b13,
    0x342b0a0104f5044512d75cc0c6ec926419f2b1452dcc7fed58caac80f024a589,
    0x177bfae2ddce2b55836e98a71b21f7d9e5a521b59f43b4b6c9920ef0b3359e03,
    0x2562fb9c49e0663f715fb708218f95679f21e4d953f8259a324fb50a85ba5ce5],
  [0x30e18fb3fd6f72484f12d9b7d8f9d60f58a08027b59017ded120e4a8ef3e4af7,
    0x18ee5c45df88e8f9764957f204c4852b69e0b15b0674dbfe8f149b284cc2ad28,
    0x4a2c15d6e87f7e98e3684928b571f0192227582dac2160766dc8bf67530359e,
    0x239a5f70e106a1f436841346a56e7ca072ddf7dcf0f9d6b2ece021fcf0cc1486,
    0x77e227de4f0167fa6bc1940e69cba895ad3bc9829a1acea292d7a91d0e2e6a,
    0x28281202440db4e6ebd9a5b6d966003e34e0cf8f1251672832e8110ee77612ea,
    0x31f909bf292ebf9454d650ec8effbe2248f0e7462aeb7b368648cb4cff607b4b,
    0x2865a011afeb17a9d554482b41c26010b59c150c3c17e4afec56f8e0fe4d6a51],
  [0x3e41392dfd28bfd3917c933ca790c7fafbd732203bdc3a24ce41bd3b28f3caff,
    0x1824ecd8e8022760e4db7d1ebc3f3fbc41d6e93770300688346d735f22de8ed8,
    0x3fcb6ae857dec1d01260116d3ca190c5e2af739d00e746de492de8115985d631,
    0xc44025ad95b308aeb36249609c1aeb3e4b7285413e314dfd3dafa6462a8cdde,
    0x3a1e25e402c02319e3f17c85f02e324e7c98e032c9066755c56d68fc870d31f8,
    0x97982fcd3663192f1b1af4f0fdce9788e0588a21f63d194e9c38d21b2d49d0e,
    0x38c5e3d4acd86b3648cd7ba049936ce7ecacfb06766edc11f6e91a103e0df5dd,
    0x1840035b1d4b43232c12c9892200a50b1e7a32c0fe83a23f8eeed363a39fb71a],
  [0x3617a381a4eae7f05b7eebb20fdd79691e1ad6a105a208f34e309ca452c6aad9,
    0x1ad4396b234f2af6346db3606a7670c2bca598ff9c52a7938429ea9a2ee87cfe,
    0x2baa1c3c214f4a8641038fc7fdcc21eed3d2240f73fd700638fe11fa25287326,
    0x3588864d0ba2a9e10161e6408b713d14bd074935fa1d8a76d5c92badee029c13,
    0x21ba4f53341af3b71f66d274b1fb74b176a27c08bc890062087195a63a38614e,
    0x1035ab83e6c22d9d9214c4193d9d280a92484acaa8782f6cdfea8d803d7cc833,
    0x1424fdf901c1b78fab07770f44798f09823901849fd5668dfe15b512102455b5,
    0x1a72ac308fd818b8c304087b4186ffa44e70deb731ee36b1e616514834cc4d6b],
  [0x1cc02d73a134e8ab772e448efa339b1e764601aef07c5755368197f4b5efa5e0,
    0x60c59575f9d9e3269256337a07320c4d63243d539559d89ccfaeb620a5953b1,
    0x11d40c24ae63798a3e0b09a1fd81d02160f2dde5983dcf1f7b1e8b7e93eb51f,
    0x2098caab8bf107b06a094afa03512cde266711779344716829237ab0bf7d1fae,
    0xf44a056d1c9ff17a666dacca3e58f529e4c943d179a927d009505049a03a536,
    0x1306d28f0deac71aaba0b133c9fbd3ed27e480b1199adfd7d3c34eefd258316b,
    0x155e7728258b6a2aed5d4d52623df2d0629cfdee67b174d691122eeeba31dc81,
    0x2fc31e08737f288a32bc4e9497388202b9433b30fd6ca68448274e9ab1c55663],
  [0x1a3e8f94209d6cc597a25343494cdf901544d3cc95faf15efc558251b72661a1,
    0x1f01c795730f085675e193067960a8eca7b77d02b1a5dec0921e366b4e7bedba,
    0xc00494e39703c120120e64ddc555448b1ed305380dcd06f4797e891940d05b,
    0x18ed80fd877770fec9c77fdcf0708d01e708d498cb58d8e206962f17d60de984,
    0x2f8596029e69199d5053c543470d7c0d1c82cc705958b172e95417db151c9ad0,
    0x60bbb742de87c2fa1e5f97eaf3b1f72e3d67aefe8f5482b8bf59dfff6f23266,
    0x6bb365520e6c2bb560badfb586d5f760a5f15760a57fca37820346517b8ebc3,
    0x3f865e6e1209ae40969d330f16769e32dd1c48aa526ba0e1fdf967436dff4d0b],
  [0xaf8017dd15c803117c79a1ee032745178a0f32ea404f3b567c6402fb1d4f916,
    0x121c08cd82c959e350cd18fa3fef8365609cf138045971c4165f5dd761995ca,
    0x7216d79d09c1309ad389d756233fb7a7c4375a67614d5f44b466f6f4838dca0,
    0x1345f21f2fa471a65c7089d0598aa9147b8406d36738057d3cfee4b12dffc058,
    0x2e051b4461edcb3f94982bb0d569e55f153f45dde9b0820051fb6814f92f6447,
    0x38e826ce572fb6395cf5cc41896fcc2b5842f284ba29fd33ed8367399b9644d5,
    0x21cab0bbd8739449cdd8ebc16c1ac22eb02dbbe4548133c46f6825306d01de05,
    0x27baf702a2404503c095be1071c57b8e9b9225826122b8d44fdfff7d2b547d34],
  [0x1e8d383c15e34264b0db65e768fe1eb240b8a716c297de2b361d5d6c8076f664,
    0x1e71d4681f2fa1cc356981adb236380f7dd679f32150b5b10e46706139055219,
    0x381d185e8909e2225720ce920664e68c7edc21e0e85e09e3d67be192a2a2f1a5,
    0xd9f26f2c96162918c2f89daaa3d88b17da5464642d18e8f2a06b46f2dc0ccd2,
    0x16a7b1bac9c6bd4f6e32beb6f9d26fc4e5a8dda0e444f4e1bbea3fb052f88391,
    0x28d473b34bd163668db705b79d502527a9a086f03778c37538ead8fff6717340,
    0x3aa6a051add2e31cc5dda5838ac0b61168129be64eb81d4aed3dc0cfd42efca8,
    0xf3f4bae8c62495b01a96dc1f91a962e71dc7efaff747c708cdf03592b92354d],
  [0x1854ea7bffa7eeea6dcc49b4fd37086c6e416dc3593280dccfdb9ccbaa2ccd1b,
    0x1f2f660364267a32a95821fbdcabc59576e2335f016c44d54b728c513419db7f,
    0x33f724d43d050e06d6668922a98558d487f24c12244b2c3d22f036a6a8a5f674,
    0x24c4a3ad7f9f89b8e662d00ba46ed669c0e739a3956294ae58aa2fa4ed6303b5,
    0x6c252de31beedc8251f7b75134f6699861a73d3a8f21ebb16a2d02483be0f3e,
    0x1508325bae4c577960370d6a997f6f96b75c349e21f212291801cb140bc1c182,
    0x145e774adad4861734527264fcd86eeaf77c7889abae34dcc564f56f51bdce19,
    0x1f7e4fe39c8674becac1a0cca555da99efc4b284a9f31043ae276e89025318de],
  [0x296ceca6e101bdc16d5962bb0dcb366468e40d97fe269eb50fa784984fa7f4e,
    0x1f78b5c03af27cb36ba2a664e2a9ac90d21fc624bbc15e9d59f3265c5924873b,
    0x1c21043c783ffe118490341db3ebe5a555db312c36e4701d04965220d7abe2f4,
    0x2c9898c33e4f22ec8cd0cde8364f2ea7a10cfe63024794cf84d6ec337eeafa5e,
    0x2de443c4f1e691bfd51f39138a8014a07bd8218e2bce87932b8fd7d65b9036ec,
    0x241a0ee09cd048cb08e69afdd56ebe40ba7da73179e034e89ba49ecd027cf6d1,
    0x3655f43febe77ab6e89b38d9613a3cc43a402b9fb8464a2514af75f30d70a302,
    0x181f0c4a1a8ec4329913a765616be96b87e53a4a1162eb8c1261ad02387fcfc6],
  [0x32bc4a3f0c5f14e34e206bf89f71150bdc54678e149e62646311c4b78ea13f1b,
    0x2964bdbab2e7b127dba3668a6d1117445011bf8152add1d27d6b4ab9a1427cca,
    0x3248900396ac22c089e1e44d0ac0096c03090a7a08ca08e12644c939daebc7a5,
    0x7101cb831267e571528b5f2c1f0a27b26895bd9401511278845811353f190f3,
    0x1176f1774281dfd04c1e0205029eae658faeb7e561364d6746f76f357bacc3ee,
    0xbd5ac9b3cfc9020d945438448f7a09483a7b2a22efb886b49a7d730c127fb5e,
    0xdeafacd84f73adb694e924363f68a630f301d81b79de27a1d9604f8d33acb88,
    0x26c86edf68a60f757a0dc3664276f9389cf8abdf57f2e374b420d9866e6af683],
  [0x1acf83b57322bc69f947a81416e0f0cb221413dcc4be145fab46674e405529f8,
    0x64d1c8561c59db705e17c822f96cadfb60c10e482ee43ec87a5bc2e250f2382,
    0xf87625ce4867a68eca85e45be17f99be81d7c09c2abc8bbea436ccc877188c8,
    0x3cccf02caa49fdf08622b5d28f04c2215bef0b4db527f2a12acfa79267434028,
    0x145d6142169067c6f40dcf79bd964913859e2ea2b4317001910a40b970034dfb,
    0xc4e889fd2ce2d8ed4f288bd214d6c86ef807e89ba8f6a0699ade256a82acc7f,
    0x3c9a4f2548eb0410623018b1e1511d472454d43a14c871c83e25c0654872fd0f,
    0x24bf3dfd15196bb0927ef21db42d465d8ac145a3ca1229d9be1ab9e5d3a87199],
  [0x7e80642ad1817d518064a2eccd2ce1b407c3f43b9ac78a505b0d9d5f514fdf6,
    0x385f8717d155db70fee45fd63a5aebca3c7d75fcc10cc3ae810502b0d1d76dba,
    0x199b87eef7e8fcdb5cfebd3d91c521e317dac49c4199d38a694ac8c23fdf4594,
    0x2c382fe427ba541d1e945c94a1ddee84fe212beb82da16e49889918af3414a10,
    0x3e38daba1f44fb9c7573d7bbbf488ad7ce27d9c931e1b7bcf249e9e636036f72,
    0x90f28f797eb5722e61237c276576db3d138d788ae63db188c9e590cdf55a1ae,
    0x3e8da7a08545d86a7c2f6131bb131fbd846687864460f819555e5de7de08c7bc,
    0x17f15617eef1776e3724027f4948a54e01e6ca14a1cbacb9b80d92f40fe0379e],
  [0x31e027dcf5ae16d089fe0841450a27b55ce900328b45c0d19c0faf32b1d67f87,
    0x1f95fc346fc4c4c9b8e6d86faa38ee877ab6ad392e01ded11b04e0a6443da459,
    0x38bebdd21a8f317a9d2e850535ab50ff85363f8ab494b43575c5eacf38b1432c,
    0x127621eec7a527d8816d59d7d3c3951d9cf2a632fb57ecc75b01dcdd81ed0b61,
    0x3d6bfbdd8a5d2b7c8d0bf4b6b64f9d37870899042e6764d068bbfeb8776ba7ad,
    0x3e0128330dfb419c343a12e32456f10787248014872608407a61afa904f10f23,
    0x93ec9f69f0892650d76fe224613dc153f49eabc6c548d5d911153a3fa9bd633,
    0x13d33eacb01bcce98fefae8daa137227ccc5a5ba83a7a2c63d81745e45224f2a],
  [0x2b41a7a8dca4c46c187664f11bde2698da14a40384031ebafd7c3dcbaa0c920b,
    0x118f335f1e08d36879625a5d15b5eb2a4227693baf1e30f106ee3d4f714a8938,
    0x304c06d36c10e608ae6e875c983e781e3766caee8fd7fa28afced3ff4f61e93c,
    0x3c4f43ce58c22ce3607bf1f703cfea966ea986b9de202cf577aec20a605a6296,
    0x2bb6ddc3b955e6e0796ec55cd8bc200a2ea5727ec1ac92ea515f86dc44c8bee7,
    0x84832bf2b035ff77389f1d64e92439ee2cda83861ae2d18af29c62f44cce488,
    0xaebd7fd4614b0f2f88604a99dc0fd7def2a947991d8dedaf965365bb6a78bfc,
    0x2ab4d0aa097a9140b3bc2ca2259a6b603949152c9f50ce22276e464628fec27a],
  [0x2a82a8f9104179bd90c466bde51edeb1e8ca1ff0f810fa19df478a9cbb075d8c,
    0x28817e8a8ad4215956b919c5d7c2bce7f71e2f3bcb845dd9c15225f54778b46f,
    0x3c60a39573f2ab52a6e279146b01e44b5094114f791bcdf9af0874c0a5bc3b9c,
    0x193ebc94fe36c16e728d06c1a19b0e1f61663e905120143a0bc7ec2c0d01eb2d,
    0xf691562da7c8933f9c5f6ac5cb30f92691362abe0df40046ab759da48de5c79,
    0x31c27ad15fa73c4d1fb8f17a80be57b9314f3c2c6ec68a05c9ed15828b7addab,
    0x2ba32fb30751b4ac8bb7144859f8fde4be9aa5cf505adf066861d636e552c703,
    0x221129d0ea8e3d14641228633ea7b529a87af485ea4bfdf29021d6066c8ace17]]

end Orchard.Tables.NoteCommitR
