/-!
# Tables of `/repo/src/constants/fixed_bases/commit_ivk_r.rs`, generated from that file

Each entry of `U`, an array of 32 bytes, is given as the integer it encodes, little-endian.
-/

namespace Orchard.Tables.CommitIvkR

/-- `constants/fixed_bases/commit_ivk_r.rs:18-26` `Z`. -/
def z : List Nat := [
  18172, 17390, 61749, 65182, 33835, 155942, 26189, 52444, 40096, 139582,
  99218, 20669, 291337, 12465, 132211, 75527, 68003, 95835, 237325, 21348,
  35494, 215451, 49456, 6332, 99036, 224845, 25324, 23649, 83567, 20531,
  9280, 72505, 136089, 21180, 132741, 32676, 18421, 107173, 45630, 24851,
  53914, 156083, 104170, 103364, 25728, 9482, 140699, 42185, 285585, 342,
  78646, 326807, 68908, 10376, 335378, 138003, 41031, 105432, 37682, 15886,
  9325, 42470, 27439, 11884, 13979, 214340, 53073, 76228, 67906, 44696,
  178502, 130216, 4242, 142464, 211101, 13210, 66616, 103624, 7870, 143575,
  13058, 27070, 30734, 41157, 2955]

/-- `constants/fixed_bases/commit_ivk_r.rs:30-2921` `U`. -/
def u : List (List Nat) := [
  [0x186fc9b85494c8d9d8b6b2f9ae5c8fcd9baaddc236125c2fc29974c835eb2b26,
    0x2f4c73b307a603ed2d2af5744fc60866a7efe741e88005f9fada34971060d239,
    0x1cb2380eb84fd0317909c1e6e738bc7ac450e60d3317eb90b0dd2d489deaf694,
    0x9431172c29e356b81509a975c95b6cf09a967421536f26b6efdb0b65f30948b,
    0x2cf2e4cf814e45ff85aad304f95183f7731a1a56232b6736e04ddc041998ac2,
    0x2f79f7badadf101a8a41567b049cddad0700c2ba5edb40bf851dc0696ea28910,
    0x94106225093ba2518aa7b18a1e9ad2c2a7904c6362220b9a9507f80cf3e08f7,
    0xb805e45324f804fb18b2fa6e723ca38a302e61449e364b78c43916f8a83c5b8],
  [0xd0a4ab0869f9aebe590f58c3e58e9604f57c1398fe0a9d722478fa3fcde37e4,
    0x2f897f51b228efdb370e4986c13dea05d3518173b20c7bd4f7a5004c582d41cb,
    0x158b7d15e2d04beec21904d6ef8150059570c0795e6652fe41e9e13adec02a76,
    0xa2e43071082c4d63390216c5455b3c51517c4017385b1da9185a2bb5cbd410c,
    0x2fd147ce740958ffab367f8fd9cbb849252d6ccbcd76d933a90f769b8ba9cac2,
    0x281ed475d749a99fa455f80d11b901dba3f03b87e4cb52e3c83d50ed9585340f,
    0x187319abbe51162183750d35435030c268dd47af28a521ea21ea5fb552cec81e,
    0xfa8d1583c40ff5eb6b1e1a21cd511f0b542b00753ef02087a6db2d1677f41a3],
  [0x348737e51c5b405ef38c61f13c2ba7c9bd619ff71bb23656d826e6e5637485c9,
    0x255bb848eddd84a42b3855dae4a342d6d1f5739ef465e7078956de4bc156aa71,
    0x294c796951836b3da08668847c6757e898d9614ab0c7d56574c9d9e934d67383,
    0xa8e148ab9c1769bff2e33cba31e3347f70c92361d6ebffa964a9baf47e02cac,
    0x15a1e04330e1a1f541dbcb0675d7a3ed7bbffe23f14bdaafb5966273735662e4,
    0xdaa4ede50fe50b56c1392eaed8ae25c46a6f9cfae06fadfebd746c08c3217ef,
    0x2d62ef5128bf23a1d4ded30dc53e78a32c0579c978fd20cb774535b240dc5869,
    0x22057a48455b8403a5c9519f8f71212c4bc183b20283abeead8e40423032a7e1],
  [0xe25e94449a53327e8bd6161a88988c89833eae0d2bc24239d90558256bf30,
    0xc7c567f1ae471238b974ffac3c6a94125ea5a0eabb4074067d80918dcaf5606,
    0xc39de356bfdea6edbd6e5b029eff768eab5bbaec8634f8882b69810bd5dc276,
    0x3a18ab36dedf1e5c76d4bfae4269c34279e8e7595c920979d6773dec6837609f,
    0x3b8cc097ffc662de873a1cf29108a85a7eaa3988953ac9c3f063986ced03f44e,
    0x2d8417e3ff3b29b8524095e71bb5ab319696d7b36481d7a5ed87c182112c7b04,
    0x35283c76faf27348284cf285da0d034ddad83e6cf7dda870608dd21519d00bf9,
    0xf3b208910f3d881f156179e3d79c11658873840166438b5c4e6c8d16722cd12],
  [0x3ed75aa1f7e4717a1e2d2445c6fbe407f976a1133066dad1c5be316e3d24bc43,
    0x154c74d329236495f692b082cf17b5235ab452741f753cdce033557eb9e6a3e6,
    0x2238c5e66c6b4aa4710947a077392afcf1beb20b48ca947e41366d9444bdda68,
    0x8f4304cb521e4f94c6feb647788f6344aeffe3d9c7c4f7acd75658aa1e343a8,
    0x28e46b27082ad274c0bdf9bd5eb94d9ba7b67b78e1c6f78ac0af6855aa22be39,
    0x336d122fb8e48ee89c0ef610a2625d62612e9c4d747de694fdea855ca068fa89,
    0x25fd07548d537cc0f377f59dfb066853c71d9f20ea8a022c0ca4358256f3eab5,
    0xbc47b5e097d5ee4fc9f257b292037f88c6341772b5eef2cfdfb23a78e34ccb8],
  [0x2852bb81c7089189835188b25e4af6a9f3ad6f77900267abf941a02a38111bdc,
    0x36a344f845cf8adc85f3de80607333ec3f6e3586ae980d1c1a053fb7545f0e0f,
    0x2e3c002f983de8bd0c89c191ca717cf365c4f76cbb87d6695c463b587192719d,
    0x306af7a45ae5959dc0b0647453a5f68473bbf6fae5d23059d0978442e04e7c79,
    0x3ef31e638720b7ff45a913592f66616c4d4dc3af7791297ea2bbe6d5666b2b3,
    0x2abd7d79b0607c3095dd20fa4fcc57c6a455c08994818f550c0e34e5a3ae8297,
    0x19a6253ab5196b10216e2cb7848b68ead16770156f34c39ac4a5b7eadd8f5b99,
    0x35e4c3f1cbb4f1132c01b2e2146a047547790bea3cefde3115b7c03b6859432f],
  [0x3c0379c07688afbe12b18a58ead534d145ab8cc8c44236c2977f699b022f377b,
    0x3613728b831f4b613ff282c09335d0411bdd4e637e3643a4d53294a86d3c9328,
    0x7acbd8a61bd38a1d1c1c642b2725e73f46112df0836205a2c61a46109c1ae12,
    0x2335f9610d48d5bb16a318b2db214dee0e9ae51d80b8d37ed2708355aeae1e49,
    0x18272cb7713adf5549065cf8c0a66361a05dc3fd0a2d934625a6cb34f29fbcc2,
    0x77318968467cd1c7c9af7433732d727acca7d1a721f5f15e536dc2d3c54b5c2,
    0x28bed20f9e93a993abd8ca98932f9fc20c9d401c92ee374826908703a47d123a,
    0x2959f281add8a2ef0c300c522fd3812d3dbd95c3242c355a5eb343be6cf5c311],
  [0xbd00b4c9c4ed7c4fff825f0171fba7c17b07d3931437211cd7f7a3904cf3f57,
    0x6d4bcf02886badac3ca051c1959c391678e3db240fa9b301a8799f87a777c6,
    0x1e37b31892308c6ff69fda2780858a2db58cef9490f36336b4d3a5d19ac2be93,
    0x295a705f34a96317ebf53612282f14f83349a905379ceaa6c996edaf2945daa3,
    0x2bf060566303468a9384379f4e72d1d7507166a6f49861988ccdb5bb0d7a9a6f,
    0x30160eb4ca57c12746f480cd92f753d78a2c91dfeba80124923325578feff7f4,
    0xc7b5ca388a0003760b4f066a28c788ae2a027741a12f56fb254421c588363d6,
    0x4b3a06e0578bf10fd907d94e894cd72487a075035f3bc20194908dcec44b9b4],
  [0xc03e1b534f85bcae4fbc493969f7b21725e6bd74be75ee294f7f792f68524d7,
    0x8239268254d08a618e097b3efdcba46698565a4b3e9e8f9d94948647f67d997,
    0x3190dac1558bca912c3833813de5ec52fdd5fe118403047755c42d0e89ac9cec,
    0x2367813264b605ff1076bea14230c2b544e7eda4c33b665dbabea38653140354,
    0x281122c35f4720ac9fa8f106a86ded52a05a58f1b18fdbb7d56814dd90fb17ae,
    0x2ab5d83e943c7e6ad2c2dcf876d636fcfbb30d1b9dc431edd50218530d9c98c9,
    0x36b2428f904f297faa7538e063b9882ec1e9887fcd861ef346e2737492677b0d,
    0x11b971ccdc3744ad8abbc861c7b31f32f91f6a0c5964294de3018008c75f446a],
  [0x364b5a1b699a284f66eadb153686e3dbd0cd584fc704cb92e48797bde8a58b45,
    0x30f65a6f84c2f7726f675f87a71bd85ea87d85d83472ef69873f9cb62d8aff6a,
    0x1a534f806f834c94614cab43ca9025480b3d57eb97f0635adc62344ae4e109c2,
    0xddff80435521343f1c51b266d7c80c1101512d66545f5ecc918e9cf6c21e265,
    0x1ea1879743fd6c0aebd10851c1a6273a6dc98493f3b6807293032d59897e62c6,
    0x340bf3df61d95fb2385a64b7135546c16fb5881eb24ad51042f8d749694e3577,
    0x3393c5290d6c9f30eb44bea05d59915f2c08a971259fdd340a407debe6f5790b,
    0x2738ff233b04c5735bfb825371795cf35ab74453b0c4c581ed96d905ab26f5bd],
  [0x20683a112610d07bf87cf8ca0f267257848ad3080777a8f74ea6a866c7b73fa,
    0x14505b44a72b42543ff8d73d85f48c4b76e9669b2c78bd0126359bfb5ce87bec,
    0x2ed7e14e4c07d135a93c4bd36357208e0bfc329e719ad6f32668edced58ada67,
    0x7533a98b2e1acc444260d176c07ea51b513ca6374ba87bb26159cca8db4e2c2,
    0x278ae7fdfa0777cd1ca8fbaebd77b042c7d491205628545e0dbeabea9af686a0,
    0x3c9acc0283788ff7cdd8ed11003d3520d470ff9f5752aac75bbbae371f6b4d86,
    0x2f9c92c135634802dd0be0635adac5919de67fa9147bccfdf6c4682cc83bb5c9,
    0x1bbadbbb831939e010d85bc5946b763694409a260f08698f3687add7fb92f529],
  [0x1db348ae9c0d11839c9652cf3efd549523881a180cae3942b21237b56374fedd,
    0x114bfeb034cded74922dbb431df0246f1df3509bec28ee2c953f3834b0302ed2,
    0x72f2bb2f2c7d75de688eb6c2e483131e45cb8f0df938df89ebcf07c873dfa23,
    0x2df77ea8c74aacdda9b824a7883edf85573cda3be90e7e6db6b15d2f131f701b,
    0x7cf47de064e3b4f37cbd2d13c773f3872a7b5e3e240025f5b864d7e26cd8750,
    0x2588e4c9dd701e06199138c67b39fa639569f492e4aa05cc24e0667d0fca8171,
    0x1cb2c4f0d7d92990f1865502981e28160b5140ce722b5d42bb793931689680e1,
    0x1ed692774774c4d5d3e58ab85709bb3e7d6570ba4912da483e18f6b97879322e],
  [0x111a7388df7df52596838c2097fd0fcc9654fc31dd5d3f023a6a0c9959f319d5,
    0xc33ed1e6bac3e5f15aa409099deabf18149118f89ec68b2adf24efbb6a329a7,
    0x2c85f0503f32b90b0465e56ec28dc7db9670604c3f206d1587d003469c1e67ce,
    0x31c31b75887f0cdb26ed4d1d5970e337b269425bd2667a0685df14f62cf71dae,
    0x3e88ae30e3cde2c0c6cdf44c298232bcff461dae1b5d73ea31665d765a358d4a,
    0x3ccdc4cba4702ff645ef0faf6615c859e41352d851ce4070b2c7ebf648082d81,
    0x2f94f195e4c41dfbec33199b8299099ff0f564d975b11e4721f57b2d7c98de1a,
    0x1c4e707583898a65b496a6299f8a832eb89db856beb7d751e7c3db36d9d28cce],
  [0x3249e5fa61674a261f5bf2b5336d6c72ef93262a0c51953f29b692dc2e0f520,
    0x139ccad951a06be890889e047f5f385e459ee02ff70dd0fea968c032b97275c,
    0xde763811ba353739a6e2b75675911ef79524de098a4942360d8bc32f6d81240,
    0x6ea59a8600a2690ec97db32949a01f102ba62d1305709bf581e1c1ae530b966,
    0x2bf9dca8fc50b937e1bf3fc3c48f2a0d97b40573e798c5ba577217898bf119db,
    0x1170ca2e3e15e0bd676ad4631ebe17bb51bcafc2472b87894e97461981b52738,
    0xdc869a3cd857b551a95674a4ab17405374deed5b0b8bc59a9127896a7748f42,
    0x2dca8aeb2180f9a28d35bfab4eeaf6174f8444a543a128283b19566662286398],
  [0x107d9286d6bf29bf1b545817a8d80056a41c3057c6e95f8d2d7886a055395a9c,
    0x352e92b04a7b7a8ff1e8699fa34626606d9797ae01c91013a8740ca711edd5ca,
    0x260fd02919628f471c6c9ba1194fce37616d9acfc7230af0b0715adaf5662356,
    0x14520a6bd70a98f7e2449a351ba5cbadce592ec09a21f3260f4d0c8760986915,
    0x1aaced675f82fc415136b53b2bc8a646283d5e15f661f64168f0665b7daec7a9,
    0x13d9e8838b39f2a0a1f7cee3c3f73413e6eaf5f66882adf40fdde4781e91ec52,
    0x2350602f24ceb17af2980e688d767a3e6ec4ee23f28769c7fa4b6fe5cbaf6042,
    0x25a06658a78199c3c6fb1f61d69af15f5608687cc1069c03cda60d12fff2c2c],
  [0x2fb19e61383ffc973f5a452e56031815cf8af916bfd835a9de472b8f4731b81f,
    0x231ff1819f40e95c1cc603b6ed97537f354aa7492b4da77003e801f27bec0b50,
    0x13ec1731cb826df05506cb139e522944f20ac74fd165032b164c9775abc944a4,
    0x1569ebdd1341273c421911c49b6cd761fb5ae68ff2960ea7a103e4ddf5c85bc8,
    0x32f47faf0b0a8eb73c01c3243d81f5fedf2e5ea524285729918d0c2b2df6c826,
    0x29d79b24a1dad041fed8cf2bfd9f845d7e3753b143174d9c036eccc97cccf2ca,
    0x2e7bbd505d6e25ba79ee4c2ec0369a0339622806df7ebbde7d09688acfb0f6c4,
    0x1aac13b951776eeffb7a16c25bed548748b9c6cee957824f9569cd19143d3702],
  [0x1349307ec9ba1649b89b90112875e19007e9afb798d69c09e3e2c3f1f9c12089,
    0x1649bd51eb1334b1a03af75fbf7aab0a80e8c248b32081310a0ed96e326e504,
    0x4078a6a2ed4e6142114d3a24e60d4e81f3c5aa7d5220b05307a3ab90063e26,
    0x359942c18166b8c6d22c9bb5f301424933473e178c590fcf5a5d02df658fd9ad,
    0x3468fb9e024579dc06e6b4cea9b28c227c7e5825824e0b472ba83c228cd4842e,
    0x3c9afab136cdedd72d996a8b3668ebf9b23c7afcf3711c149875d97534eb5819,
    0xdc8129d2bd5721873c9e9a50fb05586f325342bb9835e77289ad44bbd971490,
    0x1099fc0d87326b2c46e539483dd6e3a043acd3b2d296ca796b4195a983cd33e],
  [0x261a73920bd14ec96889bcea2d20b78cfa832961a1292844ac05fdeda8077e78,
    0x2172e441ac001b1cf207eeeded90bb7e8a27ebad99d1f9e2f655e104f9eb197d,
    0x84671d01d6f90f439d71fbaff42803989a465031485a95b8414a0e98ccd6086,
    0x2fe0617c75d5e52c342d8395ba47e741e5089d13597abb97024fcc62cf7d864d,
    0x2b0ca24afeeb52725d5f676e787cefdb582b36176663516534a7951d74aa1f16,
    0x22d1e0347a674c6b704594f99c328348237ecb7343c542aeab49333ef4d0709d,
    0x1b1d40594b41398939fa2ecec5b06c5360051d4099e65fa7157db4e33f4f46f4,
    0x1af3e7c9002868a6b0383bba07861aeb913081036920e9581b956fd521aca3d7],
  [0xd9df89eed2e25a18cb7e4388888adfaebdd0df77a3df56e818bb976819c2357,
    0x3922f83daa09bc5d178ca94d2a2f2bda812e1ebf376cbd3bada96382fd15784a,
    0x321267996054e0bb42ece7a203dff73fd00c96ce4b24076354ea62d5826b5d50,
    0x1a11fa3e6297817b49268f18d57b8c0cc6a9a30a1fda332165110837da9c79eb,
    0x179897cf45bb3f98c77eada92793e30d89840c744e5190fa2e0ae37212c15498,
    0x1d7251412a5af84efa061e53ee7f7e5e0d4864ae47d59e926ff5147ee72e808e,
    0xb9a7d6c5c9bf26369585d82d212efa3d8e68c05bec1c8ee9cd55525cd891dfc,
    0x32236610ae4c2e5a7e3ab1af43ebeccb9c541efc32e5e4a429b5357c2eb85d8a],
  [0x26f5cb88bd8420c1bcf9856ae238a8d817ba6994fca5e56cbdd0a2940a786d42,
    0x23a15543128d6ca86320d6a3689ed5430d95fef77003763e4cce8c24c8fcc4d4,
    0x23e0149833058b2330125736034fcbcb9b8b31164f25963b5993e8ebf3bf4675,
    0x32c0619b304f3a5a2cdb99bd938b70ff525389f672fde6b0233c2f060d472392,
    0x337ef4d3bbf08a2ef87d93ca71cb11750cc4ade04092040e88941169e08960b0,
    0x33d865ce609bd54286679d664bab8044192b922112f43abbddf88b147d27ee0a,
    0x38982fc5c476f40d38b1cd2bebfa3936ef1bf7c5e4cef94cb5916d895b5673eb,
    0x11085352a4d4fc428842551dd9484bf6a77b87efdff3421ad345f5ac3b960eef],
  [0x1ad8ba7848031f015a8716ee029b6657c78901d39a0de3a0d48fdaf2595e40f0,
    0x329c8c20837a015b3f2cfa5413f451369c2f7658c543b7240cc671d6f343b111,
    0x17a4ff9c1a9e95b19fd57a6a655f01766c487f8a140f5bb9f6423ee307ef8312,
    0x1be8d37ccb600eb9bb88df046929599184ee07339e82cec388266695d90b8f9c,
    0x20d455691266c10637f30c89458ce8f48e881261ccfb656d76ff53af493930f3,
    0xfe1d54ee47a667c2af545f1b04e4866465894ea06e023ced479437b2215486a,
    0x2ef37abc0e50f4f20a9073c52df96bd7d0de340a0dd94aea53610ed1bc934c8a,
    0x2e1660f2235f9abb858ef3b57d538ffba8d00445dc9b9189bffdc371f63b0187],
  [0x3fd2ee22dbde6f5d276517a4d486e436d733d651338a9437169ef249c6936ad4,
    0xf1bb872333483a354be42c5f5f9c9bf3ada5d5bfb3d79d9063fe540ea66ce2c,
    0x26e1627d9026391a8fe655450c3dfebd40dd72f2de4953dbf8b1b5770a40f5cd,
    0x3be45913e44eb5e5cb12306ccef79d6f00d3209daef64916cc2e419ea3f86e05,
    0x2b4af3fbfbc8c26a97dfa92384a26b0a30f9317d930a9aa1d308fcaa65bd0800,
    0x305ab9dccdfdf08088bb318c0b092ad2d827c17c0930e595cf48eca0806a6d39,
    0x3a4155f789f9e41c00b9521e959cd93d2120ad64c7a5108abbd5a53004a4fefa,
    0x3cb4e03c0557fa725d8ed1d3373c59d973013cab8a10cfe07c6c03d6460ef202],
  [0x329b7d0db95eb77fe1e578b48ae72a82fa46a003e4fa36a329d374bfec155d90,
    0x1c218d4f584901eee95c94e80221ebec31fb2a970767bc0e9c5e817901fe0eae,
    0xb33f8bd6d972e3c7af4184dfb9cee5043aff902448175f5b08f9b8e3ee4b114,
    0x3b1d0a023d6461a57792170796b9272d1cd88aabb67a0302eccbacd4a3dd5bd7,
    0xe74919c89917ebdf94ec3287c41fc2a95ee0f58b86018e94f9ae1d3635871a1,
    0x23bffc773d21a16fd8a5c9b17a3042a4a55fb654ed710f47e26eec1625f87cb2,
    0x2f1e33bca8bdb3b33f35f85899107d87aeb71f1697e29e08e9fa8adcd00a78c5,
    0x97e1c9be8043dceb6fe5d4c971793b82a02040f70a72b300c720f6144425270],
  [0x3cba471798da8be22495fc13b402c0e79a82fab0f2f2b422d894df3c84b4d891,
    0x220a852d0d02e37baa768e5c1d09d991bdb8dd55bcbc7e4b39fd4ac44a131791,
    0x18f973b22e38c077d32948e388e9c1242ae3d54619928fef14a5e7c62796a25c,
    0x284976a384a887bcc34172063daff87dcf3ae1e959e5625e85c5f42b3b3f6ab8,
    0x23e2fb211c83433c663aca2c41da7bbb8574f0d5d70796e0a6047fa2505f2c42,
    0x1d61d074d7985fbda0a13fdc3857b630b36d3e9528051b4eba0b631adb7ea559,
    0x1da1818255b7d6cc8c718dd31092e12f41645fbc0c8bbd7b2992e7a16a664485,
    0xc6ec81dd38d0daf50edfb45243d56ddc4cdeb41b2b36b8df5a5cdcc9101c5f],
  [0x320a3f84c82059408a0e6e4902b120de363cf863ebdcd4a4bb854cfea94e0a99,
    0x7fda87cfe18794e7781c2c33f23c36b8854028a2772626c26d35bbf3a816bb3,
    0x758ee3ea95a85ce377907a55cd63a76cf911fc99545967df32e014f8cfc86c9,
    0x28fa1b7ea2f4f530decf41766862eb222b52a6e15add14145fb61e804eb0e77c,
    0x1300f83b9ffd12c8ab126f784c6e938497a10210b0060aa3ba1303a70316ea54,
    0x3fba90724022584eb0ac9fad5f6f5d49ea07bca46a07211be2507572f4e6fbfe,
    0x32061cc8568180e7ab5736ad50687e1a3ad098c4ffe6f6a888d5fa94720067e5,
    0x1c6e4edd0c1b2514da23b9d7122191a997cb85a285dacd85629fb17ca254f647],
  [0xebec8505b4c9ad32543a8b4eb4dbfeef8c60f72213ab031194c353e9b582b07,
    0x239e2dae91f13be73a8a79192e84f34269438ce3b64036a7d38ca824dffcc8bb,
    0xd410ed7811448998a151c1bd2d7ed4eedbafc627634ab2cfc3ecd2d44b3c959,
    0x3be4705a00283c9e430be220264e196923f17cf4da8c05da9d32e4fbf46072cf,
    0x3aab45eb93467a72b7acb5c7da06ac75dc8a56b00d25efd1051f3556a6ea172c,
    0x353cbe6202a189a30837678c7f66a1c93eabbaca76e2077050a3c96ebe1d80fb,
    0x13645cfa5964e44444618b8aaf2566afa2ae1ff5f495b884a89458694ad14d03,
    0x2c0b7198aa114197d4ae06fa71b01f2782d0de3152c1707289bb693a2a9bab0],
  [0x6781f0390c8b03c812fbf3b25031d31614d00586ba7e01bc57f57d91435e797,
    0xe5c0dbedf47febf5354c13304d5e47e084d088882bd0f6fbab5e2321dd31132,
    0x2dd268ac431206abb86c44612b24d4be7b4fb82751d7226d3fe618744117d0eb,
    0xc09cb27e1efb4569ebc5d1eb6e51e852dc373389c8759370abdc833bba03d2b,
    0x3604ce22a50f9448fa859f0858a834206ff33512256df261c67e89dd11f45d70,
    0x1c49ae9f7de95c6847152e0251c5fa45d754d437e14957a835aaf07a1d2926b3,
    0x237ea07b8b637d7bee20a12a881a78d77abd29bc2cc0580172d727be277f93d7,
    0x312f9da6c4f8965f18e46a39e7867257226582934bac923ad6dc4cd2e0a63a8b],
  [0x5bada668d9b053c0f1a53d1e8358e1a863916c19dabaf2ec6d7770e119a2c9a,
    0x3165a63227ddab28f758fd2b7f1f42f6f619a0435c581014ddbead62257183a9,
    0x33a36b7f3338810e855ae64ebad91eadb5c6367149bc5173a7d5f95ee337e806,
    0x376ee8403d7d7115627a7001d30584f84e19c3f1335f3f622e23311c4ad7ee78,
    0x23127cfa74d6dc95b22ef38964b6bee20910d597e4cdc3733488aefb3dac4a21,
    0x5bc1b2033b0a5a247ab75987e30736191357d85e18af3788daee3b52bb72c17,
    0x38b443687bf1850907a0a1b5257e683258c1cccf669b2e513850969c82e563a6,
    0x3f543c5678a19e9325a595573c56cfa584f808ae4e70ab4ee4ffc06499117305],
  [0x12bc57fbe497a0e36abc1ecd0768b3f154b652deb7e0355f0182b699385d258c,
    0x34ec1aa92ca31a2597f7d37b46df25551fa474605055b29e8b3d78585fa84b45,
    0x1e8254673e48b081bd3cb31c7431a40385044d566bc3caf3ea55eadefb51f0fd,
    0x2778b8f2c29d8011dd654e278c80d7424d7bf987ed30b66088e59c82e6570782,
    0x16b1e4959c2c7ce3513b004ace688e3f0c2d99e1c94d2d1cdcd36f64eec2c6f1,
    0x18d3424eb8ce7316b20d0460031ff1a4f8e6b5e92c09c16844855c452d941821,
    0x1c48c09284b089900586869900bc6793c31b90942d383d24b8ae3ed36b607593,
    0x35fdbc45f2f116d363397e5ee1414c2eb12b4367afb213dd3f9c1f9fbdaf2b29],
  [0x25b20bcd63220234b3450d618802b45299337dec8cf6c9d45519971d04755410,
    0x21df170efc6195b9a35d083369ba8749619473bf4039fa5b216702bf19560532,
    0x2b453d17a8d5659a9408bf4535338ccfaeb6967a4cee7a2baf0b9366ba425cc,
    0x2d46057454b015596a5efa8978514a32bf46b9a37facca1352d8aa210dcf0fd6,
    0x4a91d4a122e46ef946dc25ad1f262e286a1a5dd22a0face9dad6ce30dbb5e4,
    0x3c6958ef4c080cbf453851c2a199e8126f78fe1c41f85f06306e4dbe29783f74,
    0x342b0a1245d0b913e2aacbfef264403afaf7dfd8a1d8333fc2e376caa37b119f,
    0x1db62f40171f932b1b0777afaf56f023d66da955c2afe75a79dac343d85cc4f8],
  [0x274bec0beecce09c1a4e9e3f7a52579d76ab21edcf7e94de1de9652c1bd459a8,
    0x956c0ec716aac5ba593545590d666579d321327dee47985914dc69eec1ea2d2,
    0x10f725a76e9c1f57d555d8413a7c718f41cba23af6174de03a63c0a290c18862,
    0x35b130797ab6d74540c6aeac5b5165b5f8d224b9d6d667e22bdf27fa3c223972,
    0x1e97d1db68ab79678727d971e94fc5c59f9b0123c54fa81fc3f5e4ddfb09f736,
    0x3af3d78eee0d5b010e6c850a4beacd0017962f69a0cd902d24b3185757864c43,
    0x9f5e6b3e91d5002f87fe499b5b3f342169c94891ed9e209047e36967d05d36f,
    0x18ad45135769e80575848996e6e33dc33a42571c9f32c1b09afa4925241cac4],
  [0x11c06a973ca0d18e4ac17c509cebf04c4e3ed28509832162275f6a3e53801bf0,
    0x2d92773db60307dda8607783e63fbe25ab24805846453022c31a30b8b597ea0a,
    0x286bd106806e4660d54933812e56afd9278835ffb99bb22c2532e1d14d0eb101,
    0x3ec067dea670e8ef97408506fa40758aed32e1927a76f2d29994b62005722901,
    0x2414a0824ca047212ab07fd49ca013f25b1ed09c691d2b73da7b275e96aa0b28,
    0x2c9995f8eec164ff299c346b957817df50b3f3874cbbf919adda787833d4afcf,
    0x30956d92de11d8d3f3e573dced27f28d60a7bf5429aa02e85b22576636b9237a,
    0x2e983504cdc9ae8267b5fdcea378ebbe89fc38902ce2d5ad62e59cd6876d1487],
  [0x2e905e6ac58ab9562ecdd3747421aebbef3e280fbaa97ef2bc0965913d18e0a,
    0x3c5fce2cd76dab4c526f0fab0285d8da5bc3d9e3dd73de50b482112c1d4fa89c,
    0x2b5e9db484bb476e7be45011deece845a7389bf698914887036112f37b4f3252,
    0x1fbe2d2fbba6e86a39b5566d925e21c717ce12ad194fe44ef77844ce3ede3885,
    0x314a764049abb43bde221267d2a575271e1a8fba75e8d9aed97bc721341ffbff,
    0x7ec97d72e93fcdb40c8315ad4cb0005f101bad50c990de71530df239b9c5b44,
    0x18c7ac0c79d5579e8c19be35742d56f1c58505d2de98821e83a08bd75247e2f7,
    0x10ac246b0a59043a56ba9b7dbce9a75fdfe4c6f9c3bc7604779536a30b5f8de5],
  [0x20c615fba0ca98762733475b8cd563e007f1158f0277558cbc31a44dd81ba5fd,
    0x35807c6ec49bcf242eb0036a55020ac8d3795ff9f2f4a0ada3ed52154e90d200,
    0xa6c49b964dd5e437f058b40c06716b265ca21892a7e98da0f79c5b27b9bfa55,
    0x3bc345ad29a390edcb98d39775b2f73697a3dbe2f0d3ce18190dfaae4658350f,
    0x1d19a1ba170f7d81329a6193042fe0738f374d68afd27b7914cf208998f9d1f2,
    0x3e072d679df67a405669cb7796822e4bb8f200691b2413d1ceb4c4290b6c2fd2,
    0x3abfd82464c764588b3a42b450441a284c4cf503585bda5709ca3ef29a79e278,
    0x11466f68e604bab7421c87a53040ee3a248c33e244f634c85e5dba801e878ea0],
  [0x3219e44aebd51b9871951b1e7b772387104036baca18c033ed6d4174d8c5a3a9,
    0x395a73c9c35e4bf1638a1ed8c9ed21c99ce9c44e3a8f14059db0d3f360f1925e,
    0x105434fe9f583aabccda81b8cfbcc4133c14058458d2656efcfb1fecdf5f19df,
    0x408fca862ccc453751ceef971e73df466e598b7ce6fe21dc090c50574b2fea7,
    0x22c4424823dd792491e811a61c789dd4a8ade2bdd402e7de2e5b6a354e86e474,
    0x334b129efa99cfc18a70d433e67f64744c9e79cb8b4d07f67b9d44a6497a8514,
    0x38b6a1c40568b678e8a4b355212f77873b704585c4dea193fbbc51f19cceaca5,
    0x87c37ee4bd83ec693c5bd07e079c2fc86a7483607a70ebf7c81bec50a178ea7],
  [0x2ce14d273ea4224e65bc1bb4c95c60cd52296119735ff19f2d1c139cd27307a9,
    0x3612162915f31125c21435a5c06ac1d7bcd68450df19f36e4c6d27e3b2515760,
    0x245121483ee0c9eea5ccc87ab13eb815167134f3ce03f6a3e1fa4343faa8cfe4,
    0x18dccbd526acf12ab6bdce520a086d60cc26f2fa259577e39dad21413621a3e,
    0x2a27d648f9f2e707289165fbfed581fb356ca540365a682b546ee95886d11a11,
    0x34332f128fcb4a9ddb4242a52a7ec27e3851cbea01fba24e9c5877da46c011a1,
    0x26c941a49d4c2441af1ece6f862632738fe6593c9df97b4834833406e8939d2b,
    0x28dda59237455d83cc8e6991a74882fb5a3c56b41438faa1e5d7a67a2fec16ce],
  [0xe1d4136f7f551c25213802e7093251d3870daef3476c67f77f518873b15f2f9,
    0x3e055f2ebbc2e3102431db621ae4e3af547f85f52c4d7ec8b733eceef8c5324,
    0x302b126235c910561304841e6f16935cf3b6ddfb0a4c665978f87732a5cc7b3e,
    0x3a4f73ac08431c3d82b9fe2e6d871d9a6082bcf58fee9cf9ac95407313e72833,
    0x959ff6797b2e7f36c54f24d745822eefd4c2616428e85f6bd5232ffca637b36,
    0x3627d59f455a5410b8b6fb6bdd27455e0f147f0c9bc63f9270180b5d0f798a50,
    0x291eb82e3bbe4bb3f49f532a09a30b5edaa3627c9e54c3d854fe38d154ca468b,
    0x2a0fd9a365cd8e80e245414dfa74359a738fc9d17e3331b624cc4b056f7b4b68],
  [0x2d6ad5124e4aa19b99b4b7246c3aaaac13eaf5ce4d56d20720e792c85928000c,
    0x2e9384a7d2dc106e0fc498386a9352aae1df57845c5387f1eaac5b0df5e37936,
    0x22a8be0738bb40df78558107fb51b4f1d22ba213cac3fdf95a3f993beb54c2bf,
    0x36232878174e3a0134b3b4d40440293c610a913561794b9ff08639531dab3c86,
    0x27752b1ba58136b5edfb07fdb4deb78ed32fe1afd5cba6d2f6c2cd4902f06eb8,
    0x313e792f6f5c1edb6258758afb710a5f03067f12d696296e7425fa0b69ef75c0,
    0x6f9d3031e0fcdec110da313b552c0738497e1618cdd38d23a6eaa4f00bc296a,
    0x2d260d346ae156cbeaae7814fc24a25ba1e77912d5105991bee1d72443149057],
  [0x2d88e3ed2be5a234cac5a02261a497c71a9796f12584f87a9dc9a1635b6785ee,
    0x39c6c64352bb12a3b3b210ddb7db6c64ceb955240b1e7118defafc21d13241a2,
    0x1bc4075d481551e1a38fbb78115cbab7e71bd2c593989cce8468d77aca59e945,
    0x3784bb83a463b766ea5e78500486e1baf1d565585ef7b5ab7a90ff751d13ed26,
    0x3e182f2c7eb8477247bab7c407c4a42e8493d5af97a93a98bfcaaba0c7409c9b,
    0x281cf89830631f8e1a48515daccac7c6811debcd8c8beb4c802ee16fecbc2c2f,
    0xe1942829e31e155e49cbc067871bc3874178a1b332e9efef98962ce2469724,
    0x265fff4a51d5b252d8d053abce121665df212a1e39c5be10b0e94caa552a119b],
  [0x55f007753fe14a93c126aad151a822e566664bd75f5d00d3c634df868e00836,
    0x8989ced489380dec548b67aa93394a3efcca5fd4188032762fb2afa3178b2e6,
    0x103069c4f6606a5960f0eb844e4ee6d11504296143ad32ae813a6391cb05613,
    0x72036a3a28085ae9f00067d0d4d0a50fef49bb0ae1b9707973f67318613e1fd,
    0x979e236841ef995a09118f521d97fe9bf7996e462f57de3075c76203bd27a14,
    0x3b4d2f5fcc7f85189bd73d7786c1dc34c456b7f4f215ca06b1c15172aa3eaf21,
    0x25a7e4622820c7f4c869345a1a4ca677708a83d2f2fae8ceb6276d124a3206bd,
    0x1954fbb84d2361ac55c8b650f5517e40b2bbff7ef147f2e4d42f4ca2239a7138],
  [0x38a5f38307308bc1976b97898b574dfdf6d204a66e39d0554e4ac2ce1d68e60c,
    0x12459e90c6733724f2f581d700f155e45a97dd2c77c9e99478820ca703c86a10,
    0x2185712f42ac237d69182ad458f40f082c15b40e90a0d1b67e870654e2bb2c1c,
    0x37eac0b081647ac0a9f0ab0da5ca1905c709c4ce1349ed13f0a688bfaf90bd09,
    0x2535024a60488792eb5957edc26a34633f88478f27ac7b5d90a3c165d193e1c0,
    0x54987b4610d1e1295e66f8dcf67170a18748464e5d19e8dbbf2b46afd5900,
    0x331e8af3627c3d7912f60546a5cfb6a6889355d60df73ce5af378520a8dfa151,
    0x1328e7bd152edf290fc9479a2d22a135499b339e83ae5569a5849f662553bf39],
  [0x249ae71c4df82d3000e79db836def21f0fbcb70e2431d69ac24d4577eeb7728a,
    0x1e9379450481a915096ea3ec2cfdc33b7f1eb25ab864c80e1be35f955d1229b3,
    0x21fd687882c3b39254080d4da148360bd9bf4ffb5499faf9e53fe562f7535269,
    0x20a2c5cda3492ed92d05358044672bcc812b5e3d7508fe28d0cc9600160a6b4f,
    0x269e371317640a131e4bf6dec74e6cf945d0ff5b019fd8420cf08d0287d28920,
    0x38a52bbfd322f4178dcd5f889b5480f3e4c1f1a76d9f026d233c96d92fa1d7e1,
    0x33eea560d707167756580f17c5fd47a000d881ff11d36f0ad83448c08470f0e5,
    0xb72a81d39e38891836b65a7adf4c4d103c012fc60db2b41587314442863f129],
  [0x20b12f99a852cc590d2c1153e0ba26a927525370edd68067a28d66fabc31ef9a,
    0x279b433ce163e631a4b1cea887488e153f1008c2bdf72336994d75820664e62c,
    0x232d934e60079509833879c9c868a763c82842e1659ddea75d0c2e043ddb8da9,
    0x3e6a04d67ac8635d52bfc1b0b021f577c5ec4ce8a342c38a6e488600e28e493c,
    0x144abb58205d3880186b3efc54118524244350b8d1cb27c86cc0f3c38602a821,
    0x3a537abb439d6a5fc3300203909699337e4ba971ff28bc8d4bfbbde7a7e814db,
    0x32e8f4b27bfae4282673c492716943eeb40042167713e275be8b3765b4f4bebc,
    0x234fc4429f3421b4a43e6334848c8686fcc0c3100b49294fe7b928652dc60980],
  [0x381926ff7e4e1a5b531f2cd195738169dd1924ec794ca99e6c9e0176b85eef0a,
    0x100eeb35aa05383b20fc5970c33073a391f3473c4692af74487c5e3e9d154cf,
    0x3faca7c8f22374238ea5be2e18b7274543f100248fae8320086d8f9757367258,
    0x2ccca65a6a17f881f731039701e23f12f090f0549d00dd045c30a567ee324621,
    0xe4c8e704ca509da4524b30c6cc9b8efd0aeb704c50660568a6e36c82e39866a,
    0x2cfbb11eb3bd29cdd0ddcb5e08a40876a9a803c0b8b52e63fe819f5fe12a0361,
    0x2c6af5a3cd8f068f601d742b89cd9a6697ff38761c906cdb82b7b45c34848435,
    0xcdd3a7ba0f83a94202bf678888e17dd577ef8f614aeded253d5d52c3fb79dda],
  [0x3793a103efe43de2b25be97419378cac8de4600a10e08e6673f1b0536f8995,
    0x638ba0c11432154db059305f60c34a435bf8e91f93fba4cd2c8ad7f5d7c00e0,
    0x1be85b2acb52771866864acf1b695b3eef96460178f94e4b56061b27b56b968d,
    0x2a6114a4b4a94402a8d3d0c7adeb12e98b4a2908352ef759cd94af576875ff62,
    0x3342ac497e76bb2f44919f04a340ec1f71372198b08b2ddad5ac36f2e83e1f8e,
    0x1ce7814047f8923817a67858000dd4e621b2c3478f6f40e3c75cec00c45f63b1,
    0x2686a753472a74fe88d5f66c0cfcb3e2239e325438bc7b6d5222debf66306bd3,
    0x3d0a3105b442d94ac48bf0e4d7cb7e08c4396f63e2b7983cf9e7fe9a35bf2b3c],
  [0x3993f9bd7d0c6b2f0dee2105693814194d68e97d4e8bff2f5d28cd7326a3c14,
    0x30e53a89ec95924c199f9733e999241d04bee1f65266143a47e090e14454ce7,
    0x264cc9da00568ed64ae5985754add8adee0e2f47989aa8547180f430a6661cac,
    0x28d7f6b9d7b7223fb4e73685f8b3ac7b69e9196169ec0dd79234a8c2c53fbfa,
    0x34b4d49376460e6d88d7dc7634a4050bfff65b454d129b67841d8bc07f368d0f,
    0x30319826f4ab134e31c07ef30f1ce518cffb85bb6010643e284c9016268b22a2,
    0x4566d9e94699a295bed15a508d6008b4965777435224a17a73447d67ef94f9c,
    0x154603b54634f53a732cff8b4847bf84506af516b3433e7d69e279831bfdbe12],
  [0x2c6435b8a39a39bc6bc0c29f9fe487eabcd090f634fe46d42fdfa0cce8f07c50,
    0x383e847530afd0a70744fa6af66c9103f450a760d0df2c67dd19dade2f5e554b,
    0x73f594f1a941db8b79544a3656248d0b88eccc1517bdf1af28d31677fc02b56,
    0x177512311692f98697c6aadcf5e13d6097682871d6a928d8b4ddbb2899e5110d,
    0x15971fad308774ab41598be277d6884a044906a05b3528f0a995ab41b435a018,
    0x3581e2453b0e54d817535651cc74cbf695d09c3c8ebd5cee0c6b496c6e0af557,
    0x3b4c97d361af0d87138e79fa0c23213d85cc14b9fbe215e828962d67bd2fd488,
    0x36533fefa92e8af6b38c0d4630b5a404a312cc1064f1bb334e0299c6facb235e],
  [0x155d21f7f89684af98741c02d2e55e5aaaeeab792cbdfbfb9c56673bf7acd7c4,
    0x8c215ff205be2d8615e224ef2da88d8051f4024b3eb67979ff78256c1865a0b,
    0x270a8d77fb2abec4296b9ea43c81ade3b59311c0a6793882a405b096acd0f75a,
    0x183162608ca3fd74b6528d0c6a0b34438ebb324a2255f64d0b3219be66fcdefb,
    0x2387ae32c0a8b453d7141d32f4bc56fc5d8cad9147ae9d59966692fcf48f4908,
    0x103c92c0cf898dd540ee768af7428f8d1225cbf1a3a067f4d2b215fdb0da1d09,
    0x14add336bbfe6b343c43d988ae544bb3ddbbfe9f64397169947d617ecf437017,
    0x149270335b9a833ba2c3ce0f4e5e5a17fb47cf814dca79a0a0f2ef29f894a4c5],
  [0x230dc7ef0ebe0992f8090106be385b7dff29da1e774ce3610caf1f476becc2c5,
    0x3dbf034363db0c91e2177a32087d459c6908ce2f6529c73ef80a7b4d6df5371a,
    0x7c2a37dd74bf674d7d07ed152dd7e04407484a9b136ef194bb1861c1662776d,
    0x1e06ae48cd375506dec9503579942774aa1ef56407ced231d6bf292faec10fce,
    0x251eea3f9f20d1f3f5c274559be2fcfcec3f87758b044baf3dd4e56465dc3de5,
    0xc0cfe67808d9ff218b943c8b11fd29c48a645191a959485c2a7745d13e2165,
    0x1dd7da5b60fc173e52d9aaf22091664990d3b56ac6375b14c2c2d2d2a74f527,
    0x2f52474ab131147b952f3f9de8e3c5d799f8ce048ed7725dae40420a3a76361f],
  [0x18b1cf76d71626cb1d53c6b6a33f30de66d7a9f7f864061222dd24bcd17c7565,
    0x25a9f7a7117bb3b5a2555342a0d573942557138f0ffb37ddb56d360d5e508254,
    0x14f0cc8fca59f166fc23b86fbedf4285acc1da89c267f40775b6ea9b3dbe3b30,
    0x15e0f6a755db85b2df640bf59784d4eba066b0f8c4f05af1623821d7a1783277,
    0x2803e84b3fffa10716feab76debe55cdbae0c463aa89a5320cda34fd9aff90e5,
    0x2a36d8bd2ced3adf94cfa5fac2b7a991fafafa0dd1d4f0aea6fe7b1efe3cb441,
    0x51d4f9172dd160658dd1fd7fed502c0404ef4068c24fd4269195278db62fbe2,
    0x3684548cb9a5a012be4b3cd147c2e98008bf2efcb832dce1d719fb1fbd34c571],
  [0x27b1056772bf47c6fd894d9aed5f6fe1815091d115a0f86bb0060ff758344d8e,
    0x39397881d7a57b299ceb70fe79df9f5d3e85b77a0ec3c99283f2404245db0464,
    0x7959994a4fbd9310bdeb143b56ddf4b3928e72481946b421ccfe7cd1479cf0b,
    0x3b982f1944002304711d60b2b9c4aea4ece8117f01ccff19a6e5e6d32d966a2,
    0x23d1529e2d6c63de66a712b85f82715c4d6fd57d6a60a5344332494dc58a458e,
    0x1c43e3ade1418b6f0dbd18e65cd9663a9135349ab68141a1ff718d1ba2a54357,
    0x173a142145f715e7c084a74199c1482e080839106d323ad837d33c79a36f50ca,
    0x42784552898077929055a48c8bf287a71589d477200a928a581b29d8b7eadf9],
  [0x4c678002a399271b98e11e97d13f5f8cd4a5f80a64594dcabafd28cfb72d8c7,
    0x2f2bdb78281b99795d68da97b247f1112b8989e80950fd1c19a249171fb309fa,
    0x1973bd52ae7fbd85f594c5ad6d542bb79c3eac7896c337caeab3b14b091be717,
    0x2f42c4900ef519dfaa24186c61b86200419f5b035d5f5d54ef9a3327d2c98f09,
    0x1368cedfc614133df1d3dd55709fd78f899239d9edcf751851f622758514a25e,
    0x386679bae475be6c112f9f2be875ae2efcb616b4b1d9e26bb5616f7c48fbbc59,
    0x109e2c6346ea588ae0168d6df4c2dd18ffcb04c0bdaa831fd0e68b8c2c31a7f3,
    0x1acdf0f7a2ffc706abd60049ff49665917e12123df338cf027d926f55397d388],
  [0x194458fc7dbe5cfaa03d4541a12432cddac206bba8af43ce229f3cc9c6614dfe,
    0x1b04384625a22bb1e037439d19f680ae9f4e007f37c9080e737e8bffaab5c485,
    0x1ad3e3b04799b1c9b236eb1ea356b81040fd20c5aa42f41febf4b412ff18a670,
    0x912cb2ede2941407804cf4878090e5852e5210f63eabe766c8d850ba4e6de97,
    0x5a6e34bed99474ea16c5a5c0ee943aa3e7502c0891d5f0a30361f4ac4725067,
    0x39c9c9e4ed4f32e316e1acb68cde2fb37ee31b7cb7e62008dbabde0c678f96d4,
    0xf0312ff36cfffa30a32b8320d080b8d75f8ee9c8466983bd2234cdf7cce5446,
    0xe4753272c1e1c696470171bba7958cac48b38745a7d6032b2664e5161c0fc06],
  [0x1d02ae9b16322e343aaeb9aa4cc70f967793edff9a32b3c322384c14b2e85efb,
    0x35aa736749f15d79ed3368a4aaf9cc0f8d9bf810d597ed188531fbc53219cd5,
    0x3bd55a76717bccb399eb3772f8c8cb5e37fdd98844b8c0ceb6a2f2834f8b5c90,
    0x3c858484aecfa42fe2259c63cfb2a2746651f534a34b995544ab322763e1875b,
    0x73a9e900c481589a12769b7a32a94c6c8cf6c8f973a3cd7537e1007603d636,
    0x2ec00959e59143ed80505a8d34b71092d4e9e8c036c5164040999d67af19b07c,
    0xf9e78fef519c217863af59e0f53d655d32fb1413f22d32402442cd2c686aed5,
    0x1eb961a1d679791a85886ef01a2815179447145f06ec299871bc3d5b0ab00651],
  [0x1af276ed3e7e82baacb82179844a868a6b9c06a3f189c46f0944ef7e662aa747,
    0x3cbedfd7528b93c17217ff5a588faa80ec6b771ffec3ecebacb436128a6f5c82,
    0xa16b0acd3deb8c61f86d766f8cf2a45fae2f1b796af1ef9dfacfc8bf9677355,
    0x4f574d514346047b4e050aedf4f1d0a6fab6ab33b667bc005e21ff5b9e4687c,
    0x34a426717eb051cbfd381f3403838522cef5ab039299f9ffcaa15b34ccb707cc,
    0x6c0103c72c576d2368a0cc3066718a1c79aaf2d22e17afbd7c55a1b20bac8aa,
    0x4741ce73946a602fc68a0d48c0147774d05a115c468d6856be9239928590fa8,
    0x11118143d1d5d433a948cf2a672a3c248cbd2e9f11deb7960ee254da15b7fce4],
  [0x150bfd6fedd404b87aa71f0dd01184452f840f34c4276ae46fe40aff04045ee5,
    0x1f06c18b7fe17b3ce8b001d9c6bc381cbddbd42c772509f7e458dd99364a6435,
    0x1202186717ea5c1d578122efa1c13bd1c4aebddf7e7595772c8eb75a6a0a8ba,
    0x26652b4f77715847e26c6de1359b4bffaeed80517657b0c614dd4855983f3b32,
    0x204d5ad7a38ba51a9bfb855676e861b4ce8c6f07fbb471f4122b6dd676275cf7,
    0x6028175d0c04e03643d03115f8a198d5854fd626c538f65d295b31196c78595,
    0xc7def8004a1e662ca2020ebda153e266e2c1c257dc0e8985ec4ae3f9a85b25b,
    0x3aa8ec6c58f9fdbd48afd531d1c5b6d5e4321cfc86ce4d52181bb296b6295997],
  [0x16f6de50bd3619e0889718f184e483a413667badf3f4e55ff632dc34ef551526,
    0x10026cc5659531508d46f8f8bf09f376813d2b57ce355755763f588c8085aff4,
    0x2cedb6176bbf60e25aa47dc61836fd15d123aa44aa1b7d284dca60366c8759e4,
    0x1e778d9bee7bd17cd188cb6eb30c09da3b4ba8d842665f888ef533140383e03c,
    0x2ffd096524eca04e64e9828ad45cc0b598b134deda35277e91ab276e5eaa7c38,
    0x3b96891eabd3ee726cf1df5b22ce096e4a387182181203d42dfe7952962649,
    0x662e9cd719002032a7721931c2261227435aa495d68a3cfa2e45d1c81504248,
    0x1842c54b63c77a63627d7f3b0f8d4a8c0acd458264ede1c246e8d700bc98898],
  [0x2c89e8d8e9ddc85f687abbea9ff51acb768be859bde9cbc5f7d1a6eeb53714a6,
    0x3b1797baae8a20252085bc56eafee79cc7411941d7fabcba2fa2fe96fccae295,
    0x2fed0edbe00c2757d816a8b39a7c4e50ffb3558c754f5352a41d9173f6ad127b,
    0x3ed569745c84e8a539453da3d269d11636501aca1bc665ee9a3dd82cdc4a4cc6,
    0x2492aa0d923039372b9aa2ea1c110ffe45aea2f19698d6e2cb882c433ed420b8,
    0x1e542356e1649e8d75b547cd787f4a5907986085eb65b99315d99bf8be7f0a28,
    0xec0c1e2437deb1f9208769c2b3b5f74c8f3023594139fc28efcab75091a003b,
    0x29b8d4a496ad76dedfc015bf4f8131a255fa3ed1d69ea5ed55ab477c7e90ae98],
  [0x2f252f2f7a4d369a5690b8e23e94199e00c2faa2eb380cfcf43c011cca8f64d9,
    0x3921cbb52339a008be42ad23d3e24bf7e82e830d131f7d60621f4af794be45ca,
    0x10636014ec69c852f729bc28cd5ded1a0d8f1141116c01a05508c9114c27a869,
    0x22fc28cf47b2a60df85e5bbd3c2d979ad4e69ef7c8c27c4c9550fd5c2150e108,
    0xeef129e6b45a61cda0d2ce76fedb2e14c831893f8d9c1edcfeefab2069b6670,
    0x18d524cdc3cab823e2c4407667e4aa7e72e44c9bd055d52773d7f28fcc5baf09,
    0x74cd48331a32a2bd819429b417f385ff134d47e92c5a0dd5d727b4c8387a679,
    0x1b50b015a84fcb4aa60f6f734a555f1e5cd70fb44625451999ae44593727d263],
  [0x218f9088c08734d0a3fbb70dc6357d5be415a54932901bb68d7ee16bdde29239,
    0x369e50cb73fa6c1b9c657c0730e279cfef13d42a45344966321fb7464c2e077b,
    0xd11a2da61c8002f689b2b6d42575ec222c9f68fe47b1086a939ecec90d70c69,
    0x226fa5517d4ba2e6c3bfb34f9e8f4cdf31d4a016769cdecac7277a374b3ed7c,
    0x354d62185c9fe53b7c1a390943e682ef5d46a2b0cbb5dac1f3e36108962c88a9,
    0x1901523079b7c09429b8d703f13f6cd676a7d1fedaefdb3fd48bbd04d4f40151,
    0x3a1a15c737c18792f3f673e41e86135d470f2b9830eba2db1bd0f979cf659d4d,
    0x23a48a942a89f873dbff8a63f71ad1e6888b5cd7c67e8fe0c4beac5d336b0d9e],
  [0x179125a010c7fc54a53736d2f1084997a4423088a7898770f7271caff6018190,
    0xa825f48ebc27435a101e55341b0fa759c2cc39af184f504c9b8f222b3467dc0,
    0xef3b4be2e2b2fce5ab872b791a6dbbea099b39d762e48dcc27dda85de9b08e4,
    0x1930fddf188d99cb523674d21701f0acf81ec57970c72965c13d4322c8d40190,
    0x3e6746f14dbaadb5bc398cc889682c1a109891a28401f7120d80ac50b271a261,
    0x191cec74a9321e424a6469e764f937140a71a559bcbf5de1d286a9fb485fb462,
    0x2114681f48a85c4056b15d66928788a6990aa95a846189f0a26c9a658ce7a66a,
    0x151aff4a28812a53c1b2526cd908e0d382987e537e0e2f9ba880c0548eb8d3bc],
  [0x1919b5d0927e39ebef52ecb3a27ef541aa6b936ae03e84e1d34adc4622786f1b,
    0x135345467cb664e91fcf163e93c1313116bebcf745ecba31f2dd0eec88913343,
    0x2271b3f8893a329c82f1cdbd44486ee71fee6f9342cc9bc18771d9e67c9f2819,
    0xb0a913f84ecf53e2865a0eb448039135a457a464825fc3213c77530af1107c7,
    0x50e1f0ca8c3d92df972a6a75970683affe1df359b41495f16ad9c05719cf4ee,
    0xa6e91025599a2caad33c648fa8e0b8ec5566db4242e46a304c38b9593991ea8,
    0xe9fde49ddb08a87aefb8cf13954559cfc8193f9e7e503fd869f6338c1bb1b24,
    0xd4304c095a5313a0e4e40424293097b6e27d6beba51e280bc130068a30fbace],
  [0xae66d5a819adf3d885e3c85a6a5923d6f620c6fbe0c78dc4b14ceb7cae5fa20,
    0x8a2643b369d30912b17d6b8a080ceed2289716ad2ec761408c93685167d6b93,
    0x3db65268e90ceae31b010cc0cd3804179eadce2081241a4efea7d83b9811d40d,
    0x338a4cc0cc74f08905e2d107d0af1e5a837f3fda0ed9426a5ea2150ea1a91107,
    0x2a3c9f6febf72b3c2ad65796fe58aa1173091037855df4943e585e607352cebe,
    0xa6066360d72cddc881f1f7e559e9f4e7155ec101f779dd516de49a09edd02fd,
    0x2c3aaffc436bf7ed028d4aa5df07d620b5f9ed94fab6c846e8d10003b4248a0b,
    0xcd3318e70c01c44d700bdd9f33edd3675f220f3c947e8591c25e022d3d47ae4],
  [0x1eb089287d0e37c3f6e36f15cafd8284c6b46e1ccebef12ed090e11c56da2b92,
    0x1e2e0777ae06ffeb2d3a55eaf5ca01d690982f3acbb2074fe97155fae297475f,
    0x2d1b46eedd98684bcbc0ca9761361929bddb399662df0d540a12565682402aa4,
    0x3e8ae74fe01055406e877a1ad9f48239780831b06da8498f2be836ffed640d7f,
    0x3086f0d259b201208494a3242c57ee5b404d64fedcd5effd724c1c9ff1a683c2,
    0x108b3c9347e34ab396463bba4b7db3d54d36e2be6b17f5a4915ecc5c6642e17b,
    0x2358545b09c6d15799119d2f93ec0facd6142a49dada1de9541e4aae9669f327,
    0x1eddbc5fc6c89434823cfb1cf929052fc0bd93d44c160da8a68d100f99fe9a2d],
  [0x2d9d484d8d698da81dd28f750c05fd03014b7488911e222905f65f3aab98f36b,
    0x210d5ad3536c2b2831c41d24559789cc8c3766ce47a79f8d77e6f25425ce7223,
    0x13f0b2aa188bf43b2e928879e53e328f512feb7cef29b71569c9098e980bb10f,
    0x155b1795b66d453e9ac503911ba8d40509d9b065a988f67a568f5799f4cf7ba5,
    0x2b1ebbb90631bb22316c99836369cc165710a08b64e1a766c0d357b2a5b289bd,
    0x1ea51d444029da9a50416f1d52aebd497e6cc02525339f784b84242e3b4e911b,
    0x30f270d9c1647a70912045aa93531b0ed4be756857881e1b8a44a042fd6bb62,
    0x216d3d4275022b1af33241161a5499900b9accf91f8fa0535e4cbf61fcad7c70],
  [0x3fb3c3a6436dccdde46d2ba1b41de1aeb2a83a0023c8b29f1fcf65899a69b330,
    0x3d6a4040ae5c467817f5aa530f62138b78e244b30ac20ffa8c27e0713cf5dcc0,
    0x2e7116cbb358142b4fc42a6016ee91d661d35f5032ea6fd674297d3f91a205e0,
    0x3c4ca1cd1d5d15ad854570b3d96353f6f6394b9a711b8a69b66f1975ca6b51d5,
    0x685d00472cb99e0653184eb8601e8e44bc729778cec2af88a2af734f622c35,
    0x38a52e118fbc749b9178b9af750024f3a6b46bf94b2440de5212732cfc4315fa,
    0x64d5560a3367f6c6779a45ab2884c60dd0e35a99ae1a2cf7ae232413f9bd4f1,
    0x191e8aafe5b0f9b61023412ecbebeee6fa41d5c23585048c3d5bec5c61baaf13],
  [0x356afa9bb58fa61bf76b465cac3b6ef5d7108d15ac5a68eace8ed0888e87adc1,
    0x3ad5b219386508e68c3ed188ed9102d25be5a3de75c3b26a3e900ced4025c328,
    0x3a6c67c68316faf2ac90284567ca8e498240c8443eb70ad36b7038bc5daa8165,
    0x3b5ae1426ccb31bc69104f9965dcdb50cf8c12d62732ebe4d888029f981cbec2,
    0x2bd1db5c780aeaf3f191c71ce90baaa7bb5697a27f44dc74692d9902de804099,
    0x1ca2fcef811f11b1fa0ffa39877e673044b51219837425de6f1b567df9de5932,
    0xff6f9fe9d812e0bb0e7841b4f58e732cde7f082cd2269bebe1f22eca7cda372,
    0x1fe4aab6b2dec8df2db63dde2fe94b991582e3c710348fda89c2ccbe7e2fee5d],
  [0x35063797df60814f2026b0f7d6b0cf622e817d75c06c7aec6dca15140ba110c,
    0x36d2d5411e55a4c0fe34cddb64129fc59425aef15aceabdd40e5cd92abb33959,
    0x9d143a74d45608eb9a728394cdaf2c31e020ed2c2d44bd1e36a70780663893e,
    0x3bf56d3b42790e3479a2405eb46dacdaac8d77bf3e7a777884b22022d3e409b4,
    0x1a9c4742fb873a199870d8eadb85a21babfe449debfb268943b2912c47f803f9,
    0x3e1d4156617e51e3703afee0d2e411af90c240a55d712387ca2d19ca4ed3235f,
    0x12884cdc416561738e09d5f2d422bdf80ad0d8640b40ba054d3412a76695e2dd,
    0x27d39445cff8e2384bb805be9fe717d067c727a950f73aeb41d530220d3bea2e],
  [0x182bf2cb0c88e3df072539fe09c60f127a09c4953a2fa9acec068ea56e85e620,
    0x9939a91fd9fc38d18007918a1fd3910aab686cc3c38991ede1141326d6e932a,
    0x3514424ca11129e81b004448e3a97df6fa9b7feeff79c2afb7e69c9e1234a20e,
    0x5b0eefee76486ee6a01f5e7b2287f317572201a47072c80d45f66a221b61632,
    0x387e36c329997ede72ae665ef230b144255ae2f80c96f0fa5460017b885bed32,
    0x8563a4c69bea98c79e281455957aebdcfb12c3c5e6e5da37aef520af60ac185,
    0x2843ee42b096ba40b8134dfdef2887f26fcf9f39a1db5f977ce03b3cdfd72b17,
    0x3620149d9016d9cf578cbc244e6cd01a39703a4df40dda86df5437f0abbba77e],
  [0x3708db1ce7075e4cea0fd0107c6286ba7cc82fa0198bc30dbd103d32e40a255d,
    0x3d58b141c16b6f606d946ddd705e9f59580e5175f5e29e38e26d816b52fb25f0,
    0x25933204d968a27efdc2613c665fbdb0dc0a7431a03fb2417013b9785a04c342,
    0xa0514b0baf661ca35f8df918e6d006d453a479c5ed77eb4e3fe9b1a179a3ee,
    0xca175cb88401ba79e0b1f44d9bcc1100fcf7ab5c2db5c9489c18a58fe008fe5,
    0x21d609c6fb688b1ca307b1161421b460d5ca9da55e7ace012a909e6dfad6310b,
    0x39ff04cd32a64fe667590927059ee68d26fab808624de629349abf89eca8f374,
    0x1d61ce24a26d92661387835f265ee6a989cd7780574568eac3326d842416230],
  [0x171cf60a1bba107ab9d7072ff6665965a50960ce2af74a6591d04e2ac44be769,
    0x20cb5358ea29ed2b1b7ca506c70094ef7fbefe06884694f8fb8eaca762677ed9,
    0x26786ace3f9aeabc60296bb4f911afe9774722332c31a6b8641a06391b2def6b,
    0x39b13c408c1b9ad29a4b7e2435524db7d516ad46ea2f10de7ed4959cf5b77912,
    0x29c51eead37202e5460fb173114408de1237eb37b98d07897b2db58c887ce481,
    0x1e08fa124cc8309243f0bcfbbd4213e340a0275b61d991da83b260c006372de4,
    0x145e48b61f730e96b6cdd784841e86f421944a5e6c61c1ef793e2e1551cd0fdc,
    0x2ecd669b6aa06c496f8ebf406c77a9dfeff4b98675bf9bfe8329ddad758ae745],
  [0x3162e906a4dd39acd0454db5e0545cc3258f823687b44df8b432728d19bae4d8,
    0x2c2e541cfd81135bc853d565223a66aaf076143bf9556bd5e38d3ed3b3488a9,
    0x1e54b066a6316cff36da9496a7588687caeba2656a9eb9c4d9c43967dd0154ff,
    0x2626782945ff17efbb5df35f027a01aff4dcafe9f3b9f9ced1899743f3cbe05c,
    0x342e4568977bb39d399318cf76207bb4f5b71ef380389889f2bba64fa6df1580,
    0x323a9e30206bed74fd5fcbe84eb04ce62b1b659dd1b3a7a8d3279dc22d702b44,
    0x294114af67f239657a8a9ea7240ea36985f3ebb2d45c1eb69fd834f52d2ef64,
    0x14fc2e0fd88cd35d9bd7c6129a247555250aab9d8235a635bf7dfe9d7b7704b],
  [0x2f504f59925fa750d7ed1ff998cbe896a20ad50bcb8f257e5de9ad27d281535,
    0x3e56d04e2245845fc1771f06f983d919f3532be5d0b367c49047556e9f351e4,
    0x31d370a9dfcc5f7fe55518394eb83ed5167696c5d3488e32461ce8956838d91,
    0x4c2d9a38798a6df4cac8dd5eca26bc90bb8a54703e20572c3daaa97b3d8e67,
    0x89e50d7893725ee74a9699145d997d608ce8c1f438f2a5d0ffe1b5f89557f45,
    0x2495ac9d2c658a0120edb77092b19ea24ed9c1fbc37f173c4ef89bf1a565cf16,
    0x285761b76428fd251789178e3fe4683a89f20b98468bef7bf23de8a0c0cf894c,
    0xc43b4329d7bf7aa2b9119c0e446c8bb7b173ccc7d9d0b19012ab9f399e16f22],
  [0x3ecf7c705d85ff1a139214bf41313a90488051873f46b7ae150d4de99698708b,
    0x1597ed227d90d3c0fa95da5c887a8f8e0f3119dbcc22a59519079d65eacb3f02,
    0x15a4eb7b70e915580fa60913c9a7f6ef60181b7d196dd98a1660b37cda4b3dbc,
    0x15e6dac9230332fec2879020bcad6c009466ef1e3b24cce6d6cb3726c7938edb,
    0x292ffec7c8dc8e7640b92b37e97acb9e5b3e37fbd13a777e6f2333aabe339244,
    0x3f9f7bddb3e5fb1907f52b95e6f1965242d4beb0ed0ab067f4f16506b9643a18,
    0x4784a399117df3d8a147e75eb23be4e448784a66beda3b6341efc0df120e01c,
    0xb237f5db5e09b4e65042647a8ee29b72648465dad3c8fb39f1b4a10264f631f],
  [0xd4ff07cde368b65a593751abf1893e8fa44b09d923f215a3f19c5d735e0893c,
    0x376242eed7e1f2c7e74cdade58b012671492c291e939c5d19f364e705585ec86,
    0x241e6646b4c9ea4b803c1fd20d64c6b707c8066f53529a7aff46480475acc6b6,
    0x3151bcb78f6e5964bae627fecfdb88bbfa678bc59b4ebf768f56227c9620c099,
    0x11e081a915e03011d03b2fd6ec8be09ed7e428889339180c158e5650dac977e7,
    0x55a7b70feccea76416bfb10b94bd59ddccb34b563657e8d93b77539bc67e264,
    0x276f65bc5c9b70e2f6b5c6d96953b998535dbf22d2ff7917067cdb68cf6fe96d,
    0x11f1b482f3949853466b3bfde237a2f03cb990b1e05ded978cf331a05b8faeb3],
  [0xe237784a3515aaa7b6b7153ea8634f2c87cbca2bb5ab957b1d62f67d02fc301,
    0x12fef1b075e06d4115308c6d17fde99b60ee7ab5a410a73a0cbf73ec6d12ab9b,
    0x139f23f23b4e2835ccee172d66b1bfa16aca7d534500683467e2e88f4b406046,
    0xf67a750c43e54a666ba14dccee8fc34ec09dc57a22acd9dbbe7ceb2263516f,
    0x269e04aa30d878026525b3bb681220f368d5ba2c5f8e0ae6e1b7e5448a7dbf90,
    0x74c55c1e2f0487b0d1f16d06c81322f087a56b8b2b2a130ed6bcfab433785d9,
    0x240b010ddc50eea1b6f0afda7ec8ec2bc6d7b7b87c826f1e0931c9333e61b68f,
    0x2630d9dc8ec018820e22ebc62ad9889dde2ea48c9e29bce4f168a6759474bba7],
  [0xf5c43b1178cb03cf934e3cee2c73d301d0a02441582dc2eb8cdbdbd62d33904,
    0x128a0d1938719aad7c014212ae229bb600d266dec4d7b2f178c82ca1fd28eab5,
    0x2f6a9349edb0453a05ec78ad739594352fd3b278ce746d8409b5b58722428637,
    0x128b25bd85eb2d7d205ddfa666e88f23426571036030fa3c52c4db52b39e239e,
    0xa838308ff6d1d49af6af919fd9afcad7656a522f76730af7cd8b7d71b78f70a,
    0xc619880ed2f13a225083832d6d4f01f91ee1a7c2b003a702c940e4f08b1e49d,
    0x2c3d1a41c83adbf00d6e1e7b7a755994282979a718aa827b0af3355335478859,
    0x375593a6bc29f786a72026ccdb19ebc8d8e7278a4142e50ecf70a1c63bf5379c],
  [0x8a46508b1fa818470dcfa023bdd2871a9a2e33f64f8d79162894b52b64b5ce9,
    0x5655a210fd80b76a3c9e99d52f1bdfa83a0a5c52e5a7cec203f9974fb47261f,
    0xf49362ada4b8ead022edafdc34c2d6f9d3062fe8497860a4c245639eb5d9c52,
    0x1b58d91f9ff628b6bfac86d5ec5b967a91e48fd91bba5a8669c74045c67eb63b,
    0x73f924ae9959099c5dc6e8e3d8be00bd65ffe87da9811222a75d77b714f1cc4,
    0x1137c9b13ef44c78e42d60bfd2f8666df892ee28b51bdb212550f2203c8a261b,
    0x2eb1f14e8000369c148b52c351a09e026fff70027d04134ea696599fc582db51,
    0x14abba9b61cb4a43c70e72caaa27d2e7cbd238e592154b1147fa34f37d2fec06],
  [0x304ef38280c37fce631080aa35498db4e00e4a467b9d1968da90f8b2411a7c9e,
    0x2b52cde0b037a71833aeeee5bf25b1b05f4784f4af031569c05f336bee075624,
    0x94d39892e3ecaf575ca2b758c1df7193a35af3711c5e10691ec728f8b5f8088,
    0x10cb3b6cb2df2d142b7d34d75419e7e13c49c05b9bdb87649e9016f2eb27f57f,
    0x377e9f17bbaf590e817dca9d6abbdea6cef1007554b877d011cb91fb1b4ab294,
    0x256969d1538fe18a6f26cf302bf8ab78acccba086335589e6c05e9539d4b0472,
    0x91458037d5ad2f5c7cf917f7bd724206ff77c8c54bd4418a2efc9771483b5c,
    0x1a87d120ffde3f05a40fb2a34d4d42612bb4dabfa24dd2e7eac7592f06c7216],
  [0x304671a19908cd335f89ecaf1a01b4d5fdb5a5004b34d28e04ea7bd1d34681ba,
    0x73e286f58b904ef9d947086b053957cd0fc53ed43942145ea1c858c15364fd3,
    0x21150ffcc669a802c9553a5240955fdb0f5c6e098af656978ff415e363d5a2b4,
    0x1bb3d3d54614f57c24c228fa78f8e9e125f77d1d13429679afc32f38cb93f2ee,
    0x34ba95a4efe6f16da61304005f5faf61069b8d2d127c54e61d69e5886b4869f2,
    0x3f0b8ee32c25f9ef1cc631791af871093f7ab8980c5e734371873dd28f215201,
    0x10052336bd96ac8b40631c64600d4471c34666b8a60a722d686ddb598ddb668d,
    0x120cc641f76a972a28426b2674306fb9d61dc7888d7e18209ba6b1a3c84117e2],
  [0x3d93b45740479edd15f9725b6427e27c82f742c009c8127ae09ad4780af5390b,
    0x348b0f382a739296ece93e95d74236eef3081396325e0595b2652efd8db03625,
    0x1f44dabef723d328f59ebd9503a80d32d783ac82fb3e9c29ed23916dfc834636,
    0x3b52c489260a6aa0060d24181461844e617d03fefa77409f7a675a9b7eba1261,
    0x32afc94d57e1c5111f073ca7b22cc13b03ba1f353e6232fa832437e08326b753,
    0x2eb87178c762aebd26d4e6fd25179f3da4bdc7fe86fcdabb14e69c023d3541a6,
    0x34e2fca0f43c4c19d4b44826092aae2ec424d2eb85d3b1d3c0f27e5387afd426,
    0x82f289a21984647237e4d4cb07a4ef891f4bb899fe0628b3b49f45d1cbdba09],
  [0x26993272e2ce320a985b8a0eb843657717710b5c4d868365bfa4287bf8354a5e,
    0x3b536e74a5289b90c65dc8776d2baa8c79b65ca362f9736e827946876ca01846,
    0x1b54ef07df039070952328976cd99da328f919c8cebadd405700cea2d3cf6f0d,
    0x1a6048ab8622fa22677c0b64d535ceaf4a06f239322564ec4ba8d1f63b8f077b,
    0x3dad68bf8a741bcef8318b4199a70665928e5f473e66dd54b1f2fee0a3ffd33c,
    0x2007ddaed0eedf8028a3d18cabbaeb4cd3fe275b68ae67bad0b0595c6fb8f875,
    0x364b18b622c0f03be27b574045e66b71514513e82f76fd623088b6dd17a3af0f,
    0x329848d3afd7081969d61beef7e03c479c71c1645497476542bbad6a2f87f6c8],
  [0xd3158fa148fe5331be63e22413baf67eb26571e29ca20091d602d86ae36b10b,
    0x239c4da513a0b36fdf6a8274c0117f1dc63a6fd2c4d7fa5bad3c7b5a61e0fb57,
    0x24318edd86cd0847762e3bb3d4c53aad98e53662d2421712ef5a16b723727ce4,
    0x3836e93949caff33ac7a57417fffe7db47f3e48dea0a6bce0a378d300aa7ac61,
    0x1bfea3a51840c506b2799f193674fe2eaddbba9837f7c7cfc3ffebd00a51c9da,
    0x24b1c3ea385b654c22ce08a844beca7427203dbfa0ddd29784d55315996833c7,
    0x2b6f5f451b7b1a3ca22fd591a99d91b5024d46272563b5565156a2d36eaf9cc8,
    0x183c380b9c32844730165d775c979e2f2fc5c2fe6da85ae3b41e8dc3cdbf281e],
  [0x263f1dce7b072f27e49fbf260a98b98205474955fa8ee277de0ba536520aec61,
    0x35619166ccbffafecbaf2cf892cf8fab7f7254bfaca4b77bcde55fede4e5d3f,
    0x2551ae63b7866d1d74a60c11188f31f9590e0115c9f1aa8f666a8176e1d8af42,
    0x3d103e5e90072d6872c0a4633103d96e8036662215ba40621ee901c4abb15fc5,
    0x2d7cf45fd85212a0472393626a571d3410378c57543a9b3546c99de414995662,
    0x822403341aa88f32e01a9e5278bb494899646bb1149f43fed750a5d8a5525f2,
    0x268165602191e587235735bf3257dc15783675f090696614771c2fcea2b0606a,
    0x1a3e76f2ab8ba44892f4a0d147f0f52af8b80f4de6bd5aabdbfaedff7be032a6],
  [0xc8c99b94dd88883fe8bb781d64439da937113d73a254d1e534928cbe6c3f0b0,
    0x25e71bd93cc1769255759179b996f145bb20741290ef3a535fe573f034bfdae,
    0x262980cdce51f4407347035630de949d897cddee68bb10e664109745ae077ada,
    0x15794e33a80d99f35a9f4b7fcfd76e9dc0ea619c43a4dfab7c6645dd54408469,
    0x15db2f7ea22ea5a9e6e30a086b7270be8d829c1bb29c47546bb1ae866ed3647c,
    0x2383a5009dd18f7625b493417db7e8cd4d27fa704f3074f1d52fb7d0013f6dae,
    0x2ae655757b26d5e08bdfe2e43294e991f4ecde1e0485a5b806312feb4772efab,
    0x3adabc3c43e6a0b50dac8974f439d8150172894062e328f1783c442075ecac99]]

end Orchard.Tables.CommitIvkR
