/-!
# Tables of `/repo/src/constants/fixed_bases/spend_auth_g.rs`, generated from that file

Each entry of `U`, an array of 32 bytes, is given as the integer it encodes, little-endian.
-/

namespace Orchard.Tables.SpendAuthG

/-- `constants/fixed_bases/spend_auth_g.rs:18-26` `Z`. -/
def z : List Nat := [
  49707, 15701, 45931, 163127, 41654, 212130, 34473, 25205, 4118, 10240,
  12264, 22866, 203610, 18808, 13851, 62448, 62380, 94497, 39496, 73216,
  32037, 32774, 61690, 39173, 74580, 84678, 23418, 103090, 34763, 19801,
  54976, 196082, 131117, 20556, 58936, 139049, 49530, 488, 2129, 44219,
  64328, 38875, 58430, 34536, 84014, 15455, 38059, 15915, 26893, 100337,
  120701, 98937, 37075, 35293, 8351, 8361, 273432, 717, 3253, 40140,
  28024, 95195, 41937, 200127, 95471, 103562, 75737, 4182, 362357, 15219,
  136680, 168274, 25085, 5925, 254392, 93041, 56204, 46757, 109788, 100797,
  80349, 87315, 77372, 96572, 18965]

/-- `constants/fixed_bases/spend_auth_g.rs:30-2921` `U`. -/
def u : List (List Nat) := [
  [0x23dd50854eb1a62ecad61e78aeeb4822bce228b77f6c453656b7cbb3a79f8b86,
    0xacd38bd96e3c0ff43b09e768020ad48d9b8fc5b5e58f22cd15ee6223ec29380,
    0x25916dc50073703e8a22b883c233dabb9521c2953fb8f858acafca944896eb59,
    0xdc84ac8242bf9202375e51e038f64505914fe54aa545f5ad4e86dea9204f137,
    0x1d435a45b9c184533ee010b9ccb4060c68a049ea19db43c9b5e171e3444d17c2,
    0x20d7c1c5533b5eb3f9ec177ef32a4c171b2532336319dafa25e460184455f09c,
    0x2fa35b5d778d712c7d7c2d25eb0358a4aad2ab117f903019c6398eb9fea39149,
    0x2001d9ebb56b8527be6bc70202d2fb3d7060a19a9dd24349de2849e3834a9c90],
  [0xfa0cd30476d5c73328f4e1aa045a5a3f6f01f55e0fbb6cbd4aec26d52c11ecc,
    0x3c9bee450823374f00eecfee1fe0a3cb6d82cbb3c06b025825041a1e85403414,
    0x2895d9272383a0c44569e0a13e647cba297e4be55ae480ab24d43d48d838bc81,
    0xe25fb4a3275b59741802fcea9332496554112ce17c28d1b321ea325af5d04a8,
    0x20a352c7b41765a33688a1005ebae9963832f307e1594d31eb65d0bb43d1a78f,
    0x35544fd1135114242e740237a20b0579d612b047fafe235a03e22ff7a3f55553,
    0x2ff7fc481abe0dd1cd0657b02705eff2f2dc2eee91ffb915910c56ab2cbd81b5,
    0x1f569bf600fed7cf0ce292fb6fc427ed58bd458bb1540531ba7ce11232d797a9],
  [0x14d5612fc26329c6ecbe029315cba778aad90e5437fd1da13bb4f619a0d9cfb2,
    0x2373e641a1b8c0e47669f01c49debbdaaf3c36c91e4e45bff94dcef90c2ad92d,
    0x1002290dfbf68a9c1ff3469246582737ebeb82a731e5354d43d8dd8dddffe991,
    0xc4ff388b3cf174cf28ab03b61f0f8d17ca1f6da11ac74f30cde39f4d9a70e2c,
    0x3c9f8b435a2f9ca19e699c35b9d0d9c32bd3357a16f253edb5b8953cec13ef78,
    0x1db1e327f5edde378896cb4e1e0f37513d2ca1951ba71dcf0fc086bf57bce0f9,
    0xe0dc29481d29cd06fc0c6525ca83b1b1c51ad6992134970f3f671e6e776e45b,
    0x33a880f1554d30a82135c4721e597a69ddbf6ed57718fc3886f4b1f01dc1b9e0],
  [0x367ea2e4c9659312b272dca473d4971176ead75ce7b5f3179c1393abaad13a4f,
    0x274f779527a4277b1a2a1a353e2a9e4e5dc3030a831e6177ce2be720e8e6f5eb,
    0x1c1fc22013de6b4e6fbf0b920224cd3e06e7652543cec623c1108fdef2bea14e,
    0x20cb740bda5137f53e8cb3d59b65312ab85a387264a7dbfab311a232932424bd,
    0x2ab88a7c50d2067d312a161faf9bd9f3eec6314a8b07b0aecf3f54522a2e7aaa,
    0x2e4580ca152a7f4b7d49e4adcc4a9eec4e32e7370912f88ba192c11a7366951e,
    0x3af47a5184f18332fba9c2b20ba0921f33f64d861c2a27cae710fed4018fed21,
    0x2fba8b06b721dbbc67709360672728267608fa15fb4cf6f45dfceebdeaeb12c5],
  [0x4e3791cf2b1e5f53f65a7d5e1d110bc8df9b9e0cf7d1f31c316ed05db01b31b,
    0x161caffcf03fd23ca923e7ec80306c9c6e206610394ac396812edf97d89c5ad1,
    0x335ed97fe97211fd2f4fa3dfd367f5e1a870671a4ba9c55519a33aecb29a0685,
    0x46a049b9fc6bc1b8516195be2c8a04d82232333d580804261ee74e23c1589fc,
    0x3610d0b2e7513370b15095421cf3b362cbacc707a428ca2980b35d400f17814c,
    0x26a42a21a28184f6309dad045b77f69c5c705437f3672f127a10821fb2726364,
    0xde9f0db81de5f1c9ebbdbe8627cd8706b61df44f12831cdf454797a860da798,
    0x2d8189775d9585570ed2fdc8c8688acc6ba75198d8c213cad95e6ddc0996bfff],
  [0xd9674e577fd31c65e960a78359160ece44f00bf359f850f635db03113046ba2,
    0x8cc2f12fc2dc74224aa140dc33c594aab0f998caaed8fa48ad997a83123a4cd,
    0x5a592fd433b5f0163295e675b76aa5453e486933e21e3cbfbeb8fd9b2b1955f,
    0x191580fb1559b993259fd90dc72ca23622dfff620c974d7715ca04015db6b813,
    0xd942785681555866d1fe38f8413bcfc99a067eafd1ce8b295b5e9bcd3f8b3be,
    0x3725b06ea349ab5649c6bc4a9eed1bd37a4d1953d16bc41f642b139f0fff2895,
    0xcef202dbaa1d2f00df3aa4531ec1922dacb8de3d706570b919d166c9758c219,
    0x324a6f139e17c820ea31b9d40834b905279ed8f9a12a85e2b43db834cf538564],
  [0x2d4574bbcb00031b36c46d16683dfa08f8c8d7f8709bcc000cd9f8b0ecf9ced7,
    0x18e6915a865723014193ba726090afa64030c56841f95d608869cdbfc77a1d52,
    0x2b1a275468506eb38ae1c9caf440ddb1aeea29f8c25fa2e0df81a60a9357ac9a,
    0x33feddb6eaa9c9708b6a58ed873d5f8b650caf13e14735fa4aef86bcd5ee24b,
    0x96c903e6cf771889e17e20990e1929946c3d8fc2b3c2d7031bfed92e640ea31,
    0x23c4ca5b7a2d39cfdf44c5163b1882c91eb03c3f5e5c588fa0856d3b6b7f1567,
    0x1eb1b30d4072dc32f76d21f633a709a9613fd640269af4adbe5110f4fef46634,
    0x23fbfd1a3cecb83f8f9378fe55d00c0780f5c113fec64bb0a620a617c8e1dd90],
  [0x2e722b695a9cdaa15d29eb011927f22c58842d8bc1e97bd46c2a7b060d69534b,
    0x242aa54c79e1ac3b4b001ccca1085781df5be4100b594efa9b0e91a3939cd871,
    0x194ff7dff08071c32a3bf7577b52231015a8a68a584fc617e40f24b8839c22c3,
    0x1c4aee2784cf64b744d77e0092af8897c9419a43e8c7716c94960c844ebd39c5,
    0x18c0e30f09daaeabe9a912fa081b257049cb8d37850ba4e87fce3d4daa9b23d5,
    0x3602634b06a704e5e82d862247c10f9b1462a6a512776c61ef4e226dcc5a6386,
    0x1fd9dafebfb596ce5a60e958fe23b3919cdb2a85c6d579dd80bc8084b1078804,
    0x5f854e2752ccf75d72f8bb9ab5997cc9c08887c58480f6074faea2442fccab7],
  [0x229a1254e5bcdbe90027a2540795f4059b2434b9f79a62714bac05d350f34e30,
    0x3dd059e974dbe56c75c41ef9dd9b0f8dd648f779d2a9686d18c423e79c03b087,
    0x6c0dff21229e9029e0f15573e7d4c1cbee2c9ce58da18a5ce366e77247eee6c,
    0x127e4f90a8ddaf20939b3af32d44e9f82407c477d1ce1d3602a1a74e5d6f5fa9,
    0x37e3ebc8d574ed7217db390fa4b6f38c7ceb3f8e6f778ffd74e5b394cd4100e5,
    0xd602751c4083efda9d3688f4db253e3c35e080814710c576b4a703c88c1e909,
    0xa80319421b4ba6b1788ac50519f250c4f3f14ff3ef4c7f38e301b71e0930cdf,
    0x4f503bd02225359f775e95e6fc898722e0ea6cc98c3607eff506b9bef2af864],
  [0x355094198e138373906c1aea8d72fcdfe4fd5ecc1fe30e7c5a4d0fa770d0fe1a,
    0x1e062ba64cee11d44321ac0caf71199d010944cc336275fecf61f64255389a5f,
    0x23a1e9b58c4257bb3edbe5258dd6baa812fbd33681cee1f4971bdf8d2221cc30,
    0x267e3817dc324dbd9323de8e2ae8a60ec146c3c026834e6ef7cd4966ae029e8f,
    0x200bfaed75b250d974c4738e3be77bdc528a58e8bf2964009c614da95957540a,
    0x3a1cc6813e7be29695ed0bd53362b3b453cecdfa830004cc6ec5044067e45898,
    0xfab31b0e38a3baedc395b9e6a126f033931a06826836b1be8ec3db29a42febc,
    0x12d59680755e46e4ce047032f89b92eb3a8dcc2d1928f1309989d7d4ac94745c],
  [0x3dca4d6cfabeb80cb8405fc6d3cbb7f433aca8e66c4f5f2b6d0983a181c7609b,
    0x3b1d08435a57f19efece039a50d409fd2ff51aab953a408c7ed5821373847297,
    0x39fde42930061ca1ea902fb84edf95dd4e336e5533656ae4dbeb923565f564e7,
    0x1330bb94f3d04932a5e6836925bef093a957d24b6aac063c2c6e7884aa052ef,
    0x1a4f425cbdd206ace5bfae0e7ed383c4dce21b2a2b7b35060f7320c458895938,
    0x1270a942bec5391f025d3a85a2dfa65caa76470c9615a0d65fa47b8f83f399ec,
    0x3ea252198edb4afc21ddf2942a2181ec48daf24c597bd922b177786636840d89,
    0x6dd2c3b4a1ce9943f1d1875ec9421f8ca9a8f34d438aae1f2d8485546f38400],
  [0x3bbc3f5a08d4ada7ee9e7b51675261909011364a0c2dd7b5543a144844f12d7a,
    0x212a4aedf9dda568ce3bfdd276e6f0b2d2de37cd60f1e7d0172a3c38afd345be,
    0x3e0a6335d99fff2a90384e3de41b7d57238bf943c04aa5135ce1bcb538ffca45,
    0x3b46423b8ed7a820b4d1bf8bf687df0637584f03db90e853151fb8b03bed511,
    0x3e1677a5fab5dff6f2c6187f9afed5cc73460b1b6ca859cea3905422d1c31dec,
    0x3a93b141125379cf9f1d89cbe0a6ff2a72249f10aa121ff1943cd3efa8bff73c,
    0x6c3ab075eba9eddd3ae798b6cd4d1ffc32cb6bfb64a702950c7d83cd1834a8e,
    0xfc01fa6ec2cd46f83f17c56b14f9717afc0e003093e4fc440017080d67ac3c6],
  [0x1fea9cd0c2e21ffec909e6d65482a1162ceb21ecc3dcc363fcb0f07192431f32,
    0x15fb97b2745f56788f410460e678806a4f01199c8c0834cdab4c0e35cca5fc82,
    0x2177e77d343b81fa0ce345a1511751a008be8831ce2c939ed0f6b0d3c6eb052,
    0x235af623472ef4f8426102369b41384392a464d97c0e05e22fb16c11cd194e56,
    0x185a1257f3040b374285d7b32c249e7b7d25fb4acf3758184e613e63c597a1c,
    0x12e19f090bbe3fe2cf84745a7bec48831d8f3bf1c245178b0d9a1a61eaaab048,
    0xbb8b477df77119fed0f66685a0311a04df3ffbc9043b722018e2b65d0b20347,
    0x236e9023bfc11dc8abce9c15e33b81b4f357a6e685d812a69e3aaa47718af7c6],
  [0xe0a6bb62148c9b9a669aec4c7e885d2500c0c2fb371bbbc589c39f3bf4c1d8f,
    0x3ced9747eac79142cbdd4d2c8766c7ba8832976031fa8f0d133885e216305da4,
    0x6efc8316ee3d3219fb92051a6cc949de1bf885641d847c4e95812ab1796a928,
    0x3db347cd4871aa7c84e701e7a8ee9de51ecba46ffdc49f6ba8ce24bf84e233b1,
    0x29cea510950c2638a4afedb7f7c7a9a7d638230d84e4cee37e0b38abf69c15ad,
    0xe7f8f38db5d947aaacc64e133018dd4e6b7e03d7f2c66080600993cc12de380,
    0x20615407a6f71e2f1d7f5082fa8ee703ee309b852fa0cb2298c486f1dc127446,
    0x2ff81fecefaea385fe8ce72e4626fc8e9dd602eeaa8b6058f45ab5e3fb2d78c6],
  [0x3a9f1e66812268ddd09a723674ddd55e8c2885b00bf24d06cbf9692eb3d28837,
    0x164baa9188fff47759fe8200649a9d02224777b10f2138f59577ff318d44fb4f,
    0x3c3fc95f406af8b7ed33b1ec899c0510cba3314031af89f9dcd69db1e90f8af6,
    0x3245ad473a1a6c8333bbfb033eb0236bf78518c0f82ec43c053d7358f17ed8a9,
    0x39cae61df5079dd84c55f3d0ca7c5a07968b95e14e7af5706e38f026668c9754,
    0x359da6339f6dc9cc14f4139b61f8df9c3a87a3a1b4cb31601ed212daa252cd97,
    0x32060d9108ab542754accb2afebb52d270d941c0f499b117d4c038310f26bb0c,
    0x1ef709a3f670d2dafce771a70078527809ba55040dc22c18090e57b6c7d1f13d],
  [0x32981194bf4977fd929eeed2fe00c3a4e0b466a1b9edb4df426c8812dd6926c4,
    0x23b5595c562582303741313c7d54324365cd7993f9250742fd3db5ac61cd824c,
    0x15bba546c83a0b24c3d4fdd89d3f84704cf672d2cb62c6bab10f10d7e67769ce,
    0x3e42d858736c3d770d28b3963bf1741e62f3171cc598098c71029e78ca98555f,
    0xc143c57fc26f6541f239068ebefb686cc720f9ecc6a2419e603446c9b75fe6c,
    0x3eff84615665ecfe6cebbca93bf42e7255709f221e5d8658b4dbe06286d24c0e,
    0x3ec9f14b7107f05e74a03e1db377ea3e4d885fe2a2f794e716f49e5f3b0ca717,
    0x346bf461d9ecfb9773c41278f90c7ffb17f466b920eb2cff4e0aa69e28758ee9],
  [0x3bcba6dcf3c240f5df310dec8657a06dfff7a3bff72cb207d52e77f0a7959b6b,
    0x567d546265a6583a03c251fef864fefc338bf656bf5976f6ad92a4088094c77,
    0x23944bc2a1aaee9a64adf8e76db25d60194a48d2ca864f6a36425d845d989eb8,
    0x1f7ebd6312ed724d95af7842214b16e7351b0434f51e847f54cbf8e94a54119c,
    0x32db590f99a5a4503b9810fd8cb0f390cd3b9b60e17abdd64b8485f1e88d904e,
    0x8920d9347204279c5bdd94088c6d342a277b07f946e02fcb8e87d126fe9103e,
    0x22c7f7a08e870c29c72443d951e7baffc2581eb207981013c4337818d8e22d02,
    0x2bf907c8d2d3fda3553901bcaff3131e94ea6e8c3adedab94bf59bb57ac4c150],
  [0xfbf1254b3e1b9b9e2f9231379e701e5d42a66286bc6c0d01911ea778cc8f0bb,
    0x10c1d7f16091ebd9fd28c130dc95c6070b3410ad3e24fcc07e8f4d3985ce15f9,
    0x15c259bf9f75a7f72aa120ee2e44c309c80cf78fe37bb96cdc6c50a553c861cb,
    0x2bbae6902749052d44cbe7653e59b9d3dc452131bd636b6efc3e9aca59fd8ac8,
    0x3cf23fa91c96e443ae0ac0cfa63e9934bde1c147b202b334c07e831fb53f2a1f,
    0x3a96d8fcd91160c99cc72f87189ba662fa8078e92ef481416eadf4700b328e4,
    0x2c1507bf1df40206a7bf0ac64be12472964c255daef9d2d17e9d80750b09e3e8,
    0x1f6a1516106b10fd9392c7c1b4367764a6f9d77ee156acabe2313998d2cbe256],
  [0x38178ebe017961549e40ca2319ecd6a13eebf8dfafa98d2415cf24c0d3979bf9,
    0x31a2e073d5f4e730b8db03e35052ab00d82106283c81ee35ad08ea11800f814f,
    0x30b371c062c88cc5a84f149ab0af339fcbdb05949f33833c6426862a1c2adbf6,
    0x2ee3bb4cf5bc481c691ea9a0f39eff89ef077875d54ae6d65b64136609eb0757,
    0x1675d3a166814138642f217c3f666c4bcb8675d22cc9e7edad19c520964af59e,
    0x13398596f057029e5c819283b92cbfdef63f26757c620bef1450d44ac22e46cc,
    0x1a1a9c8ac8f72efd9a6f63e0db2d9e3cf773b21bd90610fe3eaa0c66931b88ec,
    0x1af1870e89f39a7df11b529d0e6f940d9348193e6564ad6403bfd4c23f41d34b],
  [0x3fe6dc85f51155db1b03e2f6453beee028001a10dc45444002c3da566e7ccada,
    0x3520cca0adb3573c7cfa937f30793c21479fcc7e4f9ec581c64b3724a26ee2d4,
    0x8eb7be907303265592a1293026c2a1905cfab28dd2c5612cc9ac86c070d6e89,
    0xcd3a0bafa6565fbc4bacccb67cdba27836983f32e6853cb7b925ac9afbef7ce,
    0x1852eb5ad7205b484078a50ac1f380e2f69e7e802e9c3e3d0ef2996c0d4195ed,
    0x3f89abff598017511e46fed25276958f4a1c1a7e96f3be697eb0ac05c88bccb9,
    0x216922df81d83001b44e3ead8fcb2c399b5156a4554fc9f4e6fb77f565714ba9,
    0x298e3e1311dcfbe95e58d831ae07cb7174fd8af40e9a050102584857278b5c47],
  [0x29eae8d72eb51576a487a622cc3ed28cf93a5710841da2eaeb88f6b2bb62de3d,
    0x1973ccd491a2428cd53b1e181d56183a4235a7c63daca63811e9a7b442bb7c6c,
    0x3ee73e4575cae78675ea6f9e5554006d45ea38e16a33874339935e3435f6bd7e,
    0x23a41faa06c7eae3bb3708465a0c94a6bfc414d923cb9b471bb70f5c7edd87b4,
    0x165188f53ea3807bed73d700e705eb5c38f75ec6dc215e02c863bf8ac4bee57f,
    0xdddf582c4b5ebc249aa67ecba0fa11d12358cf87762f6e12e41eebfbecbc0e3,
    0x2a7102065cf1adae50c1e1bdb9fc31568e90202af750d2f90015f067d89cd40,
    0x307930640c424b8f997b572e0f8523b876ee017def8eba7ffe1132d7234aa522],
  [0xfd52cd89db21475dfb862647d1000ed2a2a9997ac1d41c88cb54e100fa572d6,
    0x38d45bbb59496c1b4f1f6138627128d241b080ae3d723f286eade3052e019f84,
    0x303728ad87e14dbaa8afbea7fe0babef72e9b1329b16b731f458c94f99713cac,
    0x3c0e171a34268e88de902fad8dda5a1e8d0aec9a726992f281a4d9cead85d57d,
    0x2244497f828adaa65ba4146d8770a8a9bc22dd047b9b0ab5d5d66fede48508b,
    0x824ff0b2dacd9c035a7ef00dbd4d006a47ea797306e33ea48ab4c16facda9d9,
    0x265bdf39c591f09460bfeeb24cd5c14cbfd66cdd671332536d91fccbbc6bf0b9,
    0x2489f929db990729a95396b35138cfbbfc0ebd536b2272af7a2320bc017d7587],
  [0x3c2762985d2bb2690be253a0a653afa75b8c6cf9624a15509dc6a7522bbba182,
    0x1a4eeb3ac55ecbee3c52515f0fb6be8885079d894a58c365f20baf7eb92e3c67,
    0x368be6675590330ea524dd89ead7b8013e4c3d0ed1d6e237c1d65cfe4dbc6d7d,
    0x1734cb136d91d46c65e6d12e19fe1474f4b9f4b02d58a9b876484b97fe71501f,
    0x6875ab95bd530f4acfbc296a6982feb4bbade0a171858078fb898b894261adf,
    0x4e6fdf3178fe8307adb6d85492cf37d1fcfc132da97b809bb93a126978dc931,
    0x308ad61e38f54de6b903ca48e774aa84a0ee23d8bc301bea98a35c7591f451e2,
    0x111f5b9173339e4ca7d935437915eb71d39b7a798836a3563f83d965599147cb],
  [0xfc0c512f4039e4cb3972d90ffb7ec7f0bb61363afb77ba1dd117225313e76a3,
    0x67b5f3ebbd1c565337990347edcc09425e891510c75ca5ffa12bf5f46908ca1,
    0x37ff23c078c28a685ce12e9d513b33f4cab7deaddd2915091758f989c858ebda,
    0xef4a00c8f887f712e80ea937bef3c557db9c56142d4617eb991a59efc32ecb7,
    0x270dcc206d6850d434a402538cded619cc38efd0dda9ca7edea3d138f804bce5,
    0x1b50c4c00e133c408f2c48534c456933bbc6325f460ba74fca9c591037da5e7c,
    0x2f605fce723bf2e5dd988ff9cfd24c889ef6e54b150011bcf75b51c0131fd161,
    0x396edd42a02327065e258bb87a354411170dde6b7c431cf94f3f964efa46ce0b],
  [0x3f79178bef9ac05066fe0f1ae2c5f081ba64ff94ec68148ad4aacd42b0ef86df,
    0x366b6dc69fe6e001cc73d7a96b8352d548cb2ddac839be044d62037a3bd07705,
    0x2baffcbdf6113dfd1c1f173d1526a6a1809cec5c0a2b91671c4b93dd25c59e68,
    0x1553b0c6b2f1fbb1e66c59f454c7eddc7780e5583fd0c0334c324b3f3d4c6918,
    0x3fb014ed66569d4c03925e8a5f8950ecc14cbe66b2719ef164640555979ce05f,
    0x217d8d7d261715322ddd54380e05fb60e2cfede8035cf0b6cf39fa4341ca5e87,
    0x27236c8cec2a20c25c25c6dd1fec7308bb1a156f90b03167fc0ed5c13b9afa01,
    0x33ce84dd478355729a4ebdb7f4d74211878a9fdbeb4de6a43a2fac210c264e67],
  [0x30614be11b242c06d6f7ec97a5c949a3b7262e282e4bc9f5868d90078a89ed4a,
    0x6761234d20fd0431ea58749020c6009ec568cdd232c68f9e0a177c5f3ee2726,
    0x36573e5d085456c3936b53c0c88ac807289c76d109c309e52dbcf156e45de08f,
    0x3123ec8d281194ea13c50e8dcb9cd4e4fd2a62ef4aca5d25d63fd9a6f84a60d4,
    0x3bcaeab16db01a851d4ebdbc25e7904fefd8756de901730f5a9992eb7ceb94ad,
    0x3e1e2ee2a0d787ebd000834d32fc3300f28037f83a26dc64cd6269df1e8260a,
    0x112126c29b07a6666a50f928e6f133d29a509f0633db8f87464ab4ff3f2c49f3,
    0x13932389a7943f8a5124ca53ba092f80bc030f244ad335cb150a5093ade869bf],
  [0x1b935c8dc89a943bba039fcf7556001e42d4515c7f2b214e379a4fb6600ac4ec,
    0x37d3c1283b5157c84b692b5b5594c88664e4faf4222781a6e1529f66e9b25ae1,
    0x1c3f48090d22f48040eb080c8579cc24b66c4bd9931b53a489da9691e03f943b,
    0x1272504c9a0665cd737f19d73e84b1922f5c57b98980f928cb382d4e5031d4d4,
    0x35d456cc0f8c63c10add7fa416b0dcb572322579ef63489f4be88aa5d2f4c0b0,
    0x23adf26b7bd266f6b463c31aa1c8bbaaffb2a29ce20805571bd9d6defaa1939f,
    0x151c4bcde2a5ce21346b062bedd1869138280d4bb4f897ba85b7ea8587cc0293,
    0x744207e249c97858eb5d760d08a2ba3ad55d1854d1c9f8571f5adcde9ac431e],
  [0x1bc7aa4855fd3b7119787b8d09845f8bfa2b08b9d1a3436e7e79474fbb927b0c,
    0x122a0ffd87ff1b24b8316b57e60119ac4be311afe95271f1f21efd3fea112694,
    0x24dabeaaf994baa213927ebd5ea9233ba98118d6d13b2e38fcee2855f8e37a39,
    0x3d14a5b2949581485537ddc4060bdb313869a09854b230d7359a17ad40819a48,
    0x4ae78ed440eb5910e0b920c489039359dd048fb45fba49cc0a56f16071f59d3,
    0x2b67a61450ba8d5ddb02412302a44e0345b22567530aa3dfb1fd72d9863c7312,
    0xb2730d44bf60f27f722c911e2c6ac72d1ad11f015c862737a627cf01ddf106e,
    0x3923e86f51f70608e84d353105bcca90f6aa1c5457e5d07711b54c295fa172f9],
  [0x3c386ff9569d482541cbe97795ae14a75a61892dec63f96054ec979b8a46bfa6,
    0x279fb47945cfcbb12a8e9c2d8b030639a50bd5c5b092f3d02959d4778f5a262b,
    0x9c0a180beb16f1082feacc3ad7b437e00772b1a74edf09726c3ac34ae62d937,
    0x2aeb18b3c03242bc2d1eb67fc834e1005e6d35220abb630375d870289746cd49,
    0x15067903e40120cc35db1d102558ca20657d950424593ed241d92792a0bef908,
    0x39bd49470ab35eee4b5a68744226abc0f65c5cdf749f67f4d1e70a321c9829cd,
    0x261c960b5a0618b5289ab87577561a6cd3818f3a5cd071b894535393a0cfb41c,
    0x33a660081568e129b61628b37027e934c5b4bdacdde31aada777b4e0285bbb90],
  [0x861787971562234126b3723e4eeb63546e98abb4e85b33307dfaa91d6af6976,
    0x24bda04d9517350b3860d6a33787ca9a0c67a07493cbbb459c8520eb63853488,
    0x2fbc81ddcaa9ea33bae6a2b824810e2a978d0aa9f948f1bea04758101367a82e,
    0x1687b77ce2859e4489d898d37479fb62fade7cb5b0661774b2922aa25677165e,
    0x3526c79ad14eb7f92a8f04231e3c4af81bc18164cddcd2df1e4e06c6d4fdd5f7,
    0x275b4199d9210b141d7b3c830a4178092c29df70d5690204d181e67d57e9c8e2,
    0x89acc583dc2f868e3fcce5028a6da5a7ba0b29e17b96c4d96458ddfad91999b,
    0x296a3a2a1326482382fd1266ca5d39de8f30761d531e6aa40e83a038c899978e],
  [0x2e333863f15636d6651b6042b84fd1f085dfe51d8d9f5cd6d4d59c99e9ae4f17,
    0x2776c71da2114c07a277d135fa6588084d5affbc93eb2e5c58c60d1dad153777,
    0x24dd037dcb14566411dc407ca697733dff69c8c892c3f69b585caf1752cffd08,
    0x2a487bea1775af8d9d25a5174e07805fe2599d440b17a2fc07120a4a98d74bae,
    0x20ebcbc5a14abfdd2a2f7be00c50c422484498d1a4fa855394c77da51eddb585,
    0x3db2da7b2e311071a75d9cd212e6865df2a3c55f5dcf4d2ae9c8fefbee8e1d1b,
    0xa5b7c2adfeea6c3bbdcfa6ce8990a0d67897ef9b7de63748a264ed5dda4d576,
    0x6c680884d4ce0851e9baf1a7a23600ff1548e2f3134f4b3a27d922e9c0d8f19],
  [0x2bd5afb6a510213d07f7c578ae2ae5cc2344f6acbd21f02d65c37a40fe6404e4,
    0xc76b9087ba090f50172676bb1878e4750a99e5234e935a9e034455ca8e0525f,
    0x1d0b94ed26efa359d07e100a60eab19398bb0782d6980a65b4b3c499ec8e9143,
    0x33cb08ed42b36b3468649eca8ed7b94c8dbb25e3a955e5f06e3574d1d33be30a,
    0x1b302b77f1a0375dac4f34c5275e55eeaf3be6e208a6cb1fea05a1db57713c9e,
    0x2deafa940cacee76009216df65039bd748705be3ee080beb3105ce26b3184d6,
    0x2a5d4c8b6a7f077fd520958055e24bb98b39f5fde0cc31d832d5c8cc6e7ebcd3,
    0x2c680f38fb15e4481e05691c17562a6543f35c86998a944bce7dd5f85fbde326],
  [0x488a6c2b7f4e9897d4a12855aa80d4e685cc93c687b3faa23f1c840bd6f3325,
    0x91d417fc4180c5353fe9333ca0c89507aafe6d584a5f5c9488a9bacf03a7387,
    0x33a7357e14cd50699bbfe008b3153bfca9d348168167320df8b89d91de9fc166,
    0x3fa99258b8d50b698a4bf7d1d24a26c5d3bae57b4bea9f1d144475ceb0240af8,
    0xe96ad9e3e7f6705ad6f197fef4a8141d88d7cceeef8e55cbdc0f46839885c48,
    0x1d1be8cf10e70495f77f6605bc20384441675c922f876c1c048c3f818b24289,
    0x21459bfb72a699b44fe1119e4432af25a2a2fb334c91398c3fefb83ebf0a76bd,
    0x1c303464d45a5eab288470a7c08117836f972b7b927598f94fbd05c9f1ccc03b],
  [0x27aaacf810044c6a65ac7630a598cf70811dd8c927743272196fa55aabe4f5a0,
    0x11af1097ba2772e5e2dd8758ff93b948060c542d243e3a0a4da81230f8267e3c,
    0xf1f14960367ff6e67119f3036a28a181cd8f0fcc3678927cdbffccdd9b1373e,
    0x13f7fd3fbf3b0e580344159e0d5af06ab51a73f20c74410e836ced502862fb78,
    0x1777d7c6fecf217d4964f00a38910a44c82eb9665422324557f65c2cc248f0da,
    0x3f0e235170458cfcb63e0353804fc3488e5c25fc7c9289fdcfcf726dd04a62a6,
    0x2f99a6d8215ef11c0e384a45c3d9175e66ec4e1f9035d7d63b69e060240150d8,
    0x13b32a53fe093be3beeb6e40a306041f9c41aa5fa800d8ee7d093e7aaa5946ef],
  [0x3780f57a876f2a8061adb11d57c32bd97ddaa79175c70f24beb2ff88407f07e7,
    0x14cb0a32b4be473145e66d5e5a49401e2772517ec79193cb8a87c8bd8a40af23,
    0x226d4cfb2eadc65da115f13a9bbe716aa038367c1da64e43d0f280fff3a64b6e,
    0x2c88b2e215d426f9fa46d4f5270ac79a246c9b239e387b9bdebb4ea349159d12,
    0x3234da97c6c24fcf2c8c2284e3d549e0e9b06504f8994300a2d7a8f79eb0a287,
    0x102f47fcccd3828ebd42a20dea5838392aa4108435b63c8a273555de6fe712c9,
    0x1418b9c355d21f53ba0e18d2e2aaf3a1e68454a2f960231fa9b79e297fbec25b,
    0x2d571da7ea4dac4387fca8a9cf229e88ce3f880dd0a28a24554f0b4c156a3bd9],
  [0x1ec04ff445f9aa4cabba2e393c9f1758e93703964ace66dfac356f9335f9fce4,
    0x298618bae9085756d184d49c0bfc892bb6d76e74b523396c6d136d5906ecd980,
    0x2bb66fadcde4a2b3bf26d215479f3670b8c75aba0c2476a1d9f721fef634349f,
    0x28a653c918bbb7a177ad5476162675513de45f25dae7828c392cc57b4d744413,
    0x29685a709136ed283c37296a5c47a63d5550c120b991c25263509b08fd8a4acb,
    0x293019ae92ddb760f570501925e09f71e1e16662a37688553482b1e404b16498,
    0x3eeeb22ed0e58f44922a26625d35d130de72bf4128b5e8631e621172b41ba67c,
    0x1d8e9d6b8e50c4ad8452ab4d91328717c37de071df674dc1b6c56f32bf31f2ee],
  [0x2f8fa0e10b6576d4c978c35ffb0eaf323223ca05b1ca45cd46f0df985d2c352,
    0x3cf07053d36b304428fcdeaa6daae6fe8564ea9bf7c70d41d887e9a3276bc982,
    0xa72b5becb5993cec1673ecceba7bb2144432b60cb45e8c3f8ce891f47811c1e,
    0x173d6fcec7bf3683eed68aac59a0b47c0b97e87f0735219a3290f538c805247f,
    0x247f58b7d28b34e3125d462b5b13cebb06193457680d909ce8d313fe18b2c592,
    0x12025e9ba3efb3a20a95cd671e60f89c70a37dfdd4e5560f1f91d76992daa71,
    0x304c2767c4a962cbf3b7544e5dcee3f4378830df88f9e4c5d9caacb16d91502f,
    0xf9dcddb7bdd85bf8fc4328e26d25a6f956a1059314acebc7794396b926ffb20],
  [0x303f3f2761a816eea491fe055cdec20928ed7f220591a4f5a845591c77fbc17c,
    0x295dd090e1fbf61dfd1ae75e786ae6547c4dac21a774381d1f3533c60cf10e80,
    0x1ebb873f9de4a3d6b4c7b20d02797b173ea52091e47f6437117b4c3948ece991,
    0x13fc9edb4133ab6ee6b65d95a1c22af154c2955c8ace412664b81025f0c84b4c,
    0x98c01a791e3e942b442672a034a52eb8705c09d81a42cbf23edead75ca9ca9,
    0x3f25c23140720037dc3df05a6ff379377265356d3bf7600e4d09a0e890694d26,
    0x2973fb6bb87335163ab89cf47fc985cab7bc99fb4903ed018244e822f802c75e,
    0x2500f5794fe4059ccd60e63619a8d87e802740b8f012b9873304fc857902692c],
  [0x2e9d59bb04efc48f1eb9d3336bedb355ca59779d57d88254587027dddb80e31a,
    0x233a7d26f6d93c83a7b9a888ee41a07d138c420e9026dbf998511717feef360b,
    0x2de3a80d131fffea4102f7994f3d633a823f1324d092355249facf64b918d49d,
    0x1e8d3a4250150ed490795c3147708038aa914c3cef7fbfa68fcfdab48b63db24,
    0x3781cae74873625ecabaf4659b54be025224219dc24d9e067055789f366eb624,
    0x32c59e8cb1eb966d9a45f1f39f1e5f314d275a77f679cd48a07b9b3941cd9827,
    0x3c1d4f8b5cf49fd1e6852169184b72f3bb99ae367b4158ec61ce98f97881a865,
    0x21344c090070abca9a661061778f3335f6d9c2dca8327dc0abce4ac2a3ab389f],
  [0x2f1ab8ac46451f8f78db9f8b65aa66f4deaef38cdfbf0c893db5581270a6436d,
    0x3ead88ece22801b70f9750658b6d25eb41efc0e1d841c08b533715b3ed27e231,
    0x5a8855aee39b6ce28d6f9b487bd568d183980ccd62fdabf626738b876795784,
    0x2269a55168a7257df6bba8f4035148fecf6bfb23418ca9eb439861ed4bd1973c,
    0x10e18d036db1105c8ecf034ccfdff4fb40405bb459f813cf15e47c2c3c684de7,
    0x20b46b52eed071e8f3cce0959f899754b2714d0faaeeb33dd5cc49824bad9ce5,
    0x22554210ea6ba7ea119998051638865b68f3b3778f5abca2e066050ddc989988,
    0x14446a2048bb6b1bdb267296b099113faa1df3ef209c52330cc7c5928da42d82],
  [0x1a3ea204bcadabaff972dca58f0536bcb1adf2e972edd50d6750ff93a7b63633,
    0x307e23abaaf33830b5ee8ad021ccdfa49270d7355a45e85e5e34a98c17ca62f1,
    0x90f5938e66e7d9f42c321b4abc2f883997448b161c676efa2c6d917f920d238,
    0x28461dee557241874618ff5ad3431eb2b700aaf214f875da6606b60bd8628505,
    0x1ef27e23b945d888db9a105d7b1974138f67145d800fe0a240226b3de6c9aa66,
    0x2c597fcbe34d0289cb3d7900457fc979fbe65b3feaa3ee7982fe8e68f9d7becc,
    0x608ada68f07773e3f1db4b5f11f1a6c4c097e2e895a5bd286d906c0f3a3ec9f,
    0x235566cd8d2689478e974e2d4bc348e05df38dcb2037dc8b19db661c1bfdee08],
  [0x2b1c0c15dfbd07f6e67558a717aafeeb71a86d356275fc39c6782f8a4b797c62,
    0x3b73540a4324a1561587b14d89c63595c3702d9f300d985cfcfb0a17a29e65ac,
    0x1ade787cd3d34601b72c9b3ee587a02ee8b5aab11066c5cdee389db499493c59,
    0x3109eaa9f07731b4b1527fd47d5d94f938cb65226a5cb5736641ac184c66877e,
    0x367ec1424dd998df5961946f792a13270eece6ad06c546e6d26ad6f322ca8f47,
    0x3be88e6bea475ddb16aa97b883ca5c1a3cd163892d72cff9475764d7c7389551,
    0x1130329a0a68d4f1436e934c9639bddb281d7f369b96a224674d792fb52fa611,
    0xde0e6dd096f4294f3d6f26aeb731b66e0a70ad4dcc433bbd55efb486f6df614],
  [0x1d117d674ef6ae31e8b184458ee1d7c31b55fc68dfcf638acc69b7f015cbda9e,
    0x337adf9a66434543285eb38ce449b5d745e879f87bed68b79a98a7b0deec65e4,
    0x60e4bea2c640491d2a5e9d462c601b8df38821f815e16602e5121a8dc431ef8,
    0x88a4d56ba990fbb8a9c9432dd7b888056f491dbff9cd0bb90679af1915bcbb0,
    0xce70192edf64c098c126eaf60d3fe24a39321ba5b3fffc27af8b4657e7613b4,
    0x25e0e004406b32e83104226126f1c9e5ff71275084c47ff8c8b4b34f3ec03c58,
    0x2af59f8d0de488e3dc3827d602e440ddbeb63cf954b064771cfb37c2d40b7995,
    0x18395043f04967e8a97b4bb1a26bad308d07c276829b0ed2e73f8cffe973f33c],
  [0x1a86d8795b2f7b905930980dc7c757a3a637228f21bed95b904aa3ba238e887b,
    0x36c5cd9e17911a53cd62052a564e1ab43776495df83fa6289f012656b99e1c5b,
    0x2765fd80e2d5753d5211598c4b5ae5ab483be778dffc88694498c94d9e77b70d,
    0x326317b983335995c52d9a81e1c0fe190600475c54e1322b7fb2610a08e2d53b,
    0x17d6bf65ef2b55236795c0c1d3f2ccbb3a2256efa22116119d4d78f3715d2d56,
    0x1744a0959a9dd8768e1248c47a4b33e609fb5fab08bea5f78911bd0b4444c42e,
    0x9bf2b02e862e415fe13e0b17951d775328eb66e82e11df36522bc928d5ed87,
    0x37b8ce8ed272d8fe2f1c9d8ad84443580bd338b283ae7424acc732a32bd209fd],
  [0x3c8bb0d9ca488cd9d2e7b24a43a7f5dd3356b9c6e7ff98b133ba1743e48351c5,
    0x662b7ae504035523e707b4672c6784f7c49a8043c7c62eac6c8e0c17f22fc54,
    0x559e0a3eaddc9163ba2fd685c0cf453b8eb9590a701b0c9ed43dd71f8a3a4c7,
    0x29c50782f3c1af3a420326e60d56628157c67d0ae2afbdf9f5686ddfa5ba9a57,
    0x2552ffe4b2ec7c14104985529e0777d7910c003a8c88c1d46d52447a15611947,
    0x64abffd8dd2da3e61370dfb169a319dc72a96919d74094607752f3612fb7f03,
    0x34384ae20d645ce5a62f22a981c15b0f01667ee5acf798f6a8061072bc61f2ad,
    0x150238682530fcdbfd132d36efed9ada7e964b8e197f53a83443aa5c17d2a925],
  [0x3569f797f131dc899ca51f14da4ff22b449327268481e4ca72a91a6d6af97d3c,
    0x121a4b25c0ec54f39dad91c67acfcf5df693c7d9686912f38014c80fa18cc8d4,
    0x3ef37b2e5eb3207447c0c6cbc4460fbb371c884ad3670d6d0bb5d4c19fd94a30,
    0xe99c7d78030cfbfc76dce1c9cdd5f8b4c372ec468d41dd9d799ccfd9ff77620,
    0x39c454c0468556b8ad587787c8d9a72278baea309d1d875e48549eaca23e95f3,
    0x2127f441951721681a3b75ef29faf476f44994947b511d3395c4294c3abe43f4,
    0x1f28b2bad0a6301f67d736839c362d5839300509eed67cfb268fb4ff6d73c36,
    0x94c8967d034b1d530ab1ec04bf243c7ca9aaa4d6c5fa0357bd0d967bf3254],
  [0x1bf08e750ab3e7592f13accf1c674baefcbba8bc3f614c25d33b650a691d58c6,
    0xefb2ffb04617a0161b05077fa0ad2c1d6472cc392a7a988016d8708e9a47c25,
    0x26206bb2b5795f91205210be98a9371b74d7641a818031e59fb894b511eff4bd,
    0x1253bd32e7a4faa0b5a226c157717089855e27f716a939f27984b7a664e939d0,
    0x369df0d119185beddc52720be0ed2372296d4edd2552e5cebe37bc91f0591e59,
    0x3d69dcc643387624dc304e1728147534d3d580d99935b0dc1002be7f258f0b35,
    0x377e749b4f5a8f24592f04ec6561a4580f0887162c91dd7ee4acebef55a1182,
    0x3161afe8939c322b8f962423bba28fd7bc80a4f66af90901290382c33452b775],
  [0x3eee9ee046fad18d362ab8810e3b076c78c6526498e2c65fc42226645845e026,
    0x322888b7177db8810665c976f22b9f5d5aefce2ef5ca13ab12e3a508310b327,
    0x19791b56fd8acc44a59f2922a948a0b5e897088e81bc265c5e482441cb454796,
    0x9b145db494fe9af53721ca00356a1d67199b3a2911754e7bf5fdca2033fa227,
    0x1cea1abf0a43dcba825c54af4d0612eefd1c67c21d48e24296e43181da1d0489,
    0x28f6b07f497e1793fc4e47f558619b941c4fda2d57bd430073a4b7dd4bc8df54,
    0xefdf537cd43ea089f9ba6f33f2d93fa5a039e13e9ae6e70bbfeb3675401f1b3,
    0x8f2b3ce821f76e72c5cea1c5b70e778d5fa7d1f9958eaff2d1aa049321586e2],
  [0xbae392234aa5b415cced41e272db7ef32da3b69396ac48a624e6b832a300da7,
    0xbc3c96d096a5772638564d1ec8bc9099a8a946489b1d99d424e6451377f49d9,
    0xd443a774a9cae72ef6596e04a89136554848403100f19ddf798d9bd18ce0a5e,
    0x33cca98fa84236a01a4899cc204a95f314768050ee00c48b17cec2b1dcc54d17,
    0x37375b9dfa9fd93755cf310f282f8e7d2935fdb2910dd6201eb24a9c9368d928,
    0x1e4ccaca80efc554f0530f34982f6f08ff9710bab1a983b10dee8e50e799f428,
    0x3a77e6b47b8b739ed9120cfe59ac981799ab74a9a01ebbe19f209fb4af473cfa,
    0x572552d6415789d0c9e24b59423d33d1a3794b782c54ef4ca06be57844c66d0],
  [0x3635c3dbdef305d58129e1827fdb1ccb09c0e08bdc5704bc02cf3612a173e19a,
    0x1e8ecb8b5ae2af764682a58e8bc64e1ffe78495c499ae94c266e0a6968d7f970,
    0x37b30526b146fe9a7bdd83394590e6f2cd508ef35dc7084b8f2f2673d6708762,
    0x35b846989b7106bd6ff814ba8a66d65bb582e081da8a429430003b4f729e5aac,
    0x313266d794580a55762fa970cd0024b92f0e996d1035fc4a7a21c4509d7b845d,
    0x3e5c63c66704184a00d7c2876974b29e677cfc2bb5fbf6e00079810bc00b1de3,
    0xb43569ee3dad62b05c1cb0589521bb9ed36b75e2a99ae29210c3e7ea95d58d7,
    0x13fc25223ee9936098541d9a0ccc6713b7c790554058aa4ccbdad458ce71c6cc],
  [0x235a964f2ee9ea18b1e37cb534238d90d850ace849476bb0b9d91476d015716,
    0x384ba3cf464b03d6a24687e500a432a0c6a524c468b2d9466ad3093c1ad7d547,
    0x14a1eb182d3f26b42147fc256bed1ab37f0d577ba09f02be467c90bd16ed4fdd,
    0x1167a85825748dde7abda75ed8d462592c93c3a78928218de862c3c9d448bebb,
    0x25435191fe13909d4356ba7deacbb399fff433d47ca09fe0636d10a9c8e95aef,
    0x2939d9803dc3ca6571b002789faf92bb21e7c67be47e3fd6d1c5f69eb766982b,
    0x3b2c8d2ad51afed698c57be74792fcca31e78bfb22ee71dce40f81ef17373522,
    0x191c85a8041f8eaa23d1967441b0eb01c6e465293221c524f15095b3eae3c70e],
  [0x1855a306f3582a9265b7c4445830dadf5bc5090a2edbf61f2f9f023d61c045e3,
    0x3d1a2466ea91713ae125450ed7fc2ad53d4423636899e61f45d5410a1329b585,
    0x2b5774e3d5d6156472c9ea5785c8efbf22ddd98ccead3f581789196eccc9ae24,
    0x24a39a37d94be84a72028956100a58e8155eca0b267349aeecc48e0609bbfe21,
    0x3b17ce91465f24e3e38ba76b57f4c4778abf3c24d522e4e0a99734fbdf802b3d,
    0x2f15b368e9cc6a9ada2d08a96669facdd4ee525b3051a3e0f96d105275b0ef95,
    0x2c7344df1ffd7ab517cfe92e3d7658120e3e7e138dd3c54d2175f4ad59d45288,
    0x1cabd7d2f5d4dec881bf62daeead58309495e61273933444920b3d7938d552e6],
  [0x2838ae2fdeb65d8de39aa023911764a3610e468edec43c28fdff734641c1e1bf,
    0x1aff58760f16475d62434c48e3f96ff46d482bd7b85ae5ab4fd3e8894c1b15c5,
    0xb03aff8ddc5087046ffba3ae9ab5f3fa59d3fd5a70109540c9ea06611a2fbab,
    0x30e69973c0a6dc4f95eb733767ce6cc076fe4b9944d39d6eaef04a8b0baf03d3,
    0x1ade351dc775a6cf38817cd7413110daf19c782a51125095e6ca486481342d1b,
    0x132ab387f58c7516ba00d4b96f609573787d2e31dc223643b96f6360a13a464c,
    0x687ea3795d8d1f4d4994dd532c341c2b2ae7f54672cfa8b05ea8c7b5a05e642,
    0x2cfaf5e9eecdba2756b8e90f22cf4563082374e74143cc0047992c7529ce40fe],
  [0xeffe24526632f7e14cbc5edbde9dfac367a873fb32d5718125b31e6581c9dc7,
    0x23e77faa13ba16851bf967c88c7881939fe87a3cfebca875b9046e67b55ee0a6,
    0x38c87bfa2579b62c815fd2c19f0a62ed12be369d222b6a293adff72d366bb594,
    0x2ce2e721a13ab3b121acc070fe0626ebce8edb87d85eb61d7a0f75d2e5789da5,
    0x21385cdf243599108df13243fbf568df8541debab7fc9329dc66023f00d4bc16,
    0x219f8791001e7a053cf3b9f6d7986e6b8bf2b971b459dad93d290f76d1aab03,
    0x16996f27e3db9848ce1a9326686af86a142c329f0de25c55bf40cdda89bf4cbb,
    0x66c9d6bfac2189b8ffb9bed7c39c26c576111148953139d9f375ad8d7a05825],
  [0x9139a6e464f57d89d0d5b2987b89e346b94e03c9deaf6e7529734c9dcbbeeb3,
    0x9c8810b34c96f9a610c8e27805d2cfd46bd28411aa9e3114aa2e4a1d1d7864f,
    0x2ae94a0a5e2cc96e78a4faaf4d409810d987096b9a8882fd1bb5298d8c0b6449,
    0x181647b1e2163ba4f97e15ff41804afb73bceb5071133ca12c0706d1ed111909,
    0x19d47f7f1613db9cca1777b9f9d164f99af6c8f093bb40ead977075094ef6422,
    0x313b90297ed04b35eff4ac681fabc4fcbde00cd3b461c5039df26e4cfb3b75ef,
    0x32433e5bec4cc90881909f3fd91d158ac84c564089641133b05d0219e5e0de1d,
    0x80b341aff9d820be5ae7576c8afa0179425d4579aaf16c854579fd205f11518],
  [0x7cdf8590db40d15a4b2b50a0064659393e36e42390c2d0c745c38575d6499fc,
    0x16686f32082016fe6e733f03b487b2cc664b679fc8477e93f52575321f8a4556,
    0x7a083fb97fcf84a4f42ff2e5196abdfd7f81ecee777ca3a9bd3eb99dd314e42,
    0x180b9d44d2edb967d3498113d6aea42d0d71ebc8ce72982f98ae66537a438f99,
    0x2ea91cb743481b148e3279a36674e1f9831552e67c2c2884916b47f4c51bd953,
    0x303a44f6b7e30da3bd03ecc19666b537ea33b8f93ed99225eede21385750f38,
    0x1cf633466d90017216afac937f812a9fcc4170b7fe60b26f2b6e15c5ce07d17f,
    0x1277e25ba6796d5098dbd686fe2333902aac8dae6d3dc498784c6a9bd426f77e],
  [0xf63dfe0ed01c41dcb5ac5b7e9100c6a3bb153cd1758569c889724e0fdd25983,
    0xf84785723bb4597a0133752b8f874b40e3fe2cc064529ff2dcd256311e0cce0,
    0x18984ec09edc17e15d7ae91427c45e2dd2bee239da19ba8e8ddb44d11772b17d,
    0x6e1328f0f7ce0f0a7b41b2e76e52dbcf3f22c984be36df0046883613d283839,
    0x1368be2e7cfaeaae12790c2db8dc1c863d515f852fb1dc2af7c5183ab22e1035,
    0x380f12a2fcf3e8553346a6dd53a1422c229cad55c0c87b136b5be7a3923d9c26,
    0x214405670992874c28f79a3e89b753c7e5387c839018c397df7964c4c857127b,
    0x2d041f36e018ec72a3ac4e7f1f394c1bc43ed2be8a0266194673136d00e6a5b8],
  [0x12eeb1f700770016fe770ec3dc65bb2f0c6155f3d0829e429c8dfaf75c4d858a,
    0x1d99ffa0ca88199fd68c63d20521c7848223b116fb2a02224537d5b6dd7e80ca,
    0x1a3722a727f4ec1c4a3a8dc8fa3a2bc4a68bced72644d82df37f7a34ceb79c08,
    0x3c59b31356f9ca776ea992a47bcd5634cb3135bd8a055973912673ba50b45bae,
    0x2ebf20554b2bc4124f27a5abc6d1bdd782f262b8cfb1d7654e1cd5262504e687,
    0xe34683db5e5b4e9e4177619d54c019a2d67bfaac117d7678acd780d5d3be279,
    0x108754f78e1d23951632582932830b1f554d7b665a48e03552143c0d930ca104,
    0x236dfec878a9a2b70479b3e4f750fdcf613a4094046e0909efe8c0a7c7952bc4],
  [0xb8547b144d3ddfa0867de1a7e9cc13b124f5cdce28a375e5b4bf3f81f78a4d9,
    0x31552bc6ea0484192e84c3d4a1667d168700fd277d994fe3a62bb5035ca04e22,
    0xabd334a60d45d252401acef8c87d6062bdf87b6347eacca5ac871faf4a32785,
    0x7c62734d6de368450da410db6fddcb321d339044b59d79a55c6b73296ecb17e,
    0x9882a2345f35e5b09107df23a3327493fee5902d261b94b8a214460bb39f685,
    0x173ec6c1993ee371fa3d7dd50598178cc3eabf56c46bc84335429f2ef578bf95,
    0x29d927f7f2de6437109e208f802200d309eb58d1e5850b6caa57cb6573075cb5,
    0x2064edbaa9e1fe90d61368a15b8069b532d7160b819fbe3d74e5c90292ba09b0],
  [0x177dc01a3ca6bc567927196fe9a2caae4a1c6de16a7fbbfc5ae71c8c94c70728,
    0xa7ad5f8c24dd33b36ff2b9181050e82226b1ff524f94b750e3f25d6a38dbf1d,
    0x36363b3029e7fac3545916a73b322102e11e42ca5dff31abff261c57954f485a,
    0x2b6ab3ca3c7430055e4398f8fbe958b63348d134170d3042e9c9199e12bf234,
    0x363f471573f42d93dada4f5aa0fe4021b3ab9a8707373f6e074aa96f57688606,
    0x351094aaf0777d0d1517a41b9b6f2fce115c5d801dcd980eb7b21005ab10f4b6,
    0x1d3fa308a29d289eeeebb5a28aafc71a494a099837f39201051e81a722fd044e,
    0x10666df317f0acf7407f04c09aef8d729563a66ae5b537f037faba7320f9d59f],
  [0x1e306a072a66226f0a3f588884fb28962d746d203b58d4201ded2eb3ffc03ed0,
    0x3dd17928018da7bcaa92c75b58390783c9aca9f63fe0474e5825f4849523c2eb,
    0x2fd914864a0072b7fa710b5c621190c93671ae4868f6f0937694786f13c14132,
    0x3ecc31351f67562503cc40baa3e0135c154bf83d300b03667a9fc1f17218be57,
    0x395b478363c2e7fa2933973fb7bb3e86ae994bbe9570d6553d3c6cdb4bd07489,
    0x2a034b605bdab43ba10f4e8d26a5c195eecbf9cb7c1f42f436a9870e9c984cd6,
    0x3b58eebb9251175e20fcc08619ff7024059d9fb3910eafaca2b88c6b7359db09,
    0x2700f8681c58efdb060f684c3e699e6bd9b5812de35c59fc8ec784857032bfe2],
  [0x6ab0f0de857a75e296849f1360d2aab8c6665514aadfb740158146922d74e87,
    0x202430f5fafc4870fb8ab06b7e4077ddd7f14922cfac2617945180a8e7e75812,
    0x111eb735549bc71798a048cc6d99e06c59bbd3200e96c3695b76473707262c14,
    0x36841c476a6dcb87a3a2ae6bc69fe8cbb4441031b75e24adb5459ddb93a5e8f4,
    0x1d07b80422733329d3e1011a33e45a3e32c8a1f6f44e8336a6c7451484da2080,
    0x2f0ebefb3a896aea28716b34b7daaef8763cacdd1c1ac29ef01ee87fc2e12e4d,
    0x2d3fe89abbe02d0237649c2faf1320dc65b7d2e2422ff09f97118421e60ed054,
    0x82c7ef0e73967ce8357f09fedfa34f4f85c8ca07d9547c0585a79e817c70326],
  [0x2d0926a39c6b2bf83ed24f2b259ef6ccd3d3ffa8c4fcbea0dfebd5f76e6b979,
    0x1902a99e2d20e8abe2adf1df085616601bef3981059f39168d4a219be370affe,
    0x337cd941fae9ecae07e55a434819fd1a0d5ed724d355f001937ffd854d5d2e15,
    0x17d72d8d0cc3ec54c0bff23ad75363c589b0df24a1870cd80a601bb420163dd5,
    0x2bac62c17f2a64fcbc597a8d564fab3c1f3cbf7191aedc30b14740fdcd74c793,
    0x93f4237310c980228a394da8cd9254e30a40f847f14d6d0b5e87c8b6e92853,
    0x3ea01adadd34f592d568f81600edca1cd32cd7ed6cad455b5f2a4d53c5617c08,
    0x31e7f4e6ebe984be6b8501953ba27434a338900c60fc83e9f0efff9c4c1cc82e],
  [0x2cd01109c06b5510bb57a10a61d312bffa0a6a15db86ef52a9758568ed93f483,
    0x3571260944d50800a75dd731f531089b0cf21e03124a8298f6882c9462d29c81,
    0x3925f8614e0e689b95a0aaf34e65df55286327f8632b5bfb255149716c45d672,
    0x36ecc48d17d88e3937b3682e8d94a797b0b4e5c19e448c5b5a7c8232dd76e84d,
    0x2a51cbaa74a2d3fb3420845050c771b3189b2563e1a6f0edf3c73184a042b4c6,
    0x171b66c1cbb69d809701fbbdf5c0cbcce94167fb66cb5d227a404aefde414ff1,
    0xdeec951e64d53a8aa715611c7b6095f850b4331a492ef3fa6d313085708143c,
    0x26b77b21f72cc70e1d4f677f57a1f795c97aa354d7b25bb9495d425151a6a744],
  [0xc973380656a9af6e13d2fbba194599696fc75f8b42f5ff8ee20b8d80993c68f,
    0x1b9622c6f0bf5c45116ace94a1fe5d662613f3422a8aac1443f1feb65a6fa26,
    0xc946e958e78661b7c9ca04270d268e39daf0194d88cad59eb9d27ab946ed18d,
    0x7fca2a2a52d264deea9ece65c39d8b868b8401f06bc1906019706e86b5a1e47,
    0x26da370bc7489100f4a30e57dbbf804fa8b9e800c5ed293d65496d5363cc0a88,
    0xa487805b4dcfe849a979e2e9e676e1889b0ab38d3523284524ad8402c5c73f6,
    0x5b9e8db026d597ad64c7f68c285a61e3da20ea5dd962c982b6020f668519f1e,
    0x34477e03296f79c98e4c8868a05433e7b9734f916c26d5b4440bec76a2d00a8a],
  [0x338be3bbce54385afd495a34cbe639d21223d7668800add34cb48dd4e9b2ac92,
    0x3e05809eaf3e21aa8a50a3ea8741c1734770b5cb3ba1338549756c03f595ac0c,
    0x368e9029bfeb194d8c19a5dc157d84000397744153591312eb15f4f7208a4c85,
    0x37687112ac18d0e8667d9c94e9d3b8357e275547ad960103584176aae8e5bea,
    0x3029c329b4b59f8a5aab37a9e8db65b5a8253149fc0e9b98ebe448bcde40d13c,
    0x3d40de864f807dee1839909fb2e59d8a2edc4d0e552ab7a1b5475fcb4b570099,
    0x26d38c35fe953eb864d3488ad30e4958c564ce9314e50a9307c335e6d9147b33,
    0x962c377f02fd1a02c555327b050966e64bb14cdf1554977f8138bc5cbeeda7d],
  [0xd90de27811addcabe9739ebb2306390ca5b66bb325b7265a0c0693f3dbcc1e1,
    0x2f230ea662c6ec27b17b19f9fbafa1b0a0868e76734e7b2fc42db6696b7704d6,
    0x1c624a755eda194b111eeeca5da9145ad91b83d28eae58e0861ab6d92ee792e3,
    0x26d0c276ad19460b0df881efee6ea6bfd0d778d8b40d473a844ae7f11db53ed3,
    0x332f7d9f3ac93c19edcbd3ff9152bc109a86f867c1e2c86d7bbd5801bb660642,
    0x11c426f7c1ab1174a767938ef8a59eec4bf24628ff8f18f2176a477fae49ae5c,
    0x99464b6396742e730ab546bc51fe4a1ce2d02908459d614a284659e8ce7c8c3,
    0x152afbccc678f6e17d34ea3d323d4744680726fc33ee21ffade03a6dcae4ef5b],
  [0x2b761b34057296240078b7ed4e1c0af7aa1eff630700788a1118069d65789ce3,
    0x3c23bf8c8a65e2c9187848cd1020e092573870115d15f2aa94a1e0252d3bb359,
    0x2fa86eb82ae3199f29b804dbc6e0112d4eb7fdf669a6838dfa25c02d24a0f665,
    0x3890b08673bc761972eab329a561f2a82e24e6ed044ead4ae3fc43e314f044fe,
    0x2ebe2fcb2afc662dd176ef8b44be1bf2f2f0ca40b6d6bada1e80173de7a81388,
    0x2e5e95df233df9cdd5858ec870675181710303cfdf5d9ec96b855b6070e3b92b,
    0x1036a2d8d2d8cd5004ef4cf3d473b2c61eebd371b39b54e7d933db1bd2aa0915,
    0x31559cb9c788b511b0e73c3f209c760942931b84b859119febc3c9b499df2ef1],
  [0x3c6984d3df44b64c95e727a10b4fec23b4c37050d5107a752ea9f824ea1d3f10,
    0x12f25ad7c4c45eac65baa59cf9cfd788cbf2926855d3202e60f2ffc1fa9bb95a,
    0x171337f6b2cfe0ab75d154c37e05de241c0a2202964d8c5600bbb26e4ee823c5,
    0x2e23f5844b84ad3199e289b219c172540fdc581d2f100f5451b8f49fc92d5c07,
    0x15e5e34c198076f7dba9e6356084bdbbd86df40479c00c2f06522329eb042d48,
    0x11885dd4fa609ec17607b601977af41960363ba0b00d697ddb5a88b57d80780b,
    0x2a9e745f28de5b1522d06d390bdee4f3faaed5f860a91eb3119e8e4399970a85,
    0x1f6b9a5ede9300ae2bbf70451db05e86f508a750ff0f511ce8577bbb0d795990],
  [0xd0c063eda08fb6c46fcb28847f45942f40a261fea1130c417285cbeeba5851e,
    0x23e5026580adbbf8d8e99b4d5ba213a228018696af82299a8e7a5ab0c52d9b5,
    0x3c789e8ef1e86dc629d2b3c3a4d9924e4ee831f4ecc488fa8b840f440bc23803,
    0xe65a72528f2b5a10a3b9c54ba162d359ffe55e0a463c1e37667b238d0ff7afd,
    0x34ac4d3b3f1694618ff8ffd925527d33cc41dbb4ef521715a6e5a058d55606aa,
    0xa079a1cd9a37e1f648685705c70d4406fa6e46584048bc51da430f99a3e6f07,
    0x3cc3bbc02dd2c91ee26d018c839819efa5a7f87ef9f9b219d3720dff6b0d9510,
    0xae9a12708d97314ca63894333bfe37382320224f1407e4210b27c657080963d],
  [0x2d7a43fc5ecbfc9303ffaa057841d3ecc3c4fe03b4503a2df0bcc26ee3ac5b07,
    0x25a9161146ad0a1a2ba627ad0599ddff1eb900f7661ee7d23bf0e8d3117b2d65,
    0xdf15dc1b623e62be51618536479ee4ea76e8ceabe41b0dfcc2aac8ae25d50f4,
    0x18f87dc428f0602a81f1f536f5a362c1690cb1992bf11108db6fe05da97df328,
    0x28e1db68cd6a8e387a51f301f08f1ba3ac67052de8e799b4068d66005c169ede,
    0x8f4ed305778861b7c13637f158094b39cecaea0ac00be65c53fe2cdbf188771,
    0x9863ee5361ebb4d8941f88949c5817aa2c5d149a59775943690392c29a976a5,
    0x15675114b76f64f20bcc70d42bd03ea954ae88d8a2f04beb56952251aa8224eb],
  [0x6f094ac32c7ad05873499c57f4d13764c949607cf5398fbe58445b306695145,
    0x89a177f3d9266d86698c277186d13ffbb6a47f18cfc501e2891755516dc49a9,
    0x35506921ea3da8d74964ddf09fa473b30c2096d96233fff6599784c84c54e643,
    0x29f45a73c2342d617e543c6f59f1ef34b92975c224bf883d4201f286e50e7b9b,
    0x2531b35d67cea4d037344f8b13614388fde75e28e518690e2b981bb85f64e02f,
    0x193792f82099c3fed1387ef4bb9a70ed28ae8a3e8190f8b3890a0313a66b1c89,
    0xd4d2304c1b5a85f13f55192c9daaabd58166d1863bd33665cc14586c492921c,
    0xac614d4148d4ae7e278faa6cb1163d65e99f076d797f08f8c5f31891a1198e7],
  [0x3b61ec227c0c2995b854eea14ce3d64158f236c83253bbdcc67963e4fbf724c9,
    0x1b134376b00537254c15525d99ab99686591b2def02b34eb02a66e100e974a7e,
    0x1519d7756f388fd7ce4be0872ceb7d61cfa8a747857239bf77eeabfa1f2d71d0,
    0x196e5f3937237679d876f240ccb386beb445a00f02f688e477fe79076b199ef7,
    0x2f6751e1859f9d7b1a2fb414b18d378172478d89a8eb9bdbb11c6e5d38d25495,
    0x3c2543560561e56b6bbd5f41810ecd192cd366df40a8c1e24e139edaae7e1cd7,
    0x1a07996487349fd751619d7dd4a4a0f850724cde8c88e87bd986ed856b2f5b17,
    0x141166ce435af46c15af188bc03d8627cc4739ec06a5d510914646c90830ebc0],
  [0x3cc1f8a0be7c21db3e9db1a5cc63a22c7dabdae8d8adb659b60af80fd864e33b,
    0x38300fd1cfe4c2559e15c1325845115902a2860cad80d712d484e3e0edd6898a,
    0x2f8709aab5d40fe04744e43ab39501fa7dc9f03c5051789acdc2855e110483eb,
    0x584c813db3f7fef5dbac5b140cd208050ccb03563208a2a3459b786a444a21e,
    0x9ef3434bc9eee1ca4b5bfcc167f18eb7041176195b32d4dbcdc8261f1381eff,
    0x1ab4d0950777498ebe26e500b88b556b23d071a8eab191249c6279f8d374675,
    0x160d31df9f17575996405765ac5e6b3d25f58f3c0158634a1cd37eb76ea6a691,
    0x23def8bd18ac4af2e52f714f77f52e2d3dc3a4dc37dbe54bb9fa1d13ff74d466],
  [0x935de69584fce04d9a3e5dd3d0aaa7f50bc797771063c0ba39a5988164280b2,
    0x1f31ac51e7de012b39f8930895aa0d153d960bdf132cb5e1c0dbd887507befb9,
    0x19f7ac47b74bf61519ea6cef4ac775e777888befa37ab3b9d9bc2ecc469a2058,
    0x20e6a2bdf8500f61e79fcb2d39ff3947ad7d06e6b783b92c93a8d722e10a048f,
    0x1cecdb98ac938f5f2807908061c63a922c950f11a57daa2ffd43a8c57577bba6,
    0x32b3c0b8adaaf5fc0d972cc546945050f9110987c04ec8b9196231107b32b01c,
    0x243636a97300b38e328517d7e491ad8bd1165d49f31b7b2e59c957fb6761cb07,
    0x97a6d807d01d14c9d79f920a9791b1b87917aefa7e7bef1bf4333d8e4e04367],
  [0xee99fde6cb09244f9736caad91d8bd2caed2f7ac7838f72a1dcafdbe795c094,
    0x31fb99f04c28113834aff6d852f51280156af749378a395ecfc3bb39b33ac55,
    0x655d4cbff8cf94e93f5a6898e780d809b7b0fd3a6033d241e43b405c4b6c2d1,
    0x3e3ec2ca8dbdd3723a7fd8b6957f2c84edee24d556603e55982d9297c839837f,
    0x3723beabee7fc75a481b65a45e5c41ee1475ba7ca156f0eca09791a606154763,
    0x399804e3277afdec8eb97832f9b2eae6c27ac0778062a80ffee35839fa8c503,
    0x1fdc26192116ca341bbee202bf69a0f36e60ac3bdb5846c14049a91e1f254274,
    0x1099c6c385aa127de2577fbde8f01b8472d291d31f2ddf03664068e1c15dc831],
  [0x3b31012ee238276310e093f7a7be67ba8391f7e0da8e66717cc654c483c83579,
    0x305911a219a01311cabba80789b6e59a6a1b8b6e02a3454d49d6649fc8283216,
    0x3f435b5c84a624a524820300cd10e1fac3dfbdcc5137a7605e84297cf9532ca4,
    0x8f8a947bfbf73ed0c9d7df4c6a1df111f57c775ebec59451ae8bc931e4cfa4a,
    0x2d08c9a06185e3ea9facb0bf6e50e4e3b0097b99b128523c1750d2a611f71fc7,
    0x1d464bcdb446df1d5fe6e75f062e14bf0d88b2f815847d2a0b1fea67c175844c,
    0x25d5421227c98dfe2201fe66a9d16cf5b290fafff97071fc30f3147854320afc,
    0x3b5c979f44c21cc882d1cf01d01a6ad17411318ac0e6db5cbd07a4b8330f2bd8],
  [0x19bbb287abd9b3a5036a949849367de2d23f7ef02edb6cd118b70d67ea9ce382,
    0x2fc511e8283329abc10561fc53009fc86685acbc15ec65586d3dbac0fbe67bf9,
    0x2682a318f2a9326c5d6ee1c22f18e27c7f81f02a1bd8bb5315b04be91c60d1e6,
    0x3a1e6cc28f7df6ab110d65922db2e4a23e3f93add9591920f7b3a15d0b5f3e85,
    0x1e87f42d2447e469d988da3fa011baa2cf1dc6283b679af97d9af00b90bdd8f6,
    0x2ebdb57609dc023c9d6229700495242b8b4875ecff5a49713b644d6314db93db,
    0x3f09c6a5ccf69e079e09c2f94da8d57bca52346ef7dedf714d2ce7cf8f216d04,
    0x23363f93e434eb0e3143ee8f83d98c27afa2819825c311cb8fa99481ee802c54],
  [0x111ae3b0df501bf5e0ca794066ea97934e47c39409163b9ce17cf6810747c8bf,
    0x3adaf703964dfd5f7eca9d2900e894a4bbe99b807335edef1b1646fe6df0429d,
    0x101870c025e5860ed49362b5966730971c5e536c9323b82b6ce5d9a2bcfc97e4,
    0x3bb0f581e693d94c8834d8878b838c597ae2c5ce84462a7e17c66fb2c9c1d053,
    0x12fef451fe6af4e83b96ed048111b5de3bfbfd0f30018bfdf6dcab53e8452df4,
    0x2b0bb86b24c23ea7f4c3bd745ab4da02d63468524fcdece31f1598ffc50ec7bc,
    0x1c70066deedc5606da67a23c4cd858d18f4a6c9ee1f4cb9e6c117ff44710885b,
    0x27cb65ad05cf9e1a6ff384a155e975bf3aa22d0df87986c586a8b44c450f91d2],
  [0x1a449f154e16da29412dd0efecbe74622497e0ad6ca11471b83061d333b8e55b,
    0x2cf869de1c88c3b97bad5326d9269ba4a153da49b3e883e7a3a4a7d6b4e5d99a,
    0xe5886fad9049183791201313711d9846d24db615d8f5f98143ad618195412ef,
    0x2beb70f42f378758d547f119910b868c3a2962ab849f2db735c921879d9643fd,
    0x396119d9a9d9633f3c5c56097e1dc6f5a19feb66788f402dafc3d131be8d4ecb,
    0x1521a8b43964afda21a6b0d87db9bfd36f889f24f113f5891313a4f293f5dfe9,
    0x3c7f2c765c77a5337347b5615c3ba06326dedb651496e7858d14716dfc6c7dbf,
    0x2d2206f9b1fe9a50d1bc7e7cb1502e58b1c7d7eb45dabdc4cddab50955175871],
  [0x26b63a5dccbba5a81cc64d410a28dbf7d76202d3cc75a4080ecb38f38d2bab31,
    0x12ef3cd25f873029fa14c1a0aacb39af69dd106d6154d44b275a0768404b294c,
    0x2d50404522295661aeb035a4e9ac7490fa9c876768e4d177020e4518b9e7300b,
    0x273569bceca1733dba4ca81b5c997764ce3de902f21067250b8aafdecb513ece,
    0x1db39aab9efe302da691b366598f618adb4abe25376825e4d215ae9070ff79b8,
    0x2eb2abede35c65f721433d8e7592bb7e0da1a0d67b554797c67ddac06640e106,
    0x3b934539ce64dce10b4d9a1e7e8f2b079f203a59b7ee0be2be5f2c2401bfafd6,
    0x10c80a5ed99831940990c18efc73cae53c9c8615a1bc82b5a6c55f240d404784],
  [0x29b4df0bf18b7e87833ae0cb34d214631f48185916f318a3f9ea00ec9f6bb9a9,
    0x3ee8f1f4352973ff1763e1630fd0af0542d5c0c097960e5625c4123440a36f64,
    0xe30d9b47dc638fdb9fc200ba8dd04c593a7a704e7277d27780790cfdda2accb,
    0x1e2f24f176b55dfe32ca4f9495578ff26e9974e839cfbed6a79955558329c697,
    0x1b570e2022d9ff3fa885c9e2ba7def83834c40c4c5274c66ec28e2a3fcd684a9,
    0x3852c48a2af6df40df2c3f5090d7f5c001c0621d667f34291a1a074ead8bab98,
    0x41de11c30b94610fbb4631e79c5d1c8bf9962d1c2a76c92f42c67b289d91db5,
    0x19ce2c24efc01720432ea69ef944cbdc7ec4f18e0346cf2a0c233c70fb6d0c06],
  [0x1228122dad87916e340802236d92ebe23a4cdba841826be33bed9db83a79135e,
    0x246ca4e3423a4e355ee3f2de5e5f482b8d783e752f53d6ea2a52729960981449,
    0x3fe7184a6767e8262fc53a504cb550f4045cae1c5e81cdd2e039981ce00cb0f,
    0xbcd596d73df7066ea4e3f3fa2096c3a3d2a1da7aa24c5f8673dc3d55399f71b,
    0x3a8d5205a7b6002a124a434f588fb4195513ebc4138010ce484c76a6ee6457e6,
    0x391705af0d364cd3711290ba59c855abceb5f9f8ab1495a9f6042a0ab5dde1f2,
    0x171eea6cb8ca6584f71728cf7dd186d8b54d8a1cf2a20ed798650ac669075a7c,
    0x3d76cc953ab4ce502e186c833906d3086a93422ae480ce18bfd5cd4f2ea26571],
  [0x3ea70d59e324aa0a534fa2f65a3005a84cafed948ef729ffb780eb6041b913fb,
    0x198a8dc0d8aeb7dd9db81371140a479951e194d63fe299cbbe0bb5a97f8a638,
    0x13a4f6b6b118ba4886950a54b4a97b9cd13d0bc5bd376e97361525dfbad66aa5,
    0x29dde1b8989f2dd897f733f2cd30d50b5a44598f86e4d4194d82d872df5d5f49,
    0x6e70c40afba19b90ce7a83a98c2330df4a0f0d176e9f7d37152df42254cab28,
    0x800e81a9f4fa223a7b23121ab85e1f1c785628f321dfa1894cc9848ae375ab3,
    0x2658219f12582b9f60ea0b159f3fa4af7b69d78fce6d6b1ca565c93211cc067d,
    0x306753dd2cffd6bda6817ca880577e20b15f07b53c50884f79ce741c31a78cdd],
  [0x19222cb142d3e2dcef82a7138edc18df4ad1fd14d93991800e27177f63f51364,
    0x1355e9de7fa0e9638981d3f55f41976247798c29f1e9a2332a456df592672fd,
    0x35a8e0b1f629dd75b280b9793e520b55bde9c45f15bcd341cb029ca22f68857a,
    0x2bf6e8bf2bd18358a96325a7368080b8d130cfc1040a1b6a276b814e5c712f0f,
    0x29eb08e40802817c57c3083a760b856a6c7ee1ed0c5e45964e8e192350376497,
    0x39733c1ab3d3d5049a11185ca8e548f9a6e55c369dbb7e3183f4d1d3c6094b9a,
    0x25a1281975d0438c80c4f6b621489cd9460644f40c7e8d1c216696c2459a894,
    0x2488615a8d724991636cbdc6cf6578ae900e638b576c97b8ed95b6a3dce876ad]]

end Orchard.Tables.SpendAuthG
