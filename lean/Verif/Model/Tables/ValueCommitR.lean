/-!
# Tables of `/repo/src/constants/fixed_bases/value_commit_r.rs`, generated from that file

Each entry of `U`, an array of 32 bytes, is given as the integer it encodes, little-endian.
-/

namespace Orchard.Tables.ValueCommitR

/-- `constants/fixed_bases/value_commit_r.rs:19-27` `Z`. -/
def z : List Nat := [
  181916, 22148, 340526, 80718, 104958, 86894, 43381, 1060, 82130, 4741,
  55897, 4304, 114469, 20503, 25001, 62408, 52978, 35893, 72071, 154369,
  67304, 7299, 27960, 42929, 51869, 89967, 62210, 59433, 47868, 32536,
  105000, 1546, 2116, 18717, 50694, 22864, 254428, 54966, 108762, 46706,
  65730, 45555, 7376, 50051, 24773, 74636, 44806, 23223, 78561, 50668,
  7380, 13697, 171970, 269484, 25534, 5098, 79584, 6889, 21432, 73095,
  36745, 37350, 6274, 5179, 50216, 12007, 44029, 88199, 70401, 14120,
  19017, 2423, 26494, 34954, 126293, 167379, 136922, 45619, 30331, 22632,
  163228, 12997, 4461, 32320, 13430]

/-- `constants/fixed_bases/value_commit_r.rs:31-2922` `U`. -/
def u : List (List Nat) := [
  [0x37966852fc8f0d2b9ea1bd18faf48f35baad0aeaf3ba176976486fc87103ef8b,
    0x315d7d09ca2d1aa2e867190983b1ce0fb8c6c9c603b78c6915788e5dad2d0a66,
    0xdd0a883c09850c33c20aec84399e04874bb1a3ac532cac6f5ad68c38554b807,
    0x2909c57d7a2c4bd3879aecfe0c2d503feb5019a2cb6fa5f49e935f4c1161173e,
    0x5681518098bbbbe8c7e995759513c3b700828b36b8ee17ff85f80b9c0df5063,
    0x25b273e5baad5fb648c2a9adf20a14148d2534c2293c35a8d8530e2693e1c927,
    0x2cdbd78d92c0712253680aa1d81e3a5315e3e03a5a3dcdb539522a707c4c1dea,
    0x333bbf3df8d9b4e84281d107464fc2f46f0a0dfc20404bdb7190a640a872b7da],
  [0x1e1f3c082773636a66cb8fdc27d087a6e5468deb77ca8adf57dfc17a26454360,
    0x34215e098fefd829409a47cbfaa557981ec23866933faaee89b8d1b2323b88cf,
    0x2ef041559069419ab6b28cc8f1fb14a5e1d8d2485ced5fd36773461ae0b14a9e,
    0x1e141df970579aaf40ea63cb1dab3652023651183704dbf0f56e0dc9bd13630b,
    0x4ead40a94ce7add0d3eb46326ce41fbdee278b9662c94c6084b72fbca94b1d5,
    0x7eb8be697c554df6257eda6f027731488f04f1a61420a324ec89499b9763cbf,
    0x25e31b7abddd9dc3339294e78baf67d6e5e39c6c480d34ed23b83be7e08e56aa,
    0x14f165a5c22f9fd292d5d9b52a23c843760a89f93289b4d7c12461e37cc91d58],
  [0x14b8b1acc58e84ef7153891fbd4966698840bf36e00ed8047e7df78edc00493,
    0x116eef93aa330055d73376bf3b9842f77d081651b75f2db98ecf4d4e0b4468f2,
    0x2bfe44fd19e496939e4e7ab0021ebc8d70bbff80d7cde8da4879ae113b10cc94,
    0xb9cd4934feebd698fb7503e6f681f4fbcc59f73218a538b9c3337508a0bcf1e,
    0x15bf675ffd2673e3333694e9794cdb8f2b0efe025d0287db653ae50e00803ba2,
    0x339e2595e4be083915126b0a6a2b8385b98b44d2780711a912ea61d17829bf75,
    0x646a66a6065da6b64cc33bfeeb964ecb8fc8070dc4c5e12b39f6ea8d545ae1f,
    0x3e29b79d1a44bbb8b9330db801b1a888d6446ac30b08732e877ba8920a048b7b],
  [0x2df03ebb4e3edcf18438251ed81d41497ccc2eef84b23985810089a3e3621f99,
    0x2c5d67bc19d2d4bce605b2a3dc4235ba8478c81f39b14c4f5dfec12e7583747d,
    0x3454d0326a3e4a6c03f54d262f42c88ebb1064dba5d068f5f7599157f943a231,
    0x3ba0322862c69d8bb822d479d58dd2aae28157fcf381ff8c49406faa816cddc9,
    0x1d8ca4d982ae81e0de21612f8a71fb60b20bd5f18aa6645d067d4f940591daee,
    0x2d88939034c5d4207fb13542a867886d9e2e4cb47d5af18cbb06b7d5d3c7b2d4,
    0x1ea3d465e296fa297394555fda2594352113a926111e9a9e77897880a5bcf967,
    0x353bf6a2794e0540a9a4af6d085ebca4c41f0853732e29c60963647d236ff9e6],
  [0x220dadcbed7d6d35a698db7ad4bbdd411fbdd42ee909ce37ee500c296feac40,
    0x3c9d36f1f1e49a12c6eeeed5192102e1d197ff993466d30ecdd5e1a0be1c8efa,
    0x3c5cfb0419aee5cf3b1b5f486762a00a706d9b273893514d1c208073d3a6d64b,
    0x1bcec6f5e382828f84c15f834f9197dd93b6a2174ad1dae3a974442fed897122,
    0x3ebdaae27b94765fe35d219c19deede6c55607dcaaf0f41520fb24dfd232a77f,
    0x1a36ad643011bf98d6054aac340955dadc28ced7988907076e62c60beeb4beac,
    0x3a0fc71464c59116877716ce2485b0e7f0e7ba2fe4cccff38b84846ee2920cf7,
    0x26eaef4b6e2d4e37986685b2e501a1851fad333210734316dbac3a22075a13af],
  [0x293f7b04112a6e361efad9e7c05cf8e26eebe756b143f272459e6dd31cd9bc91,
    0x3b99da214066c41bab8b2b022984a3879529155f08e18a96b006ca288d3895ef,
    0x197e3659c7b1f584a6a6bdde021848c89a01ec4d31d93f914e30ac2e35d222cb,
    0x3c256ba80f60dc710eb64b1e3ec340b26e0b4f169bf11ef0f8f3aa3e45b40656,
    0x23a22db8488074f9c01ac75e7445a0c206bc90aaa3665d16e53c5f0deec07177,
    0x3bc9d6285051af3a8da36aecc76a97e01754675bfbaa7e39e0b36126230edf5e,
    0x3f7bc402852684043979f655105ba47b52396ec6f93015e74bb937e209cc7084,
    0x1cfaaad11490abe901b5037acfc329b573af8b866f3ba87c0a4d6f9fe4a5e80a],
  [0x3869f487908d53e9f25bdf53c213253612d15d5d4feccd0b70b031fb6db2dc1f,
    0x325dc2680d3e7ba68d911dc8094a5aa39a433d04c619b70aa3cb7f6baa5ee751,
    0x71d80ce50322b98903dd1e0ae6241ed7a89ec93f7fea0e0a4eb502f1b02b4ac,
    0x3da7d9ac863d5392fd9dfe2975f759746bd17688c0490e3ecc4dd8dc47352560,
    0x91bb8a0fdb7f771f0a7c25e5afa116a77940a1c90e4837d88c7785eed137568,
    0x3112001364437f16d29a5f9407e1e9cb68f14482e4388fbe7db18feb7f3518c0,
    0x2af271ba287953c65808c67b2f65c6e15334966b7d2ebd070743bdec391881ec,
    0x19ec09f0bfbbe77c86e4f9ae7b5c66b0f9201b8426afa2b720e90c49d7bc4778],
  [0x33e29d979872bdd0b766e181d25b18b6d0ab51fdfaa60c1cebcdcd3cabddee2c,
    0x25fa16aa9d765d3feafd2368155e34f5de1e039c9ae71128524e7c5595e78a67,
    0x14f34b67f36af484a6d4646e552cbd2324d1574680ddd224e20cf2a4a0a45b28,
    0x370817a0b967cddb7f2bf9ce970e54087f86d6dd147678ae193b0e91da986c9f,
    0x2564c6459f86230098dfef0eae4e884cbae5642cc76f5973a771b197dae681f8,
    0xb97a9e8b8832c9ef9e831e0e06dfbbc3e11226ef22f276dcb0a3eda68f13e56,
    0x16255c288da892a5ee37e9b719f0da21b4d8e0cb5c036f1e8f377435abd9a0e6,
    0x227fc1eb50481c7ae426c01adb5aac4fe648ed78ae76618d8aa307695fb370d1],
  [0x29a54857c70c1eac322122ceb35eb6947c9f938cdee96d5798ac48296ec11cfe,
    0x916d96c741b68aba757f0f6c48959a7985ece10d8d068904033b0f85df1adf5,
    0x20f23275801b6e8a5bc7d4ea7ef1efaad8e0522f21d6d82231c53e11bfde9c84,
    0x80783d35ab5213a3e9d790bf0f34f0b1dae5c435d2b7457c2b81c461ab50540,
    0x365fc2be770ff563b2e5a9c85e5b6654fce7459074bad5eed6ac12c3069031e6,
    0x1a1e53b8c03fe073c37cd25e4ff999b86cd86a83187dbab7c34eaecf8c6cfc29,
    0xe4002d7bd0184a919489e01ea293f00943a89fea41b482cd325ca7fb3337dd0,
    0x122d9b5268e7287fa7e9c640e1f090f0e79dc36acbd08af6593289b07f256f2e],
  [0x1881665819c689fdcf055e97a9a38f3ffe1c97cea70bf486faa2db1ade333619,
    0x288583b7e0502c097996d1463c197ef34f832472f4bc5e02f7a37c37a4f02aad,
    0x8d0e717e37ec31b691fc2708ead8f2b934c10294c18bb4d8edea1f431a23af6,
    0x156245291dbaef1c65ed4f0fe121395fccbeb5dec197ac36fe667f3e4454c823,
    0x1694ff022057445f023a951d74049919b2bcfb97872b6a6e9f5999c70184064,
    0x1524a2e6f155f768a83d0acf27b3d3c12bd93daa182a32c6d2a0d66b90b3be2,
    0x11a298e5f6f8568e0bd17113f3b20e61cede8151c341fbbbb5d2e6848016f4d9,
    0x2d222bbfdac21625408207e343278b54cfae936280f646da241765a15d8b663b],
  [0x14f7ecf5e3caa73af22dac3df59cde6ae94c5f5a98903199d3dabf6cb4fcd7f3,
    0x1d5542ac32af0db80bb434248d743e5097f4c44842282e96e40cba4122cfd502,
    0x2e7b02157b0c5d3ddc9d8135519fad62244c470aaed053355d380fbc63f2acb9,
    0xed48385feedc0b0cf79d18f95df282b4bd07a2dc76927821f9a1e94a5a8c8c3,
    0x139f469af763abec6fd723136e48f8e4ca0c51e0d1ad313fe3d52c1746a78f3,
    0xbf175ae7e56dc2108d4746abc9769cc28a7293f8214d48940ea6730597641bb,
    0x547ba5749bb3955c857b36735a72f4cf9bf1af4f0355e99f133401937982417,
    0x2f3ed8e2338eebe14b7adf9baa20c12c0eae47ab2df88083e11c0978e06f503],
  [0x201b893500122eb636e5bc090f0e64de0c8004670319c53ecd1404c21326f9d6,
    0x1f32170925f28d8d7a1e0cddba2d882e64c5d610b19c56c803d0baba012af801,
    0x12a6cb9099ed9d78b3e688b204942bbcb627e0555941519fa060227bf047c11e,
    0xd925ac2f901a9f81dc9bfbbbf4bc4bcf098e6b424832a4ece3a5160959a9917,
    0x3b9c90793db65220f33a37b82d358c728c5fcbe6b0c4380382fe61761232a5ac,
    0x2d111c0adfe4053bf00484792e18107192f98059698f851fbf964e7354e3b075,
    0x1456f584d402faecdc2d80ade038148d410a47886f262ccfc39bf38fe5a3de5a,
    0x3189b9bd7c78b38f18e6fb329f44beb6f2b158b69db4bc334cef3af9d917984],
  [0x2ce00f565f53df9989e08fa04f1fc167ea8fda7286a6520d9682471fbe4da0aa,
    0x38c23b96cc369766aafcbcdd5c9b7aa482e52ba22815f721f86bd550b49042f7,
    0x3a726a3d98f25fe1174752d1517de3298f4e9d9f9b28b989f572a865e7903763,
    0xfe142b9eb8ff8edceb8835062c2ba2af357d4d54e4ce15c91ae3fc84914abfb,
    0x2c5aabcbfd4240d99fa4ab8b80510f0ef6e04a12678551f37fc11ef23ceb3f29,
    0x86c83143200eda0892005ff5e4fbe58c15630023b2db2ce33bfae0965022f6b,
    0x283ff01ebefdc98271330ac1382cf2f65c6d5caec726c0a30332d9390873fb95,
    0x33bdf78ad713169e52cb21bb7753d5b1aade1beffd5dc85926b47686c644166e],
  [0x3053b4bf73847b42a2d5c21695886bc97accd04fc4da0225fc9de2319d327d75,
    0xbb390c9eda0b566e342eb8c95a6977ac70387de7766947910bbb165f3a113d2,
    0x12cf53e14409548f49a843d9a2fab0d11033695a4e1b556de8c8f50d207f6e3e,
    0x1265569f42353e3fafc51f34347bab2f947516e1657664aad12d836113209fb2,
    0x296d9505f2aa9b8466bc9de0f186d4b8bbfa445a3328e1c044009a40452c4f20,
    0x2f8b23452f362a04c81bb926506994cbc40d26201f0e84f46bf94517bb0d0125,
    0x652219934f3c6af2ac5fbef571ea43c23cd9cde82d089124b09dee6a19b913b,
    0x30580316f198ef18568f36e9e0d5512705f7e791d667901ee85d69f23f37f172],
  [0x3fb262a9c79610de696ddc1ea9ed1cb9a42081e87ae06ba00e16b5d8e5df49b7,
    0x360d41945d5a3c3d92e22936d1557e1b9b4c20128fb48e461978d9dd87663bfe,
    0x1286a3a98ee6f534896acef5c8daf7e6f85e16d265ae252c3b32aeb3a0bd6f2d,
    0x13161d6aa341f0e2fc26e3f7fdf42dd25dac9ef9285384b155a477d5ca0eadd9,
    0x24b30088c3c242b4f54d32f27e18116b6f6cd80b0c78dbd5497d14f5fc9045f9,
    0x2e2f52a69aa472ef515320ef58c2cebcf7ace71596c9f37e5b6897a7fe46af6e,
    0x3431f36990e3cdd639e3b14fc213fc42916113123067b4bfc3dc248c03e8b101,
    0x1d28684728b5229d7ef8718f4bf01dbd7bc80631774d76d3e04a499fc84f1e03],
  [0xfa714bc3ec095788271880ccbfe0a9a01d0961f3d2037eced494a41218ebb48,
    0xa734e64ea392018b6d6b4a33d61e723d318713da3a1535cca04aa6952259d22,
    0x322911e870bac4a47818dbbd1accaeaec01e67d74cec307db107460ff4a2e8de,
    0x1943004ff65d091b2ac8c766c556d76acec57c4d127235240f36925067126e37,
    0x22788ea734b5321d1a543d1b54d66e0e510d224a8265d322bddb816c8556a979,
    0x747e6407af29467ffa7b6f280bab783d87c4f8c95bfb26c4f3fac68a827ab7c,
    0x288427b8d52c5bc4588e273a5b948a3a956bcbf9765c782e6742d787e7b6ae38,
    0x2b23c6c0cd9cb77bd6d41dc1668885a77fbeca13f4b7b368ac7b023c2113c3b9],
  [0x1541237867fdb97524ec4c85cd51c59b28d82ab1f1056fe4ce731801b74753cd,
    0x16131bc4035340a59d5705324c14455eff7475ff6dbfbd813b81b89c0c12d7a6,
    0x29e193c91b2dae90f7156066ca6c3d103850ad409a74d4ea7e729d8553828b8c,
    0x31fc552c0390fc9bf7e9bad08bb0d13b831f8b49915167278533cf84f0ba573e,
    0x1b96df36763662b61e407727889b7fdf4f90745eb75c300fc32facd820da828a,
    0x2769702ad3d955161be11ff6be23a921a88bef0705f7b31fd90646400aea19ce,
    0x32eaa0b33110daed0e54e888abe6ae9d238458d0b06e9aae58b09a90d35438d8,
    0x19179b10a2ce31581f58af39550867a09bcd3aac47c4a323579198be46f563b7],
  [0x337829af7d025e87e212a405325b9828315e850ec262522e4dd24172bdef954a,
    0x28a84d9c997ce51a531cdb582d3b65943c0ffbb8eb6fd93f0917853072b28fb5,
    0x2de01873ce7fe0036db487c1279f3c7d0519efed96ae5dbf6cfbe01035d816ab,
    0x29305721e65d08f33a820a01ffdc53921da26fc40b4f8a993bde10e3e9bd29c8,
    0x3268df47f91bac631e911bd2c234a02b019aaa4af3f55ccbcfd1ae443c219fb5,
    0x4807288a55e641b1777ec3d566058245db9416ddd54314e7bf60ebd3a3c05af,
    0x3214f49eb619261ff7db3517b17e8f8f49a516d30a5cbef5465726e58b504a96,
    0x29072de8962ab07a9e65feed373ed4cbe5dd00c5771fd2cd65770080bb7fd112],
  [0x1bea099b7e69baac014b2049848987c10426691c6989a5d7f73f9a00dbcc8924,
    0x34608b864511ac4b0dafcc5bef1b0ef8bf5c41dab11ae225d4669441226a7b4f,
    0x35a3019fde766439dfdf0523d6e4b28bba1b6fae1af5750ae66095053bdcbc4e,
    0x32102de121b414b5c03aa4b5e989fff8cb6271118c88a1c8e2d1df764e94749,
    0x3b9108e7e28b6ea5b1067e94b4df9cf232ed2399a3f2c965a4ef28743c2bde0d,
    0xcdf7a921e3960f4e71d3c1956c9046c49674aac0af704b896817155dc1d75f6,
    0x415106d31a805d0ed5db8302c97b271aa32ecf75f60b1223ee9bc8d003eac17,
    0x2a1fb2b80ec28b56850e02fbd2e4ade7f7de0635ef75e00926c3c8faca1c6e8f],
  [0x202a716431cd84fad71925f229d19f716496874e57bc6f42f90b6719592f5269,
    0x10be0619bf25f9b069f451a9add2ffd727aaa4d523541a4ffbe0b8d7e533c67c,
    0x1e042fa00b68c88137f8c95d3faf761223b5bdb660aa5193ce6e34e6745397fd,
    0x3d0d2a6906a05500cb7453e17888c415446c1e221ee124ce64badb98e50c031c,
    0x771f7a7141d9858836f18fbf3871382dd31705dfb984e537ef102e94d9974bf,
    0x30a93e54f56af94d2aaaf804e00529b7e5271353a1194a4b21ed3c72e7195b7c,
    0xa25fbd09e452a2ed7a54138a7e2912a133738ab12f6a7899ef023a5f5349d5b,
    0x2d53e9367e7b593992cb2f4d3fa98dfa60f07cbd70caf0ac488ce9a26788c659],
  [0xd6c59ffbe14bc0fd8f47abba4d711657ce9d32a70b8f649d7ae63dd246810b2,
    0x350321017489d017b03de0bc1464ff85dfdd98da8099b6d678dca0fbab0db9d3,
    0x2f3065ff7f5032c5a14fc913a3c78436867d2534c8402ac47f378fdab9d1227,
    0x2cc842d44590232ef41c3b0e6f6dd0cbde5bcc0870520f335ca9838354737de4,
    0x1670b4291919463bee4d88ff14b09b15008cb52a4ad04737990b35c5d243737c,
    0x29c71ade1fb610b88621887834a1381e32797be8a335187c73b0bd0e73c93d7c,
    0x3e723715bde045cd8203f78d5212ce925989fcc3771e6f86a39574a51dd52297,
    0xe4dc9875649ec53ed22f249e3bb0cad17d0bc629ef811e6a3c4cc3f84c6f3f1],
  [0x2a932cd0e676e961f7897e7ec0d2b4f9b980e78efde50d6dedb46b12c910a150,
    0xeb56c5816aae57f79db680a928264cffc23bd0ce30d364e258c07ca5ddc6a41,
    0x2aef9cdea33c96c3d62104cf3dfe318d6750f42362ad0adadc55c88770d19d02,
    0x2ecaf6c7134f9f7d8fb5ae6f8c01e78d58c19d4c8634d9ec1285a6b89325d325,
    0x46da24f39611a5fd0b303b357de43e3d3748446adc30da24b8f27bdafbdcf6e,
    0x32242bf3ad637bedef73948b8c9cc390440c181911e0ed39a8c5ba58e16a68be,
    0x5508778f328dffeccae5b0593e60a6c35ba5267c5f075ba2f88b2e9480081c3,
    0x12ab1f4fbbdfde31f2d11dd9f8bbb459ad6049384c37cca02db9525172f38b72],
  [0x2b7538dacedbc5d1748cda50306ccd43b73aaf758f4c860f2664bb544d5dbd91,
    0x23d7a9d4aa94b90de8c8a2b411444d3a02d03d502091783fac47107e50a8cf6d,
    0x25a1d25536cf923a67b61361900a208aa07b93d690cf9780fb6dcd322ab9a574,
    0x4f23bfbe8c39e2ab804affc18cb24cb724296d17006049aeacacaa423d437be,
    0x292492e95d8d4893f5aa28b1b1f56059653eee2513ac026a3548557e4433e5cc,
    0xd49cb773071cd41e0df203931beb417810e7d65f7754b4ded03483315f69e4b,
    0x7a8896186c3d7a79585993db9dee53d9de0aa834245a371af6f71f29f1a88d0,
    0x19c279a1e029320d281a0034fdbbd5f503988a3ee0a930358565779b5f682123],
  [0x50a68b3c06d51b6e29b8fb8ab9d63ce914582264e466b3e7e52fff80bf51e2f,
    0x348d7ce7591cd66f1b6a4c0b35d6971f2562d5c3c6c2fa08322f44a9e71e1192,
    0x6bd8479515af33ef723ac8b819bfdf25bccd243a48ac76fbcf9092514ba395f,
    0x11e963c591a27175b9391625099275ad1392881b4dc1d5aa4c381e107fa43369,
    0xefcdd12abab7e55bd19713e7e9d1931173fcd65c57c06ba983e569779fd7412,
    0x1f3acb4ae20e26246aecc62185e6409158b31038ca5a8238fa74ed1252dc2adc,
    0x1797be1b050a1609fec502626b5504685ebcefc2fce5ab1695f6df6a3566b0d2,
    0x2f3085779d7ae275813dd6f4f82c4346a5948c46f140a7f414773d5ca77ff100],
  [0x1433f35e51448e8849acde5214e948a37bfb1752f7db1abcdfc028c279ba604,
    0x3d00bf0178679749fbd42912be034be73cdb0cffd37ab0f2cf7b2ef04c3b432b,
    0x156494dc105139cfcb2a1da18e6d8927f3197d39a5ce0f58043cae691bb121a4,
    0x2b7cf4107fdf2ab1a04a0ac1c466d1358ceb628fdc371e01acd28134f6be0456,
    0x2b7cda7d0bef5cb78a172d48c203b466090e089f9ecf353c52b48c79e28dc0e1,
    0x2c1b03ffb5c176c67a44872c6370403efb69013e16fc4207450e13628f8c25d2,
    0x10fe1d1333bb75a8182e27f638d16dcd4c2dfcc501cfcfbb86747fb590fb706d,
    0x17364965b8114139f43fc067daf00f46f9763af5e0614549ac405ef7f59d0429],
  [0x27d4ad1f252a1c7ba6acb0818530c24715b49135cbe7bd390956d87f5db379df,
    0x10f973dde85a3db7220393f4e6f9d45edb167822c08b92b5880a03af3dffc61,
    0x2cc4c7303612dbf1d458ff079eb0aaf1d2af5d373b1fed2d28cc918098788957,
    0x11678de1dd6afd798d4deeb781ae0e5791c781cdeda3f3928de583d388196b51,
    0x245d782d527b507d563ecb078c2251c1eaf95ac15dc9be719157eb8669fcf378,
    0x3c72515cf743502467b98b8f5b15a9472d80dedbeef79984beb26fbfe40be1b0,
    0x3bc5137b611fa9dc858ff8b42a9d211e072e7fe1934ac0791030043237ed332e,
    0x22b1a504d0d9227bafc70aad68f9277ec0d177edac2eb65c0c7e6fc3d475f35],
  [0x3a4a0d4325599281cc4030b016dff9517696f1c552a496ef50665525213f76c3,
    0x2a43d1a7ac0d55b6a3a560bac1762137446a66f85f141d5bcddd5c0785885b70,
    0x7a3301b4971c689b10a95ccb93f4ce7cdf54f91953e03e5e28c0ab9391497b9,
    0x572316aa5896832b323f820edfd0eb7bdcbcc5af99fba262aa6cd9ebb967e6,
    0x1a8304180c5d1e51e6bad4eca8d9099db9ac9721d0c0ecc94dba125bd8a88351,
    0x19f314a3ecd9a001fdc3a8db04cc8c183b75bccc72c34ee3a9e8cbf9145c9540,
    0x33e2a128c1fae5b0eb0ff8df8e1c15efc2472b6a6902f090c9befbbc630ad52,
    0x76f4c5946f1ea30c4d5a721da57b7b6721c22bb9838b7c966eccab2ee0e4fee],
  [0xa4e7d8828f65809e557d53a92e854fa2a70946111d87fb4cdf3fe765fcae825,
    0x33ae3e0201e0408570099369a245c7f7f8ca9d7538290609c42b71c4e5e189bc,
    0x166b11e6dd2679f89016239c4108551f4b14def9e5070c63a73a23acb3cdc965,
    0x7c0c83378d80dcb584fd3e1d4b577f866a894e315f9dbcd8fa10ea8561040d2,
    0x4310b750e4c43e3b8531e680a23e1d92247ef1c6168194bce09ca8d29eb9ba6,
    0x2ed06ff87f074a2fc10594af251e235a90c3a7d3a47f748f60acece262101d50,
    0x95fbc9142f275879b80af58b9390876b78a6acedcff892df7c340ac160dde,
    0x457bf88efe5b6c932dc0895f78b008a13a688621e1b4c10985dbf1eefee0034],
  [0x17cd43ae28bd8457e039e7c50c6646ab2be852da3df8b5a2128f6c437f83d769,
    0x183fbbb3132d41262902fb6ef82fdd58dfd64a171cceae257d7f4c9c31d023c1,
    0x1fa2e596ac2ec33c99f0109d707e9e1355e2b8c259ed9469254f1711066e62b2,
    0x16d12e7e9637f284203c3851c1baa80d231fbb761e8155af784846ab377ba0a7,
    0x3821754ceaefda6dbdd353dbe6234cbe15a9e340117b02e74faf4a5790cf82d8,
    0x1a3551af875519245ce89e3c4c89ac1039446d236b93ecac48c33658b8bb3f76,
    0x1da3dddf4f656fee2bfffab181ce7505e28686090b20dd9b62d43b8ce35621bb,
    0x27723b4ab6546dbe71b03382c69c3fcbefdc46ef2e5de1a3a3c9bfcded0a314d],
  [0x25362979d95c78ee9b4c4aeae9f0f81fc5dc72c2c546d429ed80e2ad811edf4a,
    0x37ee10d2351e03e9668a2b3db07a1e9e08e57a043be81c92d39cda8a2ffc1233,
    0x31955a903b33e0161879d58219cd771b8d13b506f9dd078da1beb52b8d6bcc0d,
    0x3af026cf0baa57579e85f843a67cdb0879759a9cffbb1c7c24da80fbaaa53e85,
    0x1ba5283e99da75e2ce21fb237fb8c2bd2ab3b5c521967ab949fd0b921b3f8fc7,
    0x2493c91f9c7c17b539b847b5206a4e33986fe7bb5adc21737f56dcdb9ec12bdd,
    0x164ad658fb4a468be8d9207bb00a594faf81470f169292ee2fa2f66928af640,
    0x2354e1e131a2227c040f04d60c4a144e1b03e32aca6342da390c15886f7973c9],
  [0x2ad87196e1775f1aaafe0285053fa2b6cbae6357a503c08901088dbda99e6f9f,
    0x187d4abcfe793b99dc1da0effd9650228e028a62cf993c3299c33189c24b5ebf,
    0x63ae9fcaaa0fbc137722c05f48f01f8aad632b65698964fe14383632c4f4541,
    0x2ff1950a64968933a3e3b6457cf8bde7540dbd980a0e86f39de2cf2cc16c0c7d,
    0x347e407655708412d150fa9c6319c842642c56a7396291128aefee3b43252b77,
    0x1d8aee4ca51dd4f62cf6ad0153faa01850c83301984c9946f8416f76244fa194,
    0x269ed488999239d5f2c6cd367bfd9e08474400a2160adf75f7a96be1653543e0,
    0x1f2694d27177717c0b6550ccdb350c1727c91eecf18af39b80a82031c2d074f],
  [0x2f8e0cf2182f28e9965fc14c0cf063b7f08a0018da821674f8e4b8c53695801c,
    0xc641aa49e5cae097f2a48a2c3b8f79a5e986e8b15cd0a84809022a35c9b287b,
    0xde628e6ca1a1d284e169f3e9bc5e59d9e50923bf696935ebb01ceeb49ae070e,
    0x315e10749e52d925157002e586c51c271a1c41020a03bbb17d03649ec057c5c3,
    0xd7604851a2b7fc63d0823b88fa241a297b438e854b34716df529603c5b2a2ac,
    0x984ba17073ee2b59dd32552aecc8b1ce495bdbeb39d0ec9cde739ba43916393,
    0x186ee318181f9bd884b69f27555935b6b78defd4e230d16c1a3659f170130d3f,
    0x3a7ea0f50c8ac0e389f7d04f616f98ae1ce78d64d36ebb5d05bf3627104bd484],
  [0x2de6f715cc95ec9ed5ab76b27aaaa36f3d55c750cf301fe3bffbdf7ae8223d39,
    0x23fea3333857b3bf308f65f48b25439c5814c5ca8127594fe40d6e9ae5ed0bc9,
    0x388ae79b4f31e1e02a827a314a8154ef808ff1f0177c9925582faa879cdd3bbd,
    0x421455fa76b84ff3cc3aee5659ae385099ff3bfb94b780fb30dc7b522d55466,
    0x1926cbbdc02fd531fed38e03f5c750565ce013dfa0ab71925b5a237b3343a419,
    0x14cca6c0b08b3111dc0bd403558cfdb9c74753250aea05ffe8585b5fac4e14b6,
    0x261cfc892b94fec496b7dd4f7478a40312ce4625b03a347eb7df2ae161f61d2d,
    0x25c85e6cc1d20e6c18194ca821f855e2279d536c81b7f3e05667cfd136585ce3],
  [0x1858e89d5d2d621f92336ace4c0d68fec727ab2c07f4a604887a3fee54dabb26,
    0x284e021761f06168bbe180b67144627cca5ef8d1b4e5e9b7bd63267de8dc9732,
    0x1d9731c772627df87b6c0fc7087fb37284080d8218bcfbdb8ad5da7510a4eab9,
    0x300de50a3f7af90e3cc01c0ddf63310b87f480f4f49830528f486487ec3a21c5,
    0x24ce731b857517de5d00c0ab769692d6854f746e6d19e3d57421f55a46922,
    0x3ea2114e79f443ed9488203a15c77d01462f82c3b604f42f436fc7b6f68077cb,
    0x17c6f931f064fdf783269eda4ec26c48dc24f6282d03c6026420639a50bb33a8,
    0x1123d0dd9a4754fb3963eb382bb73ca806912005c2b60c1946e0b49463fa7fe5],
  [0x264ccc85b1b1dbedaf44cb5954342f0288edbd6145f18f988214e648fd229087,
    0x35636346b1b6b272149683a6bb6ac925e49fa3f3458733dbb3956abbfd90614d,
    0x95ca7d16ad150830de91846e7fd15414cc1e765210e4f4546b9f1f36ef8db93,
    0x3cea43f2e6295f6e6952e0ebe2514740c9313e5f2b5a2c0469b79312ca6f9735,
    0xe6ab22a2341eb5fab9c68650a7ea1db1ab186276605cac15539f1045bcd65af,
    0x489981176e12b771a22fdfbd3940797c7923a62936255572cedd460794b736f,
    0x34f0bf428d3a9b4eced8f801c26c335b81a031d8dfb7d9d68496eb412a7c7f5e,
    0x36f6bed935d3ccaf5b325395069bb3959337237be44c4a52681c6ee94f8c2af3],
  [0x23a57a8b2064ebadd231a07e7fa4f171fa159cb7b326d6888059adac739c3a66,
    0x1112cde4e7c74a9641e50aab2a7098ccb89f6d61839d96ec70cc22c7357b3dd6,
    0x156160672554558fdba678eefeb73e26cf7226d1d0d67dcade6f1c87bc032c8f,
    0x24ab96ba84742a8e26fa81c23d4cde7133df2c8861c7490f1a96403f7fa8b194,
    0x178ad58fe746eea0b9f4774d0921defcc439e2e1da94b99d382b21becb151aae,
    0x15f7c6a4e8bf01f68d9e89b14b1c9f288a427c20b357b6f9113ce307a1c67d65,
    0x1a522f11676ab9c6680a8810f6c730f19c7bf05382818d68624bd95159ed5247,
    0x27941645d24afac901b2c68fbd223667979bd67f59ef5d5e23eb193f0c7ec581],
  [0x41ba99e1ec8bb316f00a22f78a2ef7f17bd691c7ceeb194b504f4e0f9410d35,
    0x2a1e5ad20f9557b152948065eaa9e58283b3efc3fa1cab054c3596a3f5576f8,
    0x317a35b58ed5eef3ccc5fd966c6081d9490eb85657d6c53d43590fbd59c52a67,
    0x12cc5ca34020f0807a47acbe20a8a40af255e543f9512dc22a5ab473c8a9f335,
    0x414691290d8e6f951c069e92313dacb666c13840301be264c3c154c0ef1fd60,
    0x3679b0ce74d9faf9f3f2e91ac081c5f3ba6563b690164943db0caae222490ee,
    0x226cc81b88478fb66ec026200492c3372885e4dbf0a3d11885bacfb7bb1f70c9,
    0x39132924c2bb16776adf4a735634f813b77779c95d04b1115dac6e732f1818fe],
  [0x31155a388003e9d382b9925d65230ac2ef6455d8285f3af6737a5e8326d581ad,
    0xa4e962ec638a1ae10c29a9338abe91dfb1a9dc324b24296a29fe9e9feeb3456,
    0x2ce10cf0bc2310ebf1775b5a42074d23f1264a22ba8fb00c11a6b5274a7edc9b,
    0x3e2b5dcee59a6f8106aab88ed676842dfbb413128bcb57cf42acfa5e5d1f801a,
    0x4f21240ddbaada3a593314c2f1c098fd0e27b8740b67cd09eef8cf7574eea4a,
    0xc97ae71accf6105a4113b2dbfd326ce0f76d10e709469eb35674b6d06e40f66,
    0x24f0dcc676ed9b51899a1b60d3688d6f4ffb7a4b2460bb244ad650d7482cc6b6,
    0x3c0a0be0cb16c524dc4232cd5793ebd6b53d23eae5c67eba89c8ee77be99e2d2],
  [0x13574d94fbd7b97660227e617262c8345a8ea65d7275656314dbb0bd789fc309,
    0x384b83a9b2f93196139fb7dd1560febaa2bea339328df37315f5f3089c368232,
    0x1c52768caa910a0e55aa1caf6031e46e5b27eedad0aa1cc50b186c70316fe6d,
    0x96120debc0071d127b39aeaddeac958986c3048892104438eaeac9006e9b35f,
    0x3311d7690c7221deeac1e19f020d74f2379fc87ff29f445b30cd459c1335deaf,
    0x785dc30d9c4f66ad316a04808ed6a30e023056db261a034b0c879a748abdf7b,
    0x3b0b36bbab3aff96208ada591beb6bfb4f937fd84f4c8ae409523f0f4fd12cb3,
    0x38a5a3786952b2933bf2aa720989ff1ab6fe4cefcf89b39feb7dde2f5878db87],
  [0x1c2e8e3264135857a73d191c2e7938cf338d3df1136cc58df72974f0f4af531,
    0x17500f3683a39366f5a891b9b4ceb501b09c0c83d7462bccb6c3fd10d3c4ea8b,
    0x1cb132d315c7a5e044345496775539022683172167e887fdc3f78d80d006ba5,
    0x27a8aff6bbf8766fac551cc9a856dec018bbf3ab5b010b46bf4ab9ae8c74339,
    0xf1abe0e6a344f2ca8e49eb0a4bc83c9747d5b8a894bfdbb24cbb17a7165f683,
    0x6ee324b674dbd63807821602e56e87f6441e12440d97c8f8e3fb72b23e91897,
    0xbfe1193e102c22914276bfcb8fb1df4dde16a7cb6656c1320a5bade0228bc22,
    0x158dd0a4aa2292fe56cc361685b3e0eaf912643a246bc48ba9902c88279ad2a3],
  [0x2eae963019aa37c11e9debc8420f596cfbb6fc9b9bcc46eba2c60a74ffc439d4,
    0xd6db461c45f592fa2db5dffe37273c73fdbd92edfed87bd17b8721f93f60f49,
    0x209506ada87d03b9d57ce732d92c4d5ef160f0a6a01995636d3896f8348e312d,
    0x1c1e1ff2559e865e1077324f8de48eceed0cb4e9fe6a5164755e08238dc4c7f4,
    0x2b5b5f9af60d51e976c7ef9fdbd13e48340197b8853187fcf3c2977c9c1c76fa,
    0x15ef5ffb3a9941c032a96db7f92b5156beb40760a37da8130df83a4f7c782994,
    0x25c95c3a9ec3418ef5079535255acb357ca9906168e6b9efa9aa053dd127dd05,
    0x15cf1ab900642b8d8ea83baf0cbc4aa16a61cf003fe9af9d281a0fc89ead56d],
  [0x1fa13e95ecb8aa76cda4d997b68005f73cd8b4ae19d77d7d22f8ea55c336df92,
    0x32a856df252fb4b192a69f02c4a604cc616a8dec7518ce3f7c40c7c5147a3a9e,
    0x313656b631362e077edad5fe74830fa48b42f92b13b2589019f37ffba0daa3bf,
    0x174160d0b7acafee4af43e60ba9c042db9c0528ab0ddcf03df07f218801995b0,
    0x3684328ff7cb2f0befbd79094133fc04255c47921a310b6884de3fee51d33a86,
    0x1a1ae2bf15d7df911d3a0d07640f28d1b1e0cd45108d5c3a28144b935e9c5507,
    0xf0ec73c7455a0c2127d1f8f4bfc3407a90da4362bf5b3b3a471ddca848a8569,
    0xa2fc456f9cc1cf1a2864c39808fc5f1e5158571c40132568fc2f335cad872de],
  [0x34976f4a0aa9402d4cb7b6ada4ff4365a0d6740a32168514840644ea4b29228c,
    0xfd43c2d1c0d19aab9103953750b29fd6ede6e35065324ecb3a4bd6af9694d47,
    0x5e1d9729b3ceeb1ae56fe31a41b80be6cbb6b80892efa1cbfd574f8f17dcc00,
    0x117dd2b2ad7ee9ff28227e379f372d1c272dace31fc7c8153883bad731269e05,
    0x1ff0dd8f7039d3cb39290686515c3069def32996ee255ecbf83387e1c6a1f871,
    0x28b99934b0106cb5bba9bb9aa9f0055ec1c97f8e629250d062938b76d81df352,
    0x13a0fc5d03cc17a4a48282ca1cf6d82766365a8f81b618b5bba5c4e471d804b4,
    0x3f4cfeeb3eee4a3b307a0902d9249b035e195764533c8c256aa42f948abeb7ec],
  [0xd792a61656813df140ae78b4514a167e663d9cac57847528a207848a8580291,
    0x18da82e6b925a251df0f046bcba844d5291a2eb44b0e45875b712dca7f4afff9,
    0x167ec2ed3f34d02ddc3710ee776ac73fe35b76725a6d1682ba69ac955ff917e5,
    0x229aa0687061cc9d33b9ceee6d42d1d3b0e63688528cf43277b3efdbed0e0ec,
    0x16819252182152b9f04524d9482264a0ddf16d3468798832b92b57c32f23ba75,
    0x324417e95fafd04a48108a3d38d2831dd449381e48f14a43e6a8b9daa046d828,
    0x39b8d90218bd88f67df0681ee9195946a7d538e70f127b19c6e0e658aaf7f9fa,
    0x18938cf70e2dedf4de95d594a8d16fb2ffd82a3b1b4a31bb415d00616a04dd50],
  [0x38f6f2e9520f2644d3422ad30bea99153ba06d5594896e5899490f39233b5967,
    0x2c0baf805a8cd8f74ec7fb8fe73c35bbd5cdb6d29b4aaab036bdbca247f1c060,
    0x36b1ed88ceb24a526257803f81feb3f1d0792194f9c6b1952d0683f35082880a,
    0x153e3901449e36d86de26011a089609fdb30256bc9e30c5b735910181b7cae8c,
    0x1b645c20eeefaaa2dfbc521347400214d5890e3e4f9c5330c3926873932c68b8,
    0x2e6f1dea26489a594f268cd4d28c2c82a849e66c3020291a031e40bad40faccf,
    0x31cd1d18de4cc34f31a2f072e5753965affe4d70442daf09f50fa1b6c34afba9,
    0x9887471b53c88283fe81c9d1d7092a7746c2be3d4fb08791d0df3d73af02a42],
  [0x2478e2ab0baacac6e3dc13d21e1b672487160c24c7aa09f4f23fc0169f0ffade,
    0x27cdbae2562b32ed11b2e43e3688f4912bc997c2345c603311503e5e423ce90d,
    0x1640f1a35b9fffad3ad5e802621d76421c2175151f60fca6dbcc6968f8db211,
    0x2de23b858e50c8ce880b527eae4d562f8638f3ca3986dfa6f90d63621acf0d1d,
    0xd64c5c7a82dfd1f17522f12eba66e3dbd96137dca954d2eb5f1e12f2dbdf61e,
    0x29d47fe6b97d9352b651c1c3161ba5eb79b5c6079e865c51f9578aed394990a3,
    0x1d0c861f670d37c94b6484b7b408d411a8638430d533d876b57b43ba20513563,
    0x15cd25d9009c580706a51ca674357525545bde2a207cc1c8e735f55f53951fcc],
  [0x9962a3402d467127127208a9a9d82f2f794b4bd9e027cbf9548933d65b77d85,
    0x2e1a7fa519a1d38b188fd75772dcb39e735f26faee8ae383d42bfd39f922999b,
    0xc659f043c44167f7df0a0cdf4695e27d5de503f4d6f1e9aa2b4752b7dbc18f8,
    0x2cd733f2062d8e286d9149894013755f1d581a1f44e9d30a5f9b8caf765b6ca,
    0x907711d4bfb880e4fdf1bc9adcd630d6c37232063756d3f43475794c770e30c,
    0x239a65a601ee94471bcff755a2284306d0e9983ed3e78b5fa430ac9401217a35,
    0x1a1fdeb27c1eb0c5ba0cb59588120ce247b150baecdeeab73e1782c8ee371ea1,
    0x167dc153507afaece1902cdcbec13ecb12d6b6d1486f9d71e846aa4b97a82adc],
  [0x17fc8438ca71d9329ddd4da58ba01e0e3b3efdd4f7e43e8c104a0f76a36e31aa,
    0x397fdee3daf99148b6229ab6b6aa6fbe2c8c86845dcca2b08366b3ba58cbf8cc,
    0x204307a52d4c5c0204aa7ec4752f778f1944bec7299712ea1197d2fb7bd9b5f3,
    0x3242f33c6dfa41b1f273dd7ba0ad7ffec0585857cb4b4e08157ff791fbfa974e,
    0x3d3bfa5a88a9880cb91bc94327938dc9a99bd5533f9c4eb312f2fa1da843cca3,
    0x280b0e311c47ae1ecb11ab249a14caed4c657d109fb8c4bc390dde6a3afe82d9,
    0x3dc1574ad9744c968ecbaf05a9640db7f893397cca8e72b0f8e808aeac716867,
    0x139e0075396fdf86e4e28f0c41f7d23767a3924f9eeb4c329d2920aba4ff466a],
  [0x321115c37af6c7fa509488caf2d064a7f13bcf018da17f9ba2f34b42417e5bd1,
    0x1fe7604addcb2f2e53429fbdeffdaad29a990ebb89af50315323f4b592fc17a0,
    0x4be7a3e5b2ca3208a2ea2b1546a10ecc71d7c9704e99355380098323a91cff,
    0x3f25f42abd7d4d561d43c677e270a3b029d3f10538bfd80ac1ba03ce5f4b0797,
    0x2c55553fdb324cd40e75f9ac41e6ef34585b0d13db2e1e116abed91837354516,
    0x34f0cd27778fbced736daeb337344e983f0d53e3281ffa62315a98a19b24435f,
    0xbb4c0439f760dae5bcc16e2196aed9c0beb2f11992790b8060999def2e6dabf,
    0x1c74c637b45b21b28b21b3a4fc7a91c5574c2498f76cf473bc732c9868318b40],
  [0x20890c9096a7d53a9e8db4c0120bc0ff9a7e8fbdd1eb84027a662089a5d98a79,
    0x165de3e74702e6900e74afafa83990b4914b305ec071aad4496edff6c0694425,
    0x197e5bd446860577a342d01a80718db3e9abbb0c7e2df9e4ce219a36a1faef37,
    0x3a3250e81ae3cee33e5e338425f00936cb865c4b6979f0eb9932ea88b8a7dad3,
    0xe0ee6c2fae20ccaa603bbe0df5e5f7a350a36c3406d5eb565a0bbba5ba599f7,
    0xf17822d4649879fb5642df5480fb1543b2b66e691eb6e95fc54b4074b3d2854,
    0x2e35573ab8c5ff08420572bbd447819e14cbb83f99610d77ea7f17e184d45fb0,
    0x3c84a302087c8715dfaaab6f9eb0abd4eb525a20fbfcfd426846d5caf15e7f10],
  [0x34d8f368c55357d3b9604670fed614dfb2332524a88a0b6eafe0676390e86ae3,
    0x3130568882042f6ecb0f04e7b3e5d4c874e6090f85312bafc2f757eeff35e582,
    0x230b9794f25fabcddddd2bf49ba29fb926ea836e367d9853a9a20deb2cc3f32f,
    0x2a80ffb226d07c6917ed13dae64f84b7c0b03df355811bb92f5616f51b105aa7,
    0x2712f43f9f069d9f43c08a31345185e8ba84739a32b4dd509fe550dec0982afe,
    0x3d29ef1219576bdc8173486703ba060e622de4f4f1b956a0e166fa698e2cee52,
    0x26c7820592b2abb16ff9c1284f1cc3f62bf40109f0896af9d47ac41fc1896026,
    0x2020c18e63c4944b129e8e5ce28692eca4106e6cb3eaddfd28812f582b328a31],
  [0x8206b1518040524a3a836238b9e758f2621cb31fbc3f9ff3396729e201fde88,
    0x3c1f42722c26f9b9d68146498a5a5d1eb3bb02b117549035854d778070b88e8b,
    0x2f526a6f51a3c490ca88e30eeb46c7496aa1a069ed004d26508a563fed2cea46,
    0x10b11524b516886ab53b0bee1dcd3ffc33cf5c13ef283ef93b003aef8fcb5828,
    0x2bc913dbce2440c3b50e59db2af21df602152940f39fc366ebaf8caaad04e44b,
    0x317584c6dbbd08e6f87dc414536ffd854daf2981ae5b7ab7affa40d5e5544663,
    0x379c57893407e42d0162bd79e1f1e8a4e845bf60235326c4f9eaa0a72f9b1f92,
    0x1dd6ee8683b344d18d4e500c9a5bb52bec118cf098624c10788620f61bdb7ba0],
  [0x3691c3acb4b3b43e48e7218224f6450698565f9d52d839114c48c01100327f4f,
    0x3582d6db1f85615915fd4c6f4e1adb1075ecd08ffc3d08f9dfc4e3b10e38f4da,
    0x1ad70764ebd668ac28d563a8b2e2aa7ad8f648a19b39b316313875e63e42bfe0,
    0x107d6bb1c4350d1a938e95bdcebf808877710c13362c8099a9fd7c7a6bfa561,
    0x48faa312cba49196f1b13856bac8fe6a2a18256770992c724218f173dd119a4,
    0x38fe780daf3a3bf2fd25233dbbe66c22bdbf397f82a4bc676856b5f96c7ea57f,
    0xcca9bf1dddc3a414e0e4289d9446094b20d88ea1c6b0f302ed43e58cc71b31d,
    0x24a958878e0de771b615f52c36ec0ec7bb049e9c8356c0c8b92c7c01f4308e68],
  [0x1bbb31a1c9415d941e2831f6fc3f95cb27894ad1affbe984cc62554c8fbffab3,
    0x287d7365b46c37073ef5ad2977ba2e82bcd31921e56dd3d6a7d1431056b3d3cb,
    0x11c7e7071bc3014bc1cf11da0d0628818e6cc141fac58e7616faccad605e166b,
    0x8403ecd1077c6417ba9da580a02462ae68b0eb8c0224821e00ae08caa3e68a7,
    0x2ecd573807190b5efc6c5567e289338197362fb46c31d59c06a8264db615c1de,
    0x3027cfc887ad17ca6f2c985b02f93f862acd25ffe11b49df1d2a47cdcef36d37,
    0x1bb1af71dfbdbb95b299cb8251140bc6b8291a2353e9c5d33c366561025b1e50,
    0x1b3cdcd18066c8c0e55321080e76b8a7a54b22dd50f2229f5ed082645f0531d7],
  [0x3c1abdd39742dc0864413991553b63abe2b0e6e74046593b0fc4a2adce247e13,
    0x2835d289a36a1fb943d5aa8bf895aa9953d4b9b9631e91a87dc90c95d1ab3a73,
    0x18de9df259244831aace7390c76af513127f411415504bfe1dd010a89a29a922,
    0x24e8159db4097860b806fad6ba05efaee43f2b97d247ca8b4a906505fec8a40a,
    0x212dc31603fbb18864b7ba1d2701f0b4a104864a0169b4bdfa8d2d03d26ddd4b,
    0x3b7882a458dfe0f3e05a6b27084e284365f0e67531465c14e5454679078c9a26,
    0xea15f10fcb5223c48f2e87f40ead8e92b099ede581ecca800a7d9e45ed890a0,
    0x3f66b27ebc7ec87f72165f4cd51b5cdca9a46ccf528fe0377fbeb66d4fb0a5c3],
  [0x3bf24197c3ef5406128236600ad59fe0b3d9f3bb0085b5a9b54d528e36437514,
    0x298da7b6098bbced1f7bd5d926141860375a99c0ca6a41683e93402c8e558e42,
    0x3c1764fc8240938707ce649f9792845de6fc9c155bbbd08d870ccb240714a1cf,
    0x1c6517f9c6906da64f1a903afd26096a75c8f576d552893e1e4e6175c8fbe9e4,
    0x2582b6979ae1b5b401a7a7faf5c2a357cbddd793e85fbf018f33ed3f1760c615,
    0xf3cdbcde4b15962bc10060c2b5418c0c341d3b5f864f81ce07527354b582aa2,
    0x2546bfcbd72c67dde202e60ebb3be44b94db277edc853eb9c04d80a2058c6ec5,
    0x1b6d3a1f7a64841b41253923ef1ee0fe2cec634ac9941eee729c26a217954ad4],
  [0x1ac626d95102edadcc4afbedf0a392e593a802b76748496dafc5d5117e8b3c67,
    0x28e8a66d36be7639935ae4930d1fd7f86221fe12b83f552df58c2d6b72d98e94,
    0x1f072d7c260e73892ecc1563bea2e5cf969494a86b43bdb2cef356d7a3da7e6f,
    0x139000b0458265f3bcbe35de92d0518572c98d838a6ade18e44cdf3a96475e78,
    0x1de1a66831170b406eb169078cf0696f7a9bb8bc881f67bd87af646a0dd03e4b,
    0x110e80b3b9cf3792cd7e6f3f272ff2cbdf148f5df35b656a1cbc705a9e5c12dd,
    0x230165e875f561476908c43456652608e0c47259b705bb2ea1cc79dd78a11678,
    0x21f77335594bb6833311063c847967dbbb9c2663a0bdc57d5da7050bdc64b061],
  [0x8fa0b674d871930acc3bc7315a1f1743247ef666e7f94cc6a588c319b739fcf,
    0x2ce51b60dcfd3d0a9bfe238be1e24717b774f22956f10663d25d9a835131e235,
    0x19b80714b84189249cfb53ef2f490898066c186ba2d18559e376ed906e5f4956,
    0x139df31158305387d2e797954e8aac56dbe4f7f825b31fd73e93af03c2024349,
    0x16ff932dc611f23cb544c28352c2df6bd80c20428e07ca4f0c111100e667e977,
    0x124092ccd2c3330c404e3a8fa436e4e5cfc95f361b053f6a89af30afb9ad450d,
    0x2805ce98070b8f36e80866640954b53d09e8c5715d93500fee1654bc728554ea,
    0x16ecfbf1aa9e988cb0d7e8ee770d7a71d5d8e274123b0f584ce493c29df94d39],
  [0x3b7a05272253b4a0053c5a48f06ffe3550f4504254f4a25635a27ecdf44b5fe,
    0x3d98e87621afb549d2c8cd390617a73a9ad3a6fc887c12cef1c62a494573dbcd,
    0x14acadc62c87302ebb42cf83b1447ffad9369affa55f8d09413236c0f9244783,
    0x3cb7e6c757b4fdebcd771d21ed0b3e7afdccd3ef78d9be701d963b2642408016,
    0x301252da722e1ccb5b20a8cdd64bc9ac7ade5290106d28f17074569a801d687a,
    0x38a473c79cd23c1b42298abf5caa6eb8e575c0c53c0fe8c30d1a098d820c0add,
    0x102ca9ef6682e2e786ada2a0d8e7a409eeef94a96da13d02b3348f3762362379,
    0x3427eff67f7753d657a31b3dbd6be78823c0892712f627a7a3d5962c0cd539c6],
  [0x3e541836735b18799b953015ff2cb853fd4e45ffbba4068a56210ed3412149b9,
    0x2e48d1fa6f3593501fe2064299f6f00c2915ea5fab3b6d598c7920278b785b69,
    0x13ae212b43304a7537aa13c89c88efe94b7fde96e1a004fef856ded19d5294da,
    0x20269687598b44ff3ebe66597e9205ad27896a41a2a531aed6f9c5ea08d08b6,
    0x2d42240d1d6c84d1c77626f220391056679d2aa9a5b503116a0a781c3b9358e2,
    0x2cae2ae579ed40edf0dc59189ae37376802366dd3f7cbcddc687831800d863b,
    0x27b2ba5512dbb349c709791994b07b87259aa16446cb98256058b3d1e1821150,
    0x3cd4da40605347c72857cb05c7ab562e7905fb2335c26e3f71316c6f61941d14],
  [0x1ff1260ab5b10f65828bb1b80011ac31a1d898a0fd2e7ed89b83a0095cce6d06,
    0x31fb6336829797f607dadbd6ed1dfc383a9999040f7a4b00746b7faca9f3217e,
    0x14cd5a4768384a51bcaaf63c0be89a6a9450c68e7f96526456ecfeff6d6e376f,
    0x2db121934d5bf9068a94e36ecd54abcef017608746b157c3e2f7b0d2e98e13ad,
    0x57cf5b5d92c4152253cdf6732f5bf58969426f0ea04aff758422aabce4e8680,
    0x26f1f12c15c5ecae3ac2e909fc9ade5942d78508337fe81b2e3c7a548094e673,
    0x38ca473df3750aefefccec7d114b81ed463e3703e0a7482ca8f449046b24d643,
    0x2d142c5de5635bb317a06c2430e059f485d7c3f8a8284297d249c04da939c3ca],
  [0x2e82539e41bdcb9f522e1bd2c5ca0f0c8b8c1b22916d1ae22fc2c424604779a3,
    0x236dd497b202c794c96098017bafdb3c3cbbacdfe72ecf716bed3f5f428b0efd,
    0x2cebdb0c019c8cedfb9e48468dca61cb4ee3b0ffcf1a5e57e4504b2b19ae3a58,
    0x290e38cfcdf3beb045d216eebd6443a40281d253c9639bd7f509fab6a108e79f,
    0x7cfc42e2dde1d12210e81c55ac3ad152b2d47764205ec40cdd016165c1dbd37,
    0x2ac32db2d2772f5a640812d8fc234640094a7f036c40e2c4b37424e84df76852,
    0x9075fd3e4d044b1a9990135e4c67c203e5280707cef1673d82526913cfe0eba,
    0x28bbadb3155f5fce3e8fd916d334ebb427d7f0b769be7fe3cb731b2244fd7f2b],
  [0x8f85dcdeefed306436d89cd071e5fee8d48c15ccdfba4b9d617de6924877283,
    0x1a6cfd26a3e331b7085774baf68452dab25db83faf745cc0525d3fbfc92ff654,
    0x2f7701556addc0a5652f30cae95100d90711b7e9338e153ace1d31df4529fb06,
    0x1e9140f8a6d69bd7f556cae7962d6b690adcaa4e606b439db411fa1dbed9c99b,
    0x3076ad9fe21830d1c9dca59532d2737eef8b52fe00a32b9eca5d9e8de6b10753,
    0x1859cd1ccc746137ceb08c9126303bb6cc42bd439d9757fd6d5a5f09758ed252,
    0x275b8749a1761598cc9b2b3021e025f75de92ce7c649d8bbc15682f21cfdcadc,
    0x19e271079c20748a84d5ef181df009ca23257eb883d2b3af6ad5f8f9aeabfebb],
  [0x37d97772b4bb20c44754de3095f14d71eec4e84a0b6b5e1a75bcf61e208a49c,
    0x1bee895b2747ae68f683d92f8a1c7b0bbc45fdf15029804ccb1abe7074f25958,
    0xb82ab708f5db08fe1fb0d15b1f0ecb1d891749ae044750235633c553087f306,
    0x233d550f8712de7a89dab82ef9b719ea2b863833d2b869650976eb2ead9cfa5,
    0x376e78f1d7c71241ae00fe35fc5e38205ae38efc1a32e3852caf164bae7fa880,
    0x3b61e4e1c7c3ed7d5bd9207bcd193d083c5e6d5a3f2ff8b260998fbc0236f2d3,
    0xab64f1e30aa04772eed2cb33063ae128f1dd423ae34341117ecb82aab3ba7d0,
    0x3dacf7a08ff7772dc6e1d8f8918fe16e017988a004d4c4aff821b79e16be796a],
  [0x3504b37ed12a5769882f27a4211370c401fe9a5e153c7ee9c9aa21bce7d2c5aa,
    0x3bbb7df5cf10701eed335f17c333d16697e9c322b6214d5b4e3ab7278e6a04bc,
    0x24585a7f855b81748084cb3eb01417d50f12bf3a10bd9a68a1499d1e991f20f,
    0xb18b4ae61e2b8c5b770b488c189a196db54b8cc76481fa9e65f008e9be01be1,
    0x2590144e16f00fb6800a6fb239811ced85cbebd4ba34444f6badb4e1918b86c7,
    0x23819bef01c13461d3beda44b7907ad0de45b420c9e71b6823b90ef18804577c,
    0x3551782d0b22b486e58c67e34d8d68f2b14e25dace2c505cf24f963bdf05a0c4,
    0x242183ee774f3ea0d6866319bed929b0171db0441485790fc49aca774d109d63],
  [0x36e5d112352b0400d9639aa86f2e333dd7f163c002d1e04cf6ab1916a1593f52,
    0x16e048aee2374c29b9f1ea0c1e37105c0253ab544b7737acfe358afe54d60a7,
    0x17e0ace5cd55b41c31553f3c2f58f0b0bab8659a860419e968c976c397688ed0,
    0x2b0f4964ee736907e143a3bcba5ad0fa77c955d51d1a1d1c4af87716bccab3e1,
    0x3627db8a515b66a5fdb154193f23150ab7b9f8c1d53a4ff9037593052997825e,
    0x289df0cf661de00fda6383ab155841ccd5b4428571711c9518dbf7c43bb5e9b0,
    0xcb027774fe8a539066e571f1f4610ad950a4d5e6ea2e255feec352fdc664294,
    0x1740e76dcf695f39c7a9b3ca5ae518812a97934c0b17cceffdd45a2688ae6d17],
  [0x44619dafbba2e5b5d8a78cbb80ccb3114fd7d69a7f94cc41791594a093fdad2,
    0x25eea0d7919d6760f262b31a247af82379683fb6240c6dd0937705ce4a47788b,
    0x5a3bd58bd47edf435dc7fd0e12acaf08488508b379016d86a7fff21375d0777,
    0xd66cd9af37e864cfcbe3b5e955aeeac40d2a69c92abf069c2fa658648b4beaa,
    0x242fa936b381eb81054e1bc8af1edfe95b5643092eb1c3e17297211fa77ee3d,
    0x38051ea8486f2fe9af29db5188675a4097222f287a598280f686accbb5f96d1c,
    0x3d3ebad6f45b7fc6693c31e5b44f06b9a2d44d71c78a8497ff6a2694379bba68,
    0x2cfc30c6bbb93d7d8003bccef24c6f6c989ce816824327364c1272a50757fe1d],
  [0x1cd51192306b534866fb9052f17ef066afb16516c6da8a5e5987433cb00832bb,
    0x206fd487705bb76a79fcb67239dc5f9f746a0694e054c1a87c0ae2cc631d1c42,
    0x19411fd62f52e3ad1696ce4298f6ad6e51303c4b28bb6af2a6ed8e7a03a5e04a,
    0xc461ee9240d71f2a8672447cd5face51734a8115d3b724931c65555421daff1,
    0x93aba2024e56e01dafb3c4cfc6fa6b21408808187ee74846edb5670d3d3fed,
    0x4d0a3a764badf08d5970d9675392a95086b3c9c35cef19b943712f5eb035d0b,
    0x24ab315e841dc4215c04a85c5127ca5b8d2cfd72f8a08710a5c22a2d6f54ea65,
    0x1111ddc04056591f7a23d0131b8d662be06925e465b8529712564ed4d46a4eaa],
  [0x1620b9988888802960c575ee87ff8fa323a61a235ef33c62896942adb1093297,
    0x28ffcb86c6cbc28a98a646a4a91bb17c05ca4ab21e4da19a3031747f512a0e6a,
    0x2574d91ee10f7c0074148e144cef8a2ef0fbd35da8f806d035573e5d2b38602f,
    0x3600cfcea4cd1ada4599e8071db18d91b5ef81134b27ba0843aa3b4d80abcde7,
    0x9b6203485d07cf2c4cf007d549ccf10f00094a8a60d600150787acd51516be5,
    0x3b9a39bcd3bdda023772ff4a2cd295a7d5b920cbd75b7109c04874fadfd4b8b3,
    0xdecea3d83f0418eb9d7b0defcbd36d60a2246ce04f3fd67465ddc3ae94da5a2,
    0x34ffc7beb5eac554b4e7b59ced4500740f5acb4924e6b5f17ce0bddab7a14930],
  [0x1e426710d4f3ec609202f8e012be925aae6c8cf1eea25bfd63bd252e40f76fdc,
    0x29e828723f479477e5aa672cd4d4fd4168671eb107eb4fc0718cb434e79251f,
    0x34358aeade378f6d775e14a82ae6840195fdfdd58ba7e56f52aa3250f799327a,
    0x39d9a90e702eef718ad499e4f57026c2797162d6ea5b9b670b9a95de6220db16,
    0x1b44510b4b088fcb0d9c91ee2d35dabd972f86dced4c6cfcaf1dcdc337812fda,
    0x3597ae063e56d119662d5e28ba77e0769947f68b5e226cf7320354db7c110fa5,
    0x3364f611be8aca1215cc3ca578b200a7bb8e487646b3c01f7c8915fedf360d80,
    0x3433d31216d49eb9364b9ccf3f7962c02b6386f97588aa47f844362e757cba94],
  [0x1bedd4404036de5223a2cc3270db94d9fed8d860725ec3628d66c9b72e43418,
    0x16deb0afbe50c9010bb8221a214c238eaaa9074c9da3d656bf97dbc0fab3d2f6,
    0x27fce69711413af8e480d9fea9e8bad886d81fc4ec19eb7d46b89a18da2fe62d,
    0x3813d4c4b11845a821e0050a7815e656bba6e27e56c58fb4d931948a93bff931,
    0xe283af7ac12a6ac90c026c45b7c826e64a45b58b3dd64eafe427957886d034e,
    0x8e08deae4fb57212eedb7e760a0ec6ea58f242544b60b0cf9a48b66e077e1d6,
    0x230fb6a5382089c4808ef15bdab85af47401ba9be06ee252ac02393d9b3d1729,
    0x185ace3ed225ed38d8e70f54aeaa16c7a97b91e714b439bf2df9a4cfc5bc386],
  [0x5403e1841061408467027fdad71b449b8d4a650407aa50f716aa6f5d239ffa7,
    0x3e23b9a00922d00da983e75b7c9ec6a95f0a29ed9279056a79253003cd866bcb,
    0xefb48b4efbed3208503210339a6f009da78e76d92258a47a3d6d2f249d19d9f,
    0x12a167c5cfa0502a1d7357c981cb4de6e9c872995fc2d98eb21cf0dbbcf8b9eb,
    0x30756f4fc92501c33e9324da0a1a3c45a5f0bfb68c2a1850111251f18dab2940,
    0x1755d18a6c5c2008bd285bcebf906951ccb21b88adc31fb346ce2d0748129563,
    0x3087d407cc23dca7c7c32f8771910a371b9baa3c62e6d521c726f4bc671857a,
    0x2b5e784de0051d75095a9469ae39864a86f2e732c192098c27564e1bf7344ae7],
  [0x7a2d0f5f48f56f12df4da7ac913d16a7f3c2b2c6a63b9619d01797134867d42,
    0x3fbe9846dde97f953662b34055f70bfb0e54fd6119a09bdcaa4cee15ef15012,
    0x3be2e8926e3b8f0c876f0da15538e7a498d81f85263184e46681af34c095bfd,
    0x36311f514765c9c9192581665ac1b8f7dfa34a2f5f0706a1eed17dc6c47b8f9b,
    0x2a6aa255084fc73bb1da32fee0abfaea64d72310ebd7831d45aa66fc71407fe5,
    0x29bec889a4189bbc4b81d5fe138652eab3423d211d56afb96bb260bf944bee30,
    0x2ca93192f9247a21a47a052e609c22b16a8f4773065568aad23741e9fe371fdc,
    0x3a39ffab24789cd2889336445111a1db6abd7fee1ac09f349a1d33173dea41de],
  [0xa24f79220564d46715ec6916852c4bae2719dca913080edcfb48d214f2fb47,
    0x22e5be9ca9383f5c60f257182a095742920750e66a9852598664ecee64b429c2,
    0x1ef29116e93ff274117aedd48aa806dcb6b699f991383cd39a77a08a3b5efe8d,
    0x11df58e867263fd2a38eeab7af27126c4daf472c8c54b0f456e1d1fc6a716d99,
    0x1ad965d8aecc1eb97193ea643b2fcfc71029f84e3ebb9b255e73f1f04e1ca96d,
    0x2014a7879386a4336ff21e3fbd10bda6da6a0afb813d4e147cec29bce9ed4cc7,
    0x17c7a61cc6096e318c2691e0f9a75be40235073049782e5ce443cf57831f7ef6,
    0x2f6ae7f4acea92a619c93134cd0901a902383ba1d94b59afcfb13e3446a953e7],
  [0x2a14c663dc5e239d1fe2d30a93d174c130663bf9128da069a4551021c9e8e4c2,
    0x28acb912b5e2dfbaf5381d3aa83a04e0033a0fdd55e2dc19a89ac65518bd23ad,
    0x3121772d8dbae053d819e6bb6ef65610fd797599644a86a56a32480a113b121b,
    0x5a023d7f4c1afe198b01264ab609d41973dd029e91e93f01223b461c7672df4,
    0x32208097d6a4195ab7b3ea9455f9d6c2ee8906517f1bce6cfca1fe2e1b2cde1c,
    0x30f1c4c94ef893b07f83a2632c37e04bbf11fdaa0e047c314f325ecbb0e4417d,
    0x1a36bb1236ee76480ebec59ac4c4e10e1b91d0279303b86d631c2b3742691575,
    0x37d1081067f266a123df4ba964632eaf6d7fa8c79ca7b9efcfd8fc3fe02dae46],
  [0x254619ea413e4e8c2f1ca363fd3f230372a0a6b9510100e5b616db4e918ac20d,
    0x16c705b2e3fc86f266d408611ac3d497a9d7b90a4c9b379d9e3bed587611603d,
    0x10b5704c9c0dd961688482dac584d008a883529b44489b45be7b4437edcb8722,
    0xe5424dd7a5e0ef439f55ee27398be87b3859fbf13db0c29cf8e7d2d3d96c05f,
    0x281f9bc25f35ee8f194d6b4bf467789249586b24fe12e2ffa8342ae966845a3c,
    0x4085027f1983777fc07bd4f77426eeaab28a1fc831b511fab083973f9ac348a,
    0x3fe32509805ddbb68fbef5c8c0f28b6abdd1013946a1b7b3261e70b3c2ea660e,
    0x3f7dd722da8bdc1c8e4f469f8e59ce6baf9f0dd1b040e1806a1aeefea678db7a],
  [0x27f4a6e4e7bfeaae89a9dc9611d60b799e5b2a22d0d0f4245aa8246fa78815ac,
    0x2046131d6a885b1b5654f3f7d9af4cb087337f8ae76a34e171a37a31259a54f7,
    0x22feb5edf2866b5087f040f8d7ae87554b03ef6c861d91f5bc9612ea28778cb7,
    0x32739eda25ce99a11aec20a6dbe049377fbe94a37884ee40f51120751aa0159d,
    0x3104edaecc15b185f742b0ea4570fb4310e7c57a1166f48a9aaca34df2ae8066,
    0x176d355df0febc006dd098d8ee6e8655e0e6bbd113a0672039ec760a19a760ef,
    0x1eafeb3883fbaa153b16c897784bab07baa854f7287846d318b2c55c5f9a1c6c,
    0x32052f46675ee60cb6f627bb39b8615f3096aa8e4c8320eca7af1b57df355a7],
  [0x1ea5299e53ea4ce3d2dfede84c8fe46fdcb2fdce8beb43ea1bfe9b3e3859c251,
    0x1af1127e6dc467b450201a5f87cf4a6cfe51952ca9b20b12b3d8f86aacc410e7,
    0x240a00aa1d16c744e474f517a06dad5b469737f8ca3ead9b7939dccc7d048c19,
    0x275209ca7812a77aa248224337f169619f923187002afa1ba9765b89651de2aa,
    0x3f6a88557f5e33bbc8c11ddf63da4062b6cd2320e254c1221824cd22fb281782,
    0x18a93537c8590771d0425e8ca277a4cffe10e12bc1a501cb2b3208cf637dae14,
    0x33473c1683ce42cd03c5a7f6ff6cca25d2e1397c3ec3c80ba1d6ab14b7919272,
    0x51ae7ec36ae68c0bc869fb71c97d38536f20f22393d88da3d71d4af6127f760],
  [0x8ff7e73967f1ad3bdf1dd3392fde07f1b6f3b72984db522f42ef21f8dc3d49f,
    0x39c14c95c0ae40e1b311ebf826c22e63240de99257ba2f366e974112591c33a6,
    0x1f45e95083a0eabdd49ca3ffa2d808a0b93c3d243d045b635b00fbc30294e37c,
    0x1e2860c72e24185d8b49a57c55451ed6acb278d398133e358e14b351a84b05e4,
    0x2bf0dc765c4802bd073b42bd2eb4a8fc0449aee8b644908832c01ef61a2014fc,
    0x162e35a79ce2d788bb640d0eef28ac3eba1cf426db9c9797888a534a71948c3d,
    0x10b021787b2b93052c186de64fcd06ee0271a0cb4be0811e30e1e0dafe89f089,
    0x27c830529b3bbaeff438da34c7b90e118ef89b8ad46d61ec2d7817df0b9c30fc],
  [0xce41df8b7535f1280a436017cda7ba0edce70bc9e0b91b494ce7c948005dc05,
    0x15c630e5b3a10bc11da139dd53d7239d17f82cee600e213234104eacb79aa8d6,
    0x17a082c134801801921710c147be3f9adb7edb6dfc5f4a1fdf2d066b27e0a485,
    0x14cd1748be8bbe5252bc14d0e38bae9dfecf68acddf3a9bea9c21781d35ee779,
    0x1fb3d099f8eca811d0b8557e6738c8f8c2bda79497eff1fe635a2b289a36ac5b,
    0x34e607cb4ed3700ec9cf2420ea1186a4c33c850f3794d8a81cd7116038d77bcd,
    0x2595ea21c083d35b7627d54ed0df7387bfbd3f73a1f832d43a236d5715f8f85d,
    0x2fcd5d4d3541296c2fd9b479d3e0b3502f01c8fbbe0bf57fe27ae14f9136d723],
  [0x2b0612dab826bd2d06203fa2bb6a4b2d2a17a1d802196c524b4042d6b4e3e579,
    0xb2ac312484991ab0ce8aeea8139b8091844ac80b973e2fe2fdf7d5c22b35141,
    0x3597059aacb5126f375bb7f74fa1f36ab5d3fc9a93e137e264ec89d2d8101c0e,
    0x21102a9adef9d0879cabbbc8345b01f41b368d2cb16b02f61802309665c9de3b,
    0x15b8795e75a4b4dd96aea44a695f50a40f80f72c997a19f3d82d4a1ad7ea9668,
    0xea85cdc9117c606de733dc05fe932ad482095dcd37a9838188b8bf70e3f03f4,
    0x24d5c7d5dd3d111d35e2e9451de3a45c1fce59293226a13ebd3388b31930697b,
    0x2187edcd0291e83131cc10c60a44ec5f4656ca03e322a46d712306a482c9b40a],
  [0x37b82c62fddd6ea835e80ea909d49dfa32752dfa7d63156e1296ad5de2bd3da4,
    0x178b51d96c928b5dab24118a323f16aaffffa46a7236be6df6dc32839e7c80a,
    0xc04a97b5d01c3d546cb034306e9091a09adb46451a48e52a52a9b50b24c9317,
    0x2d0310eceb043ec6e8fb156dea5e9a22e0db21298ed78110c65dbe143dcc180f,
    0x3f0dfcfcb9518f07de192bafe68d931bc24651dfdcf05b297bbc36ad9de1b18f,
    0x1fdb14f800ca1eecb6d56e07e40af49aa2548ef25aa77b427fde9ad424a58202,
    0x727ca108b65844c0f683c215e54b29cd508b95580d45a86a0c1b3d3d8c68d5b,
    0x24a3896d41efdc1595a397461b1386d890b0ff8f9c79a9080a4e663772681528],
  [0x1c8025d727f32a1e15d2393fa09c8739f8525e834aa510ef2edacd33591966b1,
    0x20925497f788d1f34b2793efd33f761bb3bbd8d2b4f3db44e8716396c6bc3469,
    0x1770f5ba00a4dd49f8d495a939332534dfb175d95cc2ac95ff49cfaf82943972,
    0x3942ea301c36287095db4b2e5def041bc603952b13d8ead37209789275f34839,
    0x12c12e8e823d6952f87836e5533ca8a796a6d8c64d9a09cfcde0f2a4591fa143,
    0x12f790c388561e5560000b66f473843e1d3d91bc7294fa335f4f93ca8c54802d,
    0xffdcdb37f1b82f346e99aaf76f3cc1975f9854d0635613ca70ccb74839f9a07,
    0x1b7bdb083da148ff650372097aabb562ff1fe5de9b22646ccf3b64e77b646c6a],
  [0x26099413ef1ddb6898a098ea775864bee296b8bf2260302ff3466513c3105b8a,
    0x340b96e60f920de03220f17e7166a36f0d54bab397a758057a3f0d7d1c49d3f6,
    0x197befdaa1091c42a9b27ea733575d96af05b759e967a5beefb4f67fbb39969a,
    0x114a9d61a779c5f2d43194d6a4c8245967e2ae6ce5a36ca7654d6ef4a6f4e5b9,
    0x65b12725b2e52a58366b641b95d364f88976f642caf67611adcb1957abf3a34,
    0x2e20cd087723786fc7ed71d858cb1b247a1eeaf6c9875cd79d79d8a6a550136b,
    0x29751e6e0afffc7248a7a235e991571cd44489d4809ad3f79509a28771247714,
    0x10d9d71df154d6c911e863da42312528f4d7b2f5f580f1b483523a20acbb4345],
  [0x25587add6080554f7170326b6a936eddc37c992a410d65afaa578bcd091bd908,
    0x223d51df0de9fa2d19755b8ad151b128d6bede2beccaeaa1da4c9a03541aae3e,
    0x28df8dc4296b098ccd3a5026c1d57ca02d9d6851d044cf4ed6b26f2dfcf20470,
    0x185e47bd901792c8e9213c83716714e6934a15dfa417136b4ead4cea99364f36,
    0xcd1d19fb433a18e27fea3ef49059e5cbbd0174763ddc41495ec3714f480c071,
    0x1c34b65b9a428b1f4f975e74d0b580a38451fa384dc2644595dd7b3de62ffbcc,
    0x1931342fb76408eadd7dcb4104546e1eb181d1c8a533cc0fa16ccc65f4f36953,
    0x2e595910cb279aa6cf2179ae5cbcb8daa4e9f11087ec23fc0f0089b866482bc9]]

end Orchard.Tables.ValueCommitR
