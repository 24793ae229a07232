/-!
# Tables of `/repo/src/constants/fixed_bases/value_commit_v.rs`, generated from that file

Each entry of `U_SHORT`, an array of 32 bytes, is given as the integer it encodes, little-endian.
-/

namespace Orchard.Tables.ValueCommitV

/-- `constants/fixed_bases/value_commit_v.rs:19-22` `Z_SHORT`. -/
def z : List Nat := [
  163547, 76040, 88852, 128479, 54088, 89871, 39598, 144309, 43471, 102492,
  741, 55288, 33756, 77312, 12095, 48253, 45718, 202901, 33132, 71081,
  152108, 169712]

/-- `constants/fixed_bases/value_commit_v.rs:26-775` `U_SHORT`. -/
def u : List (List Nat) := [
  [0x1b492babc1dca393763421552897c072850833905d6c46e0b13ba55c349e5810,
    0xe77103b3c0155f45cc289b9da53a26ea85960e64ab34ab69b3fe4dba5be54c9,
    0x3b7455f6abdbe2acab1f63952dd6d02a37d37bb1d6b8293ae1ad25ce20199271,
    0x35a4a46661202e5da78a575c189977298983f9dbe9442bb7d573a125f1594f0a,
    0x2d1a3cabc6452cd6e2cb71df90dfe09a5896989c601fc0f422be85eafe02fc32,
    0x201a2a7d94131a38b037f492cc9584eff262a97c78ff3a54c94e0df900ad4197,
    0x39175a3d8858172327522fde3b4c6c2331cb29dc526409c4eff89d87b0c41d06,
    0x1f6ebfc68c0c8b7dd4dcc5bfd6925077795aab6f3bca6bc7f82244dc7465cba9],
  [0x2234f09ad5483c76b8c3ca5f366c7a0dc16abe13793fa16d911b1cf8ec8bab10,
    0x1255334d884aa6b726e4ee9f4867176b30ca1115febbab76f9be99618e10da83,
    0x3f66f39e0c71d8fe9405979d7aa7bb1d57c6aa59213a620bc894579af3cc4e89,
    0x17eaec860279f8160c0ae23d8b7e7044af7db6fe2f085d9d14613f462d8bb10,
    0x237fe876a6c24de9aca7392b8eab0847f5b9d11796698bd698d4a36e81ae02b9,
    0x190d1d5c0cfd6c772e5f2f5a555117d87e5296c2192ad1a183d600ea21ec1c39,
    0x19aee57237719c308693074febbe795f00e1755ea155beb6ab45cbfeaf9ca264,
    0xf1030bd827c960e1402d073dda86a3ed345ad31316f35877dab008462df5df3],
  [0x3611215a4008b396b7efffbbe9a1f71dfe168903c44633b9802f87baf004ee2b,
    0x5221913507717a7362ec76b4cca8c1a858ae1623659bc64ff01c35c3c13e214,
    0x268affea8260225377a97d8b25e16410d92ca1420cbb5d20fd2091c89f0a6d91,
    0x3db4e453fe315b36aaafe4fc9d2c36c2050c9eb009da4e53310cf4c3e3477f94,
    0xf6075ffe88e1fc847acff82dba807465cffd823be4ac579519990e33dee6024,
    0x2837163f565f0194f353a029464fc2e30119b3e4c1f621cbf08c7fbceeff9832,
    0x180e948454c7671a9c70bb4ab55d043ea5035ab82aa99f2dd2e19de82e93e463,
    0x1d19991781ded7d515c7ad08b3e928cbc0f2e4a039cb67a6157a8dc57db6a378],
  [0x2bc0716a67d8647bc61feada05455cfab74210da6812d49f457c06442e1b06bd,
    0x1c1dac97cc148e3b0823211dc08085aaac371abbf01664ab5aa49b8f9f5398e2,
    0xccec84b7aef8c60a3700e46ecee897a91e42f099a75bfe05d1ac82e70e839c4,
    0x2a76bd1a4ce0fb41ac471497aa161b7077a3460febd50c1e277132569f41425b,
    0x3a9a5e460b693fabb898c1ca6217dc254286e4eda9bd281832fe7a7dcf57c8c3,
    0x2eb5dbb8ce3aa99733b659ccc8917956e91f1f901e5fc970ee0b82297d520004,
    0x1d1e132cd03a2a1f25d2e11968baa0a40a43479109f7e43d6209ef78cd3cf024,
    0x1c73f7ad3cd018f82c622c9e5027ec0a75f44d8ef8bb206caf36ef30408cd6a3],
  [0x13e955dbc7130fe7779fe456af7cf4a6315b87229ee69f5bfa1a37b27607a6e6,
    0xf8168244f57338446af03b13ddc9e76b3b4725373b1a1ef2360ffc5094df041,
    0x16ac65c18e2063501ea3f21f3b505e10c6ce9d929ea09c53facc39e4da8d09f5,
    0x6cf684b307b671486ba60993176842ba7947162caae53454ee195ec1b494416,
    0x2a67ca05dec9d6b4f0753003f841675be4d20b24a76900220edeffa6b74205ba,
    0x1688a7c5c30e76fbf0980901b27e67911c7cae7cd75a7dcc5d2248f07a131fe7,
    0x11eed9e5620db450ffca7448c82e00b9bf1c81dfe65ec755dd62871a68273979,
    0xa4de5473ddf99f073afa87b32868d553b58c45f9dd379084eb1e032f13b9ee4],
  [0x33dd9fdc8362ef197c00023cf1e889b25072e74c32c41176b3d613e6a8d497c4,
    0x549f30161e93a6762d0eee840b296b1da682e61ef1d2189a655c86a3532d8cf,
    0x190c17da41fb71fafd3f0ace90fca49da8cb81f98033926f5b4f88c17c16d7ae,
    0x269986f91a031ad6b79bc4f51d10a4b4c0fa46e2796a07949cd6c6b0866d5cba,
    0x3b84037e463a6a88082d29e3f303cf6cc2cc826430c94da6969991ece3aa38f4,
    0xe97193666ef7169e07e9d24ce11def267f85ce4f9d4562fd9abc0057618a9d7,
    0x3ea6d5fccf9eb3c9c375135d059b4719992cd344e8043ec82bf9c94aa3cad581,
    0x34fbe9385260776d8a6988d24f65aba5b45e122f8c9828d003176d9deec4b56],
  [0x3cfaf18e0ea85be8ec79f4cbc67dcf7425c3091ca3c07ba8ca814d68497937e2,
    0x661246c9b57a960cbbabaee72efc110a0485b12515e2e7f7dd26b8425b756de,
    0x255f0a31789ac2c7c51e66f17352c44ab8dbc0c213128a21804b4ea762636e6e,
    0xd7c8aa230d819ce0b331458f32abaad348413f6c541cf8ab6b92114629aced4,
    0x77511f5685c27e402c2ebbde462ff2737b5bb88f85625fbaff320014840a120,
    0x1ab5577bfe6cce8b1aea166158ade8c638109bf526cd2dad52081536fb74cdcf,
    0x159eb6fc699e4acdc7fea01dfba75ba3dc2258a63f488d89a9314c44a9df9326,
    0x20d80bb30ff9d4d8e4c5784f219b47d773133561beba99a2a5e2bfe248b72cdd],
  [0xccfbfac322563c031c7d48cf9234cec865c7ece44ad361d1f212ea1e1988f8,
    0x89be4403ede77d4307951298a0e8773d198ac663f992121ba19ff7abc5b6cc,
    0x1615db0723f3fa31c0f2fe7ad7c6ffec027a285d276aa9caf76aab31b56cf58d,
    0x11870fc3381bfadfc11d9242728d88c19ee9e115148150575c8054cf0fae55ef,
    0x2c245eed491e1b6a96ba526074cc662cc8bd76932f81fe20a6290a392b4cf2e7,
    0x1369f34eddf1ad0dfbdf5232f9e4bea1d35d6141cfbde5ff60cee4c7c5458bf0,
    0x46a6c8fad7d5f88d56f519e1e9e12f4d03ca5334a33f36450d45d32a1aae02c,
    0x165c44933847707a11de595dd02f65cd1d3a1958733e80998b1e76985c83f486],
  [0x1e12f9540e63fae37911fd7379610d7d972fbab75298d34fe46602d982709d3b,
    0x1d5b25a5c8073b151b828b23a7d6a7d2cec3ae818aeea8862788b6063b9bb450,
    0x13c728d82b5bae8ee6a9402b39b4a2b2c43d978f4984607ec876644acbde4dc,
    0x3a7847c1483a8e0e38f0b5d07b28372a76df25cfecd6069ca5de341c37508444,
    0x2928dcf3136cbf231a6a3cb2d5e8cfdf13e7a2e970f540294aca25b3e844725d,
    0xa3a5c6b58aeddd475f5558a6b0de609b078a94d5a47bf92f43d278c460dfa6,
    0x3c7ffd895cc4cd72d48dc9e3df300e0aad4b0db6cde9b6059792412f5318fef1,
    0x11f5bc9a7fcd421ad1b1c0ec69ad4b7ad882505f58fefb49ca44e6a84dcc2914],
  [0x14085bfda1d244e660772eb7bcc6906840cd664cec824b0c6e00f4e1dad6c2ef,
    0x2b34bfaec85f42fed64c6c303722ff5a9bbaf9baad93e0ea9ccf10d54de22054,
    0x232045e63f0659ad367fb63670d9f9054794be6ee659441e5788acfaaece6725,
    0x141fd947f452f6a7041e3cd29b2dc25dc88a0744f15b1838ef10c5b3d4f2baa0,
    0x194540fd027e2fa030c55462cf9cb653634286059c7dffe6a05fba04863e84b6,
    0x3dbcd541d49d102450528d91e46c659e6fc902d0c3be42443dc3da20793cf187,
    0x27ee90e48475c088ae75f295de640cf6862b3272fd0ea2f552c8b1791ecababe,
    0x1558d3252ae1493a78162136a5623bc4c6defcf7fe96a274ec4726220d1378a0],
  [0x1bc78a6606eca8e20ed3b826f9ad473b66415eadbb1d2bf1f6fbd3283e501fc,
    0x284313ce987a2fa75055769cb04f8ed5d60f81e1f0662611265e3e267889f4f7,
    0xa3a05968793b11d760bb549d8542635db9d683f06c2059f1c4b0411c9669f1b,
    0x290a2692d8161090679e4549a274867522c4e1bf77724193639bbb28f566a861,
    0xa56ea41009c70fcc06b386dcf968d18d109447bed73d718e75810110a0ae795,
    0x19aa99b0182662cd7679ab57e99eabc879477089e44e8de9033a7b7a710618c9,
    0x36b935e742df7d519e287f8b62844fffd00e0a6a4dc7c0ea0adcbccf1897206,
    0x2e39e45b25c396511acfa1260a1b47eab4a83c999e7f3ff2d855cba8de8a6749],
  [0x1ccbde7e4033001c63d0c3a6159f634da2a69e0b1c66494b868974faa26bdcbc,
    0x3355ae29d0a0bdd663a6dd81136241c6a551891f21a4a9ebf525103d10a5d73,
    0x36f62801464966b8385967daef7ad4dd532dc35308ae762ddd5c8e96f5aeacc5,
    0xe02961ebadaa6602038a9cea01c3bd54e1cae05dfb3919a3233a3becef4d83,
    0x36f7acf73beec6695c60e40c21b7f196c1319225bca3bb78e0ae9a02dd8da5fb,
    0x2919fc8828a7a163efb8e7474524071c625b401974522c999cb6b44820a541f,
    0xbdee2a23d9f66df6f8ef2c87785e222435117234e2246f8f76d05f2c0667ee5,
    0x2679f8b5e4b07bc8734c8becdb6a9cf2adc9290aac7fb7bafad0dfbc66fd00ab],
  [0x2b47bd57defe3ebc41dd1a4ffc0cb8e4a6574737671f382c7d2dfa827d47bb,
    0x26f36d435c27c2b164144b034ab03747790f763f735dd4d3c986ed0baf377ff8,
    0x2fb42ddb4f3ca574159cd6c143fef5f6cb462e026541056d99b0037f0bf8bc93,
    0x27be63a0e9df9c68baa4dd29f48cbdf143842b90fa5fae2890f053110f2f7e4e,
    0xcaea50439845d150e9660098fd5793b3f5587bd1ca4a003bfc845be2a10771d,
    0x2605b9f850b0b1bb74e153610a0a0cf39a6cf6c1309693f57998d2592e22c836,
    0x2d0d9a4a9e463dc1f6cb6e4ba2cc48c787bf47b2f936281e8f541b4d316754f5,
    0x201db836c1c5b3340dfa40a39a1a3c39476c914c7ca82913cd47a081d91c627b],
  [0x2fe2763d3ad8ff16ce922e660021f85e8124477464911ff33be0c1a258668c67,
    0x9a77651d1993b998ff6a48a7ec776916bf3782f6823a030911cbe9be7e47f15,
    0x27d22bc671ec21dd4ba68441dc5d525757dff1e7d6270cdaa6e2fd5a1e2c5404,
    0x11c2d35de3a857d6d0589f3a1db48b9d372812ec2337e6da9e4babf48f2936f3,
    0x27d97a8df393277b0d05264b404b2baab9233f1b03718f8dadf4b213bedb8361,
    0x154d7d42ad5f6616b652298b4221275460df4de7918bcd5fdd7d5c7ac87e1803,
    0x1f3513025decf2d063f6114830e1519b2471e3c08478fb47f8ecc6beb734321b,
    0x3994c42a10037ceefddab483a56a7e0b854516be01423ea234d834e5a51f1263],
  [0x13fd3b87ac123eb241d3d59eaa2f88ea7370962ab6a9ae889a5182454869d100,
    0x20a3f91ec3d0dac8659f3ceb6e83da43c13dfe0494c4f844f836bed6a8dbc091,
    0x3606caa47a7f3e718f8f50be066e5202397ce07549c63b47cfcaf6894a03f615,
    0xc12b30f57a708bd2e89f0c545626d6db4fcded323bc9a0f523c463f3f0bf5fc,
    0x3673502eab14ef30c88c6eafe7a6c935cf0e53fa062ca4f624273e2b80ccce7d,
    0x9cd874477cfcb2556a85ba2fb3f3539eed9709e1bf70bc49a15e53de14a07a7,
    0x1e2ab5266f9eae1431da2b5e399e8af0028dde8807989190d88fe2ec847bb54,
    0x3df9601543652654b1f40e19649149e326df0c21efd886f5556c392306aab918],
  [0x13aa7446633a19387c8827224c05bbbb3f1d830b10cfe1f16a1bc3a0ae520939,
    0x377b6f0550fc46fe78011b1f76d1732ecbc93f6fe83e22e2351d2c4a7220068f,
    0x8d698a687ace4cb909612b563089b24541404b3060cc9910c040c0029d6123e,
    0x29df1b8973950eb076195b5368e94192be479ace602876919ecd71798bf95d31,
    0xca13452f0304926711e7fb2c57b65fdbf5af7de017ea8c27ae4c1fef41da074,
    0x2fb3d103153d175778778dbee627d7258bfed4d9e3cbc4e6a1c7537128cb919c,
    0x139f497b4a53ffd74baa206822cd00a5151bf53e5a6538cf3d40162b9fee72b3,
    0xd3d3f80fe8545fc72c7f5e2158b40678119711552de4e010faf05d1dfa2d00e],
  [0x1a5978a40a53c647a75c55a5a1c4f68b8fe1835ebe47e95350e63d330314bbff,
    0x3c86ff05941cf5ef4b25fda52d03c068b7715b291fd2601524265cf997a76cfa,
    0x3068771d6ac1d0a01bc61e07a2a942ff81a539e1f0cac4323ca96225ffdc9a3b,
    0x268873dcfe78d293020755e08b7377bf94f3babc068a3ee0bd5ad1b9715b489,
    0x641fe38c6b335b467173de9ce0af2d620a068f84302381b1ccc313a000ffef2,
    0x1e07df623ba746889c9c1dc11246fc6e05efd556e9a0bbddac2a8c9cf8fdd688,
    0x24b3ccddfe83b05dc4f8887e8ee295798b972706f89fe5873b35333d98e31954,
    0x2f9ffdc0588f793c010d4f69668cb57c39d372adf111405f5e52223b3a634ac6],
  [0x2e900c6dc7d1075d6d6d7856f7142750f4c8a54a4d017dd58fd2c5a3daa5735a,
    0x2508f4bfc51e5a8095223a5d413cd43a2968fb408de943dac072ca6d80302ce7,
    0x27db530fcfda0f0ccc03bc472b0dcac2e51a1d8aecc9e1b723af8fc350122f38,
    0x25fdc31cefef9e78fd08d21325087ca4cbdc36a5dac15528a8d38121abb64732,
    0x26d359ec0b636ab837e07addf45edcfe037201b4a0f93059ccd1dd76679bbff5,
    0x16afd1b446b2c6dad831f7bcfc13dc81917e5280cb0db55d1f2dc00f98a8d0b6,
    0xc9efe6d526c32cb5c0fc54e0d8e8225086234314f8dc3706f32781516c84748,
    0x1dc4696aee74f67f31511c5a9bd1fb36e6226696b2bff42c194f1a984c722c47],
  [0x127f4750a7ce9bf79b25834ad1764df004900c5777dd9c83be2680b8ba4e57d0,
    0x277622f2a643c44540fbe2263630935114f21fd258d8eea1f0b9a70fe4e536be,
    0xb5672586a73f979699bcb91176882751c379d883f30ab660ffdf70daebbab3a,
    0x361d1fb993b6b92f6694418e7acde652c13d9321d8302596931dce144b641e69,
    0x3bc3d7e59cab7f6dbae46d093a5dd0135b636d3cc451459cae11b91aeca9f59e,
    0x3ee30220cf79ab8207a27923aa3ccbedb8c7769db99eb6a8ac02b15bb7042a17,
    0xa151b3b889a71b8526f8046bbe96493e72669565bbe75eee61c740dd9ae8b00,
    0x3c00ffe28f0b48b993aa5e1e9c9d49fb864313fe08e701453466c43b8835d004],
  [0x2a3db21874c6dd3dfb77cbcb3b130f12be12606a1a8e651dfa16a983c44483d6,
    0x2402bd79fd459c74463f4c4de45d6053ccd8fdf2a114f062ffcc70006785a165,
    0x36ee29df03000e31984a28d5dc87e91ed8bc77c2516db5d1890c2304cee2539c,
    0x364320be685dca8b8c507b97113f0b80f3313cbdaf2f49a85bc8396f046e192f,
    0x343cc56568e6a0020aee3ff13d4152f85f5a019ddf1444ef3ea4a2a76b84645a,
    0xf69851d853e3c4b7529600b48105ed54bbe8754cd1e39bc3006e0869c509029,
    0x5b840f095abc8484ee5e9cdf57979ebcea041099689b1832b26890375f742db,
    0x1f89cd4ccf7ff7757af0028004a15f2a050667e01726f7ec609fde647476b316],
  [0x1695a0aca2b38665bcfb824f6c203eba0e8afc92378e65ed09e7dbccb84944ff,
    0x2279edd8626c4c6677aaebcb2ba694c5078dbd91f6c3ce06b94e11e5b145e25d,
    0x2103a38b284fcb48082af74f51f3e21301cddc8cf7103ff81d96fe45a2ea7d3,
    0x398cf42ba841276aec8c72dfdddbf334758572a60f7d5baf50923adc2795b09f,
    0xf47a29fa24d5ae75b2b1360ee203047ef176e0fbc103e8f6c915ed0bd314490,
    0x362affd786c43108230d02b1260a47358eea52d02a3ad980a7bc619c99720867,
    0x3b9c03a97f417b9fb713c6c69b23c6f9ba88bfddc04ff31f9406e8fcc7951de5,
    0x2a2ae0e1ffdd812223e6306e3567c7a4b78fd56869d162fcd37d535090d5f402],
  [0x18721bb3bc9d1a9d4b47348fb91f4594270b53c6e3f2daa06292ede6154d2991,
    0x33675257f6517400436829e2f2b5a7ab175d91f8bec24495ed7d4ef27821f7a0,
    0x1ba6ba86af6fad136214c11f1158a9352f6f80318efd0307bf93ce86a5832354,
    0x83b278a4ef70c22794523075b2702021e43a111b97bee296bca8ab46e8b9631,
    0x2e97f465ffd30f4e9507b08c7239a918421d40dddc660bae877a41323af90e40,
    0x1541fa52bd8d7b55c38dce49bf8818ce04c508bd4be4ef8c25eaa49e2ad7b97f,
    0x6c9858027dab35be54808f08e9f19fa45cf0bf39b95a63554f28fdb61a3ef31,
    0xe79d27d9798d7b7fbea068dccd86102d3b9f94b0ed1661b24d9f6475bec9060]]

end Orchard.Tables.ValueCommitV
