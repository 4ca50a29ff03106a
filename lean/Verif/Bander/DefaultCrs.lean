import Verif.Bander.Crs
import Verif.Bander.Order

/-!
# The default common reference string

The 257 entries of `/repo/ipa-multipoint/src/default_crs.rs:1-259`, copied as hexadecimal literals, and what `Crs.fromBytes` makes of
them.
-/

set_option autoImplicit false

namespace Verif.Bander
open Wire

/-- `HEX_ENCODED_CRS`, `default_crs.rs:1-259`: each string of 128 digits as a number. -/
def crsHex : List ℕ := [
  0xa098a29045f1482ea82bdd90b424b82389eb282aec502591eb756633d17a580183c43f2f4eea67cfd9ef71de006ece8c0f31fc4891ba0b74f62c20ac82045c4c,
  0x823b32fd59b50770b96fe0b20a30f33681c3bf14a92f38ffdf3e72f07d606e6ce52ddfe24377616727e8c738e04e93fecac6ee340246d9a8fdb06619eafbc66b,
  0x8fdb6314ae2c1cb7108148f129b1246a037ec48b1bcad4d0d97ed9bfbee36b32167e9b931eaf98fe8b02c7be3608288b9e815fdc7673f9aa354b0c18aaf7fc55,
  0xf8ddc3a1d255a5a0eefac73929a9c1495c6016e085fcd60a2c9bdc12cc41d26b3184818d7e65ef46ae42f5ad831a8e8ce7b136a63a3b31d1e3ee383f0dd65b65,
  0x2cfbbf4e08a0964c95c543667cae575821b3d23325825b8aa4cc780494bbd400df241d3bd41dbe85db77d7d8b0ae0d43581aecc1339064f5d4183aa61cba0346,
  0x3b0de628a1ec296a6105ee617aae0d81dc04bcb8e59c4fa7c469c8e1767b811c1583b78cfb94fc63f28b433edc60a6a1116b81f11df04b1ebb5497fa9bc27e6b,
  0xf97accfab8609474472ad9adff16a127725314b1d02b9443b0631aedcb64ef0333f0aaddab636d8a534bb22b4339f45401a47772680e76c3fa4bf824c2109150,
  0x847ef1de586c659f5f46429a6c6bc417b94d96d6ac84d0c499769562a9bd3614a566eae66bc852a1a95702dd8be98892ff21ccde56f4ed02238f82271af18566,
  0x9560ac3149930f0207d8cea8d3d858912dca0ab5dd1cbc348d1ab1e9e8cdfc027d4c86798ed0883c3ca598578a6b5cfb831aa1bdd0e6b3037799c658971f8550,
  0xf03d94100e16ae4ea56a0ba3ddab24ba8af5c5e7c0c211d81284b416027b094522a0dc66fba15b051f239650d144ae4f02f32a3ef5289eff6a31b3320c45f75c,
  0xe54ca5aa30cd28b9645088bd929e159848fd30b9cbf550b7bc18eff9b41c0d0313e48960881ac683a31f128c886de69cda0fa976944dd9975f7609ba6f1c6a43,
  0x5191adf4441bba1cfcc41be725bd1ef701cd327c38b7c27ebf68f1d5bf151f6e2957db691deef5b01bf0cb6ad6497f10267a0a33a46cbb893604fb77f19a0059,
  0xbb21a7923dcb9b766a8cac650658ae3ab04686dd4bab1722afabbb2bc3841e6d7d227a2bcfd06733f2f5d665019f3eb6bac635e6b77898923d7cbe47f8e92657,
  0x2be83313c6a8bfc5e4910a1963ec23794a3ae3964828da4687fa1baabb72de128cbc9a5e383af05ca56897ce3d5a535946acc41ef64f871ab5c46afd89ad4d3c,
  0x12d1d530ef50f4bad719925bf7a59e54637fe38773894311fb08def9a379ff585197b9937348246e88b5efc1fccfcda9b9cd9b9e66c11dcdb584e9997c1bce69,
  0x33daaa3b0d7343f38b12a81b9799694ae8efcc5cac1daf9b93dde13d816fa8103aa63e3cf1ce614bcb42c8dc6c32f0eb4cbec1fb419cd5b2760e48719f3e3f62,
  0xf6964470cd10ada606e60754826f71b384d2112bfd6d13077951f7b40b95dd2c873fed8972e62010941ecc766174007ee3757fc2d366763063d31895a17ecb52,
  0xf0dcd9abba9095272d638b903c629873ff40900ab91e47e0caa63664c1256b09b7b6c7565e1dd022f87b0a67d74b74f1da386e959dddac01075e16d0bb5a1e61,
  0x6e19b989cb59f1895b8ca0c460ed538abc6a45541645cb64e4b64e14d318070ddb253116cf5e4ae3df4f8a323896df15990162d9cd520b0b9def83019edd8845,
  0xed171bb156e2af8c1c46275c38f9d41a1525c479e8e7d99f23d8810eced8151b1e246abfeb82be1094e18b0a6c5095105424a6ea013a5827b05cbae910b5b570,
  0x48064440ee15af320c4dd72bafc9fd2bb5828b0b26c945d638d901d3fd8659316c8cba907a0e2d59440b59459e881e01cd200e20db58c6f577b9a898aef30d6c,
  0xcc66a9b6a58d0b1c55424faf513ebd5fb6f40851a45a7f4d28f6d166ccd21a604169b6451f4dd0986777e557e4e4db45a8be841fcaa82f32401d7f64ab1e3353,
  0x10fbad69a1fb26289b80c506526e0f2616174b0d88519d672917e9c71b658772fbee10ab4d4d8ef192426ab3bb4eae97db235d8b620e37608b1647037f1a725e,
  0x32a0fccd7fcf5e08322fcbe89897169db5ad5daef0a88acfd1238378149b0611387915289785e4b23a41988d8c58b9b0504e5370d510a188fb2b37e558bd0d49,
  0xd87e33f404379a043aaff416ecc2953018a2d7415c51a6321d47560b42f8dd36eae40f25035e16c1fe70a7c7f0c6c3186390165b29a1b016cf50a26827bde36e,
  0x3c413a3246cdf826793f46912a49361b59e0cbe6d8bfa289bb36758ef4bd092afbde52f0d3f20430ea50a60264d14020655c89c56a8d7213de196a4fb95aee61,
  0x58cda63669d39ff4da7aa86a61a83603266f1b24f3be638b1b73b2ee70b90d0870c99c018491ed9b4ed2630e9c6de50488ef4cef0193ea94dc7dc1f48d36c448,
  0x6925a8539c447bec24b3d9b9b746386d4d37531482884d3c4076060ccf38d871afee69215036330c64695b0061b6413956bd5097d88b1ff97173aa4feb031e43,
  0x3599d53e8676786d9ae5f3e32998adf5642d6153f4246cecfda9535f3c692b3d544b456881597db69adfeb0b96721dfc61494c6cd3cd76acc596eaa80214b34e,
  0x68b64fe92c37de6070676e56ee9efed4dd1f649a9fa9d3bfa85df9ef50b9d42cd99910434d6a674f032581edbb658c85186e456cf5403ecd52afc83c698ae556,
  0x67099133844f933f06b2bab38bfcdfb4aaad72bc509bc6fd899f61848a2e9c15e28b9c1ebcfba99939c36e8e8a416fd8d6660a7adcbdc4c347347a6d7685ee52,
  0xa0946dc359fa191ef5d279caeeab7354230255dc1a44332ba6b25b6d7e0d011bb1b854df0a861f15027575611c7f1a5f4d0012344fe1285025ba8d656dc21a43,
  0xaca3a868790953f836d5b8f6b4e235847e5b8502b4be58af1db7989a69500263f2471495cc4243b0997687d3ea9c4c1bca7fb31c5e4b85756e01d039ccc5dc44,
  0xf6726c945318294d7d88eaf66207473586d743df89e8a7b0119ba71dc37ed614ee7a6960a73e1f58bec16c960d9150d153178b3e76f628b665863c5c073a4440,
  0xb2cf902938ab413aa5a065df77e5fd71d6599ba8c973e13212fec3fd3e7c9f5a7186b3df9222222887495a9fe88c9cc487a13e19c2882c1b01908559f9160a3f,
  0xbb652c58a6b1b3bc89dfdb01b13236843b9308bb616fd3cf7c1991e46950de6083f729a22692a6c869905b62cf0ab25df05c42d794bce45bf4eeac9e8f5aa560,
  0x844ae8df265e56604dd0d900534e02b3504aef546dffdc9cbebe4aed011bfc0f6769cff47b46b9244a59a43f49bfe9d047945aee7f9e6175c0934cefd652515a,
  0xde229d874dcf92cc86c53e5d0fdde711cfccb0ee3229a98438e3570cf272e436ed3b709d0f6c5c00f75188d605a85db6bc925a4029c97eeb3ba67da9bef0213f,
  0x21cc75fecf1e901b20010fb3160be4f726863698b93a2eaf9c95e28827e6ec60ce0eca97cd9566b7559ca08d80d1647e980ab745cd739754c0299720f3939a44,
  0x4c2c7f88573fbc03e4be70fbf71985e8645dab5e1afd2cf88b5ffe9cb3f6851952b1dc4dde6878416efa42e3c3f3e13a3238edba14c292d8076e043e8820b35a,
  0x6249e1111ad2aafde886a165b5b4c48eb80df82ac49a1163d1bf38f02c7ce42409e0ea487587d3dcfeb2d9b37d1c0428a8c052ed578cff5a09ab4ba7ed94b969,
  0x0a15a8122e11e5e070d4023d429f8f9ccc1583a9615d5bba1a50949d6463bf4fc9de74e209e1f1fddb612dd60b8e53f20dfb4d7d23288a0f648823501ad76845,
  0x84263cb808009fbe130b1e8c8b941fce524f4206d26ac4a259fce24e05db8870f0c0c72bcff303d0c18a7a4f322e2b0d9fbd258489fc4147ba349d42e1486940,
  0x507b317dda453fb6ea86ffba63c3d0ab4a27b9aa393e86b2055899f163335b47261020d8f073fc994aefd51616364ccaf81b7cc63ef41c61ac3f442aa8fc1968,
  0x7ea2c8658648b79aa6b729a7f93d0cbbb9e9257a20b3b624d8fb2998f2095d3c6bc70c5a8f9570cf81c9cbff4deb535bd8013ac9efea2c4bcd8d52ea5e5f3655,
  0x18d14cbcc41c8c675817a33ce1651017449749eafcec7ee8e67aa3a9a893f817f487df284e65c2e58ed8f38b077c626bac72b3a5aaea6d2a232b24d2bf96c13e,
  0xc4a0bffebdc1aa4a2f5332e4c5f0349249b0d91347427bbab232a070fee60820d4c895607d3fa8e46a37d37761e49a5a3f374c18f0bbc374932069cec9814f65,
  0xb187520a6954c8ae0e7e2356eb3a3142a5c38f113a937bc72601c7b3616e892269d8d581e2d556fe18993d80861ce3346140ce4d30accc816738accd9b025067,
  0x9a232f851fd9f3d90a86640407cdbfc2d7c08d1d45e4be1d3fb12861caaa3153aca66e725735ea0a8249a80d109cf62fb69797841f8fe73ad3a55122bcfd4a54,
  0x658d8ac7c01acaf92999c2474c7c02cfe29270ec26bb778c3de28d926cdf0b0d100386f83c857f89206b256724a93d5c6ceff555e02eb9b8f6f169541119196f,
  0x5f05e817df1d5ba9b953136007d0000151200776fa1befb5bd5c0ff940e06528528fbb0e75ac00b742d25a324e1c1161c61a2fc4860b836d75d9b4c94451a167,
  0x5fb8b4b5604b3946d150c00ed2ca45f3fc90617ed217285d9e510ab1328ceb0056b317571c80e8b3cbb295d313c2271a574671b0333d483fefe0a32832ff4753,
  0x1cc4fd7627f5da55ada623ac2ba75f23bac1643a7070f0f29ab63888ac6cb05a9d01b264ca200f1796db9c32ca0d08bdb42feea0c4cb8c6ff7a605cb5efa5b5a,
  0xfb38d053674d695609098ef930b7722504bfc082431e71f317f9ca30b562ad1876a61e8de46e6d3067e6a3f953ea1ae52c08ba158fce6ed6f9a9475e08f9ed3a,
  0x353a80ee664ebb642836925be445eac0dda24461e51a8ac6e0bfd1589da07b003a0fddfde3c035cd70b505555361061e023f696b778dfa60d208d5d4647b0142,
  0xd34d2c45bbbc038f93ba6fb15687b3eaae6019ab25f3f6b8e53eebb92433eb120ed23e12e1ee250f994ac346f7d6986dc160809419d16988adaac886c751cc61,
  0xe6329b8b94f08581cad3a16fc9bd8f04407fdd27335c600954ce7da4bb67f51edc333c526834d4c363147650e5d921eb367e1ab50f1bd251bc1d2fd55296533c,
  0x14c97e68301b5860b19aa619cc91250a1fd4a3ced6eeb145e6c791723f4c7b135ad6006252e7155c1662be510e97f6f1d53f0fa8a1f5ed95907987aae8218e51,
  0x3908568352d80b0b1d33436733944f19632a805e20f81a091cd39425ce4f6a50463bfc47e17e297d07d0c2f0fd9aa185046d91815e74c2414f24f2f59754ce60,
  0x0797f85fd50a65a716089dab15da3706c8d3b2193789b0898fca1402fe110a2b726b49a3e395b9db4b907366555ab01fc02690d9b029df5c03cafce6eeeb5255,
  0xc1acc40f2e738da286d2b9f9614fdad453db33290d68f4f7f4a967cfe70e0316d3f8c7e843a4b8dfec173cfe5212074f5df7ed4494facf2ba41f4e86ec19c872,
  0x55d0029b76ac4372ef654cc35ed543255330a4f6f3f9b7fc8450c262c04c922cfce4c5b2b5adcbbcbdcde6dfc59967694da1e48db158093167efe0ac4438ee72,
  0x3d37576144c32a876c614ed7ee7ddba519c6e57b336e06444cdb6a2d3b6e243b4116328265ed27a7492826eadc1c9de4091119d83ce18556c97f33fe7856ff44,
  0x78cbd559f0b2bb104aeeb6762af3fdcaabf84b0cacf86310e42e50633960b815903096053798e2c959e72004d1a066cc923ffc649773340c2b34be79e6d1746d,
  0x10f2cfcc65e5a661538da9b9bdf36baddbcdd2ff1bc4599b1ad144f80bc6350f8792c3599ffbf890b38bc8159940d0b79960bc072b672ab4d581baebb9aaeb3f,
  0x9845341dbf04311acc227531623860d2b9d859731c374454ee15031f4bf341504248a98cab6fd25f5e59a7c3d7918e3b051543f9f0484f0dfe9e779ebac6fc6a,
  0x24950a6f689c8cac2f1663d6e075d15aca1c9da753f67fb5410d866589f9032ad4c5938fec96155ce209e310622819262a7f0d66b7612904baba6fc1e789fd71,
  0x77fcc3b0948f2a53bf2573eb226ca1020f8d35dc3a5ddef451146ce7877e653db98a6b4e03c09724f32a18894c7166b82eba5243322f7678bbb482436d930058,
  0xe54fb1ff03309f45ab75c27c58ead73ac14c017b55887aea644bb28da6296a4e5d5e12b93ccf0c9b6e9e110c3b210cc6298e7a92d709f09345e5bc3f62f25d6b,
  0x25f1e373a6ac129d2db2ea9c4d07700888a8cbc83a42e7bab3de102357c246430dfc5cca315e36756caf20b8fa6f635e4e05cccea1cb646025bbb8b5df747f46,
  0xe4da3e8f8d52cc5a062d42f27e79053bbbc424aff7798442dde8e4681f5e5c13289663cc9d93468b0ecac3f7d4e83284ad3866ad845442fe4979bd013ad84a46,
  0xa110683aa5b7ec7957487182808dcb3f4d153684a240573662fbf6b01701a155e04f5f9cd8e6648e3b474569984e7a8c64e1629cdcd6095ad2d719b87a9f0f70,
  0x21a4562e207cec21dfb5365eba7f8d4cecc08eba4aeffbe3b6f3f2ec7ea1b70bb4d7c4df444ceb3a059719ab654c8af98bcb66cb85eaf5c09dbddb8aa8efb555,
  0xeceb4568c318b48d376e5df77386e75fa4ba38c2800626a83dd666ae40873c43629fa5e9a78caf11c33b65c7282111598ec135ba5abb0a82a8390762bca40b55,
  0x827700aa3904796f531ba6be5c1807a407de39e50cd33b463ab6b582f841bb6e9124e87a2dbedd4703a29ba39355968019a88eb420b06897b2712d7c66f3533c,
  0x981d8f33bb2729cc8e3b8a415501816ab58ff98a4a1fb2a522360cada85f75581d438586ac124770e7d9a55f0e19448487a62b448b8a3278fde06467e7bc385a,
  0x7ca32dbba01faa2809245f42221a05ba34e2f5a7f0bd619da3707cf681cef449d8ef6c9890734009835a35b7a4aa2ec41a323955ff7290729cc052b911cf0f4a,
  0xdab0a250e22dc2aa0a01cba444f554f3d584766e2d6a27db8432913ade734070f967c336b34823d6716ca132561cd1a715ffa2952fb6348c0561c7c8fd907e57,
  0xd2b823db9c42a64607f2b46a9443dff0ec7550ea5246df1bb8e78e0dea132b083441311b009a559a21e02ee6d200e95cb18cb42e684bb1652ef2c883ade8014a,
  0xf4c0f399dcfafd93d6301f8d01319e6df53f8385a7e42f8a8eb5952ce857f759159a9608ffc1014961a0b0525cc9bedbe93edc16be33548dab653f5c9d2b5d56,
  0x6457ab94d434166f4e312355863abc878e8ea45c92167cf0214c6c238b61de4254b89f8750bc857c24a333d3f721657ece3ef5157dc8d514d7e51068d3ae0f70,
  0x40cdc4818935a99e3263ddd09964de6886a310c6a3e3dc674268fd59c6d99b0d3bd131cfed21281ca364e21402a9d310aafef4826a7873fc39ea97ba7f97fc3b,
  0x0db0117662b0fd80ccaa6679333aa589969fbae3c6c5dc75af71a28a57d12c1aad7fd368fbe55fc45a3e377e88770b8e72a40e70435d872b56486765f8612e4b,
  0xe8b070c3d7319e034fecad833593888fa00e9b8692cd286045836b8f3edff144a348b8eb9f5155cfd9c698252ace15eeac9a4b2e746d2b75f510ff74accbd243,
  0x4fa1fe7f1bbce08505061aff3fca473da6f2392fd96fe22d5131b0a3e075c719aec8cfdf963ec61de0d7d5684dc568b821a0e99da114ee504220e794196c1943,
  0x38a61b53dc6551af03e99b081513373e43bebeed156ae8290f80832ed67a9964dbe7d62901d7f63669afa98adf5f994447c6bb845ca8a8e8de4e9ef1d9d7095f,
  0x814f3351695a793bc37df8932950ae2a903149e44e5dfa8e02680d5c07d0f911980449f39b6229d2ae5f151e402e6bf6e7dc2506c099f2f1447d6f519c22ba48,
  0x44dd0f0f870d64c251749aa03beeb6a2a7862481d058bf9e6b8c76c1d595350a0fce4c8ac5eae24fc3d299254db491b5b10710019881050b4f7c66029af3c35c,
  0x74b97a73b0d20e6ff9f07943e802a2470ceaf0dadc69a58a9a1b2454b1334551a64dbd76f3ab31ccecfbd68eaae6c839c382d11e9fa77bf1b8b93b5768f6dc68,
  0x58ebf31c655351cda21f4c4fb87741c18267ddac6f57cbff2ff51ccadd1e3140588ab0aa4ae6f2e0f82699e62f91498bce9e45d8b4ddbf3b1e09cf08baa4d366,
  0xd7ecb2a34c9574e223849a1aa7dfbc160fdfcf0b31f67bd9d95746bd6e7e0411cca59b8384987cb9b0c9893e567a57e47b4aecf54adcf3bf848a966e34f71266,
  0xadc861b6b547571f155df38a8020df087d211f3aaaa9d6b2ff33eb0880bd540efddba7132ca9769520a0b7e15221358529a72e83add9822e7cf0f97bb1bff966,
  0x0ae728fb9dca7f2065326765c3440203ba1d200b844079fd3535268cf3f16f18985ff723e165a4b35fba92c10d36bf257e8604ad149e359dd041965e3059b83a,
  0x434f0e01d428468cf976d6615ce057f16794ff48c913abea958e80ac8c79631c5d76d62c038fadf7f48430d44cd3d638433a6cd4d80dff78f95b17c97cc8fe3f,
  0x23caa800525fee033d953d8672281d71aaa9ba0d2040d2a9f9209a219e86ef50d767133efa082720b45db9e3295e358f4dd7d878b88330f114bffd66a3a26f4b,
  0xb874bc61f823b51c4c06476d677b7ef545dca117ef4963918c428cea9b126f2f9c87fb8e5357310fd3596e715771dec1b8528afae02922fdc955c85d6231ef6f,
  0xa376a1e66ea78bb19208ee02e76ce4c2c9fde7569b2241f041ddd53575e10937e8943830cdf631c1514e13e17cfb2edb51843a3934f83bdb3b1a4199dd14564d,
  0x4d43ff0e0ece3c48ffb5cfd671584d007d245b0be5b25bd8374022becb0cad2d3a046051cdfbb8e035fdbb4a9ac595e705f0472c2affdc4195fdab3f25e3b053,
  0xe3f90f871e1fc29df670be839dfb4b1089240f4b2199e827f0a7209e316a8b42f55026f0bd1838f60803997b6707e3643bca2a29053bed2d84512951f37e3c59,
  0xfa8d9f8bcadf1550b559027b4a84d9f1607e5358ca9e22bbcd9a8e559c8d0c05b5ab886aa6c0577993e6bdfc86e45d273e0dbc9b28b4cba0595eaae50de1166b,
  0xcef60fdae6278476cfb03265c8f9bcd5148fe3d021573bbaac1ab1e1fe46ee64f9dae27a71ea2d790ecd5f58bb5116527241ff0e0a90162c1216a0c78dcaec65,
  0xd982d47620d4e2f9145fe5d02ed1147ed8e3d063a7d64d64b7f020db58c1111d7d2ac7b2a797415011eb5f689364372ebf7a94fa7ba048c8488354105d2f6940,
  0x54a1f65072cfceda1ce23f7bc2c36c28dff250d85ee9001fc91e15ed31dace2373e0503142f8747f214cb3d9c6f92e6a945f8463f7410cb326dd72dc5c6f626e,
  0x305c686f041e68f8eba2f8d12da501f1bbc82b5e86064ae0d7397c07b349ee48f99981acaace93c7120cf25ac5b8b27ba90987eef68cb0f48b89571c8d163571,
  0xdeff0d7b32876c69bedc3b1f7dc2d5ecb3843de23aadb54807712a1cd3e6a14cf48be88e45c2850f699d2ccfb0480213f48d3479090ee0c6f1b64a73e9a1b36e,
  0xaa180c1605b6f0879b504a8514e48d08525d9e03653a4619b38f4bc924d8270ab0b7f8e5b2e1f32de5a99781e68e22050932fa4ce60e0dae03b7eacf67e68759,
  0x299ce6aecf90c44aca64987a98aa2b1486968584cfdfe122ffb87218c308d74f9bf20b38fda7bf67d5633f22592a9baef4030ff8a5014a10f81242d2e9371f52,
  0xd241c156a0914c8cb2c937cda2090e4898c7b145c4332f4ed59688c60cd1b32332320d6457e61c585d1a2983586afda02f7992d7e51ef51327e749723bb5a262,
  0x2fa0df0408edc828541b90ca3ca1a86692d41186da27c6a4c6c1c52b7f5d8d50a578090e8d4bbb52fee69371c0f98e81f040c01d542603d6cec96ecc8ad0fe48,
  0x2ddd049d75f87924dcaad87fc7890bfeeb0dc7396657094591c1e6eeb15ada3b327c231bd32d1cfd99ac60b46e5a0fb083b37ab641c0977a3626eb2220842566,
  0x8dc254151bc5f205256f955fad48247443af8e20ad725ecec1cd815c7c6d4948f8c488c02f893e10ee17266135563ed6d74249353e1e5cec2a743ea06fa28c47,
  0x45c7f6858be14893878df5ab208956e4c8155309d17f8ffdd493486d17365f111d3f02545e713572d733fc985e47639ecdb90a268103d6505c78bf2fb85a484d,
  0x19f8db4876c23b92d9ed0d2f6bbf8b1902a7e3bfed5fda47a828e1a6d63cc000a357c66a229afe4c1b4b9de383d7b7c00cb45500d5876bde7463413763adc859,
  0xd3d5e5d2fc4107a691445f0f0680ec2d2a0a287d4c008e75af86598344afd7442cd445fab58713387aec9b7551c1f31a945bd316bb85a963ec6a748a84e3cc53,
  0xa8eb84640b37ed0f391d7392c8baf55426117e426365bb143bc90353649c307350a1367d9489f69ad32b9c45dce6a3f6c30403149274edf465e4f4b4536f156f,
  0x1dedf887e5c2fb3146a5163b9a45bf6cc6960480424f1d56f0077f4fef88dd0613906710cd0e91619606c5d7b136686fe808c8c4b69e5a533e22ee046da3e56f,
  0x694da6157c72de377ffdb2ac29d459568569205fdffd691f4e67a2f2bafdfa3cb1ad42322bae0229e48c76741f4181b514722139d63bb30643dca48d0e55b260,
  0x4330c744f7e4b6565af95d6dc7d5b23acfba760b19a24594272978fd4d81d93454c7d106084f556511424bda4a3efbafa063270ed4d3170123449555a0546d3c,
  0x8b78281882f8d2e996d27573f20b300a2a66858d9c5de82dcdd5997627ea1b2546b1d5d89681f2ee846cc804f33407b6c8921bc9bd2741a6a7248cb34fcab04b,
  0xd136fe36e606a9debb4adf8868a23b3c6c276adfc672902c902a6f866b9d5d3b233c957edf9a8a68422869d5b8a0c91f5cc32676bbc772d33222cfe03b3fa56d,
  0xd71783316b9f9ab90651b2e94d18ffdf7de47f9e65b5b81e49d2852f72a9a026f11ce9a6681ba31eec99f22e630da5a3d0a9dc48dc1c864396c21895eee35b53,
  0xad146e5f44b89b499ebec9190f57863d5a2e85626865cdc7d612153d078ad15439db1332863f19c53e731bd4fac4f0d8934ab559a5caea65bccf6d41d5fd7649,
  0x86a7caad967ec42d30b48efeaa85e63f656d427342610ad3cfa025a1c616fd17b29423203af8f36459773046ec6b7e5f07574561438e07efecfe8674af851c55,
  0x10ad798898bda69fcc3610dfb1dcd0323b5c9f9cb67aa00f286bc9689d92580ce71184019e288aeb45cbb21025a0080fa9e0a624f115cbf29918b79f7c470867,
  0x62922260ff1c3ec3bcfac408e81b5e9bac69e2d8a408274b793dd119798b36419ccfc30791e678d6fb8be86a1d9e071a63276c8899df217c63a30836f0e58b48,
  0xdb3999fba6bbf3f13212eab680559382849690198167e2c76d459c94637db7633973cfc82fee3fd04493d30172b32787e029f223728aea2f30393d77c99ad265,
  0xaf71f60f0a548aa673cd39333591c66d111b4ac86a8f30f49559efd9ad703a4e64b5bd5219c4507844ffa6e259f9ae4b5ce766047fddb35b181713fd8a3ea64d,
  0x0faa106fc49b8fb8e72480d4d3c221c736ed42a057f0622ac5d8384616e7a21be4d13e873917fc82ac1014db883b84a00da90d641040a651661402fbeb09526c,
  0xbc8ca8715eea7cb24648f05d9c2b41d11ba6ad6fcd89575128983ed7f8d39f3d69dd9cc8c0fa8096a61debc69e14d17e03542bb7aace170ef74cee07196eca3f,
  0xfde94f4c9aa0dcecd160702921565694c56a10bc2e12cbe2732613c43ecc353022f33a5454baee898b9a365b518b4c54c1a7136d78deb6791257c73b5f14104a,
  0xea254a2a2cbeb3affffef46c56928f95f45a9663db72f470cc3276b251c44620705b5cd36779cfe7c273598f5594c8ca81d331cd04126d0c82976150e7a2d16f,
  0xf8b47f2e6d7cef812acfd5599d56debb6fe79068464f79c24af5dbd11480a8411c8b748692511f45476cfaabfa9d3c191c0714c724c475c93a916c727ddd116f,
  0x7b3aa17ec684ba36f99bbdf0ea7f32690e9d51c076962cf7a636fc846b519c21159f379003b7c0cccef1886546876f300e27d1c8f95b532a71773e70766b3f4d,
  0x0b4fbd054d356fcb58794f7ddf7273a7455e46672505220a6d8425b391e64a605f0c691f4524033887542d0402946f3e15e822a62e0301a1df1be64e15fd8853,
  0x61fd71d97f2960e0cc548545ee64fbdea435b942cd19dfca31298cd24fa4aa46e55065b2ee92d62a53e02fd2022ebdf288bab5978976f4fbd49230e1fb0da14f,
  0xb270d906d14815f0a33faeb4f4bc519f08e800d8ecbdd0f763fa29403da65e195614bc9d5df95e8539a3cdc9c4098d354dc4c914340dd550709512f22e11bf53,
  0xce33c296d8d7b8c70bab4135934366c7a7f3fa8a2681eb1027398df0b86dd447da80e3a363ee2ed5ec93f6a67c66372d5b1f86fae13b5e968489c6662723d76b,
  0xa962d8cd17966ca98f5be0720d308a4833846601c06c2a3d27e20f8d860b0f2fffed4c975828a52135e7ea243b500e5775822585fc112b08704b73355c7a6451,
  0x75fa5f3831149b17e14a824fe1e28093479754ac4683a2b59d2b10066dbd5f0733c7bb1721eeb8d5645b63cbcf539e4b238ee528806ab996a061fe888972b746,
  0xbdf1fab128a4761b38a467588d062104143bb9671ed99e916462e9efd549cd3e18ebd04cb13ce793db38805793a82cc649ffeb57ea2a84f7279028d72dff0754,
  0x02598c3c9afc32e976a833a3f633d1623b779edf31ef76366fb5840aab5ed736535accbfc81f2faaa8096dd6594fa964ec0c87dcf13b65c19599bdc342a3575c,
  0xad3d670be713cd59ab69b3192a58dc7f750b1d63ceccf28c998c94e6fb7cd2179934fdd1c688a64b6dd7a94d26c800344848f8b6a3cca51874047241f9e6de61,
  0x23e2f2c4ead325dc25eae677ecf19412e9b083aea4f8814eb048f90eaf5f55031713a439a89a6837d6ea452b595924098c3448b767dd8996eb311848df5d0b54,
  0x0565914882fefbfaed7b5bfd1cd42e9b866d2b5002e82348ec3ab4c6c2269914153fe284274777fdbce9ce0da3af92452ddaac4a8944213446db56a00fbb4a5e,
  0x3166e35a00da103ad26fd51ca7275a4dd38ce23099f6b4dde848f72b8c5e1e2330bbd1f005cb51d3fe4deafcf15fe182c5a68f0182c96160e816eb8e95fff569,
  0xca3529bea94fbe7fb7b9981d74a5e59f8160394e77b4d9e830693b70884e122d88a5a8eeaab7a3ee266e81b45d2261b895d5867554639795d995e2da6cc2d26b,
  0xdb84e21c290d50071ddcf383c6d745e2162320ec2b3f61ee25ae26cbd7e3346a5834952f40050320bf5e6dd9a5c726f39ae61128bd66a1cd5de6ab6724eb1966,
  0xb196b4be05c3f48d9a747dfdb15d0bdfaa0af5fa297da8bfa5c4746e72f02766f4336582bc5494d9f47b9c50ed43128e39f582edd4bb808ee43763400d364545,
  0xd1c30828b452b8926975a49e9fa20923776175f9d2172976ba9400ef4e5c6d644cc9e61fd45c4189b9897289e40faaefd5f0dc6948ccfaaba9ea267435f06a67,
  0xd0152e52eed470308ce3a72543eb84843cc167715a98f1e804aea37f29ca1b603c8bcd74ed9908a56d6e66f07b50dee8244e101d9efab1f20a06c278ac50084f,
  0x8169fe4df47bd62dcbe7f7b86a6b21d570d95e1962084261819656ba7221af0d1ee7d408d7b5ff787ecea8dad0c553f974bb8916d139d0b606596c5fa974856e,
  0xb56f727c8e29afece41b616429e7aaf39d299d424635eb8026917fc03a410432a5be97f6466db5618289183be088b92fb3752c13de98d8ca2ae1f4429657dd49,
  0xeda121b79c1a6a6c827c7ae5b78a10be9614dc9498b14d87b2f08e4dc9075f37312727381710e7aea7f5d5cf62a62a0786058009ede80d3cf3f3a0c17c3ae06e,
  0x6b1e0fb73294e52c2cabbd5a0acb992d8c7bcd0ce9b59dcf27da52da08b1b36f09515eb358df9898c35c86ed88094a68bb24280e6680961bbd00526a62d8a268,
  0xf85d88ef732009e533f45d34a3c7c2b75998836e5730d67a9829408e65cc61127272a65acae36a2d14425e4b1884ce873c9a63554197f80f7301f50237556168,
  0x958abb8ae407313361f1ae317011a138024f776a8ffbe1c555040f778a89da3539c8916e309d583ac8dc22578feeb927bfa854d1fdf9f5d33efc34e72d486867,
  0x0f8f510d8cb01b274538b75af2f8052b6dcc677461eadc317d3806fd18722e54e3fa971f2fc955492d00c84acb61f9f0f56f91f92ebd78c76f7f70f0e198276d,
  0x7d82936d4a555b02f85b1c5b907b05a1d20acc0102f5f55e3ad9835d225e1d1309d2df740022962ae3bd567f0958ffd0f67cb19147493b8eb3a9eb516919144a,
  0x31a6e1aac71c6fc2e9ad1b79e93aefe91e5658e5cde9c40be2e31f3b6f4e883b1fead7dfdffbb1ddec43da44db90f7a90fe8ac677a981ca45b6f05efa890d561,
  0xc430d4b8601f99a6dfc082ac73ee10c2c15fbaabbf777a074ea0903280d735463d00ff48a62351deced346373e889844f655368a12f57470a00f2528094c4759,
  0x8c27a0ea68588ec914959dd14030e2222f4fdda90e0d862a4c7f74370474666ed825f48f3659ed3e6e0bc031626aecd4a4c24a091f01fc3927987335369fab3c,
  0x2dee90ea2ffe2529cba0ce14010abef7fe5ae71b460e108d833865a21e77223d03362e24acb1cccbd2861251aa53689f3bfc820f658d69f62fbdbcb0fb6ef872,
  0xef0fd14e01e226244156e38f06fb11b2a4b12b22b55da5455fe4d39ab8efc566333e451937b78fb4779f0d8d7743f6e780f2f9bc858ffe08fdc6fe16569beb53,
  0x8e5c3a9686d56bf5ab83c335fb5265d47806443886d1cee4a694711a3c68d03b09725bcd7d8cb1210aefbd1fb63029abdfe90337a090adb582837f93291f1055,
  0x536c2073d152b58979b7da119a75263dc2815d9c3a809fe324d7f31b166cfd5a4fbebfb6ae51a79858f1f4f2124f0a84e52e02ee5dc001e8635ede9498e01e51,
  0x2b744a5501117d75416c662c8814be0475d5ea8b2e52a1b5b6637ef2e414bb5da98df931666deca0280d73b7d480a23ee518311b4ee16a925897c00bceb95f61,
  0xdd3cfda427ebc5543dfd27676d1f90ad3bd78e4f714e6fc99e5330b2c41e14152c8f857c3365ff780f8d51dcd14cd48ac8e2cd41f96c2c43b4ec40749a47176a,
  0x373fc18a3bd2afc6d4eace8495420f331c1e96a461b1b57de1e43551493c62343a4b1594f3a4de864aa4d51972093ef089523f54cc432e08213f991ec4ca2a46,
  0x94ff6af7c45cafa3278cd3295bc817dc87818e89066dc9d0aefadfec8630fc20fd540bc7e262a27ce977c24ea7ce3f9d0f7c758cdcea3f950f20cbf17059be58,
  0x76637382bf79b7ff11fabf1fcc4b87b7a4a81e446eb8531cb02dc93ecc6d7b73519793d6ec617f07dd5574f8853bddb4306ffb9851b80241757be36c8111666f,
  0xb9e957c52f664132f56c2d48afab8f02223295aef211c40e241752c764133c0d61dba48105062486896420ed35818bbe8c759f5d9b7e1327bbb2e4a4f03eaa69,
  0x53bc713a62603e5eeff257fe64e29a52c5ccf0e02aac6038d3fb34eb5ca2580f273c7cd8f511ddf80e867a1ec330f6aa1cce85bd585057df195fbf1a65346c5c,
  0xdc1ff5bef2731a3344d356b7230d0467649be273289d50be6ab4332e285b526670fab821dc6c16e4095e48ce7e78d003bd25bfc23f6516221c0a49553800e645,
  0x85e5c4d2368bacf3595053562a2d0509b841ed0faecb636f7e06052452b55206b955c3cff4f27a6d33f090fb0aa7ebcfb671fe7047f5098783f6e40fb5526249,
  0xe1a4b57ee8f0bef5e2fbae40cca4ca4dff1e0434284bfc24ef80cbc88c4a7c65f700fdda521e552ba243c9cd90a3022356eb65f0c3b56a0a26d15497f0a9014f,
  0x50c67856c2a90b2ff201d930e4760d1a5bf2b16ae54bdc896839f5c5dc12ba1195ccd525f06b2023c8b6bdfe2bf0af29ab7273bd8b32123ab8d03c69858d6769,
  0xddf2fbad51a5bc8ed77c8e480b43b143868a7ac034a7384f92cf491971dca5573e414d3a57de8cbcce4e95b74957e6cce3a10d6015bc33b691d3dcce576a764a,
  0x096df4d1540946b6b9d07d0251e3a063c9750b31aa7eaa85dd57d1e8d2cc9f05fb821252afb828e7af490545682326635feec2583c97517ad5c70603ef86145f,
  0xb8773584c28edc2b4399a98b2b958a675ed1b769bafcdc6e8d969492f5d9c45afd3c4fdcb3846fb9ce14a42b75b1a120e58c95311983917f0124a3fd53be3744,
  0x130c3f1b69f6c78ce251e7a64b66aab41e99fd8cda5fda34d9c58d867b1bd30d0d69f6b30ff2b83a973818fda629cfb18031a4a259c463da5ca46aa5091b6e5f,
  0xa7151766811727287e34ee0def964f388dfc12897bc9ff40320f86c65fa7ab03cbff0e4fc33a8eb31c98d892fe63779df9f698f796d1a39e222b1de4b180443f,
  0xb126432c893db94853edadfbe3ce16a89f9cff9005696b6e01220a3a6b36455b10b81309524c201a6c1aeb9b28a7142459245aa4e9f84715f48d6fd4cf46636b,
  0x1470493639a2dd3599a3438271c6d1eafc67a3c85ca54c20577fe32dff6da02da3f4e2818a25c044b3034f8c50de55b93d5a64afdc76c720a1406b96e8e67e42,
  0x85189f914ceb7fdae4bb37532dec3d8d98dc7c05cceee453b11d58884500f956817b5c2153ac9b0bc137ed6305c3b9abca4cf3bd244eb1cf0ad6b88973d09e53,
  0xfe09078d16db182c8f8d48f2fc23eed29f1d7cc5ae3f4784c7b40cfef0e2df2e4261e7191a68b7467cd83635904467464af181112bf18dd54874a00553fd3043,
  0x78b6ceef2abab2eb92754226274330e7affbbd63c5c32293ad3d2373048d0f2948a44ada78b8884863ce2eacacb8b451692175410a0bc9d1573535d138dabf51,
  0xc8087fe3fbe7e1d133c05589a2a37329100250177bcdc34c177859d5689eab02136da04fc3ef18cee26231d6deae358e181b0d1364c080f7a45dc9c55c761b66,
  0xe3e826caa655ab54b61e4140283d3414d3bc8554eda81734c74a9dbc1dbad44316220ba55ec1a85d5acc9b360718f31a1044c4a17bdfeec6b6f03b579674ea4e,
  0xfbbe9d11717a14aa4317951078b404aee01b50b4c2e39f50212a9995d47eb831c45990194d74f951ab93a5ffc4ea4c17c5d59d1f02e4c130530b9c3b73243073,
  0xf59b93605701138ba7c1877b79d2426fee8fc335401b353ebe670c3bbe64b06f8d01001263aa3f1d6b59a43fc3db3810e4b02ad2de46a6db77ead21db1d2133d,
  0x86f8ce63d892a11c71c5a941e6ccc30a275c41fd24d3c3a3357660ff2df5c832a2d9d2b17a395970ff123a929c8d70b354285c0b9d670d722f6347f8571b7e43,
  0x68baa492b3b487b205ad78184e354a377230bffa97d0e4f5fefc7e7f51322a713657f16a5692e1a2349a3000964e27c9b1c30ae4d7b64c456196f0659de5fe67,
  0x7342908b5912da0b964b93f4ae5e6a32acfd518cd1d3d0e8ec9c21f24fea7750297e66f3e9a2537dfbdcbb47d0bdd1c88ee836b173154fc1c9079b71b269d76b,
  0x23208347466807ef44481b0237b2d6fc0cbec0fa39ac948c94d54991d577ca617cbc2fa1c36338664bc20cd1873bb5d712b9e731489c6642700498c488f48547,
  0x331251d58e976ed7818aa6dd99091c6ce628bb950b43b280ba1e12be2f9ad3469b866e40b593c964c0799e8ba590c8d7ebe9ae2d8deeb819fd47bb8384fcb84a,
  0xd13f725492298ab7161742b3974ea02b90597c9acdc720e3aec5a214c61eef0f14148909d6cb756bf18a8aebff36af87d335fc5f24e09874a826afd8454a9772,
  0x301b9cc517fcb92be39020194ac8b02313fa04f1dd79d8e6e246752f63a2f93b226a201715cd77cbf945f4847d1438c92b4e5b81d781bd629bffd04cc65bf766,
  0xcb9a0ec8fc5c3362d7d87d1f1809e101d6232e78b29c7968ca461bb1c2cdae70d0d145f0c81c12b111ebc3fb2330b82589a1528efc1ee1f2d700b204f963f867,
  0xd003e57ef6bfa01788c9c12aa4bb0057754aec75b5f34221a8fe9dedf5041230de4d5bb18f74ee339f68d48f9343b4e7ea0929cf392ab086bc286a8fe6fcd65c,
  0xc1c60227a37e97eb9e728c71688b3fbb3cabddacf23131a34c35c8b2af90ca5bd945932d5fba71f059fb4a01375cabed28d7706213ad7b185eccc2fc204c5643,
  0x558ff7eb60c7d9cc41f2ddd393610e149c7c18c7d525d9deb32220164160116b5e13363255fb504385e0178c0f1402ec4a87192a34ae61a4ce71f50445c27d5b,
  0x50749dc74260fa3af68763b4ff5b00baabad9f639045864dba6b50a429f3db6d0fa680e7e8c4fa2269180ba30e3a399b897a1b91f5ff06c89eb74cbcf13c146b,
  0x0f4cfdc38ebc99beb86a70fb4f76ac4783d30ff03b02233b3679a395ecb2440b2ac0810a5343beb3e83e8edf589bf1f44e08666fa9c38f50c51a67a45df34b49,
  0x2f1e1f3c4343edfbb15a0c1a3e9d1444fb8572cc2f1671ad7dd3e762c6c9be6f7fea468bda8c62ec294bfd4af3aea18e148afaa4095071c9f7e1a092ba5dab6f,
  0x925deffc721454144784d93d4cb1bef3c3bff645245835a962d77f07dc99a431db0f27d1cb2c871b204dd2c7275130243600e2cbeddf398346c57fb8b18bf547,
  0xced197f92b1ef24c42675d3d917374bb51711cee94e9165d58f7c9a4a85ec0474a94d1c8ed3d59b89db805fae20252f40ff9e905d63416b44a97500cac11eb4f,
  0xc8f46c8e2a989759f08ef8364d9def127f840eb445313fec1616afa039c7b2699866c14cd9754b7b8dd420e03b4834bed7107a472e8ccf24a63699f27f441e5b,
  0x83acfa747b532fa367de37d99e3d8c2d89e455546d9eddd5dd59becfd799550400e07c6fb770eb189351dae4291228df60b7cb8979a3b1cf9e4ca71daf352c3c,
  0x71e17360fb9d8cc6575517cfc498d0271bc8d1112d36cd79c3a2d7a6b4ec8041731b5f6fd5cf000e1d78603b20910e3b115df4af6b3f5cab62da139e04102c3e,
  0x25ecaaea3a3f78dc2c4c1857ef3622f0bd3d17a7972b4490fc4cc529762a9e6a29d68026ce68bf960c2565da18d72493f56e904ce2f2d1be65fe8367627f8e42,
  0x060b40c5e248e14be078dafb8aab3d749d42aa86413a7c54b871b803aeeb1e08348aecb913810f1aa9ecd5f4def09962fa34bb963c78c86af991b0fac109d752,
  0x745d63b8b43df89338b57f54febb8478c1310ddd47326bda67dfd7571b89cf707c17c216483d7455e460d1f400dae00cddaa0a684999795ac7895e1cdb07016d,
  0x18373bf345baaf000ee5cf37ad0166f52a3c40f2a48cd90ac31d634feeac834f3d8f3ace5831e322642a2397f63f7776ce4621bb385cd046d5150f6bdf3ae86e,
  0x2f6235e8332b6b9e08b3ae7ff1375113c162ea7a50e1096b6628da8c5f45213461b071cc8965ae9337f1a73ff8a96af4956e9b25284462be3a55ffc998622c6c,
  0x04c3d57b1e0c97d0aa1c6bb8eb226e8fd6dc7b9fbd1261ddc8a134fd126d9302d8cab1e2a60cb8dd58d88cd0051052569211bcdff65cad637a72d8aaf0c30c4a,
  0x2be1ffad6b5d85c813396bb4b52c1411c7cea313a4abb209f5c8318104235d6c50810521059a0554f2d44aab900c1cf789891bbfced192a504c534738e34945b,
  0x60ec452022194b8300b992b435c06a89b3a63c0879efa93a2e21bca47eeed63915703f439a2b21f8f4f21ca08d784ceeb65e468b1ca4b36aca77190743aee93b,
  0xb06512ef4beff17fa2905178e9ce7d2921d17a2cad3f4ff58374575a189a03729215959a067f1719d78562d668c65372fe613ed0f77dc0c3b061b335f7ec1042,
  0xf7e6feb765c0841d71d448ad6792d7634b1bb5ac61f148cf3f349ecf0aa93645c76f14a8f1ea176e25aeb3f6de2dbae801b96942da353e8d3a6549fc9c59a050,
  0x6c3ede962b417a4a24c38320c9019714185c1247012d9664322b76301bb38d2668fb3f2a795447d2c70b9378291d25229c5c779d988a9a450e3137b6272b575c,
  0x377dbcbf6ef06c40ce8ce7ceb286acb6320ad669230c18a7a16595003aa39940baaef4eb1bbffe1243e19802949c2fde8c3a32e4032d1a21113c7e3d359a5d6e,
  0x836487c6b41a355c3cc0bb1d8feb7b4893d22dae512556c4c1620f339326152fbdcf39a7c2efd45cf2e7a86de75391499b3fea41eea2772a324fbbd937070865,
  0x42e18339e74d3b66b05611bf70d056458856063175f1c2aeadac440c7e637f6a489926b045f9f2fc47b5725a0eadeb8b28d6e5e6e35af710b9fa9d2cb9c06750,
  0x38a5622b96351b2c7c0342c4e1e901f9cff1e9867ace9582ea3ef6b23c0d9e69e9657b0420d1286119408a7f7d0e746f2950490d45c4af1eba250f81a3e0c155,
  0x618123bc6705e2bfd83591001839caf0749268fbf740392dd3803a0e79aed6113bb73be06a1cc06e82f874a4529f26dc8f174c4bf579eb715a71f831cf06395e,
  0xc0d1111f8be7e2264e15287ef2dedcc568e674444ccaff208abce3b66b5f92035e8cdc759f0cc06ab4d17145603e235788d183f85731397b4217c2b00b81306f,
  0x0c2e121bd75396bb642a1d3d65ea80ccb0187855195762eff1ec01b79350930ad12455d6bf5cf0e764d6dccc841c3a3dcf89c9babde998432d4f77b0cc26f946,
  0xe5e5a8047760bc16b74b4657b32dc19a10d896828754f19ce3c7faf9f60ebb1b402b4c5fe12d3323af4b6ec20bb34751055ce3040458f3cb3469eb82b2053268,
  0x136b2c89c1dcab4af2c0efa3839eae755f1261845af1ec4c76c4c9643a419b4804f8bbb2e667087e6f71017c6c2b681c0d96ed03f78ab03ae364b60464fc3868,
  0xbaeeab3f6bf8f95c0a6e3d612fd91bbb71fbfa5f729694ef383bb8d55897d4196ec955292bae8173583a133bc662142a5f69907b67777751f843f590ac32b859,
  0x4d702f826a67ca55f630adc5f178c3617108df1956968c5af98106659fd2c904525875ce35cdf16518fac959cf3707a7ce3d72aebcdccd0544f895debc976370,
  0xbf4c76aff5fdb8838995aca98a71bdc8a2a9cb85b6de3adf2fe2876fe4f17b0fe985aed50eeb04d5d5703068c0194d175232a80eb0e0181d16ac8316a46fcd57,
  0x3aaa8231e729c23c2e88a0ef9a2b3519cee8878e6d42f06423f23043f6516d4b275f7f3e22bb56b0a17bb550707549b61e9cdfea19efdfe16c40afa4e0453766,
  0xe5382397fe622845cc12bac002949fce24883696a967192b0d7d2ee8a14fe1501e01c36bdb8d5a29625071a8aa294cfd30e015bdf30faad112682138d7fc026f,
  0xb5c37309d59ebc85e0d65564de29206b897b6aa401a8cb653240113a1cc693677483ab9e717bb5690493b405c3b5ab9585faf749cb22c5a08e6dd422764ae862,
  0x721d3aad180c0b86df9471926824eb128274ac306c33b55057f4734da78f975daf5c6c66da3dd55393e91295b913c075678ce1d0498708e9c5f5859abf2bf044,
  0xb7bb1fe3eb11e59cd48e206a41f69a775367a1871ff977ae3ccf3e3ffb087804d0a50ca5aa370ebce9cfd4ad7ed761f0aa49581ff4b3b42be0edbf8bac7dcd47,
  0x976334197b10081bd382805f5b8dba2fbb63cbfc2f86918aedb065a363747c22e8de8edb57105ecb7cdd8203799cc4eb30dd83b4dd30a650050cf75a3fb87f6e,
  0x86ce90c5084ac5a80ff8beb45f5e4010dc42dc5502b2dda208a69b999b0b1a36faf3d5eaaba55412e4fbcee2f2d010f809ee6c325bdf2e7ae236d667b8e2f644,
  0xeec58acb539362faab2c8b41cd271f87a316c7b0850cda1a70868ba61d0b5203b1bc7a7f29469b63e6b3328c6bb035e1ce5c0b73db250efc2a361b7336eabb5b,
  0xfef097350e0e8bbb4f20c7457f88569ee12dba118e2222cbdd5bcff1e07f65118e7b7b41fe3bd27edfb6c611e9408a5a4cbaa5bc23e955627303c2610878276c,
  0xe4b5ccd38f739433ba7356f729b8553d2f6324aea2cc94f3da11b756f7ad285a9604a6aeccfaf809b102c5656c0438811180cfd87ab3204b3659f3b017d68a43,
  0xf267cb9bea82ca99b960ca966ade80efb31053e2cab8c46f85872bd5be76cb69b8756e15b277fd0dd454c67789a8e2337af5cb2418ae7d646b4b38cd1e62b76a,
  0x2d7c851f045f3280371fe903a8f51a4e4053f6c5e208fc944bafdad44f3a5819c51c2d087888e317597653802c960117965661e2d0302f4a168e69213759d255,
  0x3cdfbe1cb2e8811f48e0afc72ab37c25baa982b28de38970ea7f369b2954d312ecb76a2bf702ff98a1f0e110930733373f9c89cec1079cf44f07b8c98dc61c64,
  0x024d691bda69752fb43fab49861bb36f2f819133dc97723e5a5235a2b1ae9a1318a410e9d984c2c7bd8a47741275cecd3378c54092da8d477a1622db188f256f,
  0x9aecc8b029a07f751e0c3d4b0a76f90310c23c96bb75e531792c2a01fa399232c28d37ad433febb0cb23386092b4c2624b743b7756982529dac9c32454e8d65f,
  0x733cb27e1179a98654cfa92b810fb9261c02e1ab4bd58354ff7744c4af68e112720c6b73f83be3c58322c956058fa7da2f679340ca73ae5e1e8d7734705db656,
  0xe53e41ca80e3ec3d31b37c210dbff966deda03dab17224674e54de5657cae9097612e3a95c7ee35e7b9784fc913b91c44757641aa469f52cd4916a9e0a89e164,
  0xbda1f6873791cb7d3778157bdfac9c23a760f7051ce6c6eae447ee5d8516011163b9f45f1c7bb7bd9427fcf3ac1f89cfb74eed2ba5872b956b8c10e73a889648,
  0x14336d0e24d0a605fca954608702ed7f5d78b4a76f4443c133a9385730da2c65d449908f888a58ba10fa1655dc137bbf8b592e6b2ba0385b9951d752989aad47,
  0x1a55ca344690af4f43378a653385c88ff3020e372eb5538b7e2594d7b1cb9904cd9dd5fa2870d83a4d182fd9923e1118257570079123c8aba1814bf67fa89a43,
  0x5a7f707a63f93a8b06e473245184c348c969d4b1e90e0622acf743411ccbd60b019329c66191a3f1f16a460b88d8ec8c8d08bd738f308c8872f469e4fa9d354e,
  0xbb3c47cc74779064c162eb76010579a23df870ccdeda4fbf6dee8a13e9b81016a3e3e70f49eda6ea5bd02ca11d00ef0de3375f36aa114fab4eb117596c72be47,
  0x0f97f5ed8a028ca6ca54450fb0c86ec7a4d3b25a6dcfa8948dce3d4d88a5023146cddf858384e899af9ec8acb8fec82aea5977a8fa5e7ddfc300099ed05c7b6b,
  0xd8a47622a6f92a80b00701c8b5f117a354cacca556dec0b09593536b34bee23d48ce3c8849cec4a5818d989e032162720aef99a255f62b9b028eefce35a5f05f,
  0x18ae52a26618e7e1658499ad22c0792bf342be7b77113774c5340b2ccc32c129664197ccb667315e6064e4ee81ad8c3586d5dcba508b7d150f3e12da9e666c2a]

/-- `hex::decode` of a string of 128 digits. -/
def hexBytes (n : ℕ) : List Byte := (leBytes 64 n).reverse

/-- The coordinates in an entry, as numbers. -/
def entryX (n : ℕ) : ℕ := leNat ((hexBytes n).take 32)
def entryY (n : ℕ) : ℕ := leNat ((hexBytes n).drop 32)

/-- What is checked of an entry: canonical coordinates, the curve equation, the subgroup check. -/
def entryOk (x y : ℕ) : Bool :=
  x < q && y < q && (x ^ 2 * (q - 5) + y ^ 2) % q == (1 + dN * x ^ 2 * y ^ 2) % q && powMod q 256 (1 + 5 * x ^ 2) (q / 2) == 1

theorem crs_len : crsHex.length = 257 := by decide +kernel

theorem crs_ok : (crsHex.all fun n => entryOk (entryX n) (entryY n)) = true := by decide +kernel

/-- The coordinate which is encoded. -/
def canonN (x y : ℕ) : ℕ := if q - y < y then x else (q - x) % q

theorem crs_nodup : (0 :: crsHex.map fun n => canonN (entryX n) (entryY n)).Nodup := by decide +kernel

attribute [irreducible] crsHex

end Verif.Bander
