import Verif.Vectors.Rounds

/-!
# Test vectors of the repository: the prover of the inner product argument

`test_ipa_consistency` of `/repo/ipa-multipoint/src/multiproof.rs`: the prover of the model writes the bytes which the test expects.
-/

set_option autoImplicit false

namespace Verif.Vectors
open Proof Bander Ipa Wire
open scoped Classical

def ipaA0 : List ℕ := (List.range 256).map fun i => i % 32 + 1

def ipaB0 : List ℕ := [
  0x6c1d6c1b6aa2baf2add6f1050493e6faec8c77ffb5a01f82fce45280671bf1,
  0xf05d5a36c06e80af2ac2b1b2eb0c5594a88e207283a9b7308dcb97a6edea5a,
  0x15547194b7fc18a301b65f091f07def1bb69dcfaf1098bb8b5fb76a9dd2af24b,
  0x76c22ff7a46784cecc3116de9e259de30b42364f8af295a519b133b6d0821c8,
  0x3577e9cadfc9f78fdf1225c9e9a72f217a13712f7d5de6f7de0fca8a04ded7c,
  0x74e292843d256a3e0a6de54f15b09b7b6c14bee9b3ddc6a2c2d4cdb0506e087,
  0x7b8af0322b3d451dc93eef6bfa0425003465f055825bd2ea06134703cd6cf1f,
  0xc789e7a225a5b688b4dd30947247cfc2e2f00d9f26b0993d9240130f7e9c2df,
  0x122b40b0a5c76520c6588794f878fafdfdccf490136b52127edaa44a26eaec8b,
  0x7499e331de03d0f918bd8579e8d95df93ef643750495e284db8133766f28f30,
  0x1520bb9cb6f9edcd8197d93b08995839f4345dc0d48a448e4711dcfb0e0ee65c,
  0x1c905d0dfa0a6e3a8503e2d9929354c651e56c9094be960b1c4801a5f7b3d946,
  0x13d50f695476a69a80552ae1490499b9d0a8933b76c28e0cf03b62ed165764c5,
  0x128db70b059832c7f738b510276f3bb6c9d70a0651df845900e0c28d23f300a2,
  0x1bdc220119d4472bcb0742b4686d8aae7882fe64c400fa69b824c841759b21b6,
  0x4e3f7c75bc8fdd5a18775ecd35560c17fbf30b0e2b553a41d7659c7554d6619,
  0xb77f1b7e2521a226b18c48740131dd567cecc34449ed6990ae7df0c72a66c23,
  0x1bfda4048750134e780182a7d7b8426e32be8030cf85898c6f01c26abe16d4cb,
  0x7e622284178ca4c83c4e088fb0a9c709e5ef9fbbca997d16803e4101cfe7c21,
  0x6e6927417b2dcd03e276d62083a2b147f64201f435e10eeda3e547fbe161b34,
  0x58b12ae189dd6011f8a749173dc7580e7e6f37a4243ea53a966e3d979024936,
  0x13e73204d21044669691836ed355e15dafd7ef37aeb1c2ded96f4482d52f3c9,
  0xe97babc6ea9a5a05eb5df10c70ee15e4dac6dc46e595b91ce31ae2865629488,
  0xd9d9f109b3cc539370d764579f7a0ab42705dab6dfa04f12d14cdf0a148cd8e,
  0x2393f43a76238a13528c229e1047cb2cd9672ec4f47d35a73696f06e26fac27,
  0xa88fb1cd97f7f7d4ba40410ad0b6802d77b5bbb4708661e0fc57be0161e27ec,
  0x17cfac35e06b6de8fc3e4e494c52a3b5124f60c1c394e45e39d3969f0695779f,
  0x12e357ca19007f1d234c5c873841c6461db868054fa2bb2be1bdfd6fed020127,
  0x8f72a3c9b58f0985872b0f9ca68c66c205330d06c41feb99811c5c08b5b589,
  0x18da9327d949e0d6a96a5db0a290ce8a427e136672df1cb320bdb154d3dc91e2,
  0x169ff63bf8e8f472e38dd796a89dea61c4e1d2cdde6a46f68565f6dee90e7ebc,
  0x1307e90162715a9f622bd3379c9ee3513b9076feb2a546c29a6af7ac0ff03f84,
  0xfdc2e86efc839a8299223f8103b0ba9576404811f29e41e2ad724aaaaf7d0d3,
  0x12812d32046b3b18568e179e30949c74b2500dde0f4eba78cb7f1ff719dbaec7,
  0x10bbc34cf99a0ed5eec5b8044ee0550306434de9b49568178738fd5bd781ed25,
  0xc454e99c191227c755d21f9df45d9fa41f7b4325e35df53bd7e0906feb9e024,
  0x1a54d0c40b90c2e30d1ea2f31f4ecf88e1a9bb150db03caf03e3b8cccf7f6883,
  0x122d50041f4d9fa4a91b49743cb879dd749c30f76d8ef2ec7fbb463b9c619189,
  0x5d2b2a6ec503323b4fe793c6fc82f38e645f495c0b087eee12dc0c740213320,
  0x1c89107e25e665cac585f221a938bc642dd037ab1f1413f00c501df15e931002,
  0x1317ff2737b257321a4303e69689c19a7c5bf52a499e76f380e714146ed134d1,
  0xa5baa725f4ff67f0d15af20436995780e2cc3b3febc5462f1ca7547daf1a666,
  0x11ff87fbee937d9b70459d897518090a371125f69b7c9be0dd40eee272e395d3,
  0x198fa5e1ecf45035a7594ef739100604bf8eb22bf1cff767f6795170e9279cf9,
  0x3d1b9927f3a487f059754a4aa1e7a00b864853d0d68b5f9210c943c6e9416f9,
  0x12db879145f7f5ed1008707232f74209302193931db691088b0309717cbdbbf4,
  0x1099532edb495cb4a316710227f53178badba0d2eb056db3488d151a891c1e8f,
  0x1be2217c6bdd920548274300e93450860c83a4441c8b5528a6c5553729907337,
  0x160e8ee8ceed79f4f324ae7e15ac6663f1d9a4154cf934677157e28309515dc9,
  0xfca5a8e4b19a1180edce61115f198fea6be6f0a240b7b2d02bef5708e041e27,
  0x151a4e357a3f9f34d97555f734f45ca0417959b52efeca8e4ddf4786b319562f,
  0x5c61c012c7faadac08a2ef06c4bd6668c66689d3b256c5abfc00f6eb1ce3ad9,
  0x1cdaec4a560fd7502193b154ec2fb2557f34008a69b27eb29d2351624758b89b,
  0x1950bda7fd349b69eef7aaa03eddd77f7779d89b09d97d0b46094710552bb698,
  0x14c08ee4e9bced3d8d21aec183538261f6aa011a7b1fb62662a1ee80bbdb3ff9,
  0x152c5faaba88890308e0f6bf8b1e313a1992b0199abe28b2f51fb6e7ec02be13,
  0x7c1de8381d14146587826196ea0ef32bc4e5440af8b9b8d995db41174712c72,
  0x8c67f30cf6e9c1e34952da85b98ce5e8bafb1bb3e89ce9311b3a32510d03c3f,
  0x1783c7f18d8e912c0f11d933532971b640c73e066cb17b6c5ccb90e1dac5159f,
  0x114314ffea7869de5165f84d0747e2f0e17edd7ecdd7fdad5d248e19f0dcee7c,
  0x11b4af44ab20d4904d779164ab1321d2c04063576cc96634d470596c34579a95,
  0x193c2609d5bdcb5418f87f5f441e4ccdad1535b31d08a436ebbd3c32deeb075c,
  0xf232b49c7ffd11f9f24ba16318e54ab2f7670f0d1a4ea317b4a6db91f93816e,
  0x20001ab6a5969944cfe1365a0da9e8b68d6b9ee70da1a8cc166ca7ceaa28da3,
  0x11f141d6c8eb8960f7c152a361ec9576e5c478241ca858be0d76d3c6e52400f9,
  0x150edf8fb2e5680b370254ef1abb2bf180b510d8a91b7b893ea55a94eaf716e7,
  0x19b7f0a6653c1da61299f8f47e0cb7c6f29214176f1c1683c99e92c8bbd83b5a,
  0xaa3f6ab06463089d391be8057e62136d64fbf5ab4abe5871a1d313334ce3e4e,
  0x9c6f02a6e769d7c2ba61e94e20d01b17903cba72b893410c75c742b7291f781,
  0x56adf76c24b5fdb1e7e151febc4def04f53d98e489424c84ae40624e7230f25,
  0x439e7fe7ab88af6ae0a086edc01410b76ec3e96fffd46466f3d1b3ff5d5e0b2,
  0xaa631461d80fcc453aab6d67c48bdabe9a24ef837d32f09a7b380f6808cf1b,
  0x150d0b5f04ea12b5f5141c22f28c1f151468cf321099a8c71ecee5d7f9cd7302,
  0x125d9511b5da31a6a14b117932e269b1ad56978a391fe3a8647036c7bca361c8,
  0xd9f9ba34371b09778366f51fc0d7873abf731adb234cb5f96d3e00ab08d9dd8,
  0xe1dd165b0947d86dc5b58c825373fef70480435f4371318ae4a10954beb9590,
  0x1bc28b30e6ff9bb8d06f315505055c6d8a9794869655fc752a49d7ac263ea02,
  0x13b91ad689d921f77466dffb8cf718c44d5cea4ce6d3a9c5858a537d8ac20dc7,
  0x1bec18f11bc2720c992d3dca07e5a97640054d6f11f62cbf1a481dfa6824f32,
  0x114ea9124fbf050cfed24eefe2a53359de4b91f87e9af6d98d0f05ba614871d1,
  0x82dd24efcc5d25d06c060f3ef21d4b770e150fdb6340f60d3a038e0687a26e4,
  0x630d141e6975aadac62d72027fa4008607724bbe29d0466cf0c7294c875562f,
  0xc5af14fba99d906ec85cae8ede24eabdbd1efc414a689e7b94278b5980f0228,
  0xf3aee4ba57b45f60a368572ce50e67c4646863ddead7ad129fd306aa1b7693b,
  0x1302097b143053783f9caf2cf197acce9d7fe7a523c80f0bb35b8f8b46c9776a,
  0x593af760b19bcbd2cc5c3b3a4cbb3f56f2049d29759802e7247b07fc9e5f36f,
  0xf5ec7bd8f9c2b90e9f835d0a3b0d27caf385d03808c96c8513d8fd72ce89239,
  0xfdb4d7d8add6c7421c0df308f071f224044a8744e5b4a6db2ebaf8a0b79fa28,
  0xbd768f3bc9ffa49d1500f6ba03723b9827daac063d6b1bbbcbdb00eebaba695,
  0x2b23c6206a5d6c8f06c7c81bee39f8267a29f6236e45b503c07c1dd56847f13,
  0x115ba0e79d21e9f3d57f3621b19c459458ea4336675af3127301047252cfea35,
  0x34569bae1c639c4ca6e1fcf071464098f116c3cd117499fdb92d5f2d459e002,
  0x8b24a847a4a173b45c886bc604cad0f5d6b6d875d76dc4a9c2444c130f911c,
  0x17103419a2072d69ccab4b282450e8d21ca9f3497b7725a0e8f53da849285727,
  0x420ac992c89bd17bd8228fb0fe44b5cf83d448716c423c97b89b65112fe7e3a,
  0x19295a3d3f0ac901d4ad30c548e8fe7cdc49ceb7ec757d59f5c357257948d63f,
  0x1a518b0f7a815a0be948aab6a78bf4f98abd822a84dd610666d991a32ef06038,
  0x10f5ab7f0f90fc6fd2497c7e978c32ff62191eed200545008f459d76575ba46a,
  0xb46fa8d91dbc63c296428198b91ec7a8ddcf581f818611f3ebde018ead8a6b3,
  0x102467c6bc5fd3846bde32d0202c25d9515c68cfc481e66c3772705d01855ca5,
  0x1777b8acde13fafbbbbf96b02a71561423806de904e3eb4effbc168aa71b9f84,
  0x81be6870a271a9b22b33a1bcbacf6b09a62cf9e42ab48189b70e622a00a46da,
  0x73bfcb75ee8f2f994aafc75973f0b6244dcb8d79068886dcb05de582615c9f8,
  0x112b1e190934c0630d18f6295342b03d210f95dbd007648efdbfdf4baafb7772,
  0x1156e9f70230567538d889ba3a3592decb04d9c89dd05302caaa55fc879d9a90,
  0x110de2104ec3ca5ead724bf417f29e1c07688dfef73f62379b5efa6b673e14f6,
  0x1c0257beac2afa67b6046078ed36de74f834fba2a83818fe962a4f0f453a595d,
  0x130d389fa12933ce7937d0f38247c82f69d132924653e8005e67ff11dbda0899,
  0x18acb3e81a6d629e045892282c1143891ea97883b840f683bb6aa47a78212a62,
  0xa993715d7aa6d42b8f926c412eeabc3b409c7807827b50534e5964155198925,
  0x18bec7d1a32b6ad949a9d86e16df33e80ea69d8872b96f7364cbc8d61070d80a,
  0x1069e97d99ad346859b49c7c986a7e725a5d0fdf7488e69b6cf60646afb0b410,
  0x64b5ff18e7f7b02ef986544803e14c267ee6e10f97b14fae71b3ad61a3be4c5,
  0x52e2ffd4d8debb1a1ae876990d1ed6d086bdd090564af4732b4ac9ab3237ef4,
  0x1c109ccb2b6e2a08cc85ea612ed3d295d9dbe8d4ba37ad12bb51cac60b0a5e,
  0x1451f21ca382301defd88456c43a836d25f537f30d1ed494af6dc4fb57ba1e8e,
  0x42b26eae697d74e565b4f9f224a5814650ad1fee5892cbbbecaa5734c24fbdf,
  0x80d716d3c47fdfebe8ba0f57c1848bb257a79f1c11de7958656a671c4ca3d4a,
  0x426fb642cee32e750307ca652da87a755149001cbd8436c37305c9ba49f0ef6,
  0x96786d00dacd9c1c95daf12ff741a8da577108574577971679f11b1c277f75b,
  0x71d9d66c92b9727160d5cd8fcc39bc96e6f60fea69a936f5bec9fe541141c49,
  0x15aa44af8bd609a066f491bb4e267c21c17074f77cadec6a920eb1fc8741cca4,
  0xe71a22512e367978d788af6eb161b9841c4334f6ab79d305436a9d7a4a7629d,
  0x1c3619bbcdf286a533f0cd135a7b59ef2935784dc686e242d26ef3e58cd95946,
  0x8d2d99345e5984e371d0b58023fc325ce98a72759d0ed178ab13fbdb89b407f,
  0x10517f367b186f95d0561bc8c94962da5a1c424b6bc5324162d9560e4942210,
  0xe4b79d6899a951d48abd68e6f6d96123d48c34fc57c29ee7bddeac4940f8512,
  0xa7d41a1cf82fd4d2760558a641cb0164dbcd7b2ea899ab7164a16aafe7cadeb,
  0xf544b580b6592ab998988baee0a239fd66be2a7d58a4814286b36457c1cf45c,
  0x277984b7097d43a8f82c40b6fc8e63f93a242a7271e77bbe12344c47ca8130e,
  0x14c127ec6b5b039621c7be5114c23ae6570527e099697a584c30d454f618bdb3,
  0x5b96d78e767b5c599980815b77b7273c55ed3a718cb8cc37ecdecbb0381dcfc,
  0x2ec5bf39288bf3089283a94a00802e246fb68bc1bfe9e713f68ed8f549182f0,
  0x1aee5349a9303a30bc61be9dd3ec10f1d0e13cfcc1628f0d6541867a470990b5,
  0x1308e77eaeeeaccb8788438098397470ac3310287197d7dc1d4be4ee7d34875c,
  0x70e4391ef5dab50d731da6a0df2bb0683bee9a521633e17d2a40875b1790be0,
  0x162e4034bda3981a6ba985917e09463b5f01cfb4e73d2cf34d3df34446b5aa7d,
  0x9f1c6be7ab52554e4136cfa27c8c104815838cb0d182b528d556906d13d1e17,
  0x86d3f9ce478e890eed67f40daada95806fe0699f01cefca112a0c72cc8435e6,
  0x1c2d4a7b3b38a65f707c8e8d37cfc650f3717769e04280499c6ac2e151f82605,
  0x1a08d8eaa6fec60ce06bd383ac5e217441cf6df2b0929bd10cb6bc927ab55686,
  0xc7526b85d668c557166ab6aa487e2f717f5a0f6826593abef06d18eb5f80c13,
  0x17df779d063571ccdc2fa6e356a0a28bb11964157cf04220a2f6570f4ac31757,
  0x63b5ed0f69f3ebda849558f7d77fd1c5b43f473664eb7cd5ae5a88f51100ffa,
  0x139f4c9be6a11fbc55771c1b0a5e8a4fe14e443dead30e8367263484142059a4,
  0x890ad3dc92b153aa8d753bdbb9f194e68b8fa41adeada4609b2574260e0a5d8,
  0x1b6b318375367481845700c0098cdf1b0186a5ed43761bc8beb95d69edd6b70e,
  0x58917785b09fe6db15ae8b9b6292c34165e7c83908c846cb8b6fd58bf466392,
  0x835b18db33f47820e8f35d60b5fc0d069ba36abb5bfd9a142857b18818863ce,
  0x95e48039033fc627ca9ed5a30fab3ee7bd9067e06c450deb5024da1b0216d4f,
  0x162bb0df28169e453acb5983d71c076d48a5febad26f53c7e58b26c2721a561d,
  0x1b1174cdbabf8317a925f795a7d119eea50976e3d2ee7e22a4cd1723e26fe884,
  0xbd4004aae8a5d4deb5958cc3fad6343fd5128fc0d1ed3cdb3f0d4895fee366b,
  0x12c2e5e0dcf748cf45ef366673b792d7dad7f26f6c7d99a80a8276220e4c65ba,
  0x1891372c9235c36393960a5b468d04ca9ae5b6d1c8b288a04e91b9856082b8e6,
  0xc2db7d3f812311154e8ce245415f6431a9d99fde360a82127190fbeae97be05,
  0x1c4046d6399464d22084c2e0487c6e8d645e4cc278a9d71a7a0f68cae0adf2f1,
  0x184b85558f54d4ccb156692e7d94d71172f310eb5f631de178e2af5f4f93b9e8,
  0xe8c3ccde81413fc74a49275828d5f60ffa7f08a0576cc5e4878f69950b90644,
  0x1b545b2bf1e378b110b0885c4a5d34b2336d0da21223bab986e7f39d908f6002,
  0xdb6b58daa273fe1f4bac6e48ffc440db6928770f6d3b98f5c6dca0888a604d2,
  0xc221141b0d17cc03cba99fa3ccc6fceb3b8e8e0f8ef957139913bf7795ae4f1,
  0x14a0bfc34e816a19f51f0b633843ab4f063678b1d3a756d00866f44d8cfd54de,
  0x32532f8036a187ae9474f7c74f343b914a60c66786dfc491f9644c23e8ffcae,
  0x38c50d735d049604b4f1ba408d35c2cc5701ec66b2642df6c3f66bbe76cc05c,
  0x6441e03419172d82a74b5f0ab3f29fd5aad50c7de6e6f09b3bd3e5c17abb662,
  0x8e11194900078f80711eab373a3900fa14b2c253d4c010a98c27a157bdfd848,
  0xb18e84a570a3794739904aa170443510f40bf595798f4f48c10951ece59a50b,
  0xcb36c586254e50bcac128338dfc75884bc27e04f5ba5f86423a07d2993334c1,
  0x43c6459b1ed17785d483309fd1f5620503b99e1e602d7238419684f6b5683d0,
  0xe1fd6fd3a60c6449149a2993870f8a20e87bbec3d5c03880d4ebff3d2033cf3,
  0xce6c76863193efad10a1d662327d640cf5d31af0de0f5d4795e35bf3c820276,
  0xa91f68d32dbd818ef6054903cd05dfe0ac00a9f71065a926107852f13c7ab5e,
  0x18d28e83bedc47cb5a97bac6ba5b831d4396cab86f0cc087454ad4f4816f967b,
  0x13d0c477676627f3672019df9596a850122d5d0ef4514c3498d89aff0744c01f,
  0xcff0320bff7abc27c9a274b6eacab4ae335dc171343249decad84fe076cf4d1,
  0x8743b6ee1ea21c013ebfeaaa4f849eb21ab68852cda37d9ecc089c9f85150e7,
  0x178fe21e9501752a5956d03b2db748497a64ad104aab135d59abd4df5da12dae,
  0xf97cd899c4f828933d562c72b8e646091669908280e24f4dc3fade016641edc,
  0xc2a5b54d8604c11b2bb10a4964d25ba6f2940de263f5fd4cae75eeb0acad0a7,
  0x135822e47268162db373ac37f350b4f5fe77d40ddcdacd64a6a7b61112a1b61d,
  0x1958cf4c89dbf28090e905941155c6ffc8a60c7c0bae065125ce1b77b802d318,
  0x159c36ae64f46c0d2319fa9b2c7b9e2b5d014d7b1b81a3e837b28f6f595f0344,
  0x1c4a6ecc5d5e37bbf6eaa9298c068244bc21004f90eecc2132f8f7748601b504,
  0x5634f72c289bd3331f87e1e20fa3e5510cfe008df8fe76f99bafd54ef45c0cd,
  0x147a86c1add20fc05f1a560142d16a067a365acc49229675e86b07388ae1e11f,
  0x17151047e542083762b134996901d3f508b2cc194405a6b6eff92c4499650093,
  0x16ca9e9058f3cb972885db8084128ec794174e656cfe54df56022f542fadac8b,
  0x8d9ea819b2a1fb5214493bb946d04e6e84e5e0391bf89c280f8da867e92570f,
  0xf290b4039474138874c30aaa501dc30cc7189a50bd2bc7b722758bae9032397,
  0x1a3f41a48cd0f04b3cd4801897528d7c6ce47e08615dca0addeecdb96d898e52,
  0x1bcc1d972c53bd5311110c39eef73bd60bfc5a5ac1e61833459b03e08593dafc,
  0x1b74451ec3900d2aeb8ef96e213a73a07d1f48e66b361049ebe2c5acf54ada8f,
  0x11648890ae561e5b2a21624af20ea51379b7a3681836ab133b6e5bc54a2c5c90,
  0xdc00dfd76dd856f4de0da64aacf575cf58c6e3356eb9d0e6fe8a07de57900a3,
  0x34172ebfa76a02419fc3d6bf874662f11f66ede18bf684b41ac3ae00f654b34,
  0xe4c19813ecde38d76780f7d2d9558c637509b1aca5be51dca04c0d762b54d14,
  0x10fa70802afdfb0588aa9d911932cb4299fcb9ba706c733f5a4f172f0b1521a3,
  0x16b5845662351e6c0960cd90ed5e6d154cf5205f11d579e9c9812b8adae86126,
  0x10bbf6a43b41bda1c4733e6a70a77ad5fa8325044842b379215fb3fdcc32b99,
  0x7deea8e7c96aadbf2c118c58bca9388594e41ba3bb1744d29bc6bb73729a185,
  0x12febfbfddd5d489cc8bdd6a6ecee2a3bd091a628020a7b04fa8837ecbe8f784,
  0x7480d258f4b1bb1616a1dddbc1bc20f84498f968a6d66b86da18fafc59a314e,
  0x1358af30f0994c9c88dc1d24daddf7192aa626edcb183688c543d4bd2dadd898,
  0x19d42326c6002ab222f9f6c828d37e8983746d555ffcafabbb4595b740c4aff9,
  0x988478161ab5ba4dfd2ab7ecb290ed153d27458986128173de9ee8111a6cacf,
  0xfad22dcb3fe188abdadd17dc0d007394d3dbdf2b1e8aea7ea6d59cf22e7de25,
  0xbb3083c0adc7a3e5eaf1bc0a00b5969a39cf5e65c0c8e7af6de80bcaafe8e47,
  0xf1bef660c55d55b5288f0c09158c19ea2372cf95752d9582cc25f54464d8635,
  0xb174afa968ed8716bb20fd9a7eebdfd774efcf4cddf25ab12b7cce89f81a821,
  0x777b3bd4a74a0c0c7e3d993dae2bebb8af0c638af0bcaea3ba4678fa35a476b,
  0x51ee1865556d22f2c33df307156af9e8db9e78b94f1be9eedb4225ee392295e,
  0x6bbf1abe29ed8a01074cd354b47466adfe839c65d8b81fe43931ce9d22f39d4,
  0x195576a9cf2d1462ca604f7901bb3c657591a8944d865fbe71e51d57c7da931e,
  0x6b93ab64445d076d4a58e4ea1854817acb0e8078dd9a4787c621d2ba02fdbb2,
  0x12eb6ce08c05849dc8e716ac825cc327d208fc68894a253b0cac766308b21f10,
  0x10d5159964052c3ad97a0234573d45cfd344927b122eac4b2a393a38aa7718cd,
  0x121d2732057b746779379b4b57423ae04bc40d40aec4589f3039509a7ba169da,
  0xe1742010d96081fea2137f26e046985cbcc937648744ceb9042ace2ac74e616,
  0x15d1baf23c297d054c294d79294652f4ce1630153895851f3e3a9b49c0d979f9,
  0x144fce1674767050393c2861896c9fbdb4b7ee79b9ce20385bfd5476993c1711,
  0x1a5ad1982b8f28de83db582808c66f9fd9a947999ef91a681e1172927c4c06c5,
  0xea9988e98d7eae98e6dc527183d9b4f73c2e725e6f7690d950ab882ec644d45,
  0xc34139f0f9ac16face0c07109aa9849521df601c0196749f17d1e8a6c6576be,
  0x898b708c8e1769befa3a59e88554063ebf630db4d1d29bf4c5f950265781014,
  0x401689a7fcf01394aa3d1d5d2a2a8e3651f3cb762dcbbd5d94374f2a8d2068c,
  0x15dfbd721a156e8e7df2cff4738aeb10fc5c752f2ab6f8a48092dac68d6b5d98,
  0x17dca01dd9a479bcd351d81d190d4a6b1c0728e67f9afc7294ae0d5d4b801d9f,
  0x1c99bdccf5f3fd7f30434309a734321f7eaa0b50dd6d40cec131d5b66d066f6a,
  0x75f675af70601888e9250cbe5dd4842fc6c5c6dfdec7c259649860e8d0adfda,
  0x780bfab916c01b50682b1135c225a87f9a17e5bbd7bf5a7cb174769291cffa9,
  0x18ea7d90458c67b2b58a74ce2e8b4f825b2bd024cf47dcf0b42ce9350e656682,
  0x69e1f7b7730857a9f9d696d95dea42a5e69f2a68d4bb2a4a83b25f4b663cfd3,
  0x19174e5ced4d4b14e49b56d0cf476d99b39da38dc557cc6a4970de9f6632ad54,
  0x1332b632f8f7cc0813741271470c677e81396be21e40e65ddbbd195c4477d42a,
  0x25c47af997b9e11719c8bee2861dd337c49ce738905b786675861fd09174e58,
  0xc878bc28424633cc483f74bc33cd66182802917c0eff828f9020d93591103fe,
  0x196d0c0eeab845a98b8aadf1d0c3ca3dd60e7708756c2276969404666edfaa7f,
  0x115d991f9aeaa61e613bf0b6838cf55afbd085c6736185a4f7c9e79544dce38b,
  0x3f3deeaff0370738ef2bacf74c4231cc04ccf72d49dcdf1f0e9b98edf3f7b8c,
  0xf62f65d2dbefa70e61d496dbd7fab2979d892598e6d6b1ec2000223c3d92b4e,
  0xb771771b71aa73162af82ea15cf41d67b6fad6e92aaaa2298e43cbca8b0fc1f,
  0x6d958fecea34aa6eff30748527f2ac6085baff721b0bf9a41e2d44efd9777e0,
  0x10e6b2ff14c1854331aba39e1627cdd7032b4eebc69f4631e63eb828bc55fcd2,
  0xa997b0d50acfd3c1f0733c68b638255f7228befa965d6086fa2b6fa863a7017,
  0x11fbd1e947e4056238e065457e0f5e9aa1585b3adb40050841b5cb54d5f3c1b2,
  0xacfa3ea03fb7f73f222fc35c26b5dcd2c297bfa7fd4deb2ead0e300938fe13e,
  0x1cd6f6eadc7812528e436c1658676fbaec5519bb53cedaf72791eaced0c0b67d,
  0x1388c0a8d642bd1cde2a3032b35da5bebd58af9274117c9c996745d970dec724,
  0x1011b9815b414b8f5ad709681b7804f79f2af4489484fbc2558aa86addf27e28,
  0x105b66cd5b78e19e8d888e8ed9c94cb1067fd53d92822d0a1361c1e56ed8e74f,
  0x1a023e91c98fdec65df5b85c31a3246a993585cbd49c80f644c85d4ba56f218d,
  0x195f4717ba4b30710f4d2371f7a091d5d6e6bac26f0006b7c5ea6911ad6054bc,
  0x18d8522f07650e23a629b98299c45469959bbeebea7cbefd2086a0d617b69c33,
  0x844d481641cca5f18188b990401c1398f8692360a0b1a134307c04fb373472d,
  0x112e8844366d0435b5328f9bfb5728518135dbdda1397583bd95d55fd40a9550]

def ipaA1 : List ℕ := [
  0x11d94202ee69d45a70110df3a24762def7f15e53ee7ee11807fd25947654046d,
  0x6b71a31126c4962d353a5e542264fbcf05335a768e4bdbe9afd4473c43120f9,
  0x18905c3400d61dbd4364b3d8e46db29be84493fb57639ed6a2fa6a083a852566,
  0xd6e346224d892c5a6a74bca844c9f79e0a66b4ed1c97b7d35fa88e7886241f2,
  0x24c0c9048db07ce09e9e3bc242b8c57d90842a24c2f5823c8faa7c6d63f5e7e,
  0x14254e933744dc2879faf1afc672ef36d0f9a0f63aae393bd0f7cd5b4c9362eb,
  0x90326c15b475130dd3d89a16651dc14c95b7849b51415e263f7ec3a9a707f77,
  0x1adc68c449b1258b4d4e979508993ef3c14cd69da392f6fa6bf511cf10c483e4,
  0xfba40f26db39a93b0912f86a8782bd1b9aeadf11df8d3a0fef530ae5ea1a070,
  0x498192091b60f9c13d3c778485718afb2108544985eb04791f54f8dac7ebcfc,
  0x16715b23801fe3f683e4d56bea9e7b8eaa01e39886dd915f99f2752222d2c169,
  0xb4f3351a42258fee7276d5d8a7d686ca263baec01436e062cf2940170afddf5,
  0x2d0b7fc824ce074a6a054f2a5c554a9ac5923f7ba94aacbff2b2e0be8cfa81,
  0x12064d82b68ea261ba7b1342cca3b82992b6f0936a282bc4c7efd87534e0feee,
  0x6e425b0da91176a1dbdab346c82a5078b18c7e6e48e086b5aeff75482be1b7a,
  0x18bd67b3c8faebc48dceb9280eca07e6830a263ad30ce98362ed1ce8f9121fe7,
  0xd9b3fe1ecfd60ccf1115119aea8f4c47b6bfd8e4d72c629f5ed3bc846ef3c73,
  0x279181010ffd5d55453e90b4e87e1a273cdd4e1c7d8a2d088ed5aa794cc58ff,
  0x14525a12ff69aa2fc464f6fef0cf44816bbf3335b65783e890ea803c0b205d6c,
  0x9303241236c1f3827a78ef090ae315f64210a8930bd608f23ea9f1b58fd79f8,
  0x1b09744411d5f39297b89ce432f5943e5c1268dd1f3c41a72be7c4afcf517e65,
  0xfe74c7235d8689afafb34d5d2d4811c5474403099a21e4dbee7e38f1d2e9af1,
  0x4c524a059dadda35e3dccc772b36dfa4cd617841407faf451e8026e6b0bb77d,
  0x169e66a34844b1fdce4edabb14fad0d944c775d80286dc0c59e52802e15fbbea,
  0xb7c3ed16c472706319172acb4d9bdb73d294d2b7cecb8b2ece546e22f3cd876,
  0x5a16ff90499c0e94d40a9e54b8aa95358b247ef75295597fe565c17d19f502,
  0x123359027eb3706904e51891f7000d742d7c82d2e5d1767187e28b55f36df96f,
  0x7113130a2b5e5716827b08396defa5225de5a26603753181ae2aa35414b15fb,
  0x18ea7333911fb9cbd838be7739265d311dcfb87a4eb6343022dfcfc9b79f1a68,
  0xdc84b61b5222ed43b7b5668d9054a0f16318fcdc91c10d6b5dfeea9057c36f4,
  0x2a6238fd924a3dc9ebdee5a78e436ed0e9367214381ed7d48e00d8853595380,
  0x147f6592c78e78370ecefc4e1b2b99cc0684c5753200ce9550dd331cc9ad57ed,
  0x11d94202ee69d45a70110df3a24762def7f15e53ee7ee11807fd25947654046d,
  0x6b71a31126c4962d353a5e542264fbcf05335a768e4bdbe9afd4473c43120f9,
  0x18905c3400d61dbd4364b3d8e46db29be84493fb57639ed6a2fa6a083a852566,
  0xd6e346224d892c5a6a74bca844c9f79e0a66b4ed1c97b7d35fa88e7886241f2,
  0x24c0c9048db07ce09e9e3bc242b8c57d90842a24c2f5823c8faa7c6d63f5e7e,
  0x14254e933744dc2879faf1afc672ef36d0f9a0f63aae393bd0f7cd5b4c9362eb,
  0x90326c15b475130dd3d89a16651dc14c95b7849b51415e263f7ec3a9a707f77,
  0x1adc68c449b1258b4d4e979508993ef3c14cd69da392f6fa6bf511cf10c483e4,
  0xfba40f26db39a93b0912f86a8782bd1b9aeadf11df8d3a0fef530ae5ea1a070,
  0x498192091b60f9c13d3c778485718afb2108544985eb04791f54f8dac7ebcfc,
  0x16715b23801fe3f683e4d56bea9e7b8eaa01e39886dd915f99f2752222d2c169,
  0xb4f3351a42258fee7276d5d8a7d686ca263baec01436e062cf2940170afddf5,
  0x2d0b7fc824ce074a6a054f2a5c554a9ac5923f7ba94aacbff2b2e0be8cfa81,
  0x12064d82b68ea261ba7b1342cca3b82992b6f0936a282bc4c7efd87534e0feee,
  0x6e425b0da91176a1dbdab346c82a5078b18c7e6e48e086b5aeff75482be1b7a,
  0x18bd67b3c8faebc48dceb9280eca07e6830a263ad30ce98362ed1ce8f9121fe7,
  0xd9b3fe1ecfd60ccf1115119aea8f4c47b6bfd8e4d72c629f5ed3bc846ef3c73,
  0x279181010ffd5d55453e90b4e87e1a273cdd4e1c7d8a2d088ed5aa794cc58ff,
  0x14525a12ff69aa2fc464f6fef0cf44816bbf3335b65783e890ea803c0b205d6c,
  0x9303241236c1f3827a78ef090ae315f64210a8930bd608f23ea9f1b58fd79f8,
  0x1b09744411d5f39297b89ce432f5943e5c1268dd1f3c41a72be7c4afcf517e65,
  0xfe74c7235d8689afafb34d5d2d4811c5474403099a21e4dbee7e38f1d2e9af1,
  0x4c524a059dadda35e3dccc772b36dfa4cd617841407faf451e8026e6b0bb77d,
  0x169e66a34844b1fdce4edabb14fad0d944c775d80286dc0c59e52802e15fbbea,
  0xb7c3ed16c472706319172acb4d9bdb73d294d2b7cecb8b2ece546e22f3cd876,
  0x5a16ff90499c0e94d40a9e54b8aa95358b247ef75295597fe565c17d19f502,
  0x123359027eb3706904e51891f7000d742d7c82d2e5d1767187e28b55f36df96f,
  0x7113130a2b5e5716827b08396defa5225de5a26603753181ae2aa35414b15fb,
  0x18ea7333911fb9cbd838be7739265d311dcfb87a4eb6343022dfcfc9b79f1a68,
  0xdc84b61b5222ed43b7b5668d9054a0f16318fcdc91c10d6b5dfeea9057c36f4,
  0x2a6238fd924a3dc9ebdee5a78e436ed0e9367214381ed7d48e00d8853595380,
  0x147f6592c78e78370ecefc4e1b2b99cc0684c5753200ce9550dd331cc9ad57ed,
  0x11d94202ee69d45a70110df3a24762def7f15e53ee7ee11807fd25947654046d,
  0x6b71a31126c4962d353a5e542264fbcf05335a768e4bdbe9afd4473c43120f9,
  0x18905c3400d61dbd4364b3d8e46db29be84493fb57639ed6a2fa6a083a852566,
  0xd6e346224d892c5a6a74bca844c9f79e0a66b4ed1c97b7d35fa88e7886241f2,
  0x24c0c9048db07ce09e9e3bc242b8c57d90842a24c2f5823c8faa7c6d63f5e7e,
  0x14254e933744dc2879faf1afc672ef36d0f9a0f63aae393bd0f7cd5b4c9362eb,
  0x90326c15b475130dd3d89a16651dc14c95b7849b51415e263f7ec3a9a707f77,
  0x1adc68c449b1258b4d4e979508993ef3c14cd69da392f6fa6bf511cf10c483e4,
  0xfba40f26db39a93b0912f86a8782bd1b9aeadf11df8d3a0fef530ae5ea1a070,
  0x498192091b60f9c13d3c778485718afb2108544985eb04791f54f8dac7ebcfc,
  0x16715b23801fe3f683e4d56bea9e7b8eaa01e39886dd915f99f2752222d2c169,
  0xb4f3351a42258fee7276d5d8a7d686ca263baec01436e062cf2940170afddf5,
  0x2d0b7fc824ce074a6a054f2a5c554a9ac5923f7ba94aacbff2b2e0be8cfa81,
  0x12064d82b68ea261ba7b1342cca3b82992b6f0936a282bc4c7efd87534e0feee,
  0x6e425b0da91176a1dbdab346c82a5078b18c7e6e48e086b5aeff75482be1b7a,
  0x18bd67b3c8faebc48dceb9280eca07e6830a263ad30ce98362ed1ce8f9121fe7,
  0xd9b3fe1ecfd60ccf1115119aea8f4c47b6bfd8e4d72c629f5ed3bc846ef3c73,
  0x279181010ffd5d55453e90b4e87e1a273cdd4e1c7d8a2d088ed5aa794cc58ff,
  0x14525a12ff69aa2fc464f6fef0cf44816bbf3335b65783e890ea803c0b205d6c,
  0x9303241236c1f3827a78ef090ae315f64210a8930bd608f23ea9f1b58fd79f8,
  0x1b09744411d5f39297b89ce432f5943e5c1268dd1f3c41a72be7c4afcf517e65,
  0xfe74c7235d8689afafb34d5d2d4811c5474403099a21e4dbee7e38f1d2e9af1,
  0x4c524a059dadda35e3dccc772b36dfa4cd617841407faf451e8026e6b0bb77d,
  0x169e66a34844b1fdce4edabb14fad0d944c775d80286dc0c59e52802e15fbbea,
  0xb7c3ed16c472706319172acb4d9bdb73d294d2b7cecb8b2ece546e22f3cd876,
  0x5a16ff90499c0e94d40a9e54b8aa95358b247ef75295597fe565c17d19f502,
  0x123359027eb3706904e51891f7000d742d7c82d2e5d1767187e28b55f36df96f,
  0x7113130a2b5e5716827b08396defa5225de5a26603753181ae2aa35414b15fb,
  0x18ea7333911fb9cbd838be7739265d311dcfb87a4eb6343022dfcfc9b79f1a68,
  0xdc84b61b5222ed43b7b5668d9054a0f16318fcdc91c10d6b5dfeea9057c36f4,
  0x2a6238fd924a3dc9ebdee5a78e436ed0e9367214381ed7d48e00d8853595380,
  0x147f6592c78e78370ecefc4e1b2b99cc0684c5753200ce9550dd331cc9ad57ed,
  0x11d94202ee69d45a70110df3a24762def7f15e53ee7ee11807fd25947654046d,
  0x6b71a31126c4962d353a5e542264fbcf05335a768e4bdbe9afd4473c43120f9,
  0x18905c3400d61dbd4364b3d8e46db29be84493fb57639ed6a2fa6a083a852566,
  0xd6e346224d892c5a6a74bca844c9f79e0a66b4ed1c97b7d35fa88e7886241f2,
  0x24c0c9048db07ce09e9e3bc242b8c57d90842a24c2f5823c8faa7c6d63f5e7e,
  0x14254e933744dc2879faf1afc672ef36d0f9a0f63aae393bd0f7cd5b4c9362eb,
  0x90326c15b475130dd3d89a16651dc14c95b7849b51415e263f7ec3a9a707f77,
  0x1adc68c449b1258b4d4e979508993ef3c14cd69da392f6fa6bf511cf10c483e4,
  0xfba40f26db39a93b0912f86a8782bd1b9aeadf11df8d3a0fef530ae5ea1a070,
  0x498192091b60f9c13d3c778485718afb2108544985eb04791f54f8dac7ebcfc,
  0x16715b23801fe3f683e4d56bea9e7b8eaa01e39886dd915f99f2752222d2c169,
  0xb4f3351a42258fee7276d5d8a7d686ca263baec01436e062cf2940170afddf5,
  0x2d0b7fc824ce074a6a054f2a5c554a9ac5923f7ba94aacbff2b2e0be8cfa81,
  0x12064d82b68ea261ba7b1342cca3b82992b6f0936a282bc4c7efd87534e0feee,
  0x6e425b0da91176a1dbdab346c82a5078b18c7e6e48e086b5aeff75482be1b7a,
  0x18bd67b3c8faebc48dceb9280eca07e6830a263ad30ce98362ed1ce8f9121fe7,
  0xd9b3fe1ecfd60ccf1115119aea8f4c47b6bfd8e4d72c629f5ed3bc846ef3c73,
  0x279181010ffd5d55453e90b4e87e1a273cdd4e1c7d8a2d088ed5aa794cc58ff,
  0x14525a12ff69aa2fc464f6fef0cf44816bbf3335b65783e890ea803c0b205d6c,
  0x9303241236c1f3827a78ef090ae315f64210a8930bd608f23ea9f1b58fd79f8,
  0x1b09744411d5f39297b89ce432f5943e5c1268dd1f3c41a72be7c4afcf517e65,
  0xfe74c7235d8689afafb34d5d2d4811c5474403099a21e4dbee7e38f1d2e9af1,
  0x4c524a059dadda35e3dccc772b36dfa4cd617841407faf451e8026e6b0bb77d,
  0x169e66a34844b1fdce4edabb14fad0d944c775d80286dc0c59e52802e15fbbea,
  0xb7c3ed16c472706319172acb4d9bdb73d294d2b7cecb8b2ece546e22f3cd876,
  0x5a16ff90499c0e94d40a9e54b8aa95358b247ef75295597fe565c17d19f502,
  0x123359027eb3706904e51891f7000d742d7c82d2e5d1767187e28b55f36df96f,
  0x7113130a2b5e5716827b08396defa5225de5a26603753181ae2aa35414b15fb,
  0x18ea7333911fb9cbd838be7739265d311dcfb87a4eb6343022dfcfc9b79f1a68,
  0xdc84b61b5222ed43b7b5668d9054a0f16318fcdc91c10d6b5dfeea9057c36f4,
  0x2a6238fd924a3dc9ebdee5a78e436ed0e9367214381ed7d48e00d8853595380,
  0x147f6592c78e78370ecefc4e1b2b99cc0684c5753200ce9550dd331cc9ad57ed]

def ipaB1 : List ℕ := [
  0x16056fa1e9914e47393db7822c1db8b902f381d2488c08fbe93c2ae7773f2d50,
  0x18c51a6f9c913380b3eb459a254efc018e67d7899ae0fa67b3726abf437fb193,
  0x9f18af7b0876e91e50f89d8639a7d5b64122fc74ee4034bd689f4ed5a216e01,
  0xac907dab41d1d0a326f12e301cae05be5959c4c51c5b03402b9fc66157bca5e,
  0x180fba62a3358573d9a09648da816ce965877b4086013f57244ffe33d1c79adb,
  0x111a2d13432ba1b89a003e13587c874b581a02d2fbbcecb9af888c5b732eb483,
  0x14c55004f09f9db2ebef977121ddabd4e7cf5ee339ad01086433c8616d767e0a,
  0x194e25ae67217c52d32dcb6df5f19797d67110cecbfc45295582a7eb4bb20cec,
  0x1acd6a48b1594a8145cd1b5bd1bc17790ed61e1bc890bed2731dec1c027bb083,
  0xbdc67f38bd96ee12e40665966486eced1c0d788c5891b67e078de31b7df3d81,
  0x1bd330684c1981a3ef5d7e21bb041058e737968e3017f6913c7853050456d070,
  0x409fe602307622b7c0d7726df1272287352043755f979f0531acbf03f40448,
  0x190ebbf23b3521321fd126428bd849e3b13964994b70c20076301da7b6af14d4,
  0xead141d85150a8b66b15c4d108e07249bba253e558fd5f3a6014651f8adec22,
  0x149801e102503ce0f0ebf394bf45d370802daad1dfe843dc8e0b335b67e07e7c,
  0x24c6bc46edfd08b6c164d753e6d29fc3d9f0c00d4e7b260f267d8b615aa052a,
  0x184b77c0e4c5ceb965c2a700e75b5335da489c6f2b247cd7ffbb14221e8f0dfe,
  0xb7a73e3c6824d25db874272fd6d66394cb3ca0be3a3aba5bdea82504c6f27e,
  0x13777943f70d5b1bf12ed9fa9f5480ee37b51f7408e9eb281b1d285139ebc6bc,
  0x66ef760d9257229bdf0623d1224f398b0977f73a5ff3942f38942b542d30a5b,
  0xe72be2577825da2b96efcd9a706cf86db68c88be289633dcbdf958c9258270,
  0x1a207e9a9bd7c17ed55ecfe691b08fe4c4346f69ee545b5370f18ab71f68d1d1,
  0x1a89839d106984671192d65a9802688311b3350607b55e51136803082f09bd0d,
  0x139d189bd81a4b5663320d254789b9d8594592cbbda3dcadd88d5ed7af86cf87,
  0x8f8ab202169259b4c19d3ca192e4108d30eb4f996fec272d0d5afc78d375861,
  0xd432db1a706bc990e38924d6042db1335be4b6df8e6bf0a5a17a1607c5472d3,
  0x17e62fff783768a4acdd5459b0466e0ce738ad00015b87d81f3c64a1631538df,
  0xc41bca84dd626a59d6d2293ea5b91cf0252dbf6996d016aab22ffe555b62028,
  0x1e6e684de4b78a506318d67c13dd6b130fbebc8ad2af97dfcc68ecb6c35c537,
  0x4cc0ec6ff09a428b17d06fa3ed908c3b45652ce5938b7619ac1e03641989171,
  0x1b16f6bcb238809983fe394c57a8e2329d80dff7efb86c159824bf75b25d09f,
  0x450c38e2c3c6f5ba6b0a3a5e547f0ffb6c397641f5ead02df5ad3724e43f3d0,
  0x224f0c469078a04c1d990317c7f24315721dc4be012d4d116036f0aa82578b4,
  0x164bc6ff7d97c76969753fd00287c7c7e13212a00b40cfa9f06ecdbf3ca2f833,
  0x7b422308646e0680bb5f46128a94c285b146c63852501cd39534baf69c4a05b,
  0x16fe76346b77174c308cb6e3b2baa191a280ea4fd055f69c51ccdeb65e3ff601,
  0x189147b5b1505002545bd5ad8d0a5670e0634a58dfe227c2cc1c40a52bd7c0f0,
  0xf85c4030ee893eeafa82c00c5003ed2c9d93d0e02d34e17a345019f8e2d2be5,
  0x1a5ed990f762a7bf99083ea93a2a68af9979ff84ec89022f9f153a0967518e81,
  0x642c9a3461dead354a1bea6589e0bceb4b57fc085fec8bd1a6733d589bc31ac,
  0xddf0fec09be1c5827ce3efb8b410d26166e47f35adffd17dd13524c52bd1a0c,
  0x1b8bf338318167ede173ba82b34cdb13118212f886990727902b61ee3c394229,
  0x14eb36e922d2f1ae9c3e6c68a18173398b0bc92eeba6339d01bf0ec2767ef4d4,
  0xefd7fe7b1c1ed230642e6d06e9beda689a3c3bd21df98b0ee57dde3f3e82d9,
  0x779dced12e0a0c88a3524a09cc7db5dc19c6dfbfd6df48a6d715f739f746b43,
  0xe945445eef6809ddf0105f54a14bff5479d17cab078fa23137c634e51ccc9f5,
  0x106d0c08d395413f85d64f4c2d27945767f2331787b354294fcfccecf845b24a,
  0xc6b18a23c4de0ee84c577a0a5d2f0608223f29ff02397b0305f685a1bff0741,
  0xf9d82408295952b3e4eccfc3a35911c99bde56f7833a9924792142aa4b8e2c2,
  0x1a01f6ac41cf0280e50f8969216340aee51dd20d78afb6e183a20ea715b560ce,
  0x17e735347c12cc289f12cf0a9da4ba827cedd4eaf00ac0594035359cea78882d,
  0x1b449009c15fe7448d5a4150fcfe1f535f2bc084cf685fda3eef1af6c725ea2e,
  0x17f4639e899ca673b2d2ec7594c08198be04eb6c9c74d721830d2c5a73390bbf,
  0x1434e4a9c54dc481ae1a9e60305855d2ddf362a6ce8b7b76a5fbeb97934f37e7,
  0x1bf4a14155d2448994fca33adaa28de351eeb876046b24be424076c43d7703a6,
  0xea3b7d105267bf49990f98877f7b47f1e281f2aed82a01865f03f005ca5a52a,
  0x14c34a81c8d830c835944a883d5b39533a464f313c5cdf0559eaf4f3202ab88e,
  0x169cd9780ca0dece0ee6a08193915f9fefce70b1db335332b64168603fcb0a7a,
  0x45e9b76e63c2d0cfb2a1720ebc918038a05e73d4082cd91bc9536831d419779,
  0x11693d6b560d18611019db973795fef6bf32b98bf9345b2ca9f0cbd360bcdafa,
  0x447e20eed47e6c7e60859e9dab212fefc2c622a73975dab273deb8843699422,
  0x1417b6908b5a6ebd70a072387bc62551a4778fff50b1fdc989ef398043cd3902,
  0xb30ff632917d8bd5fdb1a99581ea06f04dc42063358f345d45af8435045261d,
  0x7b3fef9e9f780836d3f19f2dcda1cb44a7bb13517e1c0fb50b51f8bd0881b60,
  0x1bb86326b2f4daf8156d905f01e913e7a1b637df0c2f6872548450e331eab653,
  0x15f68d82ddac91edd77421cf0c61400231fb73f0d853684038e5bbc923480536,
  0x5def3979370055edf3f0c8eb673436dd0689a8592e08ceef0a4df4787e054b9,
  0x1736c8ec28d1b010ee6944e63bb037532256c2055730054599383a77b11d948c,
  0x1049d6ad64b67458c2af33ba25ed385d82b00cc0e6f654a86767cd53d44774fc,
  0x19e4a547cd6ff1c35f828c1b47011ace24bc880a3da4df8320ecf99d2dfe1157,
  0x1bc8cdf438fac4ee9bbe0990dc76872447c17f10f5003cb34bfc71ae730cadfb,
  0xb8c743655e4aaec702d756b79e2dbf27d56cf6d786723d8513eb09753d22d42,
  0x1c71ddaa7efbbf2feb1b980ef78fa4dea9bf5bfd0d84141fc7cf6790bc8d00e0,
  0x16bdb4b2be938b297be03863fdb0c79247f81b2c2c256d1dfea8682b6a903350,
  0x106a84d4b3e9fb0ba904ba8100b2fb5d58681b4c003eed45b9c857c460430056,
  0x1db5ad7d23bdafb78367ae0609e01c6740de28bfde1cdc9e85e67c07037cc63,
  0x196d1d84fb820573ee0de602933077c92cc01edd40efba3865814c55d868bea8,
  0xd103039877d6d898f8c5d720a4864d0da1d1268d9d5f818a4445aa579b8db6c,
  0x1cb0b8d6b39dc60a0e2f3354a7d3aa852cbf161d839d9361b5872a9b6b80b0c9,
  0xb66ccc532f482386005bf1521f460c8116b65dd04866c15fa3952616e84a158,
  0xe59e35558eeb2fd71c33089fc708e319ee4e45b738e602f1db134f62a811b79,
  0x13d2f2c023d8071c387dc783b74fab1a5dd087e547c134988a5f34450134ef75,
  0xe43f599f0e75a20fe6c14cbbbd29c31f67a5b97d81b517ad23244bd6e12641f,
  0x14230f5866ba86f0e7c09dcf2458447f20873b4ac5aa8278e6ec92ca98d1b141,
  0x159fd58567cba42b21a8a21ee72227a92fc1568c533b97d95184fa550afe21cc,
  0x1465d6a737c3d4c9da1a860f4b0d561664746ac42dc1e3c9f4d3bddecc37fdab,
  0x75933c19c84628e0fc63ff3422a55e15b93f89a345d82a9ee19f0694f991d07,
  0x1769854aae98bd45761ddc36cbbb9f6c834f4ef460ea46c73d3491b8943b9603,
  0x203813a36dd5ccfcb3c966934f31e744e6f61c6e25d6144569f1766e2075117,
  0x46396773992537d50b2fdbeaa972c33f6e3d52be36e9414edd888466efc9abf,
  0x14e532bc5d2ac3d5ee63ca9e3ec63cec775d35e21c04c530556601ce4b2988df,
  0xd555869df35e61ae60fe5a820f262216d737f153d8e257e7dd4e888ef0987dd,
  0x13624e293f981f01ef020d8fd2f11436b8219b7da60d98fcd2704933ee0d791c,
  0xf7c36a725612164843e268de77cd26a1de75781061ade68a9bf3965463e4ecd,
  0x12afd1ef9b117cb27e6ea1674f7a537a64629093e1c98e062f6093838f13601c,
  0xcb5070776679db34a3c98513ae9d93ab293b76a8327ea3498f43f7761091a2f,
  0x100b400cf1f140c0c0efb6a43b5b83bcf7a4b8bd7d994d6a96ddcf825e8f2295,
  0x132adf9ddfad6fa5ac7def5bd7a3802fc03eeb3b9d0a0345e765e7c0fa68e2bc,
  0x11aff681427054b5ccad38de6988d4f0df4d601fe4cd314820bff2fc5a5f4cfa,
  0x4b2de4196046f91fd573e3b6ff51259b0dac58dece328023687946c5706ff94,
  0x15f633d905ed3e6de856480dfaf00ea01f4955cc8aa936ea8f8e93b88a1087a3,
  0x1378ab2e6a747544c8eb09f4da3b765934ca849780928b6921e6d185ba1f4a3,
  0x40a4fa764876f9c26cf81f76e97532535f546c583ed8d999ed85c342d62bfbc,
  0x1aeef689294f4ca0da2937a90596d958387aeaa1575e184ef30288c126b5de47,
  0x161743f0ab93d43a13818687b46ff7278a6e5e61c0b7fdac3a0d044da1ac4426,
  0x2d8bcc4eda1eb237a23326f02e07cf77c94490d50f3c28f4d45bcef950c1ace,
  0x1b0c7798cba78e421e52d24f108696656c05346682c146f404c3412290149e5d,
  0x6b8146f92cc592d1de3dd3cce95c75692cb686cc3b88c5abd4d2f76412df6b5,
  0x4f6c18da16ae4021699b95651aeaae794013f6e84e61a358407d13e8f805fe3,
  0x14ab426cfddc4b76c8d4af16228f28004131646b8de5dc4ee060f24528b21ab3,
  0x72a120fc446f41b85b4a96c5603b73fa0f71327d6a840444938ea4b6e3897eb,
  0x9d88a9a4c88b4f6e1fb970e21bfbb8de9b7441b11c20fffbc27fec468148a4e,
  0x1808511c9ec0d49a6ab26a47cba22c67b1b9beb9c2adc6266dfee6be36c9de6e,
  0xd4f3805faed3e71ba98b0287e37cdab2dc3ab5f2378d744da44d78dff4c2763,
  0x198f9e1c65e1bfa81e2291047cacd76d61c9e5bc7d4c372a88e54d4cd436225e,
  0xd44a1b310f9efa5a16bb3f6bd654140f2f81ef2f28bd935f950d58eb613ba24,
  0x1c749db61eb428437e145cb62b9f1e241c9d1ce270c1335f02d44ce36fb4db9,
  0x132acfd26e2e0e6de4ec73a829ec6526cd6ebf805be373aada4fd831f2720f8e,
  0x4ca180fcfdcabb60e85aa0030a78ec3a2bc5c2798dee5805d0e4a0324afaf89,
  0x17f07e38b1dde0e9d6d8c9a1678fb049c33b6efc033df069aa13e3bf05678260,
  0xa68e8e0eb6eefc5f37e1f1a39df1537e082aca7a03601f81a560b45a9be80,
  0x402998e799ae3a3b4137bff5866ec10952616a3a16a9cf2d8c4b2c4d4684308,
  0x80f1e735e108088b7da8f5cc772d112ffd9b2a7e0b040b7008fdaf768b0cab2,
  0x126573e29beb8d831ae2c794641e6379064f1f18fe3badee117dc5bc5b7caf7f,
  0x138da566ea7c0f30a5a9bd5f9fb8105f306d19f45ef20d93d51c8d8ba6459dbe,
  0xc2e605fa44f75f96a348241fa925ccdc32d9e1b29c54b164a6fb93c133c88cf,
  0x308db1ca7cb7d5628c17ad12d79ab9a4cddd9c6d55c59ed189c66794b114012,
  0x46fbdb03fd55c1f6b74b12361d45767546c4b733975bfb9cde774991153b8c]

def ipaG1 : List (ℕ × ℕ) := [
  (0x139370a278e37b8c57e6b0541680c9d7ca7c1faad99fafa2fedc53e6fd174b23, 0x7175e48375af3ad4239ac2c6c1946242d659fcc093d4626272cc6d51a2db82a2),
  (0x4a4acef33de2186fdeead4c8fb08088cbd0fac4dab6edddd8b9ab1c5474e8c80, 0x4bc9e8a75b6e98fee8108e78910489c1769dbd9b1ea4ebb4519020c982686df6),
  (0xfe3bb2114f9383fbaddca16961355a5ffd95473d784b85fa31b76bcc034277b, 0x562afe4542212b73948cd2e7c4ca88aef6250a4e845f414395e3936a03a1b5dc),
  (0x5c5780225f2f8001442121290a98ab1a560ed00c95082e8ed23475179ec3b1b5, 0x5f6deb7b5b35ea8dc5fd6de10111bb09f4ab521462012afe114f56c537a4d02),
  (0x53e10b7ffcaa4aa2ac7b3454978f9ff4d9ac5bf92b3243f389017d2fa85ee225, 0x3800ef0d83e89da26827a64e48902e9ef7f94671a62daf15f9895653bd7376b4),
  (0x21b9536337d72ac68844ff977bad4b9374b7df8420c2d6c4bc6496e8b25c5a0, 0x1246ff63c3e7b783461a68d4807055efae1e0aa482caf826a0d217a0fc086b9),
  (0x3d3f9c7717f703d3869d87455d07d164223e15b001d96c0c2f24376b318247ea, 0x1ceded69b8b577e1e67465f52e9dc949b1a98f0bd5ea175a66fed5b6230879cb),
  (0x3362631c22a26e2c2974525487bc68fae438432743018064c679d82bdd42e9ba, 0x33341746baccc9ca9bad03d3de04ab44e2986412f754e1e88730eb59880ee662),
  (0x27a0a48cf2c219a31e502d44492c4324276a8b1aa01a168b4f316c9230342b4f, 0x2f9d887ebe65d1cf9897e7f740f1f6e01b032e291cbc150dac65b31035ef925a),
  (0x2fce91b9edca565d98c800370c7601271d59a4fc7c93d1983be3348bc0faed38, 0x4f8e6dcfc7e181b82e2dc42819cbbeed03b46de5e885fbde797b1f7e2f5a7fd1),
  (0x6948fd45bea750079fd7fc7e6f880274d9407632b712d6ab21867090201307fa, 0x494c2c181add71536c89e5cad51a1c7912c59a5a706afc6012d1f4c9ba046d5b),
  (0x9624be662aa32e2a1e7ecf8778216d749587355872e38439eaf27cc68383c8a, 0x5e065e42eef46d8fb56f6d6d97c8dd4fd3dbabc5458fb7045b317013fd5e3d10),
  (0x2338bc3e88e92a885e544a533540be916ada276e80db1f51ccfa78c6af147150, 0x71e90bb935b52adff20dd056b95b102ae7b9cee18478399c377721442a035700),
  (0x66973cc4868fd860aa9335532bbcb70ea47ebf686c1557c748025e65087d4620, 0x95a0dc5665977351124cf5e0551dd12ab692357e7b0ba0964ccdd1d1377fae1),
  (0x6812bcdf2c53466955ef239f71217ba3d9986583e2c5140e49a21c67e07b344d, 0x4735863108fbd072aa1d70fafc737b3fd63e69af28aa259a073789849347ef6d),
  (0xe24c1851735cae5e9794b8bc2ae5161c7dc83b78ee48d5f5e4950ad55dd8830, 0x1f665f99bc12a93512a9135754aac2ed2bad85ae2770ec602c5e1764c121fc9e),
  (0x3481bfc2d46c785eeb4141feb05ff9cf54624c2ab45c4aa6863317933070e47e, 0xe1be6573e82d275e87dcb6f6d43775a2f620d4d23a8960da91296875a32b01e),
  (0x383a69bd83899bb2c53b9471567f2c0c37fb7f27b092f6a03931c8ab79f9aa86, 0xb84a8683c44a1c7b2b632df9b9e3abbbbf9c040e43c23e477246874a353cdab),
  (0x2a413c31c4e71a1466dd806babb21d54676ff45e36ccb8036a0ffb820baba5ef, 0x19834f9ba79fbacbf56abac9db748471616de6452d1d7106b993ba51b3494135),
  (0x5bfc72f1516461f21a458c277242f33f2d6b8037cac85e54324785f395f3a35e, 0x3dcba02c07668f54851ae568ac836255ce27775338f7a7042ecc7d016ab2acc3),
  (0x54ab978430df54f4562dd77ddeb35eb29c3db059cd2615491b8c3e5355b82cd1, 0x41edc7354d772bd2211fd2e933df474502199f802cb5f4570c240bc59fc2178c),
  (0x144c17799353dc54632763e977619cadbe3a4c0e2466d408eccec7fa20b42205, 0x19760bdf433dcae524b85010fafaa7a2a3fbc07323359e2b7653e8523730a221),
  (0x71cfbfb09b8f10115818ecc3b1f786aec83e3ef952c81be8d60117f2e8559e87, 0x69a9a038e31444cd3c09ee2e7a364fca18c4c3e05e7167714f3d51efc48937e5),
  (0xa43e293739d34e0ebf6341b2785a027cc0b889f47f4deaf446018024d7bf902, 0x2db5c145208b5c75184ab96b65969cc146af71aa32d2bf265e3f71ce412ba707),
  (0xf92dff481226ab60440b6a8932043553ccc09d305d600e5c9bbbdb33fdb091d, 0x6113d8749555d16577e6256cecb540f2c0bf8a6376ec847cb66f9461c903dc21),
  (0x4b837d90be43fb8b56e6d492ebbbc4866cbef6671203e38f1de80d8999fe683c, 0x66a6cdbc43b99e03d0eced78cbf52784b982403c24220e15a4dc05628a1bda5a),
  (0x27357b982825e80807b4563b701ce60770532ecbe304d1f4a2f36841fbea5eeb, 0x50beb2e607d77ccef575fa644cdf5dc0edff3f6ed39042959b700fff0c7c9696),
  (0x4a4c39d31860b9447303512d12870fd8f5c0c46e474f973dcaae4983167b8c90, 0x6181d4f54aad7d83b002504d0019f20488fed35042aa2837bded25941aea4bd6),
  (0x167eca2525d7ae2a223c276a9fa6a0b91621ba9de98bf10f4bcfcfc27c4e19df, 0x329546ecb3dac8193811be9ed2b533c8cc10a67014a99cc4fa17e3e1394ef2a3),
  (0x6d02c576ea83bb97dfb073fc8a108c08b8df8d1434616b38f7dfb9b8d4eaa7dc, 0x26a9d0ea34d9b30dd82af8e2c2c468d25fc3a476583c1a54d23fe73a5c173dc4),
  (0x37592d51227c81a946efce54730f772b774371fab94560be69950385f842fe89, 0x209a3434b031f0ebfabf9ab742bab00ed3abb18627cf63dc4ccc7d8b7923831a),
  (0x1580b0fe39f486b1fe01ee3d5104a37c19e83594c53caefa6109f196f9b96995, 0xf6d9c56faee4a8a49f211cae3e1296e1aa001f1ad853b206ef199b226ab7d90),
  (0x5a190b0339e9f8b134aa5f40a69e874004ad89a2e63b3c1e24d8e7ef4640d1fa, 0x12cb0b883e88732ec6ba5be7c323244c8a516630d2b04fefe6b10c15b91a7397),
  (0x2a0ae542763ddd42bb784ae5dee3d38b4945d374468cb41e66e08aded64729d7, 0xf4994822419be9be789ca4d17ce414164e50f4fc513c43644dcb925ddaf48ba),
  (0xa8c5f0634aa0aeef37ab6ef882bf10847ac2fae6565f0227156bc3b7c0ea3a3, 0x32457c84ed02dcfea5170163585cfe6fed55408b8f9b3bd4d8f4f4b5215df3f2),
  (0xdc1646243094d19527ec552d27222c9239ea563a533e52d558a478f84ed38aa, 0x6ed917f258a877e0999528d94a96d79da5c6b694f5735ac20251cc29f2b910d0),
  (0x680fba9f9f420e407a5a80ab9d8c5ceb0f2d689c0780b646d2e624114da0fcf6, 0x6b849aa5bb06ca0a9b32e74e74cd0adcbdc502d833ebfcf3f2df95bb7aed05c7),
  (0x6e6ebf711e7dd4cd08e56ea9e955d4c89940c41655affe0d113a9f71821e13e0, 0x5079c0d777448a28369a148e1fac502a868354bc818d2064a6b49d8777dc8bb6),
  (0x35d1b649fedf36d98378d9a145ba443a440a7667c75f65b7ccb1fd6c07babedb, 0x40507d1980b1757e0ac71ca7f0d5f36fbb0bed2320edb5f1e5142bc258e37430),
  (0x1fd4858533c85e01bf3d4ab29ad5b8d776d8c37671354b8f4d5c436db9b92b3a, 0x50ca73df37b0a603d8eaeb6145807607c41db77c497f9e629f8dc7f59af5f27b),
  (0x6fbb8244bcbaff616ea67040eef7643fb0057586cc9831b2f658cd66a61cfefd, 0x31ebe3aef64922347995b666d62fb02850a1c1f10768b6f8b6ebf27dda965e61),
  (0x473dd8dfa3b626fcf0c9fd52c38fc45350142dc5b89f4c88b87fb15912ac5e81, 0x55138b45a2341ac709be17650f8524bac38e84d99e5d8be1554d6035cc0fdf62),
  (0x6b09a9df16f5323ddcd84e145a2ec17f7747d154cbf5b0ffaf75cbcfe21051ac, 0x61b0a02bbdb6ed020c282351b0696a9283585b0c8c5951ab4a804a91bde1d50d),
  (0x512a1879906cee44fb67d6f6f2e283ffbf2d7a86bf1f4ea7ad4f19214465916, 0x1a9095575127891e8df7f32634d69e1794fea398abad209f488c971fac419856),
  (0x49c122805c675238258fa6a3089f87980e639a976e952308f9a6c4076affae59, 0x5bf2de05a6434c9f883a791731ece73affdf3c178c65bc77f293c5d8ccf8c1f2),
  (0x5499ee8837555d3aa9564ad019d7e8061b237b3772449839fb9c19f6206d59ab, 0x4c6c8df837cfc705d33cb0e8d96519def77fa2c56798f90a00d44f242758ac3b),
  (0x3e31407cc6699bc5157b6412cdc63bca7d0cd8c8a5e9ac6ad5ca11f4248e2958, 0x3b376eda066f40ee98e12e78e941c3704dbefdaa42f621cfaf795b9bf1ccbfe9),
  (0x1f9f466a889f628e51dff2205d9c3dd66c2c85bf50f5d2ca11f3ab5c35339386, 0x2ee65cee5e2762dd487f14b12a70fed7cc10716de8b45bb40330b63a1f6b3e38),
  (0x5ca8a87bb5f524416d9146eabef8ec5d32ecf570e4f3eda7069f73ccb6fcfd3e, 0x6837305e8a7f09447c7e0b6e28279c53ed1a90eac06858d69474e968c4311884),
  (0x5adf9694c696c8f2427927e9e54feea689a16225959c12647d534e150286b570, 0x60040e2cc4ce1a911ebb98ba1fc6b4441fccb0f02f094ae611c421ea8ab011a0),
  (0x10ed8a59ad93a8cefcfe46a3f88616c22969c77f8b1c7b54fe5198b838b1c7c2, 0x4a961e6e3d68b250e47ecebd0da293444af48b9c24556614da6235f8ebfbf95f),
  (0x499385433199cd4c01fc2d0581760534db00cddce0e3e83f6c61d4c4cb638a42, 0x3271634ef782819f6ad9bededad2683aa567f88e01c60e00a184a2d9ff167c53),
  (0x20215248c9828d018f283693120b005927986756cd268650d589f0ad94d7522, 0x5da1fb6d7a807da02df2de271721dec8a0b5763546f6a79ab871e67ef7c2c23f),
  (0x11d39c336c3b89259026da210dc9d8a30d338ae17992f028206a035ea2f8aae2, 0x4681e07bedd10a200018cac081bfe477856b48bf4a3e813882177f37e2fa6636),
  (0x683944d8a2bf6101ef1df6d873d013f9e31ebbe9c1dd1afa61522342241584bd, 0x1053c6bce6ad8309741905e02e8fe9cabc6f2a5b53d5b3d3de5bc05b82a9f332),
  (0x4a4934ad848a4c23c725778b6bffbcf5b17facbae665f920bd889c2562b271de, 0x5db54f7c614355114d655f719754817a9d33dc3618fd018e6625a0d9e46dd394),
  (0x65f609e7910678f03b0887a81eea8716d0ae3f790d744b813a4b66ba7b4eb4f4, 0x20bb495a8ffe75219b5bda9268694d17d3714823c918cfd23b7597ca698bbc1c),
  (0xf97ad238d0c2ef495f3e2c7f6c4dda6a97046020a1fa7024ca4c1d8991e2b9b, 0x2b146e629da76f247765e10fd76718d26022de5062591bc12babfeeb16f637b7),
  (0x72308c1daef5f6feec75321014882459a6b079563eadbd20797fefe61cd90818, 0x60e1540a60cf184a60a04a37c4c1f6c42eb78ce68b58742726a71850ee256b21),
  (0x362d5e7ca9770070099bbd431c2a8eec0ac060f5edeeb449fe45ad0ef2f1d6ec, 0x5c816d4be89da44d2f0b2b3b7c2ac79de7f38ba29144f8d8fb91f77e899b2df2),
  (0x35f60f16b3930e06cee955975e9760e9acdfd9f2fda44f1db8df6a25667e5ac7, 0x5eae7e80baebf055c624a1c1dd4f23112bf14fac8a492222d6846e6da83532df),
  (0x43d3edfce783572636d4e04964a348d342dec7465512812dcd4731c700315734, 0x3f77f138998cb240cb53be8aa837688f598d3d6456c36e1c3d98654ffe355969),
  (0xbb43b83ad23792b7afe596426ceae8805bf1dd63e06294138ef6eb818300b33, 0xcda509054847a502b61cf4a341070265fb2bd6a26d7cf296fab3117030a6b64),
  (0x50776ec8bd5f83a856bc58039bc01b12b89b25eaba23baad4e40ea15dc5ce074, 0x2e1315813c4065382c11910ba16c1a1c8ad2b8088733147b41a9688e2c6ad3df),
  (0x5002baf5a72c5a8eb69339133aa5913e0babc2e2dab5c795525281735e0fa07a, 0x5360729a0fea4c8cf3186eac31eb97cc88cebfffc48fbe5c63cfdc2213974b26),
  (0x3342421a6bd54cd629123e6731edd63e8cc9bda11ab7d0049482829a48193a58, 0x280b5ad48dfbf095772e290cdaaac3065f00e94520ec4c43f8180da0e5b6bc35),
  (0x3ea464257a007e17b03eec1bf9a652fd9549504bfb6e36f536a1942ad577b50b, 0x38a68095008c2134d25878f721fc9fec05bb56c139e7e8e9d0ba9163beb83c6c),
  (0x1c894592798f0c48e66a0f69de8b61e0c7cfa1d189a206ca7a2577a94f18365f, 0x29c96829723e5116e654838e208abdf43d4952a0ecef8ea5f54c3c4e72d4ebcd),
  (0x1443753573242cbfe6a51ad9093d0fa85f500e650d2fa1ab5b40e8b7ae66a08d, 0x61c63ffe87562d79e38ebc936b7c7f0b6b9d375b5823d1e72bdf863a91076197),
  (0x726cb875ac668153e149e92e934808e8c14c294bcd2f5fafc6d5fa94d8fe664f, 0x1d2ddd8b85a17130a4ebb5d36ba5326cc559b1ca704542aef14a8eb830fee6b8),
  (0x421d4cda457affacf76b8a4f73fd9fccf520e93f030b96dc6c84d64735f1dc16, 0x60cdff0ee3f7603bd24c98b3e930d1fbf48e631f99ff536d9d56e62e4167bb88),
  (0x38f248a3ca828114457b443ff62959fde4aeeb2c0860f9f8d77b2332922fa60, 0x5733d09af0019751395c0b82dd913e21c341f0d51013ee89ea454aa2939ea584),
  (0x4c8d1bff4f282698d95c1584d368ab425191a2e554e993f28fefec3c3d8e17b5, 0xaa81a0afdfba03a26c1e0eb38043ec8f477359ed686d9fb2a5ec002ec938b63),
  (0x28de232e84adb34471df83a370537e8e828799fe7ab65b98492dd844cf4528f9, 0x54eac456816203e1c7184c911462bde1cfbc6d80e2e840d02f6645e739c3e1e6),
  (0x5468eccc91dc530abec400a53e461f5ddb3ead3f1a5c72a1964644a4dc9e75ce, 0x732ab02b2ede43622e91b30569cfeb9218a78c74cab4fa3513644c9d293cb172),
  (0x17de78e2473e49fc4cdb5ad5df25e43614a6a1e7dd493b2ca8ae466325164d0f, 0x51a5d7a8108909182d5b75b63911a18dcd2f44f6dea410f102c0fa07f38dae59),
  (0x732c671e92ec866333ad51f66870ab7b4842aafcfadfdf13da6b3d367b68b2ab, 0xa88e61b4d03ecbba4664c6136d6a4e98896582675ea5248a2bc3716475bf83),
  (0x19e37d3d406472bafe15e79583e26e2826f15488d445aa2137b1b69e63c64486, 0x21681d755dd679759ef60f160afd7ea06fec72c809a9ce0ba058f866d8041f3d),
  (0xe6ba4e7167588754a00bbdac365985186ef0cd2b729b84251bffb6e0fc9ec78, 0x63ad4577692f25863bd69537eb8ea5d539d8ae7ef0cdf64818f2a11401576dd6),
  (0x2214f6b87071230361684b279875f4a6ed75d8a381f9c82bfdf62566cf6f8c2, 0x3570a3ed0894716fd020914fa7618ef2cf61f3171f7b33776384594851afd250),
  (0x3b7dfe692e4ceccc686a6b78d03ae62ed6ac05522afc0aaaa47f9841a682ea8, 0x72b3847aa76018fcd27992de89714f10c74bda270ce722d0c4e75c445f84e45),
  (0x5d82eee3a8c76f31e2bed994c85ac39a67c432e9051998bcf9f5c13bd2a47a7, 0x2576a77dbd123066f4b3866c786fedfec7069d51c49084cbcf9dab8cadff30e8),
  (0x43c72a8931ad3f83d3e3bb61a6d865a90a2c28eddb239710341ec4de717b2b8f, 0x5f3dc5b494ad6bcc34da0fade1e0bda828b762a41a1ce14ff17b374f4c206bf5),
  (0x6901d61e395720999e14ee6b7ec1c233fc35e63fc48abee92d4016c047bfa2c9, 0xf29d140825136bfb8c7fb03423851cd4bed1f34bb34bed458ed62b69883cde5),
  (0x23512880f84730f33387493bd0f992dfaf0dc1021be25dcd527347baf96fb743, 0xbd965e0bbf0a33fd758b3e8b4aa81ca9517c0359d6894fa9403f1b296dba545),
  (0x190b8df056d4875f30c28ebea6fa0d54fc74ce4f6fcf9c5ae99594b1f0c2f671, 0x15279d9b771b4cc36e0151b9cf5dcee6e8ffaa5c560c82af6c699d4bdd4b756b),
  (0xf27a3fa386c4a030cb62eb09efd45a51a355718b5e8abd93927a614acd588fc, 0x319cbcee00ab7392a78bf54741434e7d40ab62fe4c4738be47dbdda3a4f5e2bb),
  (0x3ed576c2728409e88a580017602eaa089f5c424893c2856e7d86b1ee453ca728, 0x2bd74e172f55ab29f2b32051dce2efb738d9057436940f7e6f7bfe5db687acde),
  (0x7359a38032eb97eca06013fa5614eb425813ffc9a4f29901a43502a2886ffa79, 0x46a33479acfc8bc0b9be15771c411d9b581be9c78c41c444091f16945cca1001),
  (0x2c0202a0a6cfc62692f951822992893e5c8d0103f067fff0d696c983ce9f3b18, 0x6ec1928f9973311b9bedb03c486a60282a46ef776b247cc910fe75a1bc718dae),
  (0x1bf41821e938eeda19e4bbf008ba05e05528c40bb2710555498f5677c89707fe, 0x1c5e469e05f0e60363c5d52d122096674d4836185efa88bc75d9b471e87d2cdc),
  (0x770e2977694ec2b199b6eb6ed018cef06c5678123bf9615dc05ba4d5f55bb0f, 0x610f0022db27063927ab59e51dd1ac706ef9987be97c4cd19a376f48477f07ab),
  (0x2f16f1d56d5a065c35c42c5fea5d6e1966ca2b6f9e2d6f11c68d1d9110c7c3b4, 0x7241c379f20811690b3bf4de56264327fbef9c1c74105d255520ee6e636ac2cf),
  (0x6f8ca8f619080f461efdd2e492588520d55d416c3ca521c30236ad56dc048fbc, 0x4e4832a79bc5ba51071e2d0a2ebcf2f837a5604f5d95c9d76e0e64d5399006c2),
  (0x72fd2dc01ecf87d449477a5e6f9a02fd0859733ede379133a7ea38199025a95, 0x4915577602d6c3e4f6cba2bcaef9122d1eb88e86c9ac8e84b87a1487aca6909a),
  (0x5dc65f6a0ff9d8633a62a0a9f5e082984cc54732c1a7ef5ba16c5bc38067d318, 0x5753d655752a35637338b75e17709f88c3a12d8add2a81fbe3263ae1124f0562),
  (0x1d9bb765ac18c19e498da8ef3efebe63fc7ec571bfd558a8599b379a0a733755, 0x38068a1b935565d38c170aebf8a6705e18e4a6607feb503de57b6f9d5bb0644b),
  (0x3a29ae0d30b621b53896d55169cc7e5002fa4a41eb570d22b7c9b1d76fad99e6, 0x6e8b5d87bc5e2a20229a9afa5ecbeb3fab2f2a4afe0744da7c465f1dbeac74ff),
  (0x2d612a5c1595d1e40112aa052f395066a82b06d581d4bdde040600fb0867b7a6, 0x419cd3ebc8339480c86e5f0793efae41810bde7ba8e3fbe5b7aa58fe4c7a8b25),
  (0x4e0d6d1041fe3a19c3d45ca58d1438326440c8996c61f250a867f330f679cef8, 0x53802dd98a4fc9fa533df213bdbae81da4dc870f5c0425b9415fe5d6aa289d31),
  (0x42eb8e60772ce7916c7a1e572ad217d3c77eee295e244c31d48bd61a2372e936, 0x39bd4dd81dcc1e650a00d8588a91d26a6fd21fe5bc2a8d6351a19e4f3cdc1fdb),
  (0x6a6f46dbca109121b09b5bd01d2f0a2c15df87486071ab9ad8317a0ad0b0d070, 0xcecde4e04c4f018b2521fdee07676df031ee2f936755f538879be2c4c83122d),
  (0x253bf272bd8461b96998a8d90cb9280ff6bfea18fcc19e0e53dd2004c712e240, 0x13ac69d0f6439bda207b483619dc44219bd72c399ce001825f10f5390dbe9fa3),
  (0x631d5aae8d2b5fb4905bea437649b63acbd18060d32f73ca9b597622f301d58e, 0x73e76c2d5869f4ea9a0347076708f62121f66f384aea8c1262a1409158a25989),
  (0x3b8aa72bff93dabeb5ade8b7d4fe80ce33642651b5f8ae68d723d04e779756fb, 0x43ff022a380ff1dadb9be9963a32cfa5289f97b7748021eac73ffe0f33f1164d),
  (0x350b08cd47ee15c12abe660bf8748549ca9abb069716ed3edb7a2cbb60310b43, 0x3c069d6d43ec1bcca2182a05746efc8ebc842e820569d310c0e17208e64c049b),
  (0x6fc1afec58c8700420f14c7fa373247b51f5309016e48c37ecd8fb1391a73e95, 0x66fafad111aba12b0d311883602f12643526444afb6ac2295aaade5f551b3ae3),
  (0x17afcae8c899281ee0859f2cf0cf5cd5a3f4c3ceba06e58351c7dfd82067d83c, 0x73c2ca7131a94f44cafa86de3d9396e581fe7b0007a024a9c2bd7dcd9823c2ba),
  (0x527cafec8972c1a247e516b546cd3173822e61cc443bf325429d0b74960f73e7, 0x1a38910c58278dae5ac57a7ed75cae9f867c313d9865939968d156b533e2e616),
  (0x6754a7956af29ed8107b7ad368827842a76312bad7f3637bb6e270a477ebee40, 0x271b9276128f7f245acfc1ede08a5e6cb5a2d748a900f8f88b4ab172fc259626),
  (0x56bc479b19adf4846cc67340f8704385aa1800684d7ce575c953ee526851c2ba, 0x70800f281092d6f9dd1714d45a47652b53d3d5d40e47b540be2e443282740474),
  (0x3ebb82ca267b8d8befbdb829abcfec7b09cc755c71bf6d8bf9afe5b19dba58cf, 0x3685aa184f32597f9ad41557982626e28d1fa03d71f257788d23ee21024d1841),
  (0x468fb4883b8edf47038caaea6af70e5291132c4cb9ef67ee365c2a45a2cd3351, 0x42f520338775d61e0f6797dbd62cb76b5aa5ab44b2dab01912bc86f105ee463d),
  (0x12b8b6be143cfb7f96c9d312a77e513eedbc2e22231041d08623e708c70f965, 0x21d590b14d80b2a299de49be77358fe14c73b63eb035abfa7c6df96800965ba),
  (0x5706bf215dcff196254ba10a6c823ee8b57626c5d07d8d0a235874e69c5e85b, 0x173acf0b88d4a90c917a585218aeeb9e370d5025dd8e4b40eaa98aac63ca243),
  (0x4c4db8f1057f44b5875a841f1f3370b021ea5005e2cd555315e8a1c44271f62a, 0x110d86a29cc4a813a8ecea316915cfbc5f7175f0b4bf9443633ea2a1068776bd),
  (0x58458026435762e43699d2b8462402266e45ba0528ef2ab6ee3cceff3f9b7ec5, 0x6b7308a4f864842d185e1be1cd16c6350087dd7fc44e85afad1e66df96de94a7),
  (0x25046c60552929b664141705da43911615097cd2dad5a1a021e04d81175327e1, 0x5a78011f003b8a6161cb81216ec9019b0989956ecfd138760e21096514f02082),
  (0x1798fd0d52db1da984b47cd0e67b1ba3e2fbe8f5df62758e9d861266938cef0, 0x2ce06ce145edd5e67ea857417a5c7e9e0b0fd4488143a112a1bd619edc18a3d3),
  (0x41d77d12c1c6f19addcaae77aaaec858eb171503e4f6eb63716d720d84855e4a, 0x198952a791092b8034abe84fbacb605e5eea16e3816fbf9576eae3c5b50d4e07),
  (0x55b48953b37431959fe50d89ce5bd19659bff57f9d8534638f6ce08652f07ad9, 0x68fba56cbde5e6fa564c5db103dd3c6a8f767cb6be4a68c754eb4907e8489b28),
  (0xdbb303b14b12b96985a1ef1727804f8232817e453b89d38ee9b6299f4104e1c, 0x57d20cfef741fb450d21b199ee3bccdeb43e67f470c91af64c7feb5b74e6d26a),
  (0x8690dab57f6ea6a16c5828dd10158b8ab70818ac8c72ede7ba0bbf83804f9bb, 0x178f0c6632f2bc642211ad38ec1b8c44e99bfd09a02d5441864e95015fb36857),
  (0x6ec02e0d969a18e98185f2c50f1f8fc5900d47c205bed0e6f38374a95f8e3780, 0x67cd3b5acd6fde23a81e954378403ae04db1fc30d00ed78eed76d20fcc51c8ba),
  (0xb018662860cae79e28d4eba24e4ced22f26af470cf10eb018874c2b2625ce1c, 0x1dd36c8f4142275a05f4dc2898ec1174ac6ff1c25f6a37d383584ce2bef4d691),
  (0x3f0f879edef180621ec73b3c7514c94e943f96187a295a474b021af81fea739, 0x5c8ec598781089843ea35e393ef7714a31919f09cf90f9dbf23ecbd0f89af696),
  (0xf1afdd0004c442667c074f3e37c2243bcc50c89afe2cdce244946d9feae84bc, 0x146af6cb3e0d546453680a6a708f91ffa9aad28ea62f72dd571a31fd80f82057),
  (0x3a5c59c589cbc464aec5497c4921ffeb7a190ddc850f332db43e8a15b6ede441, 0x17b4e26b5cec592950c96634f57f6c37837ae5a11e210f56a8d850d063f33e62)]

def ipaA2 : List ℕ := [
  0x2c1a4ffb3eb66a841986e128d2b4b337805feaddedcbd4bf51e2fe9a22cd7d4,
  0x58349ff67d6cd508330dc251a569666f00bfd5bbdb97a97ea3c5fd34459afa8,
  0x844eeff1bc233f8c4c94a37a781e19a6811fc099c9637e3df5a8fbce686877c,
  0xb0693fecfad9aa10661b84a34ad2ccde017fab77b72f52fd478bfa688b35f50,
  0xdc838fe8399014947fa265cc1d87801581df9655a4fb27bc996ef902ae03724,
  0x1089ddfe378467f18992946f4f03c334d023f813392c6fc7beb51f79cd0d0ef8,
  0x134b82fdeb6fce99cb2b0281dc2f0e684829f6c118092d13b3d34f636f39e6cc,
  0x160d27fd9f5b35420cc37094695a599bc02ff56ef6e5ea5fa8f17f4d1166bea0,
  0x18ceccfd53469bea4e5bdea6f685a4cf3835f41cd5c2a7ab9e0faf36b3939674,
  0x1b9071fd073202928ff44cb983b0f002b03bf2cab49f64f7932ddf2055c06e48,
  0x156ad27f0b609e8c4be44ca0e73c53528b26a781f631dd2134f0854cf765e3b,
  0x4185227a4a170910656b2dc9b9f1068a0b86925fe3fdb1e086d383e71a3360f,
  0x6d9f727588cd73947ef20ef28ca5b9c18be67d3dd1c9869fd8b682813d00de3,
  0x99b9c270c783de189878f01b5f5a6cf90c46681bbf955b5f2a99811b5fce5b7,
  0xc5d4126c063a489cb1ffd144320f20308ca652f9ad61301e7c7c7fb5829bd8b,
  0xf1ee626744f0b320cb86b26d04c3d3680d063dd79b2d04ddce5f7e4fa56955f,
  0x11e08b26283a71da4e50d9395d778869f8d6628b588f8d99d20427ce9c836d33,
  0x14a23025dc25d8828fe9474beaa2d39d70dc6139376c4ae5c72257b83eb04507,
  0x1763d52590113f2ad181b55e77ce1ed0e8e25fe716490831bc4087a1e0dd1cdb,
  0x1a257a2543fca5d3131a237104f96a0460e85e94f525c57db15eb78b8309f4af,
  0x1ce71f24f7e80c7b54b291839224b537d8ee5d42d40282c9a67ce7752536cc83,
  0x2ad5a4fe16c13d1897c89941ce78a6a5164d4f03ec63ba4269e10a99eecbc76,
  0x56eff4f95577a79cb14f7a6aa12d59dc96ad39e1da2f8f01bbc40934119944a,
  0x830a44f4942e1220cad65b9373e20d14170d24bfc7fb63c10da707ce3466c1e,
  0xaf2494efd2e47ca4e45d3cbc4696c04b976d0f9db5c738805f8a066857343f2,
  0xdb3ee4eb119ae728fde41de5194b738317ccfa7ba3930d3fb16d05027a01bc6,
  0x1075934e6505151ad176aff0dec0026ba982ce559915ee1ff0350039c9ccf39a,
  0x1337384e18f07bc3130f1e036beb4d9f2188cd0377f2ab6be55330236bf9cb6e,
  0x15f8dd4dccdbe26b54a78c15f91698d2998ecbb156cf68b7da71600d0e26a342,
  0x18ba824d80c74913963ffa288641e4061194ca5f35ac2603cf8f8ff6b0537b16,
  0x1b7c274d34b2afbbd7d8683b136d2f39899ac90d1488e34fc4adbfe0528052ea,
  0x14262781e36b7120ca2604b9e30046c021140ba7f4c9c2a44cee914cc3642dd,
  0x2c1a4ffb3eb66a841986e128d2b4b337805feaddedcbd4bf51e2fe9a22cd7d4,
  0x58349ff67d6cd508330dc251a569666f00bfd5bbdb97a97ea3c5fd34459afa8,
  0x844eeff1bc233f8c4c94a37a781e19a6811fc099c9637e3df5a8fbce686877c,
  0xb0693fecfad9aa10661b84a34ad2ccde017fab77b72f52fd478bfa688b35f50,
  0xdc838fe8399014947fa265cc1d87801581df9655a4fb27bc996ef902ae03724,
  0x1089ddfe378467f18992946f4f03c334d023f813392c6fc7beb51f79cd0d0ef8,
  0x134b82fdeb6fce99cb2b0281dc2f0e684829f6c118092d13b3d34f636f39e6cc,
  0x160d27fd9f5b35420cc37094695a599bc02ff56ef6e5ea5fa8f17f4d1166bea0,
  0x18ceccfd53469bea4e5bdea6f685a4cf3835f41cd5c2a7ab9e0faf36b3939674,
  0x1b9071fd073202928ff44cb983b0f002b03bf2cab49f64f7932ddf2055c06e48,
  0x156ad27f0b609e8c4be44ca0e73c53528b26a781f631dd2134f0854cf765e3b,
  0x4185227a4a170910656b2dc9b9f1068a0b86925fe3fdb1e086d383e71a3360f,
  0x6d9f727588cd73947ef20ef28ca5b9c18be67d3dd1c9869fd8b682813d00de3,
  0x99b9c270c783de189878f01b5f5a6cf90c46681bbf955b5f2a99811b5fce5b7,
  0xc5d4126c063a489cb1ffd144320f20308ca652f9ad61301e7c7c7fb5829bd8b,
  0xf1ee626744f0b320cb86b26d04c3d3680d063dd79b2d04ddce5f7e4fa56955f,
  0x11e08b26283a71da4e50d9395d778869f8d6628b588f8d99d20427ce9c836d33,
  0x14a23025dc25d8828fe9474beaa2d39d70dc6139376c4ae5c72257b83eb04507,
  0x1763d52590113f2ad181b55e77ce1ed0e8e25fe716490831bc4087a1e0dd1cdb,
  0x1a257a2543fca5d3131a237104f96a0460e85e94f525c57db15eb78b8309f4af,
  0x1ce71f24f7e80c7b54b291839224b537d8ee5d42d40282c9a67ce7752536cc83,
  0x2ad5a4fe16c13d1897c89941ce78a6a5164d4f03ec63ba4269e10a99eecbc76,
  0x56eff4f95577a79cb14f7a6aa12d59dc96ad39e1da2f8f01bbc40934119944a,
  0x830a44f4942e1220cad65b9373e20d14170d24bfc7fb63c10da707ce3466c1e,
  0xaf2494efd2e47ca4e45d3cbc4696c04b976d0f9db5c738805f8a066857343f2,
  0xdb3ee4eb119ae728fde41de5194b738317ccfa7ba3930d3fb16d05027a01bc6,
  0x1075934e6505151ad176aff0dec0026ba982ce559915ee1ff0350039c9ccf39a,
  0x1337384e18f07bc3130f1e036beb4d9f2188cd0377f2ab6be55330236bf9cb6e,
  0x15f8dd4dccdbe26b54a78c15f91698d2998ecbb156cf68b7da71600d0e26a342,
  0x18ba824d80c74913963ffa288641e4061194ca5f35ac2603cf8f8ff6b0537b16,
  0x1b7c274d34b2afbbd7d8683b136d2f39899ac90d1488e34fc4adbfe0528052ea,
  0x14262781e36b7120ca2604b9e30046c021140ba7f4c9c2a44cee914cc3642dd]

def ipaB2 : List ℕ := [
  0x13d4af5f0c2ad37f0c943c44c7c78b3372e71a732098bddbbafe0e41bfc7c8d9,
  0x298de1223daf8f034e50fdaed4c3b3f613fa65b39f8a3c0b9c4e191884282bf,
  0xe7debda3fc87866ad250f51903d66407ccf62c83ab513fb22f87a5c2b824364,
  0xfe4b4535c3133a9474df2b165b16b2ab4d8949c566fa2bbe731b21e6e5689d2,
  0x1bdb1f8badcc681151c9b92c1ef8acf147ea750f6e4685eefe6536607ca15766,
  0xae48d4c025e99feb2af1e39a3ba462391ad2ebcea263837133aa9d938ec0107,
  0x168ac91f2e79eec7436838bd5813b807f78c11bc09e63c5ede2c214bf86298cf,
  0xb4cc10ca348a0dee63633cd2c0a8557995a139228cacfb1b3db8c3ed5944e28,
  0x1283a484efe72f2e2471c5024da631a5720063a727afaac59f08f98551709020,
  0x2785c6041bc1ca77db78b0785f3a3889575e25366f9f112f2e821a475c50ba2,
  0xb58c1bbde6764ca9cdcfb1e850d899017878a35a7db0b2a8ccf50a3e44eb0d7,
  0xad2d5bdf263f10dd9ca760646dda4f6f00d39c8fc2d9dfafc5618213fee087f,
  0x19601b9468d0a4be003c6afdeb2c5a3f3786c1c9c518cfe569896bfd3b39b383,
  0x5243430a733926564ecc1f540069b56486cb1ffcd1e6f85611697c2063160bc,
  0x84a4bf13bc5b60e7f586364d3584cd31a26e2079537c4a625ee9f0209902dc8,
  0x3be6ace9c0e9745d3ba1311813d3f9e30ffeccc28c1e4fe3142db3676937ac3,
  0x1624c434fcdd914f466ff647378fa6c84bb43d7d1e0e00f66f662b687948f5a5,
  0x1ba62d13d93b19115725b895c0b496a0f15ad9594b5e8255c50eb3bc883bf6e7,
  0xb179faf0c986ca26f9d9feb74217f96dcfd479a513a2635545f4e0946ff6400,
  0x46956aec2b4ef93367af1fec8b7ffc2a0cd5e08f4c809904477d83b69a6d601,
  0x53cb8a315443c53f5d7f273c3edb37d28df82a1e485ecdc70353f8dabc2af47,
  0xc91bbd1cbc4019f597b01a039b506268ddf0922f7abcb53d4d23ed8ee587d07,
  0x3edb8ac90b0291a08646a9b3b84e1d6b6db41f14f83965163d426f53a88d0ec,
  0x6a04f7f45b8d30865ba23975fc58f9ab9a6fdccef6cd9331a597c92f55101fe,
  0x1231ef6f8b7a55612aa56835efed70f555e270598a44a26e3f56d48a0418e955,
  0xc4101d90f7b928a94c4f2ef29ec1059975710bc246826608c9cb9e40a7b708a,
  0x13d1f1ee577fb0eb621240b96298701bdb610a14e407b1c5f561913a975c8f35,
  0x1289f99eeebe4eff13ce8f586f884c3730f38c176ef0aa10283e6d7c982cd290,
  0x1acb0cfb00743471677089aa27db5a6662e9fc128fd43b79eb062dcf5b072918,
  0x75ab5302155dd2f1aa751622befd9701f2adca1670d6503c953533ab7f02bcf,
  0x9fcc6026971e3f0ee5384368a337bdee73249a4697533c4cd9c794799ca074a,
  0x14b3eac90b6f151aac146d4f7828bdc076f2036d4eec81110e30c74bb59aecb9,
  0x14a981485e9da6a412d5264de10d4b89fef6f9de6e3e09c9b804126ddac806a8,
  0x15e3293c1b8c6ae8632b8574e8fb1e25953d515b1c00a24f7541a4492b249ad9,
  0x1b7e2a8481e412b74616188ac20809060cde7fd5063fd12dea59264b566b49c2,
  0x1c0d0b727e385d9bff37554b97dc300b49b7174ff79a59b540eb088997117ecd,
  0x1ba3bb04b2edfcee0e661887a761d5d984b89d6ee8fd114ee9d7a8da145e77fd,
  0x115bea2c090fc97fe681626c618abc06822a3d34049b99696da4551105bdb023,
  0x13e2198910bb993fd6aa9904595cbb468d016e95600fac759444c15fef1ec1b2,
  0x252d991483f25a32c1bc3cc1826fe02f727210388fa43fb67c884d46a7841df,
  0x15e73847e37f5ad636eccc501652851b2076bfe3a82f000b1d242e267a07bb71,
  0x9e8d34f74f1c4d812102ffd9e1564e4b13fdd742907baf4bc26fbdb822a6f9e,
  0x9dcbe38bcb5f597d7019a794c0122b36376a4e9c7abc09dbf302fc4fa2ebff2,
  0x2c86259628e39e465da5243629589fb6432c9feccd94779cd26ab995f2e36a6,
  0xfbb1a42a26bcd51cc150118f954eff92ed575529415aaf072e32a98b25c1aeb,
  0x18df5f1de89fe338022207c81e62411ff8947dd39d375ce1225d87dab36f5052,
  0x5481d6d2ff82bdb7e8e75353177aec95334d33316d85451f4c5103c70512853,
  0x5be2fd8967e13527847422019d8e43dd652115a8da905e158a9b94300b4b9c5,
  0x9b818c7bf90efe168d6e38e542de70748b1e4d27cc0aef081f0adbac32ef51e,
  0x1c603ca7bf16c42738155fd6fa47cca5343761f9704f0a94dd4fd96fcc993b2a,
  0x1c97ae3c896f36c2d0a5c60cc8e3ed2ab844021d8c997942558a08404063e4c4,
  0x13481f7ad0a92ea9d735c483953b7d1327ee9334bce41665bd72551c6ca123ab,
  0x266da9075bdff1a34e761377f610e3a8a6c1feea469ab73738f0a793739bdff,
  0x1869d217fc5564b080959c8dd913e04142020c346ccd34939856b5688325e1d5,
  0x4ad82d9b5e162a9feba9da9e812cc78ad0d0f5fe6228979d84c4e0e1226080,
  0x3fb4271a13fe1616d6765672d2b0260f8be5390e1bd6ad695441117f1975468,
  0x1102fa33f4067dd51e92ea5369d61662ee82a67346613507d369d4037ae24d8f,
  0x11900251160e3d7c3d052fbd9686c1f09ec5ca96f76616273a7b189392ce2573,
  0x5be369afdedaeed62b1a344f65c18dfb688593c7fffce0665c0d5c545a59379,
  0x19077a3b2ba6947f36c4b1fe36652316e61cd9b9f614ab0379681401a5de4276,
  0x15dbf521587b28124279d2915197751c7bbc9b5412e6bb8238ad86b67ab95d51,
  0x16e4aec314f48823de849bac4173a93286cfd4840b4caf3f2cb898864f167c24,
  0x16cc9009e4eeb3a83117d5cc10f77efa13661b8d14cf6802d3f497f28c52bb7c,
  0x12fe63b4ff5f14d73787a7823b9dd40512defd24c43d364fbaf02ea303ad8117]

def ipaG2 : List (ℕ × ℕ) := [
  (0x476203b652046a609e2bc29dfa21ab0aaef5bdcdc61cf59d361591cda873183a, 0x11f3792244fb2f16099ff1ab88e4700f554b033d06d94d961f02c3f4a267085),
  (0x5c2993d3cce9492303ea08b3ca35411029efe63250063ad93ac30772c9fb37f7, 0x6eb87cc5653f1bbe7edf7e6f6e17595c4223e369e5a96bacd6af5b8f6ced4e5),
  (0x11c5b96e4c2b9696bada012506b65a99fd39bc82925040b318f3e741a37b8459, 0xa592c417e029a4b65ddaf21bb5fd7b6704010c6aab7f416e35c54fcda6cf43d),
  (0x2eeea8ae8db6a5cc5eafdb0b07b267ba9b06b34602e23a4b3b2b93c25363c337, 0x6b897fd8eb0933ff2ec5c8a7ef85bb29a1e16936ef52ab429b97634654e221a9),
  (0xedd5f062470c5d830385450483922e2b5f07a4aa09b01bc368403d5e146d25d, 0x5da67ef641ff3e81d577bfb8a8757ec46a52a58ad5ed9f022b6f6bac0fcbb4c),
  (0x399d6e2e66da68166f1048fec8d034fa77d5fb087515325fc6abece07b3847eb, 0x3eb73a4737015805f1c044fd76455913067215d7a3bdbc649f1cfb7b853f4e13),
  (0x3e412a5dc67f8829cbfbb2758d98679ee544d0b2e470eee13c1022910b15b053, 0x26715b6243be301637aa17e0d2c92e79930120f22c644bb93fedf2761b7f4d99),
  (0x5583804a63c9f17d68db575214cf8a66b8cda28a53b3279ccac4ac8016c44c8b, 0x2890598c2b2a891ec1d4d2df7c57731177ca9611f30f4bc6e9a95b29f4d14933),
  (0x11500279f77caa134713143c01430bc27b24a57929a57154123403bc977f0834, 0x73893097d9b479db0a11ca10d3522b894c9f805207192d74f9a0eb5006e5dc2),
  (0x21e5e1b11a121ee5bfbe0eedb118e5fff3786ffccd307c6b917cebfc727663b, 0x685decf0868b850fec1665f5a6c79decac8cd8188c30bcc7aab195882963ddb),
  (0x3d758dff006a5930f7e547bbf012071f3b3213602d9c6f1d0e13a409ec7bc0b2, 0x5134d3e0326ab99752c269e93aca113b2cbcf34256fda1c8287cf2674441bc8a),
  (0x6f3f5f11326b25461d3675ac0a1e3db7d30da4e896769fd903f99548c0058561, 0x2da80282dc0dcc57ba245c83518d4bde3d65e61e1be923b2cd6ff41d435f0d13),
  (0x522fc5bd0eccf5172c20fc64c25330b13a513bcfe5917c9ba6d4fc478ac3ac2e, 0x2e3f0a0c985e7c4a6785f968e1b6ab178dfd83162a45b48760c31c3c4cb3cb6a),
  (0x24b646af260dd28fde77caaa6ad1bc68029ac7bd6b256fa4ea5c86caba1db78a, 0x23532c0ab0d28d81973f2f36263d2134502efd4f630cc230296aa4cdb050be2e),
  (0x4d060fc70a316a26b0bd96a50359a228e1fea2fcfd7dcd81aa843b45b650cefa, 0x3dfab3c61f580cc77e7f66b270a71c664a13a7155f10e353b18e9959c90bb609),
  (0x5f4bb3351c1398fd844df393447a00302a1012fb125c56079c5a32c30d41fe58, 0x2f4af6c25a3ead0be20d3c275aa098a480f7080c90f35240d0679bce05d9286f),
  (0x3c2f2307744f6ca8fa52eec18030a8a6c6a5a8dfd35b0fdeee7bf2b631ceaeef, 0x58168ebea863e128b94e353f51b58442266c382ae47892108bbd8499d2b1c085),
  (0x1573fafd6842f7f54420bf609bca1fd98dc2b804605d52f67b82dbff6855cf47, 0x378c704463d5bb1c6d09e0d8a7b3ec8e67de89a3a1efc3d64a5985e0db8e1814),
  (0x394eedb1269d439832860b04c93d6f8c1b2a94ab64eef759985fadf3838b1f13, 0x31d31d3e5b1417446dd627207a853817599e13b4534120227aeddaed9b3b182),
  (0x6811a218f91f7042335613afc3b51fa10d0557a25f507e8a9e96c5879844ba09, 0x22a0eec9699e76e53a700f8d4ce23f7bc48fd63ae64f437c9ab6a4466939d756),
  (0x49f0013b73d193f4f343b1b30141f3ebcb51ce8a03e5a6b8ef608f515d223e38, 0x10e19d1a0b965b341232aa38b86f7bac228b8f72f385830e608502e7a61b51cf),
  (0x184b86589ddbedc704bae7bf5361ac8e37c4ed95077a338dfb2da154d2116936, 0x1828ec256208e39e40a00fd1ba8cedace6e51170336dc233d757c57396f7890a),
  (0x195b1a04a8f7e7349e55a57c9f0851d7ee85b32cc6665a970bb7fa956f1f8711, 0x59332ba64edb90a3937af36342ef6e7fea7315eebfaa95a56e9d9ecfa1f4a3e4),
  (0x16cc687f3c2284e52e68195d36866e903eb162ffeee007d4a4edd2123de5f8fa, 0x21f2bb48632755caaa1da49183dbd11d0838a43337f2d2a11fe7447fa8fd0a8a),
  (0x5bef28252493296599b93893418a538530e7d01b71466203b64dc7ed3feabd2c, 0x3bb383dd130f5de1773286df1baea9209cb06edb3fc6fe36800dad8752ef744f),
  (0x42ac24e537ed345c88d34d8a5a080867536f5996eb0c19e12fa6897e66f8451a, 0x2092a1837f752e6930d9863a858b39a718ab1405ec2fd2f719f46ba256362bf2),
  (0x15099307682c66756b32cc043acf8a140e09f58f7add1f1fb7fc46fe5b7d5b68, 0x2233c8d712c1808a9868ef996748680797275685311731c7a9490e8af4bbd3d0),
  (0x51571e11bca537f105f55bfa7e0a357c46fb5366909720c1e4e4245b338a10ea, 0x668d2fefb52bf838627a0ddc4e159ed1071082b0912f21af03963d373432c24b),
  (0x29663209d1fc56485f42dfce23a158d054dca5b592ae2072c970732a7f9f5b54, 0x6682c3373932601288a2fe9117b60c77011d89e683d5db6af43dfb43eaa78078),
  (0x1dc789cc2d6e6490315d476830a8bc1c8a3d8dbbdfe25de2530fe841ae2e4343, 0x69e53d5afdbcc758a93f2908fdfcd9bf6fb49c44dd89fb0b4975bb8444009e80),
  (0x4399df679364af22a2c5b8ed2e734c3d081ad70e87addda60ae01cc2d03e3d3, 0x2956adde63468e848257c2ac8d9d7acf87cd318312e1c92d7ad2b248affc59f1),
  (0x593f2b75455e1a1d195d21d9545f68da4fb35da0e56569546af4f8e0b46539be, 0x679c9b8aed9bcc8fccb41cf75dc6edc4a44daa422ffc3d2f6e2e9b86c18e608f),
  (0x670836144827276019cf58f045d080cf9afdf34ff8acb4f0d57a35fd8bbd1f9f, 0xae1c6aab0aebf39d073f54be3c42b051268c59683a7f3e9df1f1dd7b8732176),
  (0x42f661d26f62ed5f000f6e465a0f1a3cba294c0daa020c09cbb8e0b6c2a570ee, 0x2f618dba2cf7d7143d8e7e2d17dcedac53a7e5a2c68641f0bfe659b0f23ce865),
  (0x354e13115f6a841f91ea3b7e6ce7f1a51c211e3d34438fcd0701a12b167b0eca, 0x1556b6338b3dced12a180893c746932ec735b65b10945d64a1e9ee6cd584149b),
  (0x5dc88de3c71c19812873e0bbabe02ed6dc7046d99cebba1348a0de5f6da5c900, 0x42f3adeefd69cacdda6f0a4e428689b84285a04aad6f602cabec2f445a5b142d),
  (0x545a518601ef0e06bbda12735a88cf1867988fa656f9a0d980bdc1a50f898cc7, 0x58849e62ece7ffe460b09f0428ac442daf33b1d2506000589137d5a0faf35d8b),
  (0x70523b5733199aeac37bb20f1d9bf4ab88077ad1aeba24ac0f7fe69da31cb498, 0x6fdf8720f695000e3f66e969320255059554c486f58d24bc09dfa5d1a92f1c85),
  (0x1b96e80bacd9316c45d69361463061013fbdfff7da166234c3d6673c0ed544e5, 0x22d4ab7735bff6c7d98e630eac74504b43488c9353128cca225a114242742dc8),
  (0x5f3b63c7a4d29bdcfd3964a86d459f5ab0e81725cee4d905b9a8190dd21f40a7, 0x20390ac0003d94bd9033fdf5ac7e5088aef2596b177bc59fa235176690d49397),
  (0x32dc0444db6dd6168223ec4f2febf8c252b24a846a545656fbe70a5986a40ba9, 0x56ccfc6050e3f873cdaecbf155e8f7e0ab1836494af212da6da5aa72dec41006),
  (0x3fdfdd3fcd97aa1b85839713f1ece0210da707bff95ff600c97419c752f3bec0, 0x3f812e4e66f756e2325941fd78722b0fa79d44fb7ace9f255169eb22e68fc521),
  (0x59eb094e6de56706241b9ca38cbd66ed18c52ceb49e9d8d34e52cf2a04852941, 0x2cc7a95f473d9845271783349dd7c37be328277335eddb14ce514b797b2b0cfd),
  (0x394d414741d1d9bc9f8ac56f71d32b5636be7f05f9c448708a4e957bc3c56fe0, 0x3ea136bfc17edd1bb2a5b447d43b2193d951db23f3760cb6cace51a18a8cab0a),
  (0x533bee0c8bb7381efa04b06a18399c76575626d391d454c3e93cccf7f47571fb, 0x1d39ed76bef9b45aecafbdf3ac05ff62aa356f053e1388c89edfcf7aa9595760),
  (0xfc2429ea0262c170210cb4a5e3305492004b725a4f4d507ddd0c557f1bb3e50, 0x28c7099a30fa4b2bfd4fe68442d90b4a21b8804e79ab78001024fa9cfb2cf5ad),
  (0x19a300b4c6dd78041b8f499c352bcf0b9e372a4b4ec69df18aab2cd2a3712bf7, 0x69daeb11370656cc7e5c302b46698e1ad7774aef63c8f9d8abed4befeb40af1c),
  (0x3242cd9f1d193f6738ace6f7c2f76509cb6d37d72538cb40c4de4a0e21273e2d, 0x71d939b8051aedfca7542ab2cad93574c0a8c25113e4ec8e8a63047f349ccd6a),
  (0x25160bc1bc9a633ce3b4d4e8672e340c85fdcc2017f67cc1a5186891001ecb85, 0x2d4237d56a354b15184c4aeb4454cf224be7414cbaef629b41f7ecf975769609),
  (0x615e9830fd4494a25eec80b938c233103fd593acc5e46ec1f053390f9d07a827, 0x217e4f66c7cf89ff63937c6fd949a5ebf401a1a0c20f813c3ba451656d976e59),
  (0x545e9838b184a1de4dce14421a42b8887217e33db975ed52a51e8829fa742899, 0x51c98a3e2a1b6b86eae8096e16318413d49897cba6deb3566eac6ba9de38f32b),
  (0x5db24efb7ca29a7a601461840420d869fa3fb9a1495a5ea9ce42c10b69a5298d, 0x1393987a74b9749daf8e2572ed6d4cbafa8537f265ac588a422dbe14ec15799c),
  (0x24ed4ad8ae747d9f33d88d749ed2959f038f731cd29bb9800a05203ffdbcec54, 0x4f412c7fdfac510a40a23ec3c6c01f42e2d18bb038edab6cd65b2a0bba327785),
  (0x5e4567946f220899661df6ce4d732937afece98ed763a69eec9ef381b81f394d, 0x3189f5fa4185c2034de588bf6b945798e294f593d171be80cac59169e5d9ffce),
  (0x5c97f4779039ae4c69bb7446ef0ebdff00b7b44743bd7b84f9bc57eaa36428e7, 0x4dd784f4ab323a157fcfd095d548b4554d704cbb20aed177580af857574632c5),
  (0x11dc836bbfcc07e036cb64fdb04525e5d7108d60442b0896e4a4ab4c840a9c9a, 0x2938b55f3cd4e2dcfa571799162e2613c83c2d62430e208b68e14733ffccb310),
  (0x59f98c6685d8928f47f58b12475ca43bd2f5a2160195bc3369341ac733f4a589, 0xe2022ac2e5b10cd4ee09e46bb4f4c35e922b97886d486dd064415df6a3753b1),
  (0x2fa7c235506d1137d6c9752ebfe79c64903c5afcf229794de0c4d8ee0df3051b, 0x24d7356e13563238f54e051e8c031ea482b088e2749aa2a83621b5a885fd3578),
  (0x34b887c2bb56e19149da0b41dcdc2f9b001478cbfc195f987201c7b6766a71ba, 0x985ab718bb423e408fbd62211b718b6d8238356de3da85f7ac7a88e653a4cbf),
  (0x1b14c5828a1d45153609bf34204f68787ca2590f92bfa60719aecd080edcd6f4, 0x16e974d7bcfe501839fcda3c5e8a4d5e30403766126eae37887110f2b3b82a77),
  (0x4fd03a220b0575da3175ffc1710afd8051eb415e3118a07686b7763d4af9b25f, 0x51252d7c7a77cd970a843537f426dabbc71e29244dd52faa2901cadb1d6c8e8e),
  (0x231dfe83d258709c5092d19dff907eae04363f8c4ef04570d3b074a78eaeeb76, 0x37e08cbc746f525de7bd2ba74a36a88963071efe3da7a3b37d3a7752244a5aa8),
  (0x2b059e7ba83e5203d0899600cfbf70de489016991dd7478f51d0d0394a9656d3, 0x39fa615ade778ea81fd4bc0d1d650e790ad73dd7ee38ae0d6ff0e8c368bfaf9f),
  (0x35628e37013be7f5f03a3e77dbba4d59b7dad9e97b40e0969a34a84d5c45faf9, 0x44b8283485c8bcf179492d1002680a34204b196e8e172896663e0ac24324111c)]

def ipaA3 : List ℕ := [
  0xc5719ea46b04c258ea23ebacd619ba5d06b721f1197b0525654e0a43216f1f1,
  0x18ae33d48d60984b1d447d759ac3374ba0d6e43e232f60a4aca9c148642de3e2,
  0x809e3ea09a9851e9f18462e65bc5cf071b2cf5cc0ae0c858e019b376dcdedf2,
  0x1460fdd45059d1442dba84e9331df896421e417bd245bcd7e4567bdb9fe4dfe3,
  0x3bcade9cca2be17af8e4da1fe171e3b12fa2c9a6fc468b8c5ae55caa984e9f3,
  0x1013c7d413530a3d3e308c5ccb78b9e0e3659eb9815c190b1c03366edb9bdbe4,
  0x1c6ae1be5a035662ccd2cb1798da5586b3d110d892f3c95d725817130db2cdd5,
  0xbc691d3d64c43364ea693d063d37b2b84acfbf73072753e53aff1021752d7e5,
  0x181dabbe1cfc8f5bdd48d28b313516d155186e16420a2590aa04d1a64969c9d6,
  0x7795bd399457c2f5f1c9b43fc2e3c7625f45934df88d1718b5cab955309d3e6,
  0x13d075bddff5c854edbed9fec98fd81bf65fcb53f12081c3e1b18c398520c5d7,
  0x32c25d35c3eb5286f92a2b79488fdc0c73bb6728e9f2da4c30966288ec0cfe7,
  0xf833fbda2ef014dfe34e17261ea996697a72891a036ddf7195e46ccc0d7c1d8,
  0x1bda59a7e99f4d738cd7202d2f4c350c68129ab0b1ce8e496fb32770f2eeb3c9,
  0xb3609bd65e83a470eaae8e5fa455ab138ee85cf4f4d3a2a510b015ffc8ebdd9,
  0x178d23a7ac98866c9d4d27a0c7a6f6570959f7ee60e4ea7ca75fe2042ea5afca,
  0x6e8d3bd28e173401f20f05992a01bfbda35e30cfe63965d88b7bbf33845b9da,
  0x133feda76f91bf65adc32f146001b7a1aaa1552c0ffb46afdf0c9c976a5cabcb,
  0x29b9dbcebdaac392f96f7cd2afadd467b7d404aad79f290c064768673fcb5db,
  0xef2b7a7328af85ebe393687f85c78ec4be8b269bf11a2e316b9572aa613a7cc,
  0x1b49d191793b44844cdb7542c5be14921c542488d0a953356d0e37ced82a99bd,
  0xaa581a6f5843157ceaf3dfb90b73a36ed300fa76e27ff164e6611bde1caa3cd,
  0x16fc9b913c347d7d5d517cb65e18d5dcbd9b81c67fbfaf68a4baf26213e195be,
  0x6584ba6b87d6a50df25456f2911fb818e776ce51d3e5b498612cc511d819fce,
  0x12af6590ff2db6766dc78429f67397275ee2df042ed60b9bdc67acf54f9891bf,
  0x20b15a67b76a349ef9b4ce2c16cbccc2fbeca22cc54b77cbdbf86e459389bcf,
  0xe622f90c226ef6f7e3d8b9d8ece5872002a3c41ddec67cf141467888b4f8dc0,
  0x1ab9497b08d73b950cdfca585c2ff417d095ae60ef8418216a69482cbd667fb1,
  0xa14f990852028688eb39311272919bca171997f8d02c4024bc1221bc70689c1,
  0x166c137acbd0748e1d55d1cbf48ab56271dd0b9e9e9a7454a21602bff91d7bb2,
  0x5c7c390481961619f299a84bf83db0742b8f6bd3c192035836ddcaf02bd85c2,
  0x121edd7a8ec9ad872dcbd93f8ce576ad132468dc4db0d087d9c2bd5334d477b3]

def ipaB3 : List ℕ := [
  0x1945546422e5d564798327c90ef486ef993b017a440a9c94ccf71a43f65efd07,
  0x15e6fb20ebfd7dc5397ffe7f66ab41b87584a3325a5c4229390b15f0cbfe6b29,
  0x342efc6a246193b882af6593d75636f264ee2302c135b3015f016e77538f32f,
  0x108206e6f65823fb17357144ecc7553bca31274346bc01b8e6984fb0da875751,
  0x1c8e99145ba272bb17961a937be366c0760c1fd65f4157d53873d7be1ca147d7,
  0xa6fa10bee2bfecf4de6ef991b7dab4aaca3319f342c91d8efaf144de3d77796,
  0x11fb4e91bca6622353217056686fa9e36dccae3a76876a3dee21d98444275f6b,
  0x4a57e0240774f7abcb3fbfe8b35db9525df5ad1343f72c8a1c97adfdcee20aa,
  0x82fa24d858a2a6b1b5414f25f5d9dfb4fd77c0f7ea637db9d050182f713a723,
  0x76f3c5bfa6f987d5f8d08566773517cb711044e9a31518cc8a37bed91487b1b,
  0xe14e011d83a1ae061b54ffe990a743bdf4a1db7bded9a101cb9b2f56c93f26f,
  0xa3dc597ee0a3490b46fad7df45e95bc02795edad1bbd011f6db32bf440bc8e5,
  0x13cb47a7fbf57e3839ec83424e1d5af7cca17691db6cae54165e21d2da783cf8,
  0x15989d561fa4a3a1fbeab7f3f3359e097609d280c7b88eea3001fd5195fde766,
  0x1a7902eaf15a2f7df3a24eee861192567a9ae4534a235818bd9c44c3513c1717,
  0xa33c910100900a46503425117c1f326b4b9b2a982ab2455050269203c1568db,
  0x1b8613ec3f639f5cc9d50255bd0fee91a2bd45275cc2651bbc7eb5d665ccdd22,
  0x50901924de780f2e7e7b35d3181ea7d498499e35a1ab8d6eed7728a1c2b22e3,
  0xf82902e11f87c7cb9ba92cc06550e6bf720f2bb2e490e39e25e3865bcf582,
  0x1699f745248630217f4dcf58ebc9628ebd028134c1ea120ad79e398a4457d157,
  0xb8427ef44fd202be789195a340f9da31463413ea839976dd47f45b36cd03378,
  0x812cb6419d485c13648b909babdd73685737e31da995db088d5ea5c4b3eb3f3,
  0x8c7f494faac02cdffd86c2ad186d00619c283d57abeb77fea53af9f2b9eddb6,
  0x9237b89e5ddaffe9bd311348eabb37575d825265e4e5ce9ca4f35633d582d08,
  0x158f271158f43e524d90bd6531609c76cab46d14aa55d568e532d95c6b2bbccd,
  0x264cd5ac283563886a0eb5adf3dddedacad59998041ec372b65a725921097bb,
  0xd0874722e42663b00a1bd9cdc9a857cdfa4da275f6b4c9097e8d5f31e29c729,
  0x8a17c161ed3295ed4b096eea5842aa94e9fc2e088bef88b7a6810cfaef44609,
  0x1378c8076a790a9818322de2aa65de13bfa5bcfdaec50f17dceea53c3a122007,
  0x503fca4e4a58baa9f1433bbc6f25fd4d5563dfe4eabbfd9a8a64bc7db0550b,
  0x17a82f6f0ba8e841abc1656414e6363d70736c32bad385d670befdba7cb2382e,
  0x6ad8476d78a35aa3b7f0061ac988d78dac61f497e894b6a345c261ac8db2285]

def ipaG3 : List (ℕ × ℕ) := [
  (0x53d9745cf5c6f050c08856463b75854706685cf0b0f25723bd2b332265bec115, 0x4ae0660fd87e0593e8ab5f5650b85e7d146d729c1524cfc5891cb3d8b96dcd39),
  (0x42062d880b74a347fd5b6ec746deda6fdf3cf40bc46c9771c095d46a6e69eea6, 0x1346243a495088ff87a2a5a5da76b26b27e414c6328def3035a2c0105845443e),
  (0x1f0524e3dbfe2633b722313edb70ec516cf48b35f907f8980813fda3892672c6, 0x63f10fa7bd027585975334a4313ef3a6b252f9325948dae40ecbe2948b97f213),
  (0x61d742deacd4a323c68ee8091f26969cbdbe7ee7363a184bf5b244fafc9113af, 0x4a2717dd2f43b0806548d9ec3cfa994619266344684294518c8d0eb9ef67cfee),
  (0x55d83719cf52931cebd3611c2a0e056de88eaeedccadb3069a00693bbce5ae61, 0x67348692788f5110d6b6478cd3bfac21c45d0f6a75217ab4f48aaeab44d9d06),
  (0x435f16c4b61f2660e38d9eccc96daa1b188d7995fc363efd122562612741b92e, 0x870de5e53f4976c12ecaa248d40c415531f0023bd4b4f6f3d07540cb460fe63),
  (0x4c55c1efe33e13ec10e8a7938c936ba273a711875305ec1294c91804d1b6a831, 0x17114e0ed303220c30b40628cbea3477af80dd8c7c7f8ee1cb1cd83986c2e52f),
  (0x119864825d4f473db6ae50a34c73e673e39a397ccd964a0cbb47b3827d6bd0ff, 0x54e3dda31c91bb798f2cc048b10b1a5eba9e34c54b2d28d562f235d6efaa3e8a),
  (0x199409a60974dadc251070b27db93c267eb89f8b092cd99a3db7708dd81a4fe0, 0x14230b1b195ab7c505d4b2517326d680d88d896a47bb6953328e7ca8253fe781),
  (0xf2aa9bf5a2d5236cfe47ad7be08359e3fdaa5dfb93975587e85f9ed0098392e, 0x65a904d985f9a90e3febabee7be371c0028af91a64ee001000cdc0d4c8ec9dc3),
  (0x6e4588aba730b882a83719a4fcc2e0b9c1dbc6dc9bbff2b382673c83288644ea, 0x4bcdb7b90510c08f7d46fd6b2bf70ea052deb7b3c4fb35b84ee0ef1dbe3d28e6),
  (0x6d63d82f9957d8092e775dede7eaa5c0de768df7751a7a2c952cd040848aea8b, 0x47b493e887ad77c34c2b1489d16d1180bdb8f902798ce28367cdfded4b095c05),
  (0x49f692f0361bcb37a8cf04e11155f104b9f2de920a5a86e2ca7fae9941612921, 0x368d9ace0fe31d014c7c46e237030823809e3aa0de36758cf0aea9d6c57cf25d),
  (0x2f0863dfff42b86faaa004e5b228f5601120bafc4052a1a13d684849a879c0e0, 0x316827c1754c60458644097a889839784801fdfd03d05abdb3f4f5ced9d85789),
  (0x47b5645f90b770de78c04064e71f8dbc1c9fb135ff5810bd4f0ac630f831f0c9, 0x102346e86a6d5bc8a312c13fd3ecf9a7f8b553ccf997a414431c1fe3d5230dd4),
  (0x4d339b7820a6ff19d3cf1fd408e7a9ab26700d6c991cb818a387380030a73cbf, 0x6a4f1231a0df9857d2f20c44aef55e13c12d6e8e78bd8bbd69698c2aedd5004f),
  (0x36c580dd18a04254100e4d5397a7e641a51a5c650e3d5eecbff7647bdbcca0d1, 0x90c368ac8702e21f1d40d4e7e49bf851e3fcf13dfd3239e600f32a4994fb2f1),
  (0x17791007efae886712c65d50536963fcaea31a395b6b9d188879441677fda2de, 0x31a803efb8d3eaf544461083fdd59975041a1dfd9fc2415e7b12bf9f16d3be76),
  (0x179b39ec61786aca8765657b81058d3a21cea1cdc6e9337b65ca27aa28561422, 0x6d533eff7754aa795aa186f4e514f8241561425413a309eece7844e5f580dfa7),
  (0x993471337a8b62e7323e0bb7a6dd6069e0cfaeba47af3c997f76c7f977ec170, 0x4aa86c9c1a0c18a6e3b4f790c66022547166352f63d08cbbc71e9453834a3905),
  (0x57efe3e1598416becc9cf93c15130e2f33459ffee3b57075b6b789b588411a02, 0x648760894f845ebc00c2a661811f26b3f8f01835aa68c867735630c6fd2fb082),
  (0x463153723bde52b54c1c77a3221e9a70acc0b20f439ea856a0d653ed15fae9e3, 0x1f99de9b143578dec1f43a80a94e35c3c1978d8bb99f325a3adaedf00ce019c3),
  (0x2492b16f4c51b6638ab7807f70f76e4e4981b53d6df1f8a88fbc93decf83bba9, 0x6e081a69a6b41cb054a559b8d6f9d2dcdc909ef849850dc0fcdd9ee6ca778512),
  (0x2ccd2b466fb40152312a225d012e0d9258c338ed66e29f692872171982699f64, 0x43923dfe32e7036021e76e101668138bc2dc82f618a93e2379adcfcdb9553013),
  (0x56427746e148d1cb6e2f7c22b806dcb340619f1b79bcf6cc1943d140e182db1e, 0x6eeb587ae97e186c6c3b12af3c01b05bed1599d3fc6baf8bdf715d38387ab180),
  (0x3bdb2003a65569b0dce0a5a2c602a49761555a599c3d0bcf5fb0677c6e3c4540, 0x2089012db98bd879297561f654167a0d85dca0347737c83a73bc726699d5aa6f),
  (0x3526d746a8cde5a75cf9e4b7f1b5fee0eb3094efa139bf6b57c39d1a5c8c385e, 0x579625a268df5541de0dc8fcfd2d97af586b7b7ead420e02dccfe88b16e63168),
  (0x41b2b8e1063da1fa22d6675a717fcbad8d618ce0e67c954e6e8204a1107371f7, 0x7354e161090327f4398d0ca6d3ba6d4eb3457d067708a7e3138c9ccf560082c0),
  (0x3ec54bd57c68417f44842c86c131aaf0ecb2883b936247ef62024c9e7cd66add, 0x19852398f33b023f8a1b672f5d4aee53876b659ef575daa98708e0a0460a2b05),
  (0x6f5d72194156640857e0473f6107a9f389ef6100f6b5b52dcb1359805826d914, 0x45a687ec364924d2376b3ca4f7e2b4bb8e0c5cb5b4e76cf221c9ca0e73c7a8cb),
  (0x446e432f19a4a22ce22eeb05329ecde62e25ae012b5e4feff5ad1f82560eb0e2, 0x266a4ba09caff2269a56f72741cfdad0d4ce224087f928872985a9afb26eb05d),
  (0x71f900edaefd796e11d0827fa18cf9fc495ae85c542f9330386d8fcd129372bc, 0x3a7fcf75493bb0cc40638a82825aaee4f4f6ed9d2f00150c2978dc7559eb16d4)]

def ipaA4 : List ℕ := [
  0x80b6ceadb03c66699da77d37154bca3bf8a2d7e8f24a95c32f49df30add3761,
  0xd501875ebbec713444061e993157ab29e20f448c90a0ceec6084be9b8a79c7e,
  0x1294c400fc79c7bfeea64bffb4d638c17cb7bb1302ef7081591bf9e06672019b,
  0x17d96f8c0d34c86c990c3615d696f6d05b4e81dd3cd4d413ec2fa7d7143c66b8,
  0x22b142538869c736a3aa29f5ef3ede3a55c1a702a133350a464f18998fe3f4,
  0x5675ccd64436a73e109944017affced18ec88713c8696c79d59fd0f475a4911,
  0xaac085874fe6b208b6f7e563970bafbf7834f3b766bfa5a306dab05f524ae2e,
  0xff0b3e385b96bcd35d5686c5b31790ad61a1605b0515decc38158fca2ef134b,
  0x15355f6e96746c79e03b52827cf23719b4b0dccfea36c17f569506f350b97868,
  0x1a7a0af9a72f6d268aa13c989eb2f5289347a39a241c2511e9a8b4e9fe83dd85,
  0x2c34cafed830e812838b0acbe0b3d36724ee363e9e8843307bf5c2b83d75ac1,
  0x807f83afe3e0f2dd29e9ac2dfcbfb4550e5aa2e23cde7c59ad30a2231a1bfde,
  0xd4ca3c60ef90fda7d0484d9018cb9542f7c70f85db34b582de6b818df6c24fb,
  0x12914f511fb41087276a6eef234d77630e1337c29798aeeac0fa660f8d368a18,
  0x17d5fadc306f1133d1d05905450e3571eca9fe8cd17e127d540e14063b00ef35,
  0x1f3c9276c2b28e6f67cd1964667d7fcbb13e56974a719e7224bb47c0546c71]

def ipaB4 : List ℕ := [
  0x1af7bfd7077c938c8bb77e7ef9ef864a60c8f60ba1bd1d58b4f0ed956df021ef,
  0x1848663ff498befa22cdab0148d4683eea005992ac08f36efde6afef69882608,
  0x1510e7ff9571433a80b7eb63367d02a50b75e57537656a9aaf8e27f588f874eb,
  0x1b7465cbc496688f90602596da3c90f7c36b7d86aad4af879dfdd3574e59dae5,
  0x13bd3775fd265c24efa0b09e7e75b74c3c9183132d2f4e9e89e342c6afd4e9c1,
  0x1c3c8ac12a8a9aea1fc8e7c21ad03ce362f3535e7135a6788a77415f48213bdc,
  0xf89a3ce5b50034c7ad82b313f6efe285dee7b39dee642fec1ed5a33cbabef4d,
  0x95d3161291d4ebe5f8e832cd0ac19888464894d8fcf12b20f2206b9c5469416,
  0x39b2b10773159cb3ec898cd5ee23f6269695d2bbf271158505faae801472ca6,
  0x631d501fbe244d8ae8e591421818379c4636c5834277d91f714a1fbf253b5dc,
  0x6e0628427abbd5c9d437ed8e713cb3fb4d99af43fcf547136eba6abb3667cbd,
  0xe8e9e2db194a65c3f00dbea69db8081c6deb6d34b5b7853185821a37558fb5f,
  0x186eab55b529f96ddc377d3584209b394d91778a3fb35e6eb6f4d9cea82ecc87,
  0xf378bece056657c0baf30e3ac564030af6339e55d33de550cfce63e04595d52,
  0x1ac300c432c879f7cdd8c0566dc89fb070de3693b4a05f4c9769f17709346dc,
  0x14b69b2a72c16266fde4b1184b2b63b5fecb86b16d2753ec0fb0747b7df05bd2]

def ipaG4 : List (ℕ × ℕ) := [
  (0x68387a7d6c2e8a50833935977beb99568323502ac5ad0ec92f65058472ebc8ec, 0x4d5396ee3d1d93d3288481c4ef27c4138c18fea61a87fa9ebd3c90ebbb1cd89d),
  (0x643543cc899f4c46d52db982467c4931a30f3f1533d8ca611bb05c1b47e71a52, 0x23680a59854ce5fda8eb83d5478af78adeef2d164203a261b25c4bc56b0ee94d),
  (0x2c42083891964be20db36c5421656121ffb16d332df35372a7af21418d9c680, 0x265c91aa823248d98f1b4b3b41ac9a6fad41c1c53fa31790e7851ddee3887548),
  (0x66b792bac282558548bb15ce05cc7f129e4ae0c2243ebd4dac5ae8f82b5df1b6, 0x1730688fbde173ec7f0566dee274f72c460438dde725457c53d748642a995886),
  (0x6ca44657da3e104436fb258c1242be6f60c3946736643cf39d22b9682808d394, 0x2a45c1ac2bdfb1a81dda6418130a14c7c4e18257609093499ecb65a2e5382c5b),
  (0x499a55c4b7014808d1a9f23350b57665255822382e57dd7985106c4d364fcf1f, 0x16a136d2890e4d29d333c061d9f41cf5ab83f218638d6237c0a8001dbbf24e2c),
  (0x41556a0a48f272f36f341ba0ffa53fb568d91598ebdb76202f63425ab91b8fea, 0x4dce10d91ba6543a3751b6c86eeec42d4cb0b626c3dbbb9038a916837d9eb4e2),
  (0x4bdda6e6c48cab35ef533d3bdc800e7b9353740e1344b542628e0e8c31327fe, 0x4709b4638659cf23e0fb33f0320436f9d356c2402f5599fbfc8b1e779bba202c),
  (0x42bf6f9fafda5fcff29f505edca1e65e3b09eeca34dadd07587b3e2b4518fe89, 0x18435fe4581bd125ec2c9adf13f3deb560a29d110f50609ce5abf27c1c3a04a0),
  (0x3efb60d0c6412f8748d3a309b02fbf83c49275d66e165cf263d1d17650ba773c, 0x3a86b45e27a00f5ca6a6f6ce6b16ed0571110858194ab8f21fe2e0cac430d0d3),
  (0x5169385a206166a9544015bf96f759ba7b78c1d0f35b72b4f8fbbdb384885c78, 0x7264c85134e448b8c0e0735457dab8e9213cd5b706e5762fbd6e91b27566fbac),
  (0x199871199b53e6cf8b6664e82e97021dded67acc5f68deb7bedea82ff32c9081, 0x4b2bfa9949f7410c9a57647fac015fef7fbebe0a8843a6fed97768fa2e044e8d),
  (0x1d22355c3c4c3b78452a191aea182fdc0b883b262a0e04ce5e8c399564339882, 0x3a0d1d441f672b10dc548ab086605843ec595a27a44fd2cfdfd2062ff3f0202a),
  (0x583f6923b307cb79922933b031b2745a2d6736853dc25bc8e3e2882b57a2a011, 0x679f2995e68726d765b4e67eb5f329c1086d955083cb47d2dfd965bd3adff523),
  (0x636c4c65fc32ee7f81cb1b3119c7c5fa0ebd240495422de2ec4401595c5b7b26, 0x2f975e2996296428678a1c325ceac24a4d52c5bf40f51897f686a9956f945846),
  (0x68a389a344217d05e841dba430635a3815e03a7f77d2833ce2dff24b3f97c067, 0x417a02b52e0cc96e39aceacad0737a6260c8a10332b4f08aca66058fa4fe7708)]

def ipaA5 : List ℕ := [
  0xf8d390cf9180c966264488f7a171189a10509b0e8d4b8af91b041201515325b,
  0x19165aff08f2f9c4295a0a2f6c851db59e76f3100f5dd4785cda855db11c5561,
  0x5a4131c4e66879fe38155cd5c8ab3e09c59556ec1cdebcfb307c2e624ac9086,
  0xf2d350e5e4174cdaa77176d4ef8c00c99cb3ecde85707987e320723c0b3b38c,
  0x18b657006e1c61fb716cd90d4166cc38973d282d0ee02361495c4b615cbad692,
  0x5440f1db38fefd72b9424ab316c6263951f8a8bc1503ab89f8988e9d04b11b7,
  0xecd310fc36add04f289e64b23da6e8f929173eae7d956816ab3cd276c5234bd,
  0x18565301d345ca32b97fa7eb16487abb90035d4a0e62724a35de1165085957c3]

def ipaB5 : List ℕ := [
  0xfb345a16ee4027fca684a1ebe8c340e4b807ea161475762f67e8d8a02f0b55e,
  0xbc92e1b53a7a607c63d0aec65eeb6e0d9b7ed86615183e3c8a5260f4dd4212,
  0x19bc0c35eb0d562a39579a45ff79ad47a6595c1e562adbc594115b57f8da2f26,
  0x8866911ab5f9b2e388393ac99d3b2b65463d89091a7edb0c89a2f76576460ec,
  0xfa6b9cda10fcddbf598ae0502a37fa55d36634ce6d76a94807a0e1b6c78d02e,
  0x5cac0cd97178a1a6c6af9f2d01cb4f170e48acc9bc3eacea1d86420d7aee96d,
  0x191c8f92124fbf5ad47c53a6df2c04a30577322b28ab398cc8ff2710996e8f60,
  0x7e29af586dfc3916d7e2f4e7c454549d0f89fc328af3666e7f6dda4b111997d]

def ipaG5 : List (ℕ × ℕ) := [
  (0x6cbfa6284b42564426f2611840fb26b7e6afdccf038cd752aaa5a46d716194fb, 0x63ee138d18ff1a556221b88992d2fa78d61c361e1ba313be2e0730281d1c1b1c),
  (0x32ad5be4e20508302cbdf7eaea9aa6a5e6eeca0fd3d78cf894c20b7b397ee4bb, 0x366f3fbe5f610c2b8446b624df51138a6002925d899826ed6fc7e329ae3f441),
  (0x6b25190977b010695c4af76969d6e3f40836479b85d7dd61542c46914d1965d6, 0x1257ab379bcef8b937b2ab835e58f34ede63fec4b7c6802bce272e6979425891),
  (0x61e2d4394fb506f4b427046790655e17edfd2bcb4329cb1f21d0dd584bbc0636, 0x4d128664aee94519aa7f0efef2c54e83e84ae88396c4e578a9fa8ef10ca72e08),
  (0x6d16735d30d93c69c770505fd0b69f7cb4e4816ffbec46368cedea027e16a47f, 0x39109314d10c70de53b56331f4f228bc07b298aa7ad64e3ad1c5b1ee49bbf4b8),
  (0x3167dcfa5dedf05ce2c68055aac5177e84811e5a801dbb10fbfc4b84b11cb0ac, 0x1f98c3a6ccdb9e877eb662732874adf7fe57f5f633a3fef41a43c86889763c4),
  (0x5660e81ea774d4cf21fb31046dc02d45fc6b1fae5a2ed6e30ce8c542735ee828, 0x591ff0416ae90a6481bdc383880899d8b6868a3492264eb419ad607531bfcaf9),
  (0x19edb5361df1bac8de307e971764f0cca91abab6ab39dcc330c045dc6366b0b2, 0x26d1ce30039db0a00e6007b8b45adf6fe3671a1fe4a4e949d3a48c55536c8e1d)]

def ipaA6 : List ℕ := [
  0x2edf3133ffa3951c26c4fd5bd113fbb6dd460bfd1ccb61f06175fda58aad096,
  0x177c38c1856ab78ef02793987b2d338d7fa2ba46fcbc67e4fb247df0c8f06fa6,
  0xf0f149b0073d67a1114615936e0b15e91e18ccdb39315397b34955210bf26d5,
  0x6a1f0747b7cf56532012f19f2942f2fa4205f546a69c28dfb44acb3588dde04]

def ipaB6 : List ℕ := [
  0x195007c09d37f3797ab4ca6884a844a3c18b2cda2aecc00fe1767c4eed0e8c40,
  0x17fefb99abde2f76d9259d56975f4f654b7889ea8f04bf3ab636f7d4927c9d31,
  0x4833e4e8fd4c442228a3e602a669fe2804b39bc895842c451615de6eb641a24,
  0x166a4bf5e9f5c65b8903888036fe0bb0237c476f8b20ebec328ca8a3e2b3ba0e]

def ipaG6 : List (ℕ × ℕ) := [
  (0x25d3b863774ed40b59074ddb5766566466f88717d6de5a702ca8b2f0aa664edb, 0x1cc94fe78b2c433c4a6a7a323addf3fa746490dd3b59a24b2e7ece26e11d3a01),
  (0x2209c7c8b2fcebc17a2ac7b207be617480bc482406f91c08c21b784f6d1781d2, 0x589fce3e9327eaff03dee96bd0bbe948984fbfcbdb4c2f5ae3d885f1b9bca2ed),
  (0x873221e5f687b1ee74ab352457fe3f68da4b34f8734abeb2b2541305b38f3bf, 0x27ec11d24365927b7bd35f1f8be0238a2c25f4249699055a08c6ed955d46649b),
  (0x8085f3c3a810f5fcb00c40fe78ee1c67c4f388b2b8dc98eb9e44f7c09ded698, 0x5a740d86b5c0c4e828f709a3e35b84210e9079abc3890c2fab50314b3ac297fd)]

def ipaA7 : List ℕ := [
  0x11095ad7ab7ad8dab4b0c7fbdd2fb6af3b5fa1a3b5a4f5d4d30afa78a0c6bef4,
  0x14062615843d0299009b431a9be14df18280f127fee003ad11de6939ce36f76c]

def ipaB7 : List ℕ := [
  0x256bb144090b49b04e6aa57d62b8069e0252f8ae724dd37706e2086e6d594d2,
  0x40f07fa70745376c80d71dabd3143205c978f30288dc10210766ecf9655320f]

def ipaG7 : List (ℕ × ℕ) := [
  (0x313402d2b8b10e41cf0f14ea77a81965e612aa205005d7e5f0f0357170113bf2, 0x2788b98fc64be8a75ab1a3f6259c44bdf7863ce3fde0ae10698ab1d2c59ab6b0),
  (0x5ae278b94c326fbfcb9f2cdf1f3a4ba6f6e8e5e0934c2e6213014c4a7ca7dc5b, 0x72bca1199f2d3521b5bd530dfa5d9df9bae3e10eb36065b1f71934b5fb810881)]

def ipaA8 : List ℕ := [
  0x15c1de9924a43544e7cb3ba890d8567bd18e4abac36bf6f35ba6e9f6ec0d2982]

def ipaB8 : List ℕ := [
  0xac188d873be39326c3412a627cdd073d036fe0c1c6b68fb3cc639c7d71a180]

def ipaG8 : List (ℕ × ℕ) := [
  (0x232e4c0a4424a8562fec6331c30e1d61a30a9b40c6c057e6a8adfe4947f7c961, 0x84a42ef2d46bb1dbe0ac9eb2f767c800572e50e6737d09f03195a638e08b241)]

def ipaQ : Tri := ⟨0x3befe62169e637a738a1de9a7aecd7957df248b5c58404953409cc6b73d73838, 0x7faeed5d47da63431ca06a5c248c410c38bfab3c6a1a3506132b1de025b9ef, 1⟩

def ipaX : List ℕ := [
  0xedc1654a5b53640a0ad0d63ccffa6e9a8972111bd2f179bd0f04418700fbcf4,
  0x11d94202ee69d45a70110df3a24762def7f15e53ee7ee11807fd25947654046c,
  0x63ed3c8b71e5974eefd3530a1715d91ad8e3adcadc68bc21ff76d4f40ab6281,
  0x8b0a23537604e31e0ae61d4116cebb320ebc7608704bc01571d9cec9e800143,
  0x9396fd42e7448af1ec4f5bdb3ac14747c8383281537555dac714fe243ed4428,
  0x860e7ca0320ccab1f9b9f3e87a1d56ac6430d3bf68de287bba915be273fc92e,
  0x122203eee1c9095ac39311e1d30a375623e9b01e957d3e8c84e3a801c89a27a3,
  0x6c87290f514a163610714341322b14a36569ae3f11568984c0036ed005f3fb7,
  0x1ebb7bd8059f6dae907197c33d7f3a716541eb1a9b1e05694d62e5cd4687185]

def ipaXi : List ℕ := [
  0x0,
  0x1141da4f7c6f1d90e96e524c702f6ca1e8bb4e4f6f5133f3333aafdefd3f8512,
  0x6ad448416fa1f53d0d8ba06771e9cca8d7f697b8305cb62897512293e301f4e,
  0x1463f901d37726310aa277c342a63c137206f70e389abacd58e0c884820a4fb9,
  0x140a0bc5c3e4a03de27634744d2002b7d5da5a9cd5d4cba7cfce9b75c664198e,
  0x3a7d91113f059d79fd842eeca6c33ac60ea860e30b70cec0980c974a003cc7e,
  0x10b9971b841640c47dcd13f18323aa02db07ca38f629f200bb36b9a9f0864330,
  0x1931a2703719c5c5ea9bd93f177588f8711f76ef760996cbd2c4660aa5c0259b,
  0xe4ea33ef65c448f4428918a7c6b58ec27e69500914905b83a68283505a5deca]

noncomputable def ipaL0 : Lit := ipaL.get ⟨0, by decide⟩

noncomputable def ipaR0 : Lit := ipaR.get ⟨0, by decide⟩

noncomputable def ipaL1 : Lit := ipaL.get ⟨1, by decide⟩

noncomputable def ipaR1 : Lit := ipaR.get ⟨1, by decide⟩

noncomputable def ipaL2 : Lit := ipaL.get ⟨2, by decide⟩

noncomputable def ipaR2 : Lit := ipaR.get ⟨2, by decide⟩

noncomputable def ipaL3 : Lit := ipaL.get ⟨3, by decide⟩

noncomputable def ipaR3 : Lit := ipaR.get ⟨3, by decide⟩

noncomputable def ipaL4 : Lit := ipaL.get ⟨4, by decide⟩

noncomputable def ipaR4 : Lit := ipaR.get ⟨4, by decide⟩

noncomputable def ipaL5 : Lit := ipaL.get ⟨5, by decide⟩

noncomputable def ipaR5 : Lit := ipaR.get ⟨5, by decide⟩

noncomputable def ipaL6 : Lit := ipaL.get ⟨6, by decide⟩

noncomputable def ipaR6 : Lit := ipaR.get ⟨6, by decide⟩

noncomputable def ipaL7 : Lit := ipaL.get ⟨7, by decide⟩

noncomputable def ipaR7 : Lit := ipaR.get ⟨7, by decide⟩

/-! Round 1. -/

theorem ipa_L0 : sumOk (ipaA0.drop (ipaA0.length / 2)) (ipaB0.take (ipaB0.length / 2)) ((crsTri.take 256).take ((crsTri.take 256).length / 2)) ipaQ ipaL0 = true := by
  decide +kernel

theorem ipa_R0 : sumOk (ipaA0.take (ipaA0.length / 2)) (ipaB0.drop (ipaB0.length / 2)) ((crsTri.take 256).drop ((crsTri.take 256).length / 2)) ipaQ ipaR0 = true := by
  decide +kernel

theorem ipa_x0 : leNat (Sha256.hash (after (lbl "w") 0xedc1654a5b53640a0ad0d63ccffa6e9a8972111bd2f179bd0f04418700fbcf4 ++ lbl "L" ++ ipaL0.tri.bytes ++ lbl "R" ++ ipaR0.tri.bytes ++ lbl "x")) % r =
    0x11d94202ee69d45a70110df3a24762def7f15e53ee7ee11807fd25947654046c := by
  decide +kernel

theorem ipa_xi0 : 0x11d94202ee69d45a70110df3a24762def7f15e53ee7ee11807fd25947654046c * 0x1141da4f7c6f1d90e96e524c702f6ca1e8bb4e4f6f5133f3333aafdefd3f8512 % r = 1 := by
  decide +kernel

theorem ipa_a0 : foldN 0x11d94202ee69d45a70110df3a24762def7f15e53ee7ee11807fd25947654046c ipaA0 = ipaA1 := by
  decide +kernel

theorem ipa_b0 : foldN 0x1141da4f7c6f1d90e96e524c702f6ca1e8bb4e4f6f5133f3333aafdefd3f8512 ipaB0 = ipaB1 := by
  decide +kernel

theorem ipa_g0_0 : foldOk ((0x1141da4f7c6f1d90e96e524c702f6ca1e8bb4e4f6f5133f3333aafdefd3f8512 : ℕ) : ZMod r) (((crsTri.take 256).take ((crsTri.take 256).length / 2)).take 32)
    (((crsTri.take 256).drop ((crsTri.take 256).length / 2)).take 32) ((pts ipaG1).take 32) = true := by
  decide +kernel

theorem ipa_g0_1 : foldOk ((0x1141da4f7c6f1d90e96e524c702f6ca1e8bb4e4f6f5133f3333aafdefd3f8512 : ℕ) : ZMod r) ((((crsTri.take 256).take ((crsTri.take 256).length / 2)).drop 32).take 32)
    ((((crsTri.take 256).drop ((crsTri.take 256).length / 2)).drop 32).take 32) (((pts ipaG1).drop 32).take 32) = true := by
  decide +kernel

theorem ipa_g0_2 : foldOk ((0x1141da4f7c6f1d90e96e524c702f6ca1e8bb4e4f6f5133f3333aafdefd3f8512 : ℕ) : ZMod r) (((((crsTri.take 256).take ((crsTri.take 256).length / 2)).drop 32).drop 32).take 32)
    (((((crsTri.take 256).drop ((crsTri.take 256).length / 2)).drop 32).drop 32).take 32) ((((pts ipaG1).drop 32).drop 32).take 32) = true := by
  decide +kernel

theorem ipa_g0_3 : foldOk ((0x1141da4f7c6f1d90e96e524c702f6ca1e8bb4e4f6f5133f3333aafdefd3f8512 : ℕ) : ZMod r) (((((crsTri.take 256).take ((crsTri.take 256).length / 2)).drop 32).drop 32).drop 32)
    (((((crsTri.take 256).drop ((crsTri.take 256).length / 2)).drop 32).drop 32).drop 32) ((((pts ipaG1).drop 32).drop 32).drop 32) = true := by
  decide +kernel

theorem ipa_g0 : foldOk ((0x1141da4f7c6f1d90e96e524c702f6ca1e8bb4e4f6f5133f3333aafdefd3f8512 : ℕ) : ZMod r) ((crsTri.take 256).take ((crsTri.take 256).length / 2)) ((crsTri.take 256).drop ((crsTri.take 256).length / 2)) (pts ipaG1) = true :=
  (foldOk_split 32 ipa_g0_0 (foldOk_split 32 ipa_g0_1 (foldOk_split 32 ipa_g0_2 ipa_g0_3)))

/-! Round 2. -/

theorem ipa_L1 : sumOk (ipaA1.drop (ipaA1.length / 2)) (ipaB1.take (ipaB1.length / 2)) ((pts ipaG1).take ((pts ipaG1).length / 2)) ipaQ ipaL1 = true := by
  decide +kernel

theorem ipa_R1 : sumOk (ipaA1.take (ipaA1.length / 2)) (ipaB1.drop (ipaB1.length / 2)) ((pts ipaG1).drop ((pts ipaG1).length / 2)) ipaQ ipaR1 = true := by
  decide +kernel

theorem ipa_x1 : leNat (Sha256.hash (after (lbl "x") 0x11d94202ee69d45a70110df3a24762def7f15e53ee7ee11807fd25947654046c ++ lbl "L" ++ ipaL1.tri.bytes ++ lbl "R" ++ ipaR1.tri.bytes ++ lbl "x")) % r =
    0x63ed3c8b71e5974eefd3530a1715d91ad8e3adcadc68bc21ff76d4f40ab6281 := by
  decide +kernel

theorem ipa_xi1 : 0x63ed3c8b71e5974eefd3530a1715d91ad8e3adcadc68bc21ff76d4f40ab6281 * 0x6ad448416fa1f53d0d8ba06771e9cca8d7f697b8305cb62897512293e301f4e % r = 1 := by
  decide +kernel

theorem ipa_a1 : foldN 0x63ed3c8b71e5974eefd3530a1715d91ad8e3adcadc68bc21ff76d4f40ab6281 ipaA1 = ipaA2 := by
  decide +kernel

theorem ipa_b1 : foldN 0x6ad448416fa1f53d0d8ba06771e9cca8d7f697b8305cb62897512293e301f4e ipaB1 = ipaB2 := by
  decide +kernel

theorem ipa_g1_0 : foldOk ((0x6ad448416fa1f53d0d8ba06771e9cca8d7f697b8305cb62897512293e301f4e : ℕ) : ZMod r) (((pts ipaG1).take ((pts ipaG1).length / 2)).take 32)
    (((pts ipaG1).drop ((pts ipaG1).length / 2)).take 32) ((pts ipaG2).take 32) = true := by
  decide +kernel

theorem ipa_g1_1 : foldOk ((0x6ad448416fa1f53d0d8ba06771e9cca8d7f697b8305cb62897512293e301f4e : ℕ) : ZMod r) (((pts ipaG1).take ((pts ipaG1).length / 2)).drop 32)
    (((pts ipaG1).drop ((pts ipaG1).length / 2)).drop 32) ((pts ipaG2).drop 32) = true := by
  decide +kernel

theorem ipa_g1 : foldOk ((0x6ad448416fa1f53d0d8ba06771e9cca8d7f697b8305cb62897512293e301f4e : ℕ) : ZMod r) ((pts ipaG1).take ((pts ipaG1).length / 2)) ((pts ipaG1).drop ((pts ipaG1).length / 2)) (pts ipaG2) = true :=
  (foldOk_split 32 ipa_g1_0 ipa_g1_1)

/-! Round 3. -/

theorem ipa_L2 : sumOk (ipaA2.drop (ipaA2.length / 2)) (ipaB2.take (ipaB2.length / 2)) ((pts ipaG2).take ((pts ipaG2).length / 2)) ipaQ ipaL2 = true := by
  decide +kernel

theorem ipa_R2 : sumOk (ipaA2.take (ipaA2.length / 2)) (ipaB2.drop (ipaB2.length / 2)) ((pts ipaG2).drop ((pts ipaG2).length / 2)) ipaQ ipaR2 = true := by
  decide +kernel

theorem ipa_x2 : leNat (Sha256.hash (after (lbl "x") 0x63ed3c8b71e5974eefd3530a1715d91ad8e3adcadc68bc21ff76d4f40ab6281 ++ lbl "L" ++ ipaL2.tri.bytes ++ lbl "R" ++ ipaR2.tri.bytes ++ lbl "x")) % r =
    0x8b0a23537604e31e0ae61d4116cebb320ebc7608704bc01571d9cec9e800143 := by
  decide +kernel

theorem ipa_xi2 : 0x8b0a23537604e31e0ae61d4116cebb320ebc7608704bc01571d9cec9e800143 * 0x1463f901d37726310aa277c342a63c137206f70e389abacd58e0c884820a4fb9 % r = 1 := by
  decide +kernel

theorem ipa_a2 : foldN 0x8b0a23537604e31e0ae61d4116cebb320ebc7608704bc01571d9cec9e800143 ipaA2 = ipaA3 := by
  decide +kernel

theorem ipa_b2 : foldN 0x1463f901d37726310aa277c342a63c137206f70e389abacd58e0c884820a4fb9 ipaB2 = ipaB3 := by
  decide +kernel

theorem ipa_g2 : foldOk ((0x1463f901d37726310aa277c342a63c137206f70e389abacd58e0c884820a4fb9 : ℕ) : ZMod r) ((pts ipaG2).take ((pts ipaG2).length / 2)) ((pts ipaG2).drop ((pts ipaG2).length / 2)) (pts ipaG3) = true := by
  decide +kernel

/-! Round 4. -/

theorem ipa_L3 : sumOk (ipaA3.drop (ipaA3.length / 2)) (ipaB3.take (ipaB3.length / 2)) ((pts ipaG3).take ((pts ipaG3).length / 2)) ipaQ ipaL3 = true := by
  decide +kernel

theorem ipa_R3 : sumOk (ipaA3.take (ipaA3.length / 2)) (ipaB3.drop (ipaB3.length / 2)) ((pts ipaG3).drop ((pts ipaG3).length / 2)) ipaQ ipaR3 = true := by
  decide +kernel

theorem ipa_x3 : leNat (Sha256.hash (after (lbl "x") 0x8b0a23537604e31e0ae61d4116cebb320ebc7608704bc01571d9cec9e800143 ++ lbl "L" ++ ipaL3.tri.bytes ++ lbl "R" ++ ipaR3.tri.bytes ++ lbl "x")) % r =
    0x9396fd42e7448af1ec4f5bdb3ac14747c8383281537555dac714fe243ed4428 := by
  decide +kernel

theorem ipa_xi3 : 0x9396fd42e7448af1ec4f5bdb3ac14747c8383281537555dac714fe243ed4428 * 0x140a0bc5c3e4a03de27634744d2002b7d5da5a9cd5d4cba7cfce9b75c664198e % r = 1 := by
  decide +kernel

theorem ipa_a3 : foldN 0x9396fd42e7448af1ec4f5bdb3ac14747c8383281537555dac714fe243ed4428 ipaA3 = ipaA4 := by
  decide +kernel

theorem ipa_b3 : foldN 0x140a0bc5c3e4a03de27634744d2002b7d5da5a9cd5d4cba7cfce9b75c664198e ipaB3 = ipaB4 := by
  decide +kernel

theorem ipa_g3 : foldOk ((0x140a0bc5c3e4a03de27634744d2002b7d5da5a9cd5d4cba7cfce9b75c664198e : ℕ) : ZMod r) ((pts ipaG3).take ((pts ipaG3).length / 2)) ((pts ipaG3).drop ((pts ipaG3).length / 2)) (pts ipaG4) = true := by
  decide +kernel

/-! Round 5. -/

theorem ipa_L4 : sumOk (ipaA4.drop (ipaA4.length / 2)) (ipaB4.take (ipaB4.length / 2)) ((pts ipaG4).take ((pts ipaG4).length / 2)) ipaQ ipaL4 = true := by
  decide +kernel

theorem ipa_R4 : sumOk (ipaA4.take (ipaA4.length / 2)) (ipaB4.drop (ipaB4.length / 2)) ((pts ipaG4).drop ((pts ipaG4).length / 2)) ipaQ ipaR4 = true := by
  decide +kernel

theorem ipa_x4 : leNat (Sha256.hash (after (lbl "x") 0x9396fd42e7448af1ec4f5bdb3ac14747c8383281537555dac714fe243ed4428 ++ lbl "L" ++ ipaL4.tri.bytes ++ lbl "R" ++ ipaR4.tri.bytes ++ lbl "x")) % r =
    0x860e7ca0320ccab1f9b9f3e87a1d56ac6430d3bf68de287bba915be273fc92e := by
  decide +kernel

theorem ipa_xi4 : 0x860e7ca0320ccab1f9b9f3e87a1d56ac6430d3bf68de287bba915be273fc92e * 0x3a7d91113f059d79fd842eeca6c33ac60ea860e30b70cec0980c974a003cc7e % r = 1 := by
  decide +kernel

theorem ipa_a4 : foldN 0x860e7ca0320ccab1f9b9f3e87a1d56ac6430d3bf68de287bba915be273fc92e ipaA4 = ipaA5 := by
  decide +kernel

theorem ipa_b4 : foldN 0x3a7d91113f059d79fd842eeca6c33ac60ea860e30b70cec0980c974a003cc7e ipaB4 = ipaB5 := by
  decide +kernel

theorem ipa_g4 : foldOk ((0x3a7d91113f059d79fd842eeca6c33ac60ea860e30b70cec0980c974a003cc7e : ℕ) : ZMod r) ((pts ipaG4).take ((pts ipaG4).length / 2)) ((pts ipaG4).drop ((pts ipaG4).length / 2)) (pts ipaG5) = true := by
  decide +kernel

/-! Round 6. -/

theorem ipa_L5 : sumOk (ipaA5.drop (ipaA5.length / 2)) (ipaB5.take (ipaB5.length / 2)) ((pts ipaG5).take ((pts ipaG5).length / 2)) ipaQ ipaL5 = true := by
  decide +kernel

theorem ipa_R5 : sumOk (ipaA5.take (ipaA5.length / 2)) (ipaB5.drop (ipaB5.length / 2)) ((pts ipaG5).drop ((pts ipaG5).length / 2)) ipaQ ipaR5 = true := by
  decide +kernel

theorem ipa_x5 : leNat (Sha256.hash (after (lbl "x") 0x860e7ca0320ccab1f9b9f3e87a1d56ac6430d3bf68de287bba915be273fc92e ++ lbl "L" ++ ipaL5.tri.bytes ++ lbl "R" ++ ipaR5.tri.bytes ++ lbl "x")) % r =
    0x122203eee1c9095ac39311e1d30a375623e9b01e957d3e8c84e3a801c89a27a3 := by
  decide +kernel

theorem ipa_xi5 : 0x122203eee1c9095ac39311e1d30a375623e9b01e957d3e8c84e3a801c89a27a3 * 0x10b9971b841640c47dcd13f18323aa02db07ca38f629f200bb36b9a9f0864330 % r = 1 := by
  decide +kernel

theorem ipa_a5 : foldN 0x122203eee1c9095ac39311e1d30a375623e9b01e957d3e8c84e3a801c89a27a3 ipaA5 = ipaA6 := by
  decide +kernel

theorem ipa_b5 : foldN 0x10b9971b841640c47dcd13f18323aa02db07ca38f629f200bb36b9a9f0864330 ipaB5 = ipaB6 := by
  decide +kernel

theorem ipa_g5 : foldOk ((0x10b9971b841640c47dcd13f18323aa02db07ca38f629f200bb36b9a9f0864330 : ℕ) : ZMod r) ((pts ipaG5).take ((pts ipaG5).length / 2)) ((pts ipaG5).drop ((pts ipaG5).length / 2)) (pts ipaG6) = true := by
  decide +kernel

/-! Round 7. -/

theorem ipa_L6 : sumOk (ipaA6.drop (ipaA6.length / 2)) (ipaB6.take (ipaB6.length / 2)) ((pts ipaG6).take ((pts ipaG6).length / 2)) ipaQ ipaL6 = true := by
  decide +kernel

theorem ipa_R6 : sumOk (ipaA6.take (ipaA6.length / 2)) (ipaB6.drop (ipaB6.length / 2)) ((pts ipaG6).drop ((pts ipaG6).length / 2)) ipaQ ipaR6 = true := by
  decide +kernel

theorem ipa_x6 : leNat (Sha256.hash (after (lbl "x") 0x122203eee1c9095ac39311e1d30a375623e9b01e957d3e8c84e3a801c89a27a3 ++ lbl "L" ++ ipaL6.tri.bytes ++ lbl "R" ++ ipaR6.tri.bytes ++ lbl "x")) % r =
    0x6c87290f514a163610714341322b14a36569ae3f11568984c0036ed005f3fb7 := by
  decide +kernel

theorem ipa_xi6 : 0x6c87290f514a163610714341322b14a36569ae3f11568984c0036ed005f3fb7 * 0x1931a2703719c5c5ea9bd93f177588f8711f76ef760996cbd2c4660aa5c0259b % r = 1 := by
  decide +kernel

theorem ipa_a6 : foldN 0x6c87290f514a163610714341322b14a36569ae3f11568984c0036ed005f3fb7 ipaA6 = ipaA7 := by
  decide +kernel

theorem ipa_b6 : foldN 0x1931a2703719c5c5ea9bd93f177588f8711f76ef760996cbd2c4660aa5c0259b ipaB6 = ipaB7 := by
  decide +kernel

theorem ipa_g6 : foldOk ((0x1931a2703719c5c5ea9bd93f177588f8711f76ef760996cbd2c4660aa5c0259b : ℕ) : ZMod r) ((pts ipaG6).take ((pts ipaG6).length / 2)) ((pts ipaG6).drop ((pts ipaG6).length / 2)) (pts ipaG7) = true := by
  decide +kernel

/-! Round 8. -/

theorem ipa_L7 : sumOk (ipaA7.drop (ipaA7.length / 2)) (ipaB7.take (ipaB7.length / 2)) ((pts ipaG7).take ((pts ipaG7).length / 2)) ipaQ ipaL7 = true := by
  decide +kernel

theorem ipa_R7 : sumOk (ipaA7.take (ipaA7.length / 2)) (ipaB7.drop (ipaB7.length / 2)) ((pts ipaG7).drop ((pts ipaG7).length / 2)) ipaQ ipaR7 = true := by
  decide +kernel

theorem ipa_x7 : leNat (Sha256.hash (after (lbl "x") 0x6c87290f514a163610714341322b14a36569ae3f11568984c0036ed005f3fb7 ++ lbl "L" ++ ipaL7.tri.bytes ++ lbl "R" ++ ipaR7.tri.bytes ++ lbl "x")) % r =
    0x1ebb7bd8059f6dae907197c33d7f3a716541eb1a9b1e05694d62e5cd4687185 := by
  decide +kernel

theorem ipa_xi7 : 0x1ebb7bd8059f6dae907197c33d7f3a716541eb1a9b1e05694d62e5cd4687185 * 0xe4ea33ef65c448f4428918a7c6b58ec27e69500914905b83a68283505a5deca % r = 1 := by
  decide +kernel

theorem ipa_a7 : foldN 0x1ebb7bd8059f6dae907197c33d7f3a716541eb1a9b1e05694d62e5cd4687185 ipaA7 = ipaA8 := by
  decide +kernel

theorem ipa_b7 : foldN 0xe4ea33ef65c448f4428918a7c6b58ec27e69500914905b83a68283505a5deca ipaB7 = ipaB8 := by
  decide +kernel

theorem ipa_g7 : foldOk ((0xe4ea33ef65c448f4428918a7c6b58ec27e69500914905b83a68283505a5deca : ℕ) : ZMod r) ((pts ipaG7).take ((pts ipaG7).length / 2)) ((pts ipaG7).drop ((pts ipaG7).length / 2)) (pts ipaG8) = true := by
  decide +kernel

/-- The rounds together. -/
theorem ipa_go (Q : BElem) (hQ : ipaQ.R Q) : Go Q 8 ipaA0 ipaB0 (crsTri.take 256) (after (lbl "w") 0xedc1654a5b53640a0ad0d63ccffa6e9a8972111bd2f179bd0f04418700fbcf4) ipaL ipaR ipaa
    (after (lbl "x") 0x1ebb7bd8059f6dae907197c33d7f3a716541eb1a9b1e05694d62e5cd4687185) := by
  have h8 : Go Q 0 ipaA8 ipaB8 (pts ipaG8) (after (lbl "x") 0x1ebb7bd8059f6dae907197c33d7f3a716541eb1a9b1e05694d62e5cd4687185) [] [] ipaa (after (lbl "x") 0x1ebb7bd8059f6dae907197c33d7f3a716541eb1a9b1e05694d62e5cd4687185) := go_last Q _ _ _ _
  have h7 := go_step hQ ipa_L7 ipa_R7 ipa_x7 ipa_xi7 ipa_a7 ipa_b7 ipa_g7 h8
  have h6 := go_step hQ ipa_L6 ipa_R6 ipa_x6 ipa_xi6 ipa_a6 ipa_b6 ipa_g6 h7
  have h5 := go_step hQ ipa_L5 ipa_R5 ipa_x5 ipa_xi5 ipa_a5 ipa_b5 ipa_g5 h6
  have h4 := go_step hQ ipa_L4 ipa_R4 ipa_x4 ipa_xi4 ipa_a4 ipa_b4 ipa_g4 h5
  have h3 := go_step hQ ipa_L3 ipa_R3 ipa_x3 ipa_xi3 ipa_a3 ipa_b3 ipa_g3 h4
  have h2 := go_step hQ ipa_L2 ipa_R2 ipa_x2 ipa_xi2 ipa_a2 ipa_b2 ipa_g2 h3
  have h1 := go_step hQ ipa_L1 ipa_R1 ipa_x1 ipa_xi1 ipa_a1 ipa_b1 ipa_g1 h2
  have h0 := go_step hQ ipa_L0 ipa_R0 ipa_x0 ipa_xi0 ipa_a0 ipa_b0 ipa_g0 h1
  exact h0

/-- The coefficients at the point of the test. -/
theorem ipa_coeffs : lagrangeCoeffs tables 256 2101 = .ok (scal ipaB0) := by
  have h : (match lagrangeCoeffs tables 256 2101 with
    | .ok b => decide (b.map ZMod.val = ipaB0)
    | .error _ => false) = true := by decide +kernel
  cases hb : lagrangeCoeffs tables 256 2101 with
  | error e => rw [hb] at h; exact absurd h Bool.false_ne_true
  | ok b =>
    rw [hb] at h
    have h : b.map ZMod.val = ipaB0 := of_decide_eq_true h
    rw [← h, scal_val]

theorem ipa_polyA : polyA = scal ipaA0 := by
  unfold polyA scal ipaA0
  rw [List.map_map]
  rfl

/-- The prover of the test writes the expected bytes (`multiproof.rs:456`) and its final challenge is the one at
`multiproof.rs:422-425`. -/
theorem ipa_prover : ∃ W b p t, Weights.new (ZMod r) 256 = .ok W ∧ lagrangeCoeffs W 256 2101 = .ok b ∧
    create shaOracle (newTranscript (lbl "test")) crsE polyA (lin polyA crsE.gens) b 2101 = .ok (p, t) ∧
    ipaToBytes codec p = ipaBytes ∧
    hexS (challenge shaOracle t (lbl "state")).1 = 0x0a81881cbfd7d7197a54ebd67ed6a68b5867f3c783706675b34ece43e85e7306 := by
  refine ⟨tables, scal ipaB0, litProof ipaL ipaR ipaa, after (lbl "x") 0x1ebb7bd8059f6dae907197c33d7f3a716541eb1a9b1e05694d62e5cd4687185, weights_eq, ipa_coeffs, ?_, ?_, ?_⟩
  · have h := create_go (t := newTranscript (lbl "test")) (z := 2101) (y := innerN ipaA0 ipaB0) (w := 0xedc1654a5b53640a0ad0d63ccffa6e9a8972111bd2f179bd0f04418700fbcf4) (by decide +kernel) (by decide +kernel)
      commA_R rfl (by decide +kernel) (by decide +kernel) ipa_go
    rw [← ipa_polyA] at h
    exact_mod_cast h
  · rw [ipaToBytes_lit]
    decide +kernel
  · rw [hexS, challenge_val]
    decide +kernel

end Verif.Vectors
