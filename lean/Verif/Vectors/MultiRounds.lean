import Verif.Vectors.Rounds

/-!
# Test vectors of the repository: the prover of the multipoint argument, the rounds

The rounds of the inner product argument in `multiproof_consistency` of `/repo/ipa-multipoint/src/multiproof.rs`.
-/

set_option autoImplicit false

namespace Verif.Vectors
open Proof Bander Ipa Wire
open scoped Classical

def multiA0 : List ℕ := [
  0x5b603fabcde6f737bea1b1539da74c422ec6c7cf1666356b64a3986640f53,
  0x4b2a0b9432b574d4a2fab2b49bff060e52bcc232e9deeb54af4247b4db6bc41,
  0xb5f789e36b8c4aa88d95eb4a876bbf0dbf696788d9824f36315a026188d3157,
  0x120c50832a463207c783123e072d8780d2c160cdec925b317b371bd0e363a66d,
  0x18b928681dd39f65062cc5c765e45310c98c2b234b8c916f9358977bae3a1b83,
  0x26a967846f9ad703808034ec232a89fc0c76e78366dc33c367d0c715099a8b8,
  0x9176e5d3a871acd76b1b6d820e9742fb79238cd9567f97a4e9e881c1b701dce,
  0xfc446422e14882ab55b6a617fa03fbfae5d0322f4622fb866c003c6e64692e4,
  0x16711e2721a1f587f4051deade570b4fa527cd78535c65f67ee17f71b11d07fa,
  0x228c374ac8039325e05b723aa560de9c6310cd3e3d97c32205f467537c952f,
  0x6cf641c3e5570f0648a0efb995c2c6e932ddb229d37ce013a2770121e530a45,
  0xd7c3c0131e2de4da333c284f812f7fe89f8a577fc32043f5248ebbce9297f5b,
  0x142913e625704baae1dd760e56c9c38e80c36fcd5b2c3a7d6a6a6767b3fff471,
  0x1ad5ebcb18fdb90820872997b5808f1e778e3a22ba2670bb828be3127ed66987,
  0x48759db4223c7135262671f11cee4ad6ec97d77a507a28825b058082135f6bc,
  0xb3431c035b13470910c1aa87085b03d659447cd0401d8c63dd1d3b2ec0c6bd2,
  0x11e109a5293ea1cdcfb5ce31cf3c7bcd5c5f122262fc0f0455f34f5db6e2e0e8,
  0x188de18a1ccc0f2b0e5f81bb2df3475d5329dc77c1f645426e14cb0881b955fe,
  0x23f4f9a45f21d36403abf428a419cec4a651fccacd7770f11393ffe2418e333,
  0x8ec277f397f8a937ee472cbe8f8687c412fea220bd1ad4d295abba8eeef5849,
  0xf98ff642d0cf7f0bd8e265547af340c37fab4776acbe38b417c3753b9c5cd5f,
  0x1645d749209a654dfc37d9dea665ff9c2ec57eccc9c619c9599db2fe849c4275,
  0x1cf2af2e1427d2ab3ae18d68051ccb2c2590492228c0500771bf2ea94f72b78b,
  0x6a41d3e3d4de0b66cbccaef616b20bb1ccb8c7713a181d414e3a39ef1d244c0,
  0xd50f52330db4e13ab667e78c021ec4b139656cc729bb8122d051f49bca8b9d6,
  0x13fdcd082468bb70ea1032021ed8b7db0a612121d195ee5045269af4877f2eec,
  0x1aaaa4ed17f628ce28b9e58b7d8f836b012beb773090248e5d48169f5255a402,
  0x45c12fd411c36d95a952312d9ddd8f9f8672ecc1b71565b006c8b94f4b53137,
  0xb08eae234a9a436993ed69c3894a489ef31f9217a6b8c99188e073fbf8ba64d,
  0x11b5c2c728371193d7e88a25974b7019e5fcc376d965c2d730af82ea8a621b63,
  0x18629aac1bc47ef116923daef6023ba9dcc78dcc385ff91548d0fe9555389079,
  0x21408bc44ea8cfc486d7b3652509138d402d12123412ae1ebf5738af7981dae,
  0x1aedd138d99c0fb99c7943b7a054722e86b8f27bf0fbcfd95255ee658de0bed4,
  0x11cc4b8e1ae4c6f5feb13c09001134e9af6d6ffa58f5fb561dbac9592c43a190,
  0x1587d8da054d0a8345f99d22429e46def3221a8595dc5676691a7447cede46bd,
  0x58ed8b2b5e592bf99ed2e5dce452fc66d426a4f4344f593c069faa7b71c2ce8,
  0xefecaf64bc568ecccb35cbbcb35ceb8189cb168309fd9ade77b943f31376a78,
  0x120451e429a61de84289a24c1ff10a73d5f9b1f9e86ca595caef8ba2b4c686bc,
  0x184810a4973c7ad68e65d1a667fa67a6a3c9e6529a4bf0d18794c0964dd1b29c,
  0x1429d213f0fc0bba377204cdde430fbd0ad5e4c5387f88264cdef03171dd6e2e,
  0x16619d0087b42de790ef62c76d72eaccec2e8869aac20eb7074ce4f1998b149a,
  0x1aeff36cb4e22f0447b637b56ad67653839d7c80ec608b717db0a89242c68b25,
  0xae48a8397e34687ef9f0c1715cec8fe690bd1394a2e7b8bd8fb02750da8439c,
  0x9628b6c3f03292a03c13f817cdcd53172cd1ccf7ec8a09b261272e509200589,
  0x16bd799094a18794e60b05341eec9974d890c8ee9de802d9ab402160d0cbe674,
  0x775dd1aecc900ed8706a65a6bfe5c70b6fba2c00fc5758cca42aa99a43e4bf1,
  0x5bc73b7d0381da1aede0c4e40713cd7a166474986c54bba10b48f315141c903,
  0x6381ec1f247a0729c951b0ca88ba12a91c2f09a55dc46f4beb07531f73a9b5a,
  0x11d41e04fe4dd0c827ce5ce99bd3b60b178f58962bd0c64f724cce9da33e9618,
  0x3363a07bc11991d7a9bf587dfb2d620e64884d3f2b443ea48ccb078e30a2e1a,
  0x7feca3f8ce22a2cc052a78cfd399a83e98736c109fa988c95c1c5bbe6224ee0,
  0xfb1bcfc6de263cea7a49c6a4fbd6fc5a5f79780115478f9d8089e6a1325668d,
  0x46773571a06eaf358b7df258d751509bd8d9a30e3d563a4f394e5490e3b7de6,
  0x186a185ddd847a10434f2ee5dd746d908afc0c6ad0df94a6d7e4de4ae9ccd169,
  0xccd4d9b44a68e95104bcab4f285a0f0afc0cafa9ac4d40b2d822a449949498e,
  0xe80508abebd23b53f70eea79b9be373962621f82d098967c68e068a775a0189,
  0x921f77b816bd670d0829eccdcddc436b418ed9d574e791dc6e48b66a60aeadf,
  0xacbf2a9db4766959bfe9fdfa1f3b629a8269024dcc7e5941d221177e370f78a,
  0xea1d97197d7f3466c557a461439b7c0fd5f1a0bca09b194bfeba94b77f4bf86,
  0x6c65395a8d1dea34c8f390c59776d7a60ed0fc23524da7f03078b8a36424916,
  0xafe94c878b5c9cbac85af2f42a739881e8bcb17b4af526ec8d5a03fafd5040d,
  0x17d8c7ca681e4adba20eaee09d84c3ab360ac7ef6e98c55470b659c9be4e1a54,
  0x1679edf0d4b0ceb5de13cdda07dbed87025f8a15507ee9cc3e7150267d35d3fb,
  0x4cccd012b491b614fd0ce9dfa9cf998b7ec1fdaebe59e93ab2d2a77972643e8,
  0x1aedd138d99c0fb99c7943b7a054722e86b8f27bf0fbcfd95255ee658de0bed4,
  0xfc52a792255d509e8da7c142231ce5deda65c4c645fc01ca9b24185ca1d24fa,
  0x187923730e7234533d5aef925ec80079a6383a4fb7f0319435dc4503f71a16a6,
  0x179963ac36685dcea3ece286ba29c3ffad35806c453e71f7e4908eab54d417fc,
  0x5e61ecf220085ebb67e8e32fda367fde128282fdfb7be81246064e83c144908,
  0xdafdc3a9d37409eb79c5c39012df02daec8533adf72fba496d702e49e2663b7,
  0x19956061908ddad755ea48f9ea69927651a2c94f6033984e08ce6da8179f8c2a,
  0x2a2d7f7ae6dda054ac1d21bd07755b4f3c62927de06c097e4f976b9a773be04,
  0xcb6c0b54f93bf0fba8bb4df43a886f6f43853bd386fae34d3047c35341a56ef,
  0x16b2cc0e51aaf17b1e77c77006f26bcadf5c43937368dceeb7b16fe324a63180,
  0x16691f882101e1686f0badf8f71a8e42a8601ea44f36b05ace99ef43827fe849,
  0x1d3ee4fb4335ab4f01f543c3a6d50c8091bbf682afad89b0a564441263c1f01,
  0x65e4c58b7be4c61ecc31ada9b7241046d6b9651ebf72d632e63992cbdeaa15e,
  0x4f129d77cdd62a8ac9c8c9c982a430049fde323c779e431685e1f93eac749a5,
  0x8ece5ad050b4aa2d479018b7071b4aacb425f19e924faf60bcf4472acccd206,
  0x11611382dc0dbf9bc14969952f53f0008686222934aefc84763438afaf853f91,
  0x11d1887e8f50da2d6ca0130e5e585b4aa365cd13ba61b7c4de5eb4dd9f50ed88,
  0x306b4c65d7509b82aed28cc6a7f0f0e0b6a899859fc4a9cbdc36fd78ed76e02,
  0x114cfae5a4e95555422583b80a3c603210047fe6e1664bf7e6ed73eaebf148,
  0xa42c5b4775e911273487d2b6399d9a1c6656a38f38824fcc8124c14461e6035,
  0x13ae25cb869acd8848a32370c421d09c0dd8aa8e17c29115e04fc9b6a91b06b6,
  0x12ce60570e8143da8e6576358728a5f3db154c0a3b8c3f9e62d5f39dd313f6d3,
  0x18d8fe9921481d879b6f0a6489e6a85f0e64c079ab56ec634588b5d16f693db9,
  0x1393cd19078cf8a8d3b0073f820bdc841749fc3da9b1ecf8b810188ef71d5151,
  0xfe55acda00c89fdaf940d9e8844c2316b63afedb557806e6ddad942d974abd9,
  0x12f5c58dbb7e4131656ba29488642f1ab78a9c59a92cdf0503bde4b4cfde1891,
  0x74a963cebc170b38f39624e340d50bd40995414862f295fa4fede2677bd866c,
  0x820d3fa31505e78eea882dd7420421c47aa39573141590257f4c3f047c8c89b,
  0xc3e04bec2bdfac4f5ba7bcb6736fcb421cec2f35c2935cb03923e68ef977894,
  0x5810e8685fa5c298850785e58f58b406d979182d2dc024ffbdb981a5ce17d70,
  0x136687add85aeaf3221b3e132e082c9708f636998a3a6743c9afa0146066c001,
  0xe3af0f55be20d038e972a41be5e20cb2a95c2585a5df0c14cba6d8653196186,
  0x1aedd138d99c0fb99c7943b7a054722e86b8f27bf0fbcfd95255ee658de0bed4,
  0x1c868d0438de650f29582258318faacd321e9eca29fe2f5824b340a70807df91,
  0x857672f700872e838028269b57e881738341a034ace2760a0267f03d2fd5d62,
  0x22a91833798425e6f362d19bb1656089d737da4a2d16360d900b9f99979a3db,
  0x12daab75a308032dbfe9673611241473b8778a119d34c1731fa6dcbdbd0cc916,
  0x1a294eec9bcebaf28d76e8cb0de3ea933338b3eaf89ac9ae5c31f789e1414b2f,
  0x133fce99091b60a633d1f545bb10ff1dcebdbcda9dac2afd54a35c3dd1c13334,
  0x13a2acc741c0824bc76321a35ae051adbb75e05efca05fcd6a17737bff89e666,
  0x142480fdea4c91b4e32aee24483417cc6d4be98ec2f72855c48507bc440904b5,
  0x10a07e3ba0cec39d0518ed9404257f253673a14f09093696dc35d9f34fac038b,
  0xa05c5bb59b49013cf2d0e866bf1d15d1d7faf8fa7de064d77923104b61be0b3,
  0x1af5dc9dd316dc03189165fe75ceb48b80e5f46a2667f10945d58232f4c6f2b1,
  0xa6eb67453621532a8640d02bc1b3f35cfd3f612403f82bbbe8d642b36fd4366,
  0x17d81a8fd2e1c58c568e12986a4be54a57689eb94bb7103b3733be2cbc66cc10,
  0x1d3f1e39f16fbe8880961b267e3cdc1a5099a3911172bacf5b1690ed5461df9,
  0x1acded2c185da4e89b8db9a5ce4412117ac68b4eb600bb1fd24452e4503949d6,
  0x1a184214074b1e028dc739b0fb8a7aaf4ceab7dbf414b2ce7740f4e3a9319e66,
  0x68951bb5209d99d32bd34bacfc2933ea12097db732c376974c81e46a12f4e18,
  0x116ff1e1a2a77d3f57eeda10d1529063369ccd51b1bb6e664a2f7878567a7801,
  0x1bc2b93ac3d5f86f8f27e638ef2d1915e40efa1e2d2aae3389913513da7812f2,
  0x1a8737ffb74706f72fc5fb6f2c16f88e31d70156c51b3b864a6e9a0b1aab5e86,
  0x1aab631ae381e8dd7e4e744b0508cf998b3e606f0de372373fbc9f6910331dbf,
  0x12145b284a849eb11f71735d434eeeec4291571315411404bb292b3e9d8ae769,
  0x137cec8fe6b72a32c78835dfe5e51662c2e0c7cb7471d1792ac2c81edd042f13,
  0xd4173fc96ed86734850c3554f3dcbc85a9d11bdca0160d2b57084c9a516c676,
  0x45cca0c1ce84bc7a0a73d4154bc3ed5b042e6a2e7c73a6cb5cbd5ee18cc2f03,
  0x15617787929d4f10d18be1a305b145c479792eabd650261182d3d5938bfc2e7b,
  0x22e105de0cf02f86f9c895407a6786de012137f557b4597e71a390abb883f4c,
  0x82be7c94a0c1bddc4812edcd35b2f55a795f38f1e99f5ab88fe81997b878b90,
  0x12cfa72fbb42747808a8bc7e872cef360b6f5d9bfebe1d571eba55439e55a16c,
  0x1c77c11375525488a1a73aca7274d839b2a583e2e556a69fe7a490f8448dc9d0,
  0x1c43c02c222f0a7493a100d6264c84aa0ea960cd258377adf30392f87ee8bf1b,
  0x1aedd138d99c0fb99c7943b7a054722e86b8f27bf0fbcfd95255ee658de0bed4,
  0x1c3674721f131a6fd7bac7d3528ae2a5c5d69ceda62a6e4bda5334bb4b76570a,
  0x1672025e15e3426727842f9d80e899ede47126a1c359f65ac1d3bd3094f39a10,
  0xfc302a193950bf168df9bdfc75f0c87315afa565e1661a2a1b2b0ad7363ea7f,
  0x8d769682b25afbbaddfe0a319cd2198943e47fa01cb999ef12235a4645018f1,
  0x13c6bda54336ad7a9c438fa837fce370cebdeba28529270d9c28bab3d35252c8,
  0xea4818646a94694531b8720d3e5b0ae9206586bee141040b7f7faf68ce08f5d,
  0x12ea472c12e047594ad3dc11cab0722e57d3c04a854f3a963b5b69daeb47fdfd,
  0x39e148e25cedc0ea456e6567616203cbcc3ca84e78793080fe94cde3ef7357f,
  0xaa4416136d62c67c3e9381adb2f53482cd75dcd1b4b76c22f4fd7e6ffb86311,
  0x1214a9de9493041ee41e67e5d85773fc812ebfe5463d06699a8166856bdfc544,
  0x1c02c86112d556904bdb1f2b757f99f8396f59811fddfe245a1d4a2a73e7bcad,
  0x7ab9c15b10fac62b447922e1de16bd41b44794eb1ded4dfaf9d463e87b87aec,
  0xde3694e2d6b4297cb430c6a942d704b2c21689848e560335b6b5edc81a0e51,
  0x146155658ce4783ff49744db650e70a3b3c22a7d02c537d918e6d1b00ada09bd,
  0x57618291dcdfe63a5f0f54c79cb7f7ff929c70981300914dfc618fc8ce2d82e,
  0x826ac3357306b55963c6526348df774ab6f9867480f5742aa164c2139e02fdd,
  0x1c7c23d524ee6c2d1e64014dba8a5fe7b321c632adfff74103182179ab170852,
  0x18cf8f714cd50b1e38d22b40568ea7d88d5e5292e202bc3aa6e4bb79f5427f84,
  0x972b1fb82ee4c7e1c0383342db59cd75a3da6f2c0e80549174cf44943d20afa,
  0x23750fb45520916bb414f50a3051fdf4d9d70f8a8b1c17360f1afcff57bc382,
  0x2c1b841d48af230463774667e06d7619bfaffd683cc9199443fb0f63b867f21,
  0x114a617c96784f1287cd1f1f477723f5a4b363125789246329cc872d8c855731,
  0x350632e8be3f4e4b967877687324e3e0c8df70f559a83d20b8db7f39079ea09,
  0x1c81976a8d90ae1cc31a99470732dfc1ffce0451777faf6965fb57c3ef0a4ea4,
  0x135c1bbd7c1f67f9c6cb977f51bc9a3c90e6309f079151bb5c64c70eff9f9f51,
  0x4c5e2f97bd5d26eb4cf48906039374cd39b94783de39804431a5320be468420,
  0x71a13c8f7de2ff16927548b5d4f0d28ce10aa41260e3ec9a0d2dc3b09956534,
  0xf6e76b3f79127c61b557108973774874baadac3be88e506feacf3aa4b228197,
  0x4b9f0fe170316bec3a3ff2c9a346078835b45c98aee3beb43113dc8f6557fa5,
  0x1941299f7b9aaca3a011699b268056bfe29e127f4f418620c365cdcf03a7c57,
  0xe982d742eefc87000d169409c86a07ef97b659ea8c0d02f10a8af828c007ee9,
  0x1aedd138d99c0fb99c7943b7a054722e86b8f27bf0fbcfd95255ee658de0bed4,
  0x12d7f30664e26984f85d5c01d68b7c54766ddd2aa2dc2b765f1d76285a8cde50,
  0xd71ea7e51f35d2cf958e58c368deb8ec1d6f5e1bfb8b015bbacf4de1169b73d,
  0x1c76d85a262d289f81afff635e1f28f3a2ad7d54721fffe245180a4ae3401fd6,
  0xec0caabb2d946b75d4268185e84fce16b3de7433712bb5f56726ea19ca43325,
  0xf84414d1eb31d18ec89942c7883ed288b09124f60c5cfdd0943b14f2f268e07,
  0xac3b41fc7dde2ec282ec3cf7a33419e9e1518ea370c0f15d503fca2486ae7b5,
  0x1a47ca94437fa1d9d810a2f8f01be7f0e7abe4cfa61dca633f96ec9f3034a6ff,
  0x5cefec8b9c5b907d84481cbb817f682b0d19bd4547dfb8eadac31657dee61be,
  0x170b0c361e618743d78d2edcd0b5370390a95488c0963b9b738a44656fe9f985,
  0x10f7c4580ce9b6c921aa4d693383b75caa595f2fa57bff84402c4433d4a41fab,
  0x7d248aafb7870a6255b4ba17e0d71d73b718b7d358da1d63695b37ee5397058,
  0x8b424190a4f99554271748fb91dd0da405417a845bfbb778a7ccff47b8a83a,
  0x1b19c5366375a57a9202ec81ff3a67f06af4e4766909c1ee451fafcbf9836791,
  0xd741b378c58cd2dcfded502b9fdb1e86803a76fc395e7599468a886ddb60c79,
  0x1bb223c48bb7f47a7044acca3a05ce83ffa4d84ececd7799f801b93ee83bda2e,
  0x1c59632f66d60486d8225ea18a0224ad8a03a34c136d0a94043db98264ff8964,
  0x94206a4ed6091ef992157af0102f032ac53f966f4bb73dd79c3c67dd3ffe331,
  0x16b1d5a0da9a8be46407e47b0ffe4a7ca2849f12d166e746173421365ce8b52a,
  0xe5c1ad97951b95847881f171b33f952c9ab5df24a509875e64d289ee7ba18df,
  0x5dea1f25afec1788414bd49ad00afb3870b3abc4fdf2bc9959f34173cc31c54,
  0x163d93505ac6a72cdaaab03d5e4e8861213d01ddb340564a63b4758f191c8fb,
  0x4ad36957601a4e0a72b4f234387589609148f4f8feb4ee72a2c6e664ed44ce7,
  0x1a879e35409c5ff417412f7d1742d3584cbd6b958854321ffbee0bfa00833af2,
  0x16122fec150e921a2234aa743b06f80012be34d2e9cf0cacf009a5ea82d53aa7,
  0x69c1e9f3cadcc96e7c35afd7a2ea3ae2003dda30f7bcc38649c1370c335250f,
  0x429e9271a906e34c20831d1ef0a07daeac98b460b5db2c8fdffef6dcf57249a,
  0x5b0936df440ff4231916a301f883717f650537abd79f684a02bed823252d6e2,
  0x4cdd3246065ab3927aa17197e9c11b2666c4c2220bc965339a4511e8d8561b7,
  0x2ecc356cbe514b03104712658da7a0e6221ecac2fbc80b3cc0e59fc23ffc083,
  0xa97d31eae127fa82177e27b3aaab91fc96fb450c92aebfb0cca305a5f233d66,
  0xcc9cd07233edcb483976927670d36856d4c9edb010c0977e144a2aa0614b407,
  0x1aedd138d99c0fb99c7943b7a054722e86b8f27bf0fbcfd95255ee658de0bed4,
  0xe888e6d386405a093aed048db5f314c9b85152cf6baca0886b7047ec6dcf8c3,
  0x637fb146204731a5b335fdf8dde005c2959e21f14df6124c7d7b59caa676cc6,
  0x23706e3f095072595f6d24dd36ef7cdbac69f6ae3b282764f8322637532745,
  0x15b116f957234da2b555e97c72ec1f3725c9aeae08c293dcd069765968aa478e,
  0x16f060ed778d5125823f4999f6cda2329658b75afb3491614f02f8b8c44bf254,
  0x1631193212408a762b3347b5d73ab8b881d3dca4bfc0061b21652cf9f9fd031d,
  0xca29f54a5d4fbfc46cc3956b453c9315b8c035fb34dede83f4090c6f7c00901,
  0x1092a134a6d65950adc1bf598996ccb294132c66a50495fa0b2fc4b3bfefb58d,
  0x5af9f6056ea2f5a024a2bbaeda19d5d76d7306b96e9ae898b5f6741c4ed06be,
  0x192b2bbc8c31f20ad2a7e75e2a4f861060f9994eb4bd001eadf54758683c4db,
  0xd8e73ea0b66a20d44d1f133fc13a6005e9255c031a68b76bca859ae8fb3c1de,
  0x1560a4d299d3231922f3e79ee88d87b985f6cd9ef57678efb7234d441da21f6,
  0xca08b1d214487d967d70eb1eb7ab8dc5a8849c66af527a4022a4a242a0a8413,
  0x865c06055cfc134646a1e60ed0ef69b7be25ab3ad45d29d2907c7bd3a794a3e,
  0x167977828beec79f10a07392af80f7cb53952c8fad07112e9e2bca26399926d1,
  0xf946c7bf1e93dfabedb9e6b3919884a24832e38d296d1639b96d7a849cedda3,
  0x9821f1e5f4fb2db775a06f71bc25bddf83e639402d3ab545b24a43c8c8accd2,
  0x12bd419e9bf8dd401f73516453c1bb32e475b04e77a315e2cb69258a2048518f,
  0x19bf946972731a876f6fc32f1509c89948ec4c8e9aa3f7b92843fda2cfcef3e2,
  0x12cf6103486c1714283125e01a44d8fac24c88e475721bd77ee6f846518ea3cd,
  0x92468fea0f3b728919e4198f73d1591742ea4d1b36aaaa8d7d725f145c96d95,
  0xd70e5f5eaf4710ea370badf807011b81cee1113dedd385ff04ebe6a32994300,
  0xd50407a379dfa4618ec5cec01ba595f00d0b81378603f3c75077bb1285cdc1e,
  0x39697b15ecd179b71ed156d257367f262a6dd1157af005081281c0d3fa608cb,
  0xc9428166913a448d087aa94cf638ec3b89a509f0eebf80bfe154a65c644ef3d,
  0x17acd3b1d1da35525ec0ce8c325ad996e106500dc220c40e11eff1b98fe6068b,
  0x1aec52d447ff24c1532c8f10a62ae3e63b606192509c9b8696180710c5decd88,
  0x85582ea919cd90bcee5d12f8ea98d9e257215e2e67b15bde88f1846739bcd8a,
  0x7059743a98c100f69ed85c472b17743c09a2ea9f31d3c3caa2c2e64db95b5fe,
  0xb00ec4334099017144566aa5158277cf26a4a4d7645d6fd6846771190ee869c,
  0x13b031147fb6e3a54bc51553fcb9c088037bff06288c78724ebc2c0bb7c42126,
  0x1aedd138d99c0fb99c7943b7a054722e86b8f27bf0fbcfd95255ee658de0bed4,
  0xc21406740108367d8751d717f6d4a1a40497663690929b73580dfca2741923,
  0x34973e2f8a5f5b78b818a3b60bbcd6170f36d030a1646bc9083804abe756b,
  0xe660523e068bac04854704ef68e95a3af7e75e58391bd67cf22928c30f8ebb9,
  0x171f9f2d830cfa8e43f5410c0c87cb1add6d70e8d930845f07cf2a3c235cae88,
  0xe9e59ecfeaee2d8edaa9fd9604fcc91ab0028bc8f6473084fae9d465255efe5,
  0x10940e22f6b840a52dee8280fc480737cb2407f382434da3af0a3d1399fed8f8,
  0x1cddf11705cdf7d369dcfb3f35f18448789ea6fa1eba3c593986a8a4c4d37833,
  0x161ba0f016d17da6a5562316600e6e61e815efc5ff11cc1ab7fc01ef2f37821,
  0x1238fd7dc29f3ba1d6b116e83623cc42251ac9e4906d570e29a2d111dd2714b1,
  0xbf0873ba1b8dfc27c4f187a07c4c9c0d4658d0a975a0a81714b83e3c12db4c6,
  0x17e560e9b359e1e8216f7045ae59f67e6129af97b472d45e19b2050eaab1803a,
  0x11242a7ba8545977c61f7f02757c69eef7c9d7bbeb2020a011ba65a79c99243f,
  0x9e370523268e14b78cd4dff921a21d69e5b730de78641658d8128a26bd59f55,
  0xeafba1710b80cec0f82a58cabf66f9b85f50184ad4bd40b2bb52c29d7870c22,
  0xec55652a68bc2b77779d0e824440ec9dd27380b29b4db043ca93fab8fe40a54,
  0x11cef2f82053e392b171c93320dd008a2f3c419148f2a93a4a709b1d9b6344f8,
  0x11dea3ef17a695337fe6474510374ee51661a7d9586d0b7e22bdccb491279e37,
  0x82a4efae5dd150a7541aeb8a07772118b8ecc0e5225d38ecb778a62ef55cf34,
  0x320b9d3613443c428be04615be120206d3063730a940bd77ef9d5bdee8c6439,
  0x499b8ca451414b0d5b60e1b10c52dc9c467970a18d2649159ca6a5276499d9c,
  0x9c85f78ac39c605cea1f5fe6d7da7e1c946884e2078b42b9ed091d55854c8f0,
  0xbe9f7346944bbd1225849b30ea7f4dd89653b1db26a0f95c460a058232d7eb3,
  0x193a99119d0576da387af0e15f5e089db8b016a3e6c05175d162b992f01d1e39,
  0x18777bc5d9ac89550ef075c520931e8e952813cc96de5f8b155c316256df63ea,
  0xbe46254a91fcde9ad956c1b82723f3125efb43c63e278775753168ab50e6adf,
  0x171ef318f71ce1a00a2261f2ea5a840bacef08cd1e1db810b4d53593b8334467,
  0x65ed90a3ff5a86d98508bbb85ebf43f6b4d207a833930804a4d30491c8d230d,
  0x14e8d70629b6dbe5fc56d909de620313e427f665f7ed4d76cb104034288f542,
  0x1b26a376fcf8c848228fab1c5ef0baacf7bce925011827071e9ccaf346eeac12,
  0x151f9fe1071bccc85f5d7a91bfd8f8accc626d3f08e578299de4f0c1c3e13e47,
  0x115aef2fb6bcd02c50d70047af794c9fc76a453e7563af50c4b518bd98c86007]

def multiB0 : List ℕ := [
  0x33d68e2793073db5feedd37a043f1dd20ab9d6cc1d8669e10997c5714748d5c,
  0x1c19cb7f826f6d9b7c678ec17cd743378d4e7aa0732d76b1f5a48f76a7179449,
  0x18a7cf3ec957880ed60e2bb64db3dffec47169c475e2199e3476f550374eafdb,
  0x26af8a0f151f5f0d97bf027dc97fbe4f9b329c9e6094b4e415f36e985dce69a,
  0x17189b8e4048066925faa9fa8731f77ae11404cd84c40770f5087239232f436,
  0x77aba0eb5ab339fe092a3138bcacdcccb9afa39949accf6ca8a94dd116b4b98,
  0x494a1d117d0bd9511fa83d5cd919da5b880e6001a055a994f8c3d32cb4bab11,
  0xa8dc4bfc753ad245240e2b9531504a9bf81bbdd0404169feabf945a84a258fa,
  0x262a7e05184fefce59eeba176a899d3ee33aae2665cb728762ac2b56bcf4b0f,
  0x192a9d0abc29f2d6aeb054c562c66f2089358eca1f5303296a871ab0b4d20940,
  0x542f9ecc6794b44f2d212a439e2dbbc0af1eff4e6f2201bb9e115f317ce815e,
  0x1a7f20e9f01f796a38cd23640f9f75084ca6b462e84b1615b9e81ba204c0044d,
  0x373c2845219bb4d77b4c68ea2aa99384f327bab9a746431b3d9d230fec527e6,
  0x38a6033e58981e85bff023956adc22b7cccb9d2b149d41752180c94db1762dd,
  0xc0c233333421e471a897460a7a4b70ea7404cc5dafa3b4ed60cd17fe5dbd88f,
  0x1086fb1999515c4ef12c74b67c63ed419360ed2861d97c9c575e70edc92cf4aa,
  0x1d6fc052b3047d5b5b229e19169be465e421f6b19759e3385261f5fc3387c3a,
  0x4591dab658d3e577033317d3713c5914709afdcb7e37aef7cb83e02207d52ed,
  0xcf6c78bca0ff3d3b2ff6ceec08bb2edf2cbd8c0fb21d423d3130f4e9d82861d,
  0xdda3b0aba2d7bdf2a78d98eed347df58d8ee28ee263ad1982dc6a5f1432ab31,
  0x76cbb3e85dbedc64a982a8dd927d25c3db6ba8fd410e87906d663fdf6b8e79e,
  0xded67d16791eaf8023a9c22208c33982d162a01930b59a1db31354b3474e007,
  0x65a90445aee50dfc51c414d3d6942e68be96a2410cc46ef25a72926b170df9b,
  0xb80f261bd4c39735bbe70e3adb6ff728606e961ea4041cdb10ebae04c22f222,
  0x163e6d24ff2039ac811564472fe535fa8d84b357729a026cbf95abbb8afd1159,
  0xe3ccb1de5d91c4f7891ff659065b977c2cbe14af1c5b8ccb9bc2166287ef5a5,
  0x100be9fcd8a3eafdf92c092bdfd893c9b5f8e3d6f58375290b8bc47f9a2a72b1,
  0x15a8fc73dde5ff22b1a9f3cb6a20466d1b271f21d9090e690f0ecf94648f5112,
  0x4022ed8b3dddcb1146f3078ffb8c5aab3824ea8087d31b6d991abe9d0ffde8d,
  0x761c24ed750bea536e9f021e867ae791af5014eb915470d46092b1ec1cb009b,
  0x1a01daa0f634197ef0e3ecfb1db5910d53dc2cadcb1b5475e5b5172177d80cac,
  0x19705af687e21ada94d1614603ad649dd6e3249fcfb80ffed9513a0733bece02,
  0x1798113c7d3e3010fb9531a7db0a047f6cebad843eca2a47e3c8f87c64297482,
  0xedc89a6ffa271a6ee73d437bb0449934a4f938df359637c561220fb0d48ecbf,
  0x1a2b4dc1eca1171c44a4ee3c759c494b7d1a6e9f077d0e05db7ca4bc76622b9d,
  0x10a94ec58cbe0e02dc41e3232c2379d9d48c91d3d6884ebc90061a6397db9309,
  0xb3daefc82610ed219fc25a2ac11a17166fc048eefd65062fb60df7ac934cf16,
  0x11933f63061da9ebcacaa8c85d5227b767a0c83b2284da2145d0ed4849996513,
  0x19194ec4391e889b325971bbfce4a7161dbf1e5bbd1175548d3955400bb53252,
  0xc4fa72cf25941dbace13aa4d06758f262ec1b60f63e1ceeb69bd59383b7ee5a,
  0x87a22456ce79f6d33739068e9eed49bc0d427ae3b3f00e4caef8bde466fd91,
  0xe48b96eb5fb282a624e402dd32dd55d29ea8120fa83cf9929c9385cb8830ab7,
  0x187c38731d0a255db6f9440e730b0ed958fa9d398c61d6972f5ed71618acb74b,
  0x683d390ee30e0cba41f2e76aa3c6ac55bdfc6dc58ec82bdc30a1b85c1db5445,
  0xc8b55936617f6e56ca64b99b5fb6d2ded7182b5cae0107ec19f3dcc0a9f7acc,
  0x70951a9d21eb13b2950d65e877bd53876033c586070c79577f99f5789f10bfe,
  0x4b905361f9d965a74e5b1197a0e8da4435bba3856f93b2008a0dc99de4b9e69,
  0x13e1feceb4b266dd8c3e508065b8c056dcbd78e543ec5d2f18207b07a6633b8,
  0x83d8ac51e797b7bf74576694098020c4fef267798b4f66bea585573acb925c5,
  0x4e82e9e0cf5ba667a69b79c7ad3069b94cf64670c62298fe3996a2794f0f928,
  0xa4184a35a037d4a69a44781b4bffa2fee5769acfe4d036a7727da11ed6aefd4,
  0x21417d8f37df77c27de1eb8fcb63ad559ba696650fb94a00e8f6d048afcc09f,
  0x12d1d9c98f53dbfed2852f8a941bd66d23187a29b114fc765ad151d7cbc77ea,
  0x1b40be22c6fb890dcbf98946b307adb155cf66595ccf0e1312ee5e28488f32ca,
  0xb6f5149b369009e3655218d31927642d684e3d9d6cd0083be9c90b37e7fe85c,
  0x11412ace297d2beb109706b23c4d1783e5a17fba27cc594038d97534e74897d4,
  0x15a4b13b203519e575ef294296a384f5fc651457b08473ed0ac254b917692aae,
  0xa9408c19b462dac4ab2feaa1e4e6b9666333112b9bd6a37342b5d357eacacf5,
  0x1c01d0f7c3207e31323909cb1e6561b8a4bb2149bd25c68008f478ecaa5f51c1,
  0x703c40ece6fd0ca10e49e16ab66c23f36b7e2db8b2e924b2c0e3ad3c00d5f88,
  0x125fe37df711d12adf9a291ab48ca40492fae2e088a867f0ba62086c7c9a672c,
  0xc3e681a53dde9464fb3ee14746ef1a9a561ac4bb28a2ceec0418561e9550ca5,
  0x3de6b980b96ac20749eae238be6e617007ba5c6ea455f4266d81df526e22b05,
  0x15da5bc9ae1e1fdb3326e541ac5718ebef2a5d06a45cb54f2cb22c9bd7aae65c,
  0x44b45640ca9d8e2fc79c4041c3de29835ce4f1f7b8ba3009bec9e157a8001e8,
  0x129ba3f39f0b2aefac805f92117a689a67068a9a391624819ab2489f9753c444,
  0xcb0f3af977c31f4efc7f4299320ff0689202a530cfad01ffb71e6c6a31047c0,
  0x69328fbb146d8b4d5023acbceee265d892a48a7c00acdbda66652ce2047ed7a,
  0x1b79a757f1e96a663e4743cf32c6924778a9909b9df615ad904834af6b676db8,
  0xd9891b5a7966f3861d090df7d63d2ce942cd9a04088194d0d0ab78614a05b71,
  0x3c5885f3d0836b561ee56865b1a44356e5e877caf8e8a98cb3c74ca748daa78,
  0x1331989985a5bf871eeb9583648083174605c1f16c551b40ec5c9ccc2c91b219,
  0x37c677f0be702f75de1c8285fdeb47574244c74634c8955603002881fa42d61,
  0x14df9ace0846390cfa304b7a6053957bf1dc81f71d4d844b80eefb15576f6800,
  0x60bc52f33b10781ed7280bd80527b5d4d696d8448a69a59c6c865cea6436bb0,
  0x17a1730a0573200b5a551dbaa00340be96a9809be0f765032c3cd88264f59372,
  0x799c7c36f24157916c7611b1cbc6fce657574532891d2e059787dd5be722ac4,
  0x9ca2a31e14c7e66cff0b872f2a31f9e8779bc67a974bad63b1dd3ab063071d1,
  0xba3ecf3c0a2d514e59a0217d39d22ed2cdbf8a7b9eb94b176443376cbcc1296,
  0xf132d882b313a926cd72bd7492e13d1d9994aefc3d88fe738f50008a5a02374,
  0x154636b178a115ac62d08b54a890d3b73f075b953da4618070109a6ae3ae6360,
  0xa1872a9a088e12c5cf05f98072c018e35044264d01a61a72aef91c689585e6c,
  0xe144372169ea2c55a4be55eb17059b466ec282bc7e008d9539367f01077e2d0,
  0x672aa75861fe3d8da03e791e09b832ae20eb51970c2aa63a5a06e6bfc02d3d,
  0xccb5ab89a54c0748eac42695acd53a640f7122edeb41d35e32405eecf0065fa,
  0xcb5d674c974479680a92a6123d69369fe3b73ef24d4098ae7781b65ee124ff9,
  0x1bcc8d2a1bfcd4a9d74e1ae3a8362f9c65323151304e64099287c28657efc296,
  0x175524dbf4135a7fda69dd414c4a9055f129f139ef43c6a5dc850620891ad235,
  0x1f1682012ddb0282af6202b354fc4c3cf92e87d3bd4fa27adb6043b1e961059,
  0x60d41a97e4c7475f6ee6cb1b66c2b7e731f5ee71a5d3f30a6da9e234f849e47,
  0x1075ba895b1ae0c8f8cfb5e47382fe11007a7cf4d2c17179815dfc39434359b8,
  0x15d63da31972507e07248430da6fca28a80d5b9ecf17e6c45fd2d3bfb2b4f66d,
  0x15d8c01de2374b093ed512a8942f04f8b843b07deee08530f692d802d5c88ea,
  0x74ab08b4d57101855b35be9fc093f6a99243ba82e2a65d329320d9e41235602,
  0x173a663b1105c06f19d86f237fc6c2e59d0a7803ef30c3942cd24af55b76d757,
  0x156452a7cc41dd905e03d4137f70eac11d0ed31c51d3008fa087a2eea94783bd,
  0x13a766fa01ea9c082a56a41d10efbb5858d0a58c89392d525270e7ab5fe46795,
  0xa10bed227686b619d98e15b41cdf35ce484afcffeede875b9125a42cccc31c4,
  0xa89482201f298e627d554f47fc1af5560e04a1826d242c264a0a26995d4a86f,
  0x48d3d6e1eb1920d1bb58ae5bbae0ecd43d366033848885d711a978fbe5e5d0f,
  0x3a1322372e09f3a4e42151533d995db29a7774dd5904a57a2b8b8da6dfb7f21,
  0xd35bb0ec0892387510747605b6e0e14a9de00f23dcee1caf6022210d9ace8fd,
  0x1a363ca93a1f5e7703314c57fdc681a9d92100b2f6f9239c4cc59c7102f052fd,
  0x284bf6f774f1d30d337662a069a9f7f5af9c031eb29ef9ea40dd2bbd01cb421,
  0xdadd2b17be4574def82f30bd89bab905d97c8df675add72c3d3f0b797f94462,
  0xaca8c192178ce629f916ee8a40cfd2bb9b26316e350ddd99642c01b994b5814,
  0x83948b093b64ea7cacd4eb8cbf54bbfd5a4cd9101f2fa6538f689231b505523,
  0x14adf5d1127350b45bc17e17d9101c960402216fce0ca172d1f6fc97dc872a23,
  0x9e0f913cc42dba1ee85304cdf7288652c6289957c2f98f6e57b4cb2b5280c3b,
  0xd8d98f55e2d333d8d78e3450dbb02501b19c1f67b66182efdb3b6a00b49f2de,
  0x10f4b40378506de176af918a02594eb080d60ee2151c4791249445d4bef49a0e,
  0x168e64ae0a20bd09985688d4e772468e58e64d10ace8c5953c44ad106a87734a,
  0x1b343bfb9b919326b63483fd078381b5ad7bb8c8695952756d30b11e45cd4acf,
  0xc80d31b3384f5235278e464fc7f59b247a8821f701fd232746a95cee41c7662,
  0x1a097e9389d536802415759ff9c601796a8c04c8e802ec6577398954e377e710,
  0x18e38fef2dad61861ddfc49d516e64c8361af6d4104c96fbacbb09802cbdd98a,
  0x132451300db4d602f6a6b851c1173779744fab482c2fe4f6132fe0416b43c5f,
  0x13a7e0d6f07ac6284144795eedfc9d1ca1d4fc51a55be57764590ab210d7ec2b,
  0x1b02a7beeb9fa0fe365a7e80b8c78b756e27ce9bfb27775ac995790281e43aae,
  0xb99d8c07465bc6085d44a980c21174677106f07e2558f32b1ce7fd6f36a8c8e,
  0x1b7f59ba9f97c493dbf0feeec725b0d3dde0c0596596546b5d6bdb13c427c4d1,
  0xeb3f230f7887df650ef8c7bede984ac5978fec6d2485afe0c1489233b105956,
  0x3c3680b8c9e1551e7ab6ec6ebc4443c88d32a0ab1d5a3d0eee78bb62705904b,
  0x7671e9b69801dfab9ddeb39fba17662660050872a885e0700d74b7e03169afd,
  0x6e0693958ce58815d4da5f6dd124cad4318d4d749122508386e329a9150cf3a,
  0x5f91193ed12150e10b32b5d7906d88218ac835201597aa5785f30c0e856536c,
  0xe991ce501b6873c34d8f329ac2cc58428418c7a969b7ec0115a9eb7b28a926a,
  0x17b64a7a4fe34db67662518ee4db072a234b725180314d7c69a5aa7d33a98188,
  0xbf2e16226f7ff877b21caacfc814d45fa852692bc50140db63d6917cb28de32,
  0x180916e77e7913a733c501e605b84bc0edce03f9d6d22a7a5cdd5b60c27f6058,
  0x906d2f903c2f220e55a13f83668640ec8a1b81c1e2d4e6d5af8658c3f262145,
  0x22a811dcf381f665db75b26ac316a274cb804e43f61f70c58b41ff917417fd9,
  0x53bffa13390e90eb9c74eeceeef3c9b4d98c04733db9ca262d084e401006aed,
  0xe119a137070745fa1120b5c4402e31f9935d70d3cb3d9d343a3090dd5933ca5,
  0x10512e968765b6e8bc265cdd4a22a2d25507d3dabb4306b47caa045116744f15,
  0xeb2197803b532674fc57609e4719a641aa05524a8fa75ce5b81fdd7243be5e0,
  0x1a20fa9181afada17840e95d82e9caef18521a47199bfa34a2cd3b226cff114d,
  0x9a56028b39d022cf80275d8eb14e71ec99fff9a369f6a587517ff1d2ca0283a,
  0xccc9f51aa647bebc02bd9cb4d4166c9fee8e379fe31b34cf4e92c34e1b0f410,
  0x139836ace4f1b384ec0a63d927337b394164d1fb7a0b4cb7689099de30f024d2,
  0x1b74115c14449e7d7dc0faf2c2254b24007310b6bbe366a1c3640e5ebe63745a,
  0x1baf4c3820a38abe9dedccbfd4ecd6e953c653c952d0ab521840d76979a77291,
  0x11d5094b3bc4c60c94785450b74b632d7cf91b98af5726614409ab9786664fde,
  0x6c15c67bf8ef389aa3ac2078f76fd2c33068c22329e7bde52042075aefd68a3,
  0x1aeac5a00fad5edfe1bb24cdec520056616828ff14256d7cbeff9beca31a73f8,
  0x1190c84a94392ced6396baf291b1b178db6d41a96cdd8b3a0972ad7582d02a1a,
  0xc8e42c27121bd732f16bf241641c75303fddbf91b9d5740c6a135f06b6ef450,
  0x727b1c276e8368b7f619f97626f39cedc6504ed6cde97d4cec090442ced3eaf,
  0x1672344f136de90459f66b728e7234dd1d931d8fa6c1e06cbbf163fb4d04016a,
  0x159f2336ffa1615a4202cf639c107d2b2213fc2e00b42f772f9c57ed7c8a88b,
  0x1689e418af497b4ef261c439ef97fdd99805491c2309e5e03da81767edf5f379,
  0x1542ef4552c3534bd896bc6057e837722e4bd7cd52aa9886057329c2984257ed,
  0xd3fbca9aa6cdc68e70ce98f7d933338cdd36da310215bb1cdc98f25b0b583d1,
  0x18931bb74ab330bd8c955daa7ca4187ac89a83f2fe975c684f5022dfe799adb1,
  0x1448150d3beb27cf3e102af6afe4d958a7eb2ff5295597375a3bd8cb63f00506,
  0x11595a4a1dde2e557f461c82c39495fe3e204830ebed437bffbe0fba02a4b0ef,
  0x40257160639cb499b492bbb22a6ef696328968fe9ddc336d040a2d0c1c477c7,
  0xc850b62cd615ba15adf86221eb4b9c742cb5aebab2ad57ccab0b6ae4f014cea,
  0xbb508f4674183562688c06bd2d2c41fb39682bd34c8d6203de4700c9a3c1e25,
  0x18620a2286d239c7b52231878d17999ba56f82e1fb1014f12505c19ec5173c1a,
  0x16d4286ba8dcec62fa66dd671e887da9a724f9fe47fc9bbbc3e22bbf6554251c,
  0xced318d2728acf7ac31550f37b897f14944649375aab48e8afbbca43b8b38a9,
  0xdf611db29e7920cd6d56f062c6363e71cf332205d7c411c8e58539c3e8f4d59,
  0x38c24a0e0a3ac76d9106318efce576d0e4c6631ac5091406950751250bd1812,
  0x120ee331f1b1a3ebcbdc428bcb223e79cf1f87fe1ffcdb66bdb659f7517f8497,
  0xae32239355f2cbb2541e2c7c8be1352b869f38c372922020baf84cc4dc40918,
  0x16070b6cc9b56ff89cc6ffbbd654838b80a12c0716d64718d5f29f2f1010a9e7,
  0x4e7a5ba83e8993482faf89b3e692c56bb11acfd8a327418e4d0ae05d38913cd,
  0x1c7d69ec16d74a2128db9778459b91ee2f4d65d8f054cd72e08c82d8474778ab,
  0xdef253d12371feea27fa55e2d1fb7998f6ca6162c85dcc56f5f4b2881976c57,
  0xf89aa81f29e15822dfbe040a01240a484088baf13f32fd47d3ff5968eabae46,
  0x14c8cce10a277dafce6f4efd861f1adddd665405fda4ea9b4dfae52c649f5aad,
  0x1549ed6ac43e866c6064daec25dfc39802df1e6d239646b60975486da8834780,
  0x11d3e600e986fb9271cf055c7883fc97d6825719439b7ad7bf18d0130e98273d,
  0xa180b1303164a3290b40ef41ce48f92ebadd4961d040e8c1fcc1df857247d09,
  0x41d2d80ab5d404d668f4fed63a98f42f088d9b08e0d81ca5a89c63a8efb17f7,
  0x19970ea3ec6490543bf6a180d8e95e5dfb2d0fc8d3baa21074077655ca6c53c6,
  0x829aabc7f92b9c757687c75dec6f26ca6117e157c5da0284ed8a63a46cb6cd5,
  0x4e3e4bd75ad851de4879e853229f291a6da98b8d075a56b5d1133373cbd52fb,
  0xce8d224ae7e5711f5429b04ea8c2eec0ce771dcfd2dab2a7b3b647decd8c7c9,
  0xf85cf54343516b09f13e55aa14090f1b57543a4224f80d786d390343312a444,
  0x18b9be895c2dce1cc5758cdf63f7752adf18b195a4ec6db399a55ad20021e37f,
  0x3c32628ef3f36bf7ed44e6a57f786a86812a854246a1e95aa37067e1f92034d,
  0x95b715d8f0e01e7818f54fe775e23b7e02db0adedb38f8c725e71b56ea39e5c,
  0xcaba0256b487dfa59e1a8cbebe9df306b2da985d3bb679826a6268d800115f2,
  0x91209ffa1b627b5fb7760ba945861dbea58553d19b643c853e4124175e2883b,
  0x42b20d9867a81267578157a59fb31af2b76bd7aba381dbd9d32c6b0b2f96528,
  0x48438ba6d810c7a04fb77b6ebb017f39062eadd6817d1ecc26430551acfb65,
  0x2a72deb7519d4a1c6761ea596b6b78d17cb89721db3e8980bcc2dc3107d2625,
  0x25c78a1dbb0275dadae2fd407adae24d93b5849f4765dc0f400b58700fb64a2,
  0xaa6baf9f975f2760f09ffb6750ffd77d6e56ab23b3607f99a5820f70df18748,
  0x18b303123f25add8a9acfa6e7ceeaaa46dffb808d0ee8be3c280aa59e20f0846,
  0xdfb7adc366d6c25cff0513250dd988c9e824b116685bb58f153429f2b06c345,
  0x19cd17e1a9f8764bf3f51dc48cc0bec733377e2a72f70078f587104ac320a7c6,
  0x15a33af94d59adaff0eea3cc186a81d1b1c41f4359bf07419d14faab3aa580ce,
  0x17fdd550663ecb9560da7ca8f7e9477e49cb99bec5d028592c333e38a37a35cb,
  0x1ac4f543bd59ea7759abb2fc3126469f36ccf39a76316772fa053bd43b4d2870,
  0x673cc5714fe3e487925a0d40d6bd08bfb44eec32653466ce5cf9d70b5f1ab1f,
  0x16d07f9de005c30c9d85ecb12aa25429a37dc04e4c19c0d1b0b3a2ac35455a4f,
  0x70a9c4cbb1921baca8ca6c714132dfef3b06ea62bccb83278bb9a20a8c7f92b,
  0x91518eeb849f58217a9b03d697f8f73e73b22c899ab9630abcc0da5acf212ae,
  0x1199b4b5684efa9fcb4ec694e83e3e063058e71cb85df0bcb6cf8fcf1f0b945f,
  0x17b7326e82991604aee9536f89ccc25238a082a3408855e6cf60fe10ab4753b9,
  0x28f624089315cd4fce9dc62f081fdbc71fa6bbbc23f3133e662f6827137f1f7,
  0xd8b8c8c63d3e6b4be92e6b9e1c1512984aafddfc31ee97a07eb810d42e2637b,
  0xd6236b6ab1cdee4129c92e41eeac45703603178a23c15654280d4e6d2b03a01,
  0x154bfc62341e965e1d6765f91b7c88b7c20dd65b9192262fb936c0053c298af3,
  0x17da0fa0a7e156bee7832baf29c5efb8f161fcd017d4b7f763238bbd07ba0437,
  0x137598d1dd22be023ca54d83d4cd305a64649821ef3d386154df7f2a6945c1a2,
  0x54d39ad8c1d85a9932eb718fcd77b5052c98e317e2b6062cfd51c871caa4891,
  0x69a9a7749b568548bac7b5531e992a7424158bb9e6723987c1e39bcfb88fffa,
  0xc50a8699a879e01a7677caa6436dee7643b9873f4494984e1d3ac1911d4f2c0,
  0x188aea359426bfc640bf49f3888102dfd9cb885e2d8075d4502f8e5112fcfc0c,
  0xe03b0e7c261fd2f60ea36377b8d218b311b28fce2a590e032b66d86625eee29,
  0x8cff2d250586ef2b8801f60edaff7f986303760f8d88a958d56886fc9e190a9,
  0x12f6d7c32d7b2dcf868cf28cb87f2c74b5d38076cc93a3240da7f6575423eadd,
  0x12df50f8a923cddc61a749fec0789a755e72865e06819853e84ccd2fc5e8101b,
  0x10219d25936be50b339f160078259f50245d0202fc1929b0956a2301ea4cecaa,
  0x127548cf461fcb4a9c4f44453bb489694aef8a10101cda694c6543bfa7ce32a8,
  0x20a05a6a95775b3e7789e2f0125511eac1544bb264d4b450d53f273a90c5ac6,
  0x12e765e3b437e572aebb44f4a05b5bc4d2c677d00ec03e59dcbe3d58149dde2e,
  0x12b62e7b36c138ec9e9b1ac5c273cf976c3bd0b8b309d1082a5282e41935e640,
  0x1c48791606febe725db92b677045986f672ae906abaa63b4bf31e0becc690298,
  0xd00bb661a42f9e0caac0cd7da1d931aacbdafc0be54bb7df679b310b02c1852,
  0x7312958a94054b6e675eeaa152228bf5fd54b6e02cc0ce7a4fdfcb80f2c7a6a,
  0x14fe40c1be71aff1cca353042f6b2bea37c0e3a212e3df8da9357d1e88baaabd,
  0x1787e01ac8b23e0a0bdfae3b5364c1127d83540042ec6e2a5b744dda04783ef3,
  0x617b0599f3302eee0b9f688818c841cbf5a0150f534887391f214346b4dff71,
  0x2993bbad6e2bde2cc6c907a913b2c492c9ed447a6abab0771a8c02c0ba02319,
  0xfedbeba58bb8025d82355de96bad6f397c85b9779cbac34d3df3eeb50f90525,
  0x14cd964fa1733d546b77a6666482d2f1a96518d1c03a6fada5a24e9b5d6baf7e,
  0x15bdf48f275b22b722e53ef13f23837ab62ad0ebba704a9faaba44ee272a0923,
  0x61bdd94301367396ef2f63a319b2a8cc6756ddd95364319880056f21e8fd532,
  0x1c40938afdd00ac7aec4b374ed29814fafe5954290c78aea571c47faf524362e,
  0x3b0f35560a138467d58b4fb8e33e50afa22ad99cc8ce8d8b65e9fc30ca6f45,
  0x733d04d2e34461cb7693300d7b7dccd3fd98b6dc260e2061fb88683cb064608,
  0x700f94e7756e2d72d2c1bb26edf37a080457c858993fb5b1009c75a316ebae1,
  0x5fdb36d89f54b72a368213db8a75073fd9d9269e4ac06635962c5309689eedf,
  0x49fb427e76557da4546bc1beda041aed9eee897d10d92493599b05bf5910241,
  0x54a0edbc51374a2cc63459e876057abe5d1a6225283bda89e79ead179e1feac,
  0xef4d15a2f2d2dab18142708fb10c51ccfc9e023b00e3412589d21b3864cc88e,
  0x81c99a39e42e46bd8338238081e0e3b25c6c67018a823a357506c709d88f468,
  0x127fa426a52ddab5f27dfe0625af82f8bd54a1d1a6f2726786eda1b0715a1268,
  0x18618ab30648ca4fa5be9159d3d20d1204ffc8233c1306ad4934f5689acf811e,
  0x13d4c5f1b6fe184aa40df42d295aaa55060554975dc41b376774b9b9d5119ac5,
  0x8a6318dd80923be0ccbff2189f7b4926cbf6131795bc5c2a5320ab10441b47d,
  0x106d3a229ffa31dde9d76b6555fe80f67573dc50df42ad20d0d17c281bd1c85e,
  0x11a6a34a03f5d25411bfe95a0087ff7fc2127e0d4808e1d6d9a5006b313beb9a,
  0xed8bf11ebfe8246a965f8a29559a3fe707e46a450a8defcfcfdd31ccde610eb,
  0x14a301a18bb5f9309491bc4301ba25949dda8c745975944337433c2a745315f8,
  0x1635c3e68c0e5a3315e2094288cba70fd22f863cfa5567f7f5107da36c3c224f,
  0x100638825508aed9a4d69ac0d14fd5729663a62651ee275b79c1154c7f22146a,
  0x43df1c55230d534e156fe2debe263bc4d81f002394938b5ce4d1719cca35f44,
  0x3a5fc98961f16f41178cd419a3c2dc529774ddde1a5064ae56463154052a2fd,
  0x11644ad0dd41c90bedf7537f1c08666d61af579120ce0d06295c75ff66f99434,
  0x1276067223ed20a88e205bd11332ade67413854b842c17c559f53af68bbf6eaa]

def multiA1 : List ℕ := [
  0x6aa28cb5588a2b19ba690f034b6224a10eb942fed06390abe71463cdf6ed923,
  0x162a212ba2c28930f68f68eea6b1fd0204df965800f2b15b78e7cd531a9ad49b,
  0x6cd09e8639bf6eee78ffceb6ae7e639ed9bb483565106efc3cd6698f8fa5355,
  0xb2b1f2f9a9c27b101abdc70d75b5503484a657f1cb6fe4f6b7fa91eda19558,
  0x117a4d46750a9d038c4f115a8a7400461740d02f49330b0078948c905cd35c25,
  0xb843775488f40c185e01bf34cb3126d876eef04be8bad90d6d1ebb018110f93,
  0xf8cb878590957f8196e7f1371fb98614444e3b67a604d1385092fd2a658e765,
  0x5f8af34c7dd619a886d982c27e7ff3f179611750fb8a22bcd15e3d1ec7ab46,
  0xd81b55019a5c6992bd59fea4a9ad5cef817507513238c40efd3606ea75db838,
  0x5ac910a67ef743eeb8b2993734d84cf514b31934385df0366d724a2dfca29ea,
  0x1936f5a6b50a7dfb5fac6cdebd13591cc879531af8987cdf3ab6531b49dd7d46,
  0x786e2305d94817a6f69910a344edcf046033873bce38fce3cb15f56e38d79b9,
  0x5c880b51fa6d703114fc7701a8c9a766f6125804dc476ef5526e2fd714cbb05,
  0x1c4702bb4757f06140a1227cba68ea1340c9af3cfa7b6016fd9b8bd040c684c5,
  0x31008115c053508f23fd6e318749b04b08f20a4ec668f99981317d0c5315ede,
  0x9faac0fcfdd68b5cac0275b99b55d09729142fb98f7863ae066f19153591cd6,
  0x91c716da423aaade7fb20d87a2c9ffa705c766b69be447b39e133b3443e1fed,
  0x14ce94d5cf87a37145148bdf72f0971f638ace7c1c4f8476b61512290dd3820b,
  0xcd950bde4c61036449623190d1fc728fa66f12ba33c9f0ccfc8272931dfaabd,
  0x2ca6881deb99f32a6d89e6617d679fe3bca1a9124c6c16dd8acf2f249197d3c,
  0x1053f1069a9b017bc307e8863ab70cc56c81e4a0b15072d5cd695527856b06cb,
  0x4bf34713504f7cfa5e15eb16f8b0e334a9db703a2e1e5209ca4920fbff0aee2,
  0x1028bf31672cb424f8646c0c8052e4fdc65477b5fe3c26268ddea3f16a97899,
  0x5ba9cb505cf69016431b285671ab885e2ed52041d9f11135c3c517a31efaeec,
  0x74bf5ea2c3259f5195a6d728207cb511a652c6414f8cee47c01e82d89b346b5,
  0x1cc0f27c719dab1c4733da0201430ae72d792d339e56c7f4dd7bb8e3554ec05,
  0xb62fae91ae92532a644864561c584d1078d195d3bd07cdaa8d0d482e0e679fc,
  0x11133da0ab5fa722ef4a7670d56194b2bb8fe7768e70154d22b7ee9c10db1fff,
  0x19a037e726082b9856a4eb11980abcdee1dd29ab4fede57a5107c6741ac28e2e,
  0x1aa57f41e2e743e38f6f5c38458ccde330af2302f7d123cdcf22e241061a8e9d,
  0x82c6e1ee6eaa4fd0d18b5d485ceb5ae2c4c36679bc2e7e0676979de3f52f7fd,
  0xdc64cf7b55e6c81dc968b42e5b5d2ce79d89bae31574df22d2d3e03c2796594,
  0x496da2b6a0074a9b7d5748abd684402d3f2133eecf79e0f4513e3b3be74a0c3,
  0x10a0237ce690ff248915fcb70cba4569dc2bb567223d05337f3ec2501598f2b9,
  0xb72abc111e8f9ef5ff100e6aeaa8e113e1dfa5de8fd5b5a605e058d7327cf40,
  0x2ea26049c9a3bddb67fa4a6cf95477d26338c14c35b556e4dd65aadaef0071b,
  0x182da5399f868701bb8e48e6b80d56a9e55cd5f2ecbad33b6f1eb5c5134404d8,
  0x12d807a25c7fa18aa54d62f5c1fb2a1b719832200a558b261f2b9a2ecbfb6ab,
  0x9e6e1425aad56ca4b8a503c7ce3e9b7505d4f2972ceb079bdda9006ded05e8f,
  0x369c4f3a11cf64ae7705630e1ba9aec6523194a855b8b5bb855850f12781176,
  0x17e04387ba55c912b9acb3e5094c74bfc8ea5af462654f630f493f4e6e3460f0,
  0x15a718ce0e3f1364160f3a726981a9980dc54227a967d6c9ac9709c30a36edc7,
  0xbc09ef0a424340ef78fd4b8b3b8ff6fe261336eb333195f22785bfe3f1fba55,
  0x1b0d4b06bd05896284ef9ac95c851b714d59a21f21d8aa3c9e412ad943d9945d,
  0xb134703aa1ea44432a2d153a7305b5b4b30960175a7e4c4c157c77f5f358962,
  0x9942716009c39a68168024e9464fba7653b9ca22ad91fc75f6668bfff8356b7,
  0x10c52c0b77bc7dced8c6e7534cd640780d2793f237d0603ff963dbcd1f00489,
  0x15067c61700d86248a9f1162b7fc54fe39c138a2805d38eca8bca8f4a194ff97,
  0x265a19976d57a0b0a207f3d2dd705e4b3e7b6a497157cc503a1a6ed73625154,
  0xf3fade2945f70d51f303d0207c2b734ea2a96f3e3fdb4c019faae92c5175ee0,
  0x121a2981beee266c1ab4f0e727aff40cff96e49900793f4ece6702c5ad38f4ca,
  0xd1975b3f1ac1649d033fc3403d15535e3d5bdc533fbdbed1bc8b3bcca802c0b,
  0xf39d5a7bd662cbf113dbf109bb2111b1e56bceb3d12882d8899bab7120449e1,
  0x15568889c46e94495210fff7fc26d221258e949ea08a1c0302cfaa4de90f82fc,
  0x384ac6c72ebddf4aa056b40b1dd2104ed11b70f0f59e655401f2a6fc4d35eb0,
  0x43311e8d397a37db8871680204d8a2d183c3b52ba7be8fbe1f61a8de6df43a5,
  0x19c1b8779635540b0611576bc8bead011735b99c94e79eeff45d211b8c92f40a,
  0x1585e88c163a879e2361d7a50fe761bfbce4aadb90599d7c0bed594faee3ad39,
  0x145b2db6b3c5d4396b4bd0488cd169dbb5a44825b7074d580dcb7ba63ea9cf15,
  0xc8fc32264de5dffeb741a874969cea6ca29f6575198a71c5284d2d03e7d8ae6,
  0xb31160dc967cb1b2582893fce9a33fc3b3eab6844047ab70822656985aade11,
  0x24f9c84312a25a78f4a0af80d3a90c882b86fe52f60618a4b35b37997bf9829,
  0x10dbfcaf4257d0a6af9a1ab85c4c9a627cd076567a7b62c7a2137bf9d36dcc6a,
  0x34d77e207d0e01f38cd877011d9a3ece4b75eca00fde4ca5c6b02a66a4210d7,
  0x496da2b6a0074a9b7d5748abd684402d3f2133eecf79e0f4513e3b3be74a0c3,
  0x1174cdaede3c1ffd50bba38a8db2ded33819a58b42786f52f1794281d13b5258,
  0x105fe7dfb64f01b540e03b5f05881b10ffc9b1308bc02f0f322879e7da06afa1,
  0x96efeae08366ea4e44c690d9439e9415245ca9328898d7ff70f8e09bea12947,
  0xd2239454ccbae6a3ef1490c609bc66e2d76220fc364502d0ea862a7b672a810,
  0x749ad654562fe68357a732e83a956110fcf7e2618337511de9093849c4624a0,
  0x1c220283fc01f4ebac2cdb2f409fab9dc5bd4d9407178967c695db49016f9347,
  0x12068645077d62f9183fdb65af8746bf612a8d17ba82b6e0394e452793ab3417,
  0x3e965634f5862c960b5db621d2419191033345648b8501257ad95b8733e4f16,
  0x6033505eedca5b662f489b9ee180e6265072d0a817dd2b0371c25c4baec8fe,
  0x9d976647cbbaa8c3086dd2bd191fd4b396698ec98515921283e24d439d03cb9,
  0x196478fee8c6755cc55df021e2aafcbb22517e3b7c6605cdbde2ec19b39ff4f3,
  0x1105de09d83c565ec4d42a1e6b02e3680d26d7bffe3942bf506c6b422a98de92,
  0x163a932d09577f42974a535640999a73c8bcfc36e99a4fa566447e3768e0bafb,
  0x75cd7177ee8d901dc779a55678e1c9ce80ca18354ddea0e7c7541d2a7cba245,
  0x10cc3f7855c084d23186c70acb8e798a9c78fdae8903cf8e64a43f07b26646f4,
  0x1ac175750bb0792e22b5d8b443f8c93a3b3de8e6557c422121a915687762ab90,
  0x17a80ef4705bf753642f0bb7e3f550411cb6b0d04c3b2e5c765c1ae2fb4c6e20,
  0xf1331961c92ca0ef5154acc10c0571e93df57dcd53209586c45d2ae59dd0b4d,
  0x172dcfb96aab16af4f8777f658731d14ab0ae350121f5c26ab8ac74d07d1c623,
  0x1a9c49674b9f12a1009172d3538cc7500b4790f6002503fab9cbbc2efec6204c,
  0x826263c3f9d8671737e2c2e37f8251923e831fd251cc8649ba54f41899cb9d2,
  0xdbdf7678eb66a6182499b1a2b3010d39973cf971dab30aef5dd0dad48e241aa,
  0xbfb75ef1d1a7a6f1716ddc7f7eec575a9bde9525f6c823a35d6930c7be92f40,
  0x11534dd1a17ea562fb8c04cbf766202619690a18ecf68f973ef999142b341ce9,
  0xe268442c8ce60ee90b771d07775ba0f872ec6967b6674831c8686afb90526a1,
  0x139c3bee949c6743be0b121e6248ca260393d15c5da9019f8f2418a6a3680295,
  0x13556a10fb9c4290085f738ad2cea119251f2cb47315943db57bbf82a353b17d,
  0x1affe4ec37320f0c6e62f7b2196c139c4950ddbe9a9d97d932a9f6420bc15014,
  0x1cad80d98550f819c6ebbf7c9acccccd80c0ef9f972b29a9c9aee3a628f49522,
  0xb2417fb164bc4271e99756b147f3508fe5bb4dd36c04357a65c0b3b03300a12,
  0xfac1a25188ac96bde402c1b34a25142974645731e749ed6ac73dc195a03361f,
  0x496da2b6a0074a9b7d5748abd684402d3f2133eecf79e0f4513e3b3be74a0c3,
  0x1381492941eadb2de4ab83d6d90b8cff184732367b3a56546f6743495b797e81,
  0xdb838dc4ca4b0f3daade085972ef3391f7105bad3ed55801dbde37bb679a694,
  0x188a6b30311aa9bdfb8b26d13a270e5e5c29240ec5a832e354875ebc0b39f9f3,
  0x182ddbc945833ef6cd120e7af1759ad3339dca2ebf3c2344de8de90f4176f95d,
  0x16fb403613e94cd9f8ea858b7a00f33b297c4b3069dd264cc28145d82ce50858,
  0x162c0b71dde201b970049ad6ed0eabe837348898a129876b9d72bca38da32406,
  0xc9758a1521f7af1ff4e9c28c8b565cdc2fb90bfbe168a72d9a61a0872b9dcd0,
  0x6e1d70155c2834823467d986038a1954445813242c2f68eff0330c658e19144,
  0x10270c238020d44f1a241db29cebf4c659542c89d8507b272c0bcc466d72ea20,
  0x747c0139ad76fd3b2b27344f74f4538c600e541db987ef49096a420273fca4d,
  0xe9c8e63c11294c94c6aa1e734d5a8062eb6ad400fec31f390742cfc0f71f12f,
  0x10b8efa1288e8847a495a26c928831350a3d0dd3d80fc3198050c6ac01ce47a2,
  0x2ebe5bea8b5978dc88093863fcf2a19237bee686cc3372edf5e62e97c372b57,
  0x164700d8d3d2225b303ab798691adc176b2abadfcc96b891f045b3b07d2b21a8,
  0xa59c18acc17289e77bcc3c3c93d74511a73a7a713f642f21302e3e06e83835,
  0x140e59b6900727539d7168d53de378f2263992a450d1d3868542c2cc7b5a136b,
  0x1bae013febcfc283563121a5d3064a966b7751af7f0d929f1361bcf97b24706,
  0xe40b1f83624c8eae1bb52f1afcb618ddd29b5f4953ad899d634aa0cbac7fbae,
  0x2f7b836f47a0c80d8ff1fa8e9ba63b873b5e7c4abf4eae0b0e26a31884564dc,
  0x1609168355310434b120bd5fdb248122c4893f79555b433dfd5847d37f3ada0d,
  0xce564dd0930654cc31c5283a49bdb41a74f38204beac1e6c9712f661b4405ab,
  0x15a60ef7d9b275ca05eb56bc5b233e4af2166f2af1cecedb443bb4f4d7f45895,
  0x13ffee7dd47b8fc4463e73e3e161d63059129bc45a3db5c81ec6486ed9726281,
  0x116f750215404d4ca2d9ae69527735a316b5718dfb8fe572b474779c59f6cb84,
  0x1b3c1c3af74b37a53c54960d7dde576cb4d5c9de34555dc6b11f70ae416b612d,
  0x18ed42798651fba996c221af246c96a444a04afb00957f3d3130273218a004c7,
  0x16d965c62c31a1c972f4fa46f77f2b1eb52d92b724b06e13d01607ab61d1e57d,
  0x356b80a99110dca3eb3d4ca360ef2da2d7852b349aef7496372bce1b3da1b5,
  0x191861381098fc4e14ca5ac8e457bbffa3717aef6d90faeea0b11e56ba152558,
  0x102d7e71ddf418a27ee46bcfca036f76dbbbd0a3603161ade83493d56a58952c,
  0x11b99405a486258a618cd0a56a4d166ff00a89fbe17f75ff8b958fdf512ac0d]

def multiB1 : List ℕ := [
  0xf0c9158d5acd2fc6ac6b0d4f096451bed14535e99665908ca75d5f913ca41e5,
  0x34b8c0d24ea5c044daef1317134fa0d08a4989045b7d77521ce230ec4e1cc1d,
  0xb9d3dd4bdf33f45df0f2f0662341de1bf8f8bd948e4973e6b76eef82a6e03b9,
  0x96eb4bb1f399edb5932ba6f63bc2e54f744b3a1bad8e7347e5e65d80abc93,
  0x1d3afdb367821dc35c435d733d21bb4aa6a83d2561dd94aa841a2e3eed12ef0,
  0xbd584e55375e7125f64b9af1ae2005dcde54c718ca26cdaf3efcc982d7bfa93,
  0x174ea4a1281fdfa0abd0c5eff98ad87a5f1bd53fb7107a8fd02027189d8283bc,
  0x1c0570d6e82744da930c2736f92164a4ce3a138dd50df65c5952bac550912e87,
  0xf7c8f91c7c692eddbc49a03ca10128f0b0d81ba80898b88f3be90aa451d96be,
  0x4f11ddc0d065a82ddd57974d2d8221a5bd363c3d62e06db858604b37975c7b4,
  0xcc7c95e2c32a0bfddfe063943f74a8040e0c27dd92d61b8959800b49c424616,
  0xb7402f48935092804de9a1d655475f83b13cfc63b1d30f6069165593aac832d,
  0x15add2284679ddf07cb9dd2b9a30348b1b754e658bf3c8666d8bdace76e23c0f,
  0x1565e6aa00bf0f8faba693edae3d7f978b6ed8bc05ce0201853b773400c0a752,
  0x16d392c4b8896ebac1de31786ba200671a83f47c0164356a392c6259069dfa0e,
  0x1b6e70955d2d84232d59f7bb27ccceb8ec258e7c1803f121ce5fb6a454ecc67f,
  0x301181d05ebf19135d72b30c104fd7fc44186aa378a248294ab6b016b541749,
  0x3bb5d02d7a957e046c524f07b7110ea48a23a374dbd777392757713dbddbbe2,
  0x1532e891f279c93fd84789704b9fe49c641f55988b40d7d508c5dfb259672408,
  0x197a25c83b00747796b8f46f4d2531df90a4f5f72a0de986267083205470b2c4,
  0x1c17405b6b2f3c2fe6a3dae94413b57cf5916466c096105315a4ef1523ee030c,
  0x8ec4ec59172eec494d57856bd4d1878a3482975391f78e769689521bf371f1,
  0x10e069dfd22078ff648af81cc0cecc8f345ede462555e7b068afc34459b3d968,
  0xd75c7f6c505770ac0728de96a6c144a550a04747520059d49d44a53424e9775,
  0x9cf2053ca92d1e2e06cfae51a378b1f1cffb11ba929bf52c74c24ad8076f3ed,
  0x11e9aaaa89771694bf54a235cf3836e31baf18699f0fa228364392c6943bf4b0,
  0x80024bf03da181d923cbf83197852c525ca1bae687d2cffde3eb87171352543,
  0x1c70bc6296cb6c44cbc8bee9a4f94aaf73bb21ef4ec5fd72e6e62984c121fbc5,
  0x9da5c8168f3c7bf0c77cd1b0c6591e6471cd3b19cd2cec9d5daae483529a2eb,
  0x16970a7238d8df03175f91c65e41475f28c0f938fb7b382bf6627de5f3406ae9,
  0x6c10d461d7a1151ca3a8ff2c542e39bd0cc0aa45c34e0e42b1391cf18274612,
  0xbd9d5c7705cf662e201880213d87f6a93dc3dcb2b802b42716bf2d3c9c555d3,
  0x278875d87996dc58c6a648d685d1614f5ec1f14af581598c1976b0a9a90a434,
  0x5d07ce79a9a32b90feaf49e7ec12849217e972d1329ab5a87d139158ab9a59f,
  0xa147cc51b06ad72d0b803ceb12a5d7e6a9ce17d6b4c27398586b1e3a6d9f581,
  0xe1f7f891c13a30b8bffa9af2b6b866d3e86d2855e1ec8eaeff8a175c947c770,
  0x87177ff64245f78b083177cdc80941d368a3ab1379530a4e7448f725e550934,
  0x9d871eb2b68e1cca9563f8bebffb53acaf8e403d559e71d356d5f0029e7454e,
  0x9e3dc43c2481e45ca509dd0ab1b08f5a40131e275316907318b4097618025f9,
  0x3dd2cee0780942dcb40749f15cceae9002c2487ee79381de40babf636021134,
  0x47f9715f252be0f87f77eda8127c0be2c7856ec57e6a8de291a2bc027ec766e,
  0x911e32a837c0c654104dfaa25b068fd5ae9c1a89a8ac2a28673de32a3a35ef5,
  0xdac4afc5b71457ae4e37e00eec2ae7a6e815f3cd843254c605039f8c05badd9,
  0x14016a24c63e1605c2b968e1964fb98a5d68719d8bfb275dee27996a701dabd4,
  0x1b84519aa43d3a0c63f8e07c5f3647b8fd6bb6407ca635436ecce46b9505774c,
  0xc982b439191f1d90bc7b01ba1fbe50eff5c694a5876b45057f0c62e929d5c0,
  0x88a6e90069518ebb0b2617b1ef0d7228c7877e9de53b31f46a9b27c8eaf0663,
  0x1b9caf40718595f2bc50b6e41062995be15138780d5fd5a13f311709c9612dd5,
  0x183c1cc865a0e957959a949e717296879e554c75f189bdc956baa5e6ca050c43,
  0xa07ce6bb9f6cd3be3c4168da3fe25bbdc79fa112f210b2d05be4a08f31fde08,
  0x26f4d6b0ab65dba6db2bcff374ecb9643633d2ae49c03340de14d1502186a76,
  0x164bf9fe005563b0d59a7c9234a150fa3083f02595c44e912123ef00b961f1f2,
  0x1b93dbb7ce1deb7c5e380c97adf6b0199eabbc31eedd226cc3a31ee37c62b115,
  0x116d3823183d79eab93cd288464b5ddc2c7428d28369383f2140ce7a1098727e,
  0xc6998a61e4fc1a2454e90dc21ac5cd0ea1fa7619d34bafa27319cc8fffa04d,
  0xbf3be066318124936294418cfd715d9abd75995ee4c62759b024de9ad189809,
  0x12377d8fb46a3ad3e6736f5282bce3314adbd865f172bfa5e618cb018588a0c4,
  0x1844cf8b55fcb61aee723262c07c8d307483eb225d62ca1998ae3c2265506d59,
  0xc4725baf639e60f06c1e1dfb857febd7f22450fa9b12f4f841bf5e130ebc193,
  0x5262edb787ce4e55a42b8c3e2ed45da1e99776ecf3021ee1341d70b662d841c,
  0x1c194b5a8fe0225cd5ca9caa7d0b3c8bc49bc7278c6a47e9564b3acdd5fea3e7,
  0x758eb40b46e24826a22b0eabbf1fb3a3746dbaec0dda4fc88811d2960536d0c,
  0x8226ccc76e76ea3525b885fd1a7e4956ae3fa6f96e2483b7e55b8158a6c165b,
  0x981c9001e90f2555d6b6a58fa2ccf47e67601069e365fb1c853bced33e6aa3e,
  0x1af21efcab7b1e091bf564c39360f4a4ce5677f37192680d8e3bd5bb4970654e,
  0xb365bab4102c7d13dd733c09c93a20874ee3261b2505944124d7fd2dbe2032c,
  0x19bf72ca60d1dbbe170defaca96a852b87ffcba4ac7e3df16f227ca874853943,
  0x5fbbd7452df3f898a1e8f0c4d09a790e461c2baf5729432287ff11477734b4a,
  0xd6536e8de260ff7ce8c2121192388ea37b9bc5c35480d82c8fa43b36452b530,
  0xfb7d814d619a9c1bd96ac20581d44f32a366fbca48275e402b692d3ecfdbde0,
  0x11ba0bb6e83d781aa6ddbcf167f3fb0d0d947e8a6cb3800360dd19cbf8e6fb3f,
  0xf759b3ee51fb2fd4c22590bc2665e922196594b8fc08ffccfd3d30cde874d,
  0x57571222f1493fe5d78ac0d3829828e716df4cb5a029dedefc42687e9734df6,
  0xf65f3537a8bee08a17a76792d0c6154956f069d16fb9f1145672ede402a6918,
  0x14ab665dbbc3b2c6ffd07ef2f44dd330c6451a43b916f54f1c1827b40603889f,
  0x2ce3fd6d630b8e3f8e54dcfec941eff8c31882c55a36170cde8a9fce3eb2313,
  0xd629dc0e85852761e2d45275b3861d177f308e07205599741aa4421d74b24b6,
  0x1881c66e3d37c4c78f7a302967f51b872fcf6c497fde4d214ba76134514271fa,
  0x1a24604de53626556754537208eb978911e95697707d0453c42c87e713554010,
  0xf849c3e03cde386126921facbf844224e5a23be0738a84cfb1d99ce3a77dfc6,
  0x8b01c8b0efe81a27a56dc9d73d7379f90587b6e14e3e0387d72a9e468821d6,
  0xdffd3b422242cc9004a0409ea676428d3566be16ab16aded1d8b436546477c9,
  0x1a7c7e9ebbfd46692d1f47cc2e1a92098c3cdca5d5a215e54bbd39578814469,
  0x5e33061314db6d8c6f60e21504b20519e64afd44407ad1e8950f3aa35e9f9d8,
  0x5f7695950c428dfc2d7852f65025b68532ae8e6458c028264afac4d6032f313,
  0x36fcd7bbc0526495778f62e3e3da7616d9fe3c35ebb2474813f833c388c5b72,
  0x114520f4436916691462a860130d36a3a4c11e8caa00b048fd9cefdf9c5b1e91,
  0xb52e48efa16152e9ceb4587e5e5b40bcabe5b26b9e8257c0f1e73f26c92be06,
  0x122378824d630237b9d904aef94ae38296f06469b8f2e0ad373f580d6d3beea2,
  0xdd225ad425f53238a4f3583978629b9ba99fb8ea5ff2df4b8b361fe75ae9601,
  0x775b53a4022c1e50fff6d69d1af585cf02773b699c87a1d4719df0243a56ea,
  0x5ee98685603779a8aa3b18492074a4056c5e2e04dad987545a0d6ad641f7d7,
  0x17273278822c318dc1b122dbc860a3ef81c28c25d289ce20565f9ec7b6a7b581,
  0xe8478bb4d79799a8374e31b9133d6701eb585cee60c9e190e2d4c154a7cabf0,
  0x11af2c186566ded0c013247b72f8a90bd222f0ff20fb8a0e65d07a62ce704600,
  0x295dd7570d16afdc6b4d26d25da74029c9358b549aacc5302018c531ca840b1,
  0x1011e2ddd3f86d4091e9369cf8a2f74a2235f0ed2ac38333856e4045e43e979b,
  0x1505e65fd26ac9c2e2b9602e0528e853ce872010b81f8e839ad346d8a59a425c,
  0x181b0bf319cee0e87972a5677683bed7f302134662f6bd872e264bc66bc6d510,
  0xfb82786d1d81caa3ddb016ea494c667a26a9fb8709487b99065fa7b66883ba3,
  0x50dd985ffca0e50eb50c9661146f1a40352fb180ae61c304384176963fb60b8,
  0x18edbe54bb995d27b626c1ce18d202c85a3b74895691109164176ee46e556c2,
  0xdd62db788e9e17ce740474946f761e5bec97121e24ba115ce41bef1fd373991,
  0x5d92bf43953bb63235de22137109fb16c38b9070fe0dfb1e39b3e12c21668d7,
  0xebde4e2cb6f091c44a8d9961abce18e1e03ad6f576af5c19d2618b636d376cd,
  0x1581ea3e07f66507c7bcb0435c7fa3c2df7e645fda1fcd71d21da5fefa83360a,
  0x15ed955cb0ebc59d83945db1a919214f08d61dda46097b7ab41f2a1f567c665a,
  0x1b461c8978512e4b39c0190e1643f8c8f31f2dc6bba2525e194e341eb4ce4e97,
  0xc99c2e1d9f318164b32794c129b8e95680af7d399234144186313b28ddfa699,
  0x14d5674169a472bc8c279d1a3cfa46fffec1e0f8a96420eceeb8df860300278,
  0x194aeb7229239816194815211a123959be6c750814ea04dbeece65cb9bfe9a1e,
  0xdbf69acf9edc375a4f93c530964acda8589aedb8696d6f8498da6846d440c0c,
  0x1040fcdc7a5403fffdf26749416f47e5661d1e6444d8d303cb7f323417f74775,
  0x1a42301ad1c6dc8612c0997fd996e23046a5de123efd38408e35be051f34186b,
  0x744ead5facae83c96dc8bae51093c112fa95fd7b8687c908bbe6fd94fb72b9e,
  0x17fe66ab8d7f61d7db91312d1e6774ab298db560dc1d594ab311c85c59ae7bdc,
  0x1b8ef798515c409395551eb8a9d176f53b60759024077a0133343ca1483ad765,
  0x96182bd8ae6dda1865c2f26822a9745efcb6eb56a7c676a76fcc87038c6c45e,
  0xffcf6768244344749bf113b261f5952a97406f6861a94760d8d7a61752b2e21,
  0x1bc2919a899d71e2f2ad84eb8904da9ce3f1238f5d288afd5797dd8914594690,
  0x78070fa04b3dc1bcb23289e676ad67f32cf57be9aa48bc50c1157bb7028b69d,
  0xe1142c6064cdbf02e3d4f035d32114f282d37c7c50741563b26ff7248df2b5f,
  0x140c2a132ef1d40e5c0cd1097a9041b3c124ec3065a48172e7ba1cbd8d0dda32,
  0x1b23a93f7605a88eeefe26cf5cd20bf54e5a750e2d4f812d94d4ff5ebaaa0f35,
  0x9eb0d6b33081cfe579ce147b623443a28d629a39c08da8cba2e3350713635b,
  0x1255e1c291ee0dcba4a4f2c3f6bc6afca55d2d7492bb47d5b3d3adabd7918ef8,
  0xf067801f2d32a9f4dbd5ae77047dc2b4e5883f9f5d7611a4a7fcaa66e8073b1,
  0x8ee2a5c72519bd899d5c51cf20e4d641d989b34de9835fb945e37e4afd5454b]

def multiG1 : List (ℕ × ℕ) := [
  (0x1e95a26b96cf8da8bd2966b5e71201b180bcdb08c4f39e8e6f815370839df309, 0x348d698058c006e11e55aaf8babf5211e64c078dc8d497bb3d9596d01eaf5e25),
  (0x31f7db8fff3398422fdeed96a34808a4573f4f1a55f6c584593ff13b6ee98041, 0x6126f0085d00ff36c5db315a76199fa60ba83a6aa842f02406ee9be6c6636bf0),
  (0x45e8b9f7dc2fecde839ae577038660a0752ef8283edf0c01efb214ede92b4519, 0xf5dab9e1d9a785c9002c6a974954fc05d1eae9b8c68fcafce4143087f783cd2),
  (0x3c0cdac64d607c34775fb2c9225ba88ef2e9f20de8f0500495d0925eb609c5da, 0x40d690247c9bf7e1af5ce698090e0208f1f885993bd2a097d166468c8c5af1),
  (0x4992ced789df6d978fa8707454df5d6ba987211ae647ee69c1bc8dddc5056249, 0x1ad4fb2b948b22ec9fb0cc1ebe2c10b462ceea7b49284a2cac6fb46349fb4256),
  (0x507cd234900bf0ed6c5b98171f593d746df507071d5975bba7beee0b6dcaba1a, 0x53e386dd6ba5ceddca3a28f34832af14b43decf59cd404dcd20f3e116a66aff7),
  (0x4d11a407026a8727fd95a1adaddbb6590e5292d2ae926c187dd8d7d833a6c733, 0x5a632577cb04a89f10cea400432e877a8a16ad17c49587f287846973e07c73db),
  (0x54234e0893face25720ee35fe3fb7b0e2ceae837160dfafdba3464b102aace68, 0x83e605e585014f133be254add8db5bf58059e22ac7b3c1e730556d5a4369811),
  (0x38f99b79ac364a35262c8a7cbea0849ff51171273c3fb0881b56ff3a3415d5c1, 0x5c05a1ecf81f01c32dd6b29632a844f4f4310adb3fd1c4180030aa6b68aa139),
  (0x5c4c21e87823203ad94ce15ae621624474a726ff41667d6d1049e36b9af822f3, 0x4d7f83e15c88423ba8f52cf55c8f3883ef8dfa9d11f5121f0be05e4ea4f7450d),
  (0x63b8a8db7b5b4245861266c00ff7683111ef7f63b4936680c77ccd18c55c50ec, 0x6ec8aa66dbd6e7b9a9dcedfaea4e138d8dff8e8003c5e75bbb1afaee236e2d5b),
  (0x56f6259b3a81319dd2f8bfecce1915f501383ebd4c3831585cb47ffbdae2f3dc, 0x3f3afa5314fa78a1b9113545bbb24ae62a3260d3fc3cf09775ec3db62aaaa894),
  (0x58d314b2acd547a70b9b52cae95c46d7b719daf913b8b2b865cf42ab35dec4b5, 0x3ed71b9bf9accab912a6355df5d6d62ab84ffa72cb3c63e1bda9bcba70b92eb0),
  (0x24671d5af3fe2b553b1d53b293f69660429eda164dd173a27f04b717af357c1b, 0xd2fec3dc907cc5a848d2076ae49b6c47072cb801afd4567dfc8d68d27f9acfd),
  (0x28ba89c48f944d8742d85e817bf87c8a858ea6708dbc33d38028f2963a1be365, 0x3154f3c57dfa45c88d16ef5939b52f13f92db62158d323e86b2497a00b510654),
  (0x575714e313c31f2993d58942d76010d90c6f9d387482caafee62d0268394cb09, 0x93d676e41ed6096469ec167d3914222837cf075ab7582c28cfdaa8f66a9e467),
  (0x4fffd53e0b3390aaba3de3a2033fa752b28b0e29d4526fc81ebccec36a8c42e5, 0x1a4b611f259c5c7f223e5d84b401a5714406d80c588ac42bff0ea136802c3d89),
  (0x5f6b78bb77a5ec62d07e41485e8e93418d5a4e4d65ec965204d91298eb7c50bf, 0x540c4308e5b77682ffff2a41cc4f086b6dfc5005b90a8111ac5a8fee6bc7b076),
  (0x5c6e6f245273de3cbc7222a544b499daf7d904c131999c3483cb3dd1b6ae029f, 0x6a66d5e6e7b6fb6a025c9bc641d1cf07b29a70c4282010f513d0988e593288b8),
  (0xfa1482fbc5664dce57c60b75178dfc5001de89d6aa5c309c18d4cb2a49b54e6, 0x2e28ee7780f29945ce9627f6b9dd8a28352b88251e4f10e61b160b46fd2014),
  (0x216e8275ed76e3220ba678ebb2641fe59f2c90931a85527670b154ed7b859ce8, 0xe65bcc4710a0867264ac07babd46e93b4b4a91c324bf96dca461c16fc1b1953),
  (0x58477a6a083fe8f5e7da9d6a281e4e3ff9f112192ece146db011a363d3ca8dc1, 0xa5847a4262bcef6df3e1e7990dc6f7954a2c736898a230b3c414ff6500f6f02),
  (0x411bb4ac1928dfb16c6c86c15cb996e1c3de3b2afde548021eaa4d21e92d4e62, 0x4454bbeaa5e0939d05b026cfbc417b46a00662aae2137c732f32dbb1e332ad37),
  (0x1f3ccfdcd26cbda87633d07afa934e1f7e4e4b090bf1a24b1b666dad68c5f3d0, 0x14cd19499f520b6a01ed7ae9d362b542f61e1b2311166ddfd95dc49b77bc9ea7),
  (0x580939e1bab28688929c4d993d0f075f338a77745bdc205059a8026c364ebcc9, 0x3fd31529ce7966580dd48a4d92ea49041049f45fc6dd83c1d1b896965b42d962),
  (0x2b2670ece0e13804d4ba9e00f76049a33e32fdbb9eabd9f9893e0d28a1db30fa, 0x2520e9b1f2313b3696341e0cf026dd9ca4808025d2adcda56fac21d69137ce95),
  (0xa496518f710ab943bdf3b50f86693301709cbb03c1f7d6141071bb2ef95f56e, 0x2d194bf88d91007bbce442f80a60b8251ad8aa06b54f557b760f79ba0df625a8),
  (0x15b603b93a61568f746513f8c954083b0937757e14c461685dd78d7625a530fb, 0xc3612af16ed5a12d2b17dfe8eec14e55444def34c47dd9135b3a9cfa5284806),
  (0x17b81099cc51926a5cc855b8006dc86a8cfe68317ec35bb4a9b55f93f57cb8d3, 0x121a5a372f46da86afe9ba65eb2d49486b508f63e92999dbaf5f0d4be2289a68),
  (0x553261673ea9b18064531e5401ec0a60775ee58302620742af3c16a3863c268, 0x8a9b7d8701c07b8c80695f3fc81570579cc0631cbaa2e11e7b2e0399e8cafac),
  (0x154e2d99625bd3ad848133e2a4f935ed7f9842e0b9a6d8a2cfb146489c66e196, 0x4a06ed60c8dcf5489e3f1ebab61c7ddeb4fddc1b5b982eeec663c11c79043c34),
  (0x63f9bab61ae018e350c892522da925cfa23ecf3c2eeb6419b9315b5783db34d2, 0x60296c4927642af4777eb792a3f46c32297c7786dc43c3671463fd78af3a9c12),
  (0x1b8bf1aa729239f63d91c3c9737e6f92d450de2a22fda5e78a9261270cd852a6, 0x84d416a2a526a771f261bee3ab75308d5cd1b16597da293a6bd9c64b18fd7aa),
  (0x54651fb5ed1dcb333d8903b2cf465ca56ee48fe1ab68d74fc5794060396fd0f3, 0x6ea63750033a27730be41379f0af07d31f32b3f0b80409163733ce6918104c43),
  (0x719d6e257dbab553a0d478851cac91b77f2bc5627a6cb6a7b607bb91d3375358, 0x6e91cf3841e18955ceaddd481040d69ace4aecc83ff1f25ec96c4ea40e90a577),
  (0x3497d703c24a2bd9cbdbaa0442fc8db3203810984b924a094163d3d8397f138a, 0x3ee85de2bcde1999c5d1f2d8843f7106856270d2d958b4f88da9c44c1bce82e3),
  (0x282734eaeb313965ee1bd15d7b0b954756ff22152d7b3f77f03e7533c4a27e3a, 0x65acf5b11956dca86d99f8239e6fcabeb1195486cfcb22ea637bd2e3bb3a6d29),
  (0x4a524dfa4e9a3c676848393dbcc0b99e6adee378202218975b95ebca5c01ac8b, 0x5c00383a4bd01172b0f3fdd18bcb9f94b10f6c6d394d5d7357c506ff8a26b9a5),
  (0x2549e33d798c579493167da4c659cf1e018e5a8ceb8fea4544f05ccc7402e81d, 0x211ce53609c0a9168ddcb4e98df559d11dc2a4d94b44b4c3c48017a978de4ccd),
  (0x593af0e0e9e91fd89802cced9caff639ac00e4e8de9802dd3369adc8c7ca873c, 0x41c1147178631dd2b7103a0e4d4e19a01719c6951ae2832408d759f4aa1b2be0),
  (0x2cfbdca16aeb25040c9bb670e5c83cbc9ad2a417d0abddb52a79b109cb09a21c, 0x5b4bfe0c220d142725a3d615628a69e8bb8ed388671263b61079f93c225c7d5e),
  (0x10101670143b500d41505515d1ec7d1d80bb8966036b72b5898a96f1a062f873, 0x26fb8870307d73eed55d906440b29f0abc0cd564234cc87448e9a45920175b8f),
  (0x1ee85c6c15e476513c75968fc065fa9978b3f1c67f6e4d4c5c72cad8ac1c73ad, 0x25def7612bf7477abef8ba9b47780991164dd45762d34ad7c6349bd1b5460f8d),
  (0x14cbb8c0dc9aa5c97d5dfd390ed4c903a769bf7178501b7bc1f9d9a297c30bab, 0x628ab16ad16666c3ff8275ffc4b26349c542b9fc4bec46ad5e7f0c8fc9ecf879),
  (0xc47bbd516aa95fca24bb95a2423ef9a3788af76028c29a18eafba4c1e6b69c9, 0x1e44a97c9b60d3b549f35d86f66c66329fa0e6ed7e0614473786cb923da615cb),
  (0x54bebfaf1b55f114c9a1628adada36d6755bc55a0499b40f6ae9daedf98a03ee, 0x34928e32a4d3b44dd3c004f48dd6ef3d8590b1d0c1f6fcd51deb35be909d2477),
  (0x280d6d9cff14d174a6da3f8a91f7369584a6f603d856fb4d4c60ef8caefa4ae0, 0x1ca1a8c6954e4ed67bfad0cc56368f8daa4b83faf57451380e8704f2ef4c31ce),
  (0x33a012c02d0c3a7e1b1f7ea2b2d651a15411902b408cd6190adbe1d227c45478, 0x6f144c71a0383dafc6ec2b379e2afae45bbd0f3ad5399a88a84de29e68181566),
  (0x61db5d78c7f42cf19c5faaaf5f96e95ede3ee538ae299419101664b4a19134d7, 0x22e771e4fe645e7a036cec8b31999ed77f1a78b9dce838f61539805d792961d7),
  (0xbcfad62b20e21326066a0f25fe31c834a8473ea0e4236a4f0a35c4f12a414cf, 0x3d0d67d4e274fdda735b5704a35561f90ad729e36b14dcbb2e38d2b0c0b720a7),
  (0x3e9a591926fec6c560828ac9e8873e410a939bbe10474f5b1216650bde09902d, 0x71b165a13a123f27378c9b2d47a8da2f1aff9f27a250ca2ac526da5ec1514d66),
  (0x40f5e9721df75ce48d9417463f9f0a89d0c0558ac9a6fd3f6e8a5a1619469174, 0x2b9a6aac54c866bf67576b5ad7fb1e368865ddb52d0d22a3a2466dcbac5ef86),
  (0x3d6819f3418d1f12660335b2aba18b1553b7486261c2ac11a1763a022efbcd14, 0x50699db86a37b4b5abe9b7b46c58176564b02f635c7a718ed8cabfe929be937c),
  (0x5ccbf63560ceeb9303be55ef0931235ea188675c179621327cd6c435c0a8475, 0x2120e5f2e5dfaa1d34c4b7f3817a43edaed1fd2371156faa43277420c915acc3),
  (0x19fc0854b2daa85be3ecec37fb6d7ca1631bb077c0707860a519f22ca12bd429, 0xdbe0b2d61fb37a92078575a71da19a057fc6492889aa7f4bbe253d3be63e63f),
  (0x2120b7f159c4ae7fae71856a07ea2916ee0aea2d1a92c1ae4c4613140fb935de, 0x774eb90eeabd27354a38eb096e22d07d28dda9ab0f39a0e27f2231cac5a9ff4),
  (0x4421fe61b1d3eaaeb89e98e9db7dfe4a7fb8d2d2fcea0f2630e70d392d4808ca, 0xa3efce93b7a81997598335dd4aeab63ab0323e24a0d04d636a4444497a8a9b4),
  (0x657620dad7fd8d9d1d58fc88d236effdd54523ee4b6a6d3c754228b5b26e5dda, 0x507941af1a2c0f5f31594d95cdf261179a7031e97e3ff6b85eb6d80d5d81faa5),
  (0x2e956aba969e914525492ff4ee5396ab01b33354506d9f8ff89cb439b2528154, 0x5a30b5d0b0bd158b5d15d75877d79469924f285f8a0379f8740e2b0ecae0e1ea),
  (0xcdee2db0d9f739ea3b34325851b28451ea396d7fcedbf54037e1e0fd057215f, 0x21366ef3e7d3cc915fd8710f4d4d46b1ad6fcc7345a5a32b4c6b444ce781c7a1),
  (0x157358ff51eae3472499f99f5251d7797d26c22db2fc4710661fc1698200290, 0x56759cec8f3ba07850a15a8159dea23dbc7db0fbb8d7491136be854ef496802c),
  (0x5d0cd8637827d42f3541deef4617135d4e97123afc78980fe85e68180fd3d1f3, 0x4f4b92f94dba607a5332c3a865f77d8cfd7050ffbda64fa553c895d73d2efee4),
  (0x4a783d2d133ead5af92fa0a22b56e215bc811ede374ceedbead2faac12dcb6d1, 0x4c8990d682e4b5f914e6904c5a2958562373d1d3158150b5a9ca4fe1a2947e0f),
  (0x36154e0b4131a2df4159b77ea9cec9ca3c5fc6d45968211e14a05c454a9955ac, 0x5586465b42d0cd0ec81d0badd595c7cc0fc1a17f9b8d91f6075e9219c5ab36cc),
  (0x5b5d6165f8c9a5e7584231d4c40f8c64fdba45333c91476dabd523b6606a2f08, 0x9aa978e4f292c0bf07529591be2bee826d584986138aea3cc0b743f21ecdb75),
  (0x720803933634af267e734c10587ee3058438903fca1e614340c96098bdb36806, 0x43db626abc711e5e068c42225e41dc0a89417e92929131bd4b8698fc93b51095),
  (0x2f3d6e029132bf4430d636c5c64a2678781b5baa1287979410185b47f063b6dc, 0x2ce2b9d2796d04d8fd3f481a74e86b4ecb1568107a91ef3f8555acdd9d1cf452),
  (0x6d3009a85725e580821ec1fb79bd26ca676c46b2e419d62f50c8e56e86c0927d, 0x56c381d0ee2b7c099a2453d5e8b4783d5caa8755f42fb864a829ef9f98d6ca),
  (0x23cf7afc6eae9854d2a5bbe1e60f28dadb9572297dd22871a3ccbec135b30b96, 0x2182065764e60024f6f8d41d87cbe682e758a17d78bc13fe0cd55a6f6c7466ff),
  (0x475f656f7021b60f16b1a19312e41eaf6f3b55206515ff448dd9b0350c3637dd, 0x381ebd65132e5bed6fac792850e5f67a88872ef0080acbc3d6b6b0958dfbe64f),
  (0x3d0e4a55c207eed9c1f89313c4f424046f43ddd0b5a68b8bdcaae4ace70dde8, 0x6198132a9426fc69b88c18d647870ad5b885c046adaf7fcb2d2d0c2d918c8ea6),
  (0x111387e8bde9f33ca70b7cb0029cc3359b4bcbdda520a6de4f198b58fcdbe255, 0x7140cc5e854265da376787a655a435e02496db6c665e33f4030a1328fbb0d39b),
  (0xc80b1638961777c9a1cc88a109bfffaa9d33a71809fadea0c2b60cca27e03a7, 0x668a4402886610ec39da9ee3cf8f91a08fcf6b8e6ef5d22764f3fce95ee5cd5),
  (0x4e1561eb75fe72a7601791c1e80a95e7b800f4a5b3d92b1aaf5b3907f6f8a9c6, 0x32701c416b310b841929838cfcfd5e92e9d32ae6fb30925872bb353f330a4485),
  (0x62bec34cdd687a3154987fee24d4cc3f12be3b34067ad600f1c4bfd500f5691b, 0x63daa431ce6bd423924e7559112ec3a5c05906a5f3e64d8e08ae9831d06f817d),
  (0x1c67fd64c30df8cc3303be07518da7b50d5157ef1d32298d77654d01bf718761, 0x1a649a0df5dae205b9cc7d0c38c3710dc4613674305ace4addcaf93aee27c790),
  (0x1b7d7a944d38b015ea3f9ec230d43f9d79c8c7fb3764e88158e59479c90d4e2f, 0x9c0e1429933d3605d2e5c19df617e85703c50a022c89b11b20cdf9f44b361cb),
  (0x306787c6a1cb9ac94055836a30ba98f46e2715721fc26503632501a3fe82e62e, 0xa4d35a9c49d2239c3620f57370af34a0795fc46dc57f40cb7c0b098bc27ee),
  (0x4a72753ab7d012f9c9c789f3f0092fee58b23dd6b09f9390c1898e3b16f6faa5, 0x37af1b6c42f9e80b44588235c8dcb9d9a9305b86f5c085fb84374600d0c398d9),
  (0x1834007de53bf47f1c617eaf8be8e6387c3160dffdbbd040e05273e028dffa12, 0x32008d74c25d518092d1e6d9f2aa723f1a7cacab4f9c849ec862bf67c0b85971),
  (0x104f09e9cbad75f1005ae360746b5b502f677e37239d375e0118663124188abc, 0x2771da6291ea398ff5e5ef4bb60bf310f2119b4187c8b32247e93ca16f07f2a5),
  (0x485df7feb5522de2ba65278a087848c8976b256565f130f84f0f0b4fb16e3d8d, 0x4036e07a845ff4e543ec3df27dc0e53f1f1849ed52268247a48117067f032494),
  (0x6c7f6218c76b77a0a43c0bce8dea21de52f9590bd0e25a156354dc5b4e447b93, 0x6e651a53656869dd3a662b06fc240279d94d3ee4a146173c5aef649d0d9190f8),
  (0x1baf1cb79ae9de2b995cd9ea30c4bde2da1f4c9457d802cfc4bdc5bb416d8bbe, 0x3c5d25eab68a1df5cd07be49428aac5c09ad076eecf35b0a902f0027ff636eb0),
  (0x441559cb078294f991a6cdff6b5ba1596cac02e145704f0cc086f4bbe7363082, 0x1ecbee976329cd90cc08577f433c695f69f1209d756e158bea57e4e09f94189f),
  (0x14087cb3ce652da67417374252f49cc9c97b23771b6f2c4f5333c108488f7669, 0x305267df71e71684c2f1d62ca2f37239fcf8c517dcf890d6fb5c9acc55389a03),
  (0x25d20b6cb87071641e26b45e310a9d481e941c374e271f3dafdb82393eb87e3f, 0x53f118301f3aedba06ab3e266c537d0ddbf547e345f4bd24cbda59068862e522),
  (0x2a44531c072a0acb3118654c06a701e37adf6699e6b07ee03d77fdb6627f96ff, 0x42a28e9b9248b0ad8cd3a16b7dcf0012c3d2e0bab3264b5e19e3deb951bece82),
  (0x4f56db8406d6b9b4da997d6a314d84288e1f1291473db10b104fe6c7034ffe7, 0x49b8853a4f98b49becb68d18a325ff59bd0642f141746543c30cca642bb98772),
  (0x2d71799c8051115453b9b0dbed3daa5d566639de3ae4277c1047e229812781f4, 0x5935ff9f6a1b24ab4a3278927b568cc9bc87b159a767cbdae07f5c1dc54594f),
  (0x72160d65bac73cc4a9bc20bdae098d3c77f06dc3fdfa58bb4eb384fe60150ffb, 0x1cdc0065c155d5164a1d6366fd6c014aeb03d78104b7a69d728727a51d8dada3),
  (0x7340c2f5aca93180733155ddd10c9aa986296fcc9e3cc91951e411d4857e0f81, 0x2e015014ebfa641849c0fbd58b90cf4c7d99fb97f23dad228963e53aae83f19d),
  (0x2f9d3a6a9bbda69a0ba5a9499376adf98f21d60e39a42965506570482ced4fc3, 0x46705182973be3a75788e3c5df50e164e5b8a1e5d02010ba1da7f16d3b82ba56),
  (0x3c5bbdf3c2addda538a250078409577ad0f2763841ff6120e15c01d5805f26e0, 0x56025a32c4aac8ba74d5820e0cc5b545b15ac4b5afddc3cf019538238b36694e),
  (0x365c60edafb39e63c38fe1404911b7e988d42c08fce5d160b0a6d69c190aa14b, 0x5d038a0ffffe8c26aeb55ebec15f74ff0892efc08d8bac425c119b5f8403d8c0),
  (0x1bf3999577357a9b3ccf1f2fc0fa68818355f754c17d7d5c335177ded210d615, 0x3a3f626336985fd300db3c8872c29eb5bbd2a7205c2f20125230379a3981bd2b),
  (0x2c485862792a6408f842d2191eda6974f666b6f65574d905646e866e7ded0b5, 0x62fc38ccf97857aed97d96f8b0de8cced1cc5ddb3b2160d2e1c6fb681979a42c),
  (0x1589a22576bfcd588b2f4b976e331e4c5f1b19762a158fc0fd78c9a6d1d5e1ef, 0x13b89a85a062a3367c65bac6c2e504c1f1f49b540d00d6043023ea66736b2647),
  (0x1137f5e622b455cf0fbd094b11c89321b766ea9d54d75f4a869b8d1d56473a2f, 0x51d0051522a76d59a32d69772081843dbf9dfab67fd0d4a7c8ee1bddc3f24624),
  (0x3e7f317e7c9a675449384ad8c981948decc2c707df9f531f0c177c744e0f8f03, 0x5d23ee2e373a42f8c3356807eae44d2b1eba04187df4e191de3125f64fda12e1),
  (0xa68e97641a53ed690add66c33d3285f263fff356b605c5d2f3280d6f9f829ba, 0x2b3b37141190758df3580608a5a71c01bb129fa231a833671e6f87ac985cd6d2),
  (0xfce9120f0717f4439948f5e0f74dbe2d943acc184d9e91a504c3ad7e0f13d7b, 0x28fe4440990ac9e11cfb00bbffd0eb95e309d5bafb2796484286ddb76ef32b77),
  (0x6581f8e3311d31b9d31cd2be3ee439654dd38545088dbb367d68a7db5772f4f9, 0x3b769369db5b96413f3b4fb87b00c1c46e7bb243eb53542391d0a22fef53a5d7),
  (0x614fb9637532b3895ae4edb5d1b03a0d559ecebad48d55d8eaf76336e94a3ebb, 0x2f39bda9156859096f668c4344d08fdb1a9da272281fa28f5bc732155dadebb8),
  (0x1cecc0643763ea70fe1512eb097b177a98a6cac24322c92bf884a2fdb43551eb, 0x5e4e35436e13327ac1f9337ff026b36c436f17541047777116c3a43f8ea946b2),
  (0x50cdef051cf7f1f31465b8a29768f12061a20a49fe1b85bd1db547a575880db9, 0x27e78b1fb06923e0a74eb37690ba8bebf21505179cac5d78b376773122ae592f),
  (0x2557b5eb0f0e963fc281756f02e0be3b44990625c1034b7468c5d46f18683495, 0x44991769ce8aa4db28cee839ff325bf594fdebd961484e802ca51090a643f8c),
  (0x66de7c7b139a4ef819e0f919ab2fa491e8ce5a558b0e86fa89beac3a3798d7e7, 0x155c95f431fd6dd06f5aa19f565aa415fb4809cca5db3e852b88bbd756630213),
  (0x44ab82c8d55352c0fedefbcbc8be36f55ee0240b95266374ae4b4438201dd144, 0x470fbd6b31fa81c324dddbe6491d88031777cca80b3d59636df040a542b43f00),
  (0x41aabf7f0dedb8099526a8e01f7ef539509a87df28a25d170e97cea775c73624, 0x510767df8ed20b507829177def6ecf7b8ba0b5f22a65d1b88dc4ff4283cd0491),
  (0xe0ad99b993d03af7563fb51bacad793f018ee2a62a122ca07452ea31c42406a, 0x58d939afd7514b290fa340e961ca1126c01086a7825fa173c981b8d4fd905da1),
  (0x67cbd84b57e8a5ab70e9e0e9f351a8fa2a972a39dfb8463a2929e54e1de0dd82, 0x1d3065847b8ce06d6b0c8f4e86bbc2ee97ed388a8c8e6bec73e0f7e4c4845a03),
  (0x3081435864b4d8e76921224f9c9e98bda599dd5893fb2c996cd0b961810b2b3c, 0x52de240d1c11a40bfcf31176a0b8cac21903b4ab749bb2e3647169ba587dcea4),
  (0x2e748fe63dc18f3a7248666edb83adc7e69e9bc5228a85f60f8da925f2961f79, 0x2ff5b04ecefce538dbca70609a0203cae672ebba7004fb98fffff3e3b9827875),
  (0x70d1c1de38da5c141ead4464a6eed23d72db8d91324d4b5d201994fa76082dc4, 0x11d269c2ecca95813464164800f65d82cb509829af0ddc19f8722d047d5592a5),
  (0x7610c0359eb3e218d6a16579a01dc0134f4ed07bd611cb9b2480bdeb3885b32, 0x3158faca97e3ae3363e57e705e6857fe47dfb6c759f5698ca0e61c59e134b9a0),
  (0x2db214df2bf45258ca65ee23f6e2805cd65a5088dd2bc83e4f839f0b713cf575, 0x10ddb914ab6678f76af6602f42a1934bb4f79e976a06e0e148a83c8b617f573a),
  (0x11beae72a0407e60c3d0e4d8b57652425f7f33697d9adcf8d6798a2f4a8d103a, 0x1b6876f64586366bf48afc7c4ed9dce4d9418bb6361b54f497bb77d1316c6da7),
  (0x11f3dd671be8bcad93553353640667a3a518c99d2e7043dfd8b5235a900251ab, 0x295a804db3a89d875733a2489e071d09b8c7de2a1e1e8389d8f32c1bb3a23e2e),
  (0x187df32b38494754b3663209b57c5b18b3489a60627ffacc4c5e10fc6e684126, 0x739e133e1d5c03b681ac656c7378d6fc0a97adea57ef1ecd4bcd21f5ada5bb75),
  (0x35f70265cb177c033141989ea0893c73245925f19cfd579b879652ddc9273a5f, 0x4d11ca69b4448c3a906f13a8ee8adc6f9625eb50946c21148032b15743100c83),
  (0x4f711a4430b090ba5cf05afbf9f6f5efee5611af68b64aeadd0a6435d36bf92b, 0x440aeb93956329019214f1c17c895bad53a1e1bdbe6f2219cadeccbdb3571925),
  (0xdc9c202a5d9f53d50fd7bd51e0a1c63ec385ce1a674b5187656c3ff1031c35d, 0x64528bc3831b7899e6f948378c9825df978478a46445ea7afac0a901db66794f),
  (0x1a068ae167f00236bc23b2bef1904238cc93993512aaf6bb1dfa436c21b2baad, 0x2d7ce128d6d05358288a3ee17936ffc16a221d6ff4ef467f0c5b2591f6067e2a),
  (0x4f6e2381bb0942cd8a0faf9da7011a89acda8f68f5436004b677adcf872c2ee2, 0x36ee3b84319afbd64fff9585b33adcdab6200f9709bab93f8065626d1a72afdb),
  (0x1959b0400872ce27632538b77059113c5c1e25ca2b226b68ba5be1feb8221fc5, 0x14889a041f6eccdf8c9b25a0f44c91e0a10219ead92eddf331cbf2ad09f39cdd),
  (0x3435fb7e9aa461bdaf581221e6ee6fdf9c07a7c2d0dbbd28f098d86cdbe7efad, 0x36f1df9b866c2c094a2ba3603da1f942961c4ef28576d1555da64466a135e674),
  (0x4dab99b4de5a580e1d0ef7c0878644fbb725499a490cc478b04cff4e3eaadc4d, 0x5acc6affe51943b04be9ed3abf366ab0c1055b344f31c700b4fe1c832ca5cd00)]

def multiA2 : List ℕ := [
  0xedd8ca6f64547131d58bc62d9c6cb7bf87e865e849815caba819176a1be830d,
  0x17ab2de721d8414297c6595edcd6b34aea9f39a1718bbdbab7ecf5dd40e92e30,
  0x121acdcab8d5fb159344b11080ce905f07295b2226a2f6eebce8bbc0e88a864e,
  0xa9c586f2af448d6587b7563561267714e87d17b92a5b3fbc9f584fbb371c292,
  0x631488e686944d9371760f75a013122841b70c96309d2cf3273a712f4443905,
  0x124bea583471b441bee4474dd1b2cda16a5794c9cd08ece0436762f2bb371dfc,
  0x12371c6e917e835758ca0a454dc6dedeb01647144c3c51c0bf36f1d63a12070d,
  0xfa034804bb5dae2edc39fec406c109a7aa9a0f89bf908b949f9ffaab8d9762a,
  0x496338b4e572a5b0622579f398068999a3d653e2b3e25913f04dd4862fb800b,
  0x15b851e4c4957e71c757c7070369e544caa80cf143d7d8935d80b9c3846bf894,
  0x1b95e442c855ffae66f194dd77020bc170628a24f27db008c63057a2bd1cdb55,
  0x1c9169cc8a4dccb82da22845d32c552b85b7a6965765927b6618ad27e8d101ad,
  0x1a8fe2a629937525b7d8f873a51f39524963afa8aeb4c405112721e45da7b2e8,
  0x182bc33ab17eb6ab6dd5f93818dd90f698c8669d160c23054c1375608f2ed13,
  0xd48eb82dfac9a5e083de46cc3f292a7e0111b238acf8d1bce092ca8a233eff2,
  0x6eb880dd1addb5cc233da18437c77dc7f17078fa7e26940980f41f7df5db913,
  0xdda4eef752a0cef117a5c87db70ae753ef4c52138449ff956531f81f5dc6883,
  0x48716c4f34b1eea8d408c52f9dff7eb7cb810e6a4bba6f86c90b61f121494bc,
  0x1c8d13fa9bdf3758286d0a52cd74843b51cbac2f3c3df1e7ed643c60cb84b573,
  0x1680b964b9c0d79aa317890f5bfff61427beba613e2988a7947db0b3bf552e94,
  0x8a96ddbefe08df75e5665b97c0958e3df160e562115b80d393f555fffb3af7a,
  0x15fd98571babfc9bd75220268c22c04d22c6351e152f48e722086a0b3982fa20,
  0x36f6be315107cb28324c1d1d32257d2f5c14263627afd797afd52289be8dd2,
  0xdb067e612bdbf868155043498e433858804244b350f4b94e41ceafb5ff59d4f,
  0x16f1bd5a1edff1808dd79bd0869edaeb4b84fc08a9d1067aa6188a2fb2a3b326,
  0xdbd5c0887726f6364e0af65f25f783c209812bdc6e6879c79f379125e12b4a2,
  0x347f52f4ca68f5aec8178a3eb0a987b45f775195541426d375c449fd3bd7993,
  0xa0ac4e560b295958f7b5d7bc0438bd34aa2aab3373e89ee4cc6bc9a7158fd2,
  0x12cbd7ceed20e7bfb3238b6613421d7215094404a5bc26760ff4790465a71521,
  0x258dbbb5a8ec2b7a2bc6083362dc78f316b5ce70e734218040cc1e20b138f5c,
  0xc9faaba88d71f96a12b8e586360aca48c8982ce4b8c2d32d48eee269ad62389,
  0xd9fbac43b1d643367d5b78d63dd982c28bc91466b2545563d429cf735178427,
  0xcca3e070abd190b39879ffd6278ed34bb85056d84897acf41242eed80c44aad,
  0xc1a882a78365ae51b8093a58189ea1b6700c20073129094e98878a82125fbf8,
  0x860c8e8972949d357054c8928e59894abb670198627f2dc7b8c0ed30388af30,
  0x2e75ceabfe5732d96909f92695c77a5a264b34ff6678ed07a38182098dd1a19,
  0xd2685e8cb9409047f72945709d9c8313b9668e140b95ee419bc3f7fe3f89ca7,
  0xdb174b7bc911c9928a6d8f008d8cfd7dd85ab43f720e945c14376156f224daa,
  0x5304d48bd1f378e3a91db1e31f54c8a8630bf11de93df8977601c817746d057,
  0x1db1046c300c32fe55b145db921b3f96a03abfc49edf68ca9a29d389a9d2b69,
  0x7b53115e635cd196c9f86e4b058f554a9fb65d5390bdbcb3dd0f9b78f38ae80,
  0x158fae8f6716c7cbcd720ea6d9c0f33f8774ca8b6c69fdf05378b65c1e3320db,
  0x8c82eb88e56c506330f140fa31fef1a0b5a2e1a54966c52d4338c2ab3cef6d4,
  0x53489f2d2ee0446bd52dacae8c82d341fb1a2b54ad63df56c1b078531cacd3c,
  0x9bcdb7222da5770a5734dd14d979842eef079dfd18314a3be32824db7b63478,
  0xdb6732991cc25821b3f884f9170ec050439b16f9a6ab831c82b97c81d22a0ed,
  0x458524133aa378c32bbcec7ec9619227a510fe4b0b317f4924a43e52f4018ad,
  0x73bd5ae48be4b045b7d4dd2dd2e9ba0e951793ba5a963e85c5f35cf6503c247,
  0x5067e580291d9ea5ce5f5ebe887a3eb43dda48bf3119c79c68492152b384b9d,
  0xc29ebe45f664011a4718920c9af0837e6a2e0ee1c8312b4cc19215709d8d42b,
  0x16f5817d282483a206f16b32835380982cc5725a779371a10f4cfc49e0eb8949,
  0x11dc532988206bd25f48b8928d9e72db07a3e9781a9aa8e62255d1f3191cab23,
  0x2f75b55b9938cc3511bbcec49863ccf7d82124319fedfd46dcd4eb78d859f76,
  0x59a2638e786ab176cbdc9b3dd099f6bdb25cc7b19825861183c5805e8c42b92,
  0x1bb0b4443e78732d4c9df27f59edf6e53de1a79f87a4bb9cc4093ace2e95604d,
  0x2f65863c96435527ba6a5c26440c53d76c01e5361e0724abefb042b10fbf385,
  0x1891e0a8117141057479705d6459b0977aa67f1e596b502e1e79f27e6434d47a,
  0x10b404edeadfd9def4aefa96253a5b21951bf377b7dab4ab661f3a95bf809f8e,
  0x1cc5a87f834f94b788db65d67fca56c2734d698d305c38ebbd5e63a1c7f6fd45,
  0xa336fecfebc91901e85758cc46e63ff19014629d52ecac6f5e914197d4e32af,
  0x36323197c13624f6bebd30cf48f9800f67c908d8d5529f06cfb1a4f310f8cab,
  0x8fdd64611c4283589018394dd106b89d6c0af4c50698708c75159e25988382d,
  0xe4044d7a425fe4c05fa11d359c66bbd78c37eaac58fdd946442dcce024eebd0,
  0x102ceeae5377d4589a16048b4307f09c339a9dd86b733b87754d17aa99397d72]

def multiB2 : List ℕ := [
  0xefd195217fda4bf826115c8eaa6f9cf0e05c0905c7d6aaebfe5e4b4d433eff2,
  0x156fa311595826e527f3e8fe44ea031eb997fa40a191cea313450fb366e97c02,
  0xccc1a875adf0078bee5bc4f3e7b6efbce0e37bf148ad41d8fe917d73c5fc621,
  0x169a15a176ff29f5a4908f0d40e12834cce0a7ab362c0b930d26f8d988b008ca,
  0x65df68db4318193f6f97a52887464434d6a782a8dd33a3e8cf15296acda3a32,
  0x8a1353456f3432b46d2735e159aeef1d7e4ae6249029beb085bcc6ff0e8b51d,
  0xa763c8232b426ff924dc362b70f692010fde3bb99a29f882f52e05161e5c3f8,
  0x168c1dc209030a0db3af6a63fba3ec4bc057b513569ac0a3185bf45151eeca28,
  0x1c16a1d5fdf2c7056ce2de2352dbc610217033785c5b72329279b29e71b57651,
  0x46c0d38ff0f7821766caba0d2fa499062fb0948b8ae63da7cd743bcfb8f332e,
  0x1c29fa35a5bfabe45afa2dfe6ed3f9699d1ff2e04041226150412b16657f252d,
  0xd26fbaf0b4c6c0d49cc335b0627836ce9386f60fefe58c6c0d2e22d81a18687,
  0x1011e98d21ec8e8c4429ffddcc6302c12e879f491b32624825f4d112db7417bc,
  0x1edb75123c9c69b566bf4c7a0c7cb2c7b7f7ac2c8225f47d2eae5d82de0a060,
  0x469f153ef032a67ef974db4ae06a6fee6e30c59fa75e837ee75769ef3e5a13e,
  0x70094cf10ab4ea51cb7a6236fcd690fb40df0f4443b639aae1ce3efda1b2c32,
  0x108d4f0917227e12ebb08e7affa64a63020f34c28fa6e00c9c8a54ae03a86c9a,
  0x49d273601de0f747100c53aa41755a4eeceac5201ddf4e2c6962ca4871bf6be,
  0x12ad35ea93417d7d94048f998a2b0089e28d9404ec64010703d3e5136cc7c2cf,
  0xf3ab70905a964ac7c7389e52944c92096d6f8870f6ad8281af96f24320ee6b2,
  0x75964b096c83ff70d6a839f8a2bfb88bb9b58e8e6be151099f1a1ec82a86342,
  0x19cbf374aeb39618d272d10d6b2c062554bc0dad6b227f752a7face00cb8833,
  0x18929280bffea68bf4517322eac71ca2fb0918a17fdaeabf855787231a5b588e,
  0x16b825396536dabced153bab6c54e79cab290db71e9598c944adcb3063429aab,
  0x30f749251fa221f8a088073d485b23ce7c9001c892e5fa6437d38d59ba9cd2c,
  0x1aa3a1624149d64b61a91d2eb62b845b2da5b595928c7d6cffa7833c6d576f9c,
  0x136205a78da2ac97d00251a83dee6ec6ee4c6dbe378f6ea59f9db1ea3239018f,
  0x809f215d2f6492617503c377c1c20bb3f2d01fadda193a60b3c128e25c8dc2e,
  0x7dcb710aef0919d437f0aa9d46f5e963aceb3166b290fb1535e8a75e9cb1cba,
  0x1581d626f37916d6b90f5c9d7796e858742fdd8da5b50d580416b5106f766e87,
  0xe944daead186fe9213fcfafd371c0bc0e8c4e82ad7588c75eb0c7d71142abd,
  0xabb68af8f51da5dc60ddea0f9753bf8dfcdab97c67df0be0e0084bf89021973,
  0xa08caa6f9cfc9f7044d87674c271002ff33d94622e88a02fb6f416095d94f78,
  0x6250dae1091d760842c0d3bd243b7f068f093bbbf539b80de4ff2c97c6a87f0,
  0xfb865126a8c5dac2d0f2fb23e6e20a85ddaf377a1b8c6a85a0cf6ccd7106c9e,
  0xe69e6de1e81d2a0cc136c4749107082ce47dbcfdd101ea364c6dd7ec7fbd05c,
  0x1e201becb7c779a264d5be61cd5a75a8d15106d9969a75bfb34b70f29328935,
  0x12f2b0e11643e9dedc73482c3b4b3993de5ea80e12598f7baca429684ad63ae6,
  0x189664267b6ab744470045c6b5a77e463e030fbec4036b606fe8f7815aa4a79f,
  0xeda629cd0502b2d99c258f13779e80d7dea99b0b4450350c90fe24c77ecde7c,
  0x14482e8a209c99ae1c55981ad9cff6f1918942c4884743726fc6e318aa16aee0,
  0x130eafb7ddc0b4959ff3f00845bd40917ebae1d6fd336976a603d18493a10a80,
  0x3770b055d705998d1b7ed56bef8a3293fa9f0ebfce0ba97db5c4dcaab4ff48,
  0xcd4c435dd5fd542cf5edc3f06e2cbfe8bb0446c79a5f6f3789429d3693d2fa4,
  0xbf037664f06e8dd0981edc47a795bd96ce14858e75504e9efe135495ad4fb62,
  0x130af35d7d6236d86203dc480bf28cb6d6a6e500933585e27ae1970d17081a2c,
  0xf067e13b29358d9f24ce415c1fb441f73c1806509a018e3ad9c3c223372e53b,
  0x72631ccd557981175fbd40bf2a7e4a6b5c2fb6f0c350604c9fd4b0eba1252aa,
  0x69b15b902592301d5c3b4db28d8acb0d641d3214c89ca58272e1a55003fb537,
  0xd74ce3655e383b9d3621cc0d5e8d406824a6054a159cffc329e2924389938c7,
  0x1bdb3bad0648d6b663e60b07faa86c7d6a1453ff0506ebe73ae08e589ca317d1,
  0x112587233b76ea8e75b4288d35d3469ca032a59c093f9ab2ccc8842abfa2515c,
  0xf23c1a4cfe6787c36b572d918d7d7c52b237b50d46cc2b5a53a744b0028384e,
  0x5fda91e2501d50469b6acd78a0633ab9b736d7149489cc88cc89d1626f8c537,
  0x1152bcc1e795bcaacba36350263a173866c67df73c23b964eaea5143987d2858,
  0x1b7599a2d1304e5fb04d1c23c1583e7df8af7cc897a53310ba375ed8f66e8084,
  0x1363024103fa87f6f3a0d254a1da04dfb542b2271593587fd473a40e9132faa,
  0xee5b46fbc6a487e7c0a1dd50e9e3ec3ecc47ed5c8fa0d5928ea25e65949d69e,
  0x8e86172c650e2df911ea370e7ea2edea85fa0ba4aa4aa7c630e3020e1ca6cc4,
  0x117cc2cd3758f8e4c0e5b007dcbebfd5c16d18bb92ebbcffa0c97504728d952c,
  0x1460e79ccb08dd7768a01b1b3d2fabed242dfd351927bf9ac2da1128365d3cbe,
  0xec7e51e6b95bec26277c3439d3909f6bb107d899b56564ee9d7e9f5504031d7,
  0x6b0c2d3071f2e788510b583c95857f7913b2c570a2bf71297cac35a9178f17e,
  0x1b9e892695542933244bc4e07e8ae8768006bb832a93dd5b1421ed547ed1ef0]

def multiG2 : List (ℕ × ℕ) := [
  (0x197e29c9ac7840302e97cab8178f4a24d822444e74c33390882e1410a3163775, 0x1d8646c87b115382537b8e0a3aafa6795cc34c75a5c39fc1fdbe08863f159827),
  (0x33d3b8c0e48f307faed35faef0e400db56cb594d50c338def8ad5b7679d2a119, 0x3d14379757d5663853100979b28fd2fe79ba317c68581703f5503a67eb8ce116),
  (0x1568e4b9f2e06f11c40f7a5a99adede11184cf229870b289f8715142f96d3d68, 0x118ae8359f1929a333f93e3ea94e4b6b491020f8a7d6dc56e5747205143628c1),
  (0xfe8e267d1280d45b214751d39b6e984d10c968fe88cf88dd32110117f440ed5, 0x51b2878a1a5ce8b6ba72d38d1fe9e8a9deba1d5a46235f08faf2e09e2c884a7b),
  (0x1e8be5403e15586b72d778405dc9ae0896dab9322880d71b5400316042b72acd, 0x10d05176da9787bd39dbf4ea96a4ec5daf3b5bd77c59ae0de0b44576d9d4eab1),
  (0x6a9a8d242e59059bef88558a4a7ee0d11cff155839d1cf62d6323a497dddebee, 0x717ea909849d94072ec98b841c0d60c570b4e366fa86e783919ac794b83c89e2),
  (0xdd2f8b091cad81e68677864e6617a3d82c26d823b518f5b63e314f9903f7c43, 0x6ff8cbd11ae56fd569f150e59f5102039b4630c2bd67cd92750e9c6822eea0b4),
  (0x5c126aed60c41ef0580458e31933a48f1050ed43f9dfa570f1dff312c21e226e, 0x467ee624cf18963c98e7a2fc4b00dfb6ff699050ee5963ef976ec13e2770de9d),
  (0x728a00e882980b8b91013be4239203aeafb8d07880564dd55859c60eb1ab8355, 0x17edd7432c6d2ae4a0b909c3fcf3da28a6d06fde00e6681e1e281aaeddabf48a),
  (0x335db51d0d1f10bc7697a6cede650deea6a3004360987f9dc8da8dcc2e52c7ca, 0x168596d4f9526cef54ebcccd67b98b8ad23419004565e41b95fce8eaf0e4807a),
  (0x287de1bbb8bf56fc8203700644af7dbdc9c43f28af5081f93b3c3b46ab13c6ce, 0xf68225ecc2b5e04c7dea8e0c7171a43d0c6fe219118a698af048777ec2fc21),
  (0xb7d90e2e5f034711cf16493159163e5265749a3390b404c494a8a4c2fe0fd69, 0x66db899ee2e17c4ee0b8ca1dfcd90f519a4696fa964beb21778dd6449d1ada70),
  (0x23fbf82b8ba82e793ac5d6975f7664215aa2a3052f3c6eb2bbd364c32f455688, 0x21146bd3f23491b247b5b081b4a3fc168dce7b8bd073fb45b52c289f718f3be4),
  (0x30f2d4fc2b5b07e1db5946f3e3ae8367215cd309d00e120f360964cdfb60c5f5, 0x37eaa9e8ad958af4a279ed6b44deaf2b98b83ea8eac0c6b84c4549196fa7a531),
  (0xe7247622dcd26c90d3f18ec8f3091901515a3c0675490fdd88135efa46503, 0x6abccdd6940de579fbcdc13523c65b4f74143f9d71227433384cec2b6a2580fe),
  (0x718fbf4d66f1ac271e853e51381219403b329e1275c9746ed60b0f3625c6fd3b, 0x696d56d410dd083c87534c6c4f31e252cad476dc8cc433522f65cc76e9b32b67),
  (0x6e18ea6dfb2f2533418121819e158de021df79a113882c91c459ed0048e59d, 0x45c299984f48d6fece844df98d9eb942f4f89544890427f85642cb4df6c183c4),
  (0x856a47f10b5212593db6494d76c6aaf7a8d2e8c49b7d83b10272fbd3db9fc2d, 0x192e4d91eb6766d66b5b445a6b6354125a233ecd66da9a1ed3164a9ec690e556),
  (0x4bae78a39f9ad2fe1b53bc43c98ffa5c3029d66221ed35f2676d3afa808fea81, 0x1f8d91bf58947f26be65b4ba0e4e5d03195eacaf058e9dd7eb893fa2c71b16d6),
  (0x6234e01412a77bf7b10f6e086ea8b9a66845535e3b0171c587d5aef791f62404, 0x3482e7db757665224192009d600520087cf412bd8147aed080670628d0f3a5e4),
  (0x1192d0d7f1ca4d9e53a8517671206940494a1108d051cd476482054475555f3, 0x221f2b15eb17c8ff4f544b7314d3680a51fd4518b2cd834a41720314be7e21a6),
  (0x22048ac99893c8fa5ae3c562fab73a0169eaedf193ecaf4beac94c3fb76718be, 0x377f64bb1c7e82cc99eb7dc980983527084a6ee7a969f04a9b477224aca400a3),
  (0x3ee45aeddca11cd383fa117f559035dba5d6e820ce85daf7d3c164608c14ca1a, 0x3b12fb0b76796480eec04bdb4d3f79e7c46a6e3c9aea14be031b18c61073a00f),
  (0x337202c5c2f06a9cc532c9d2055811ef8007b6ba0c67c6f84dfe6bb8d2240dc7, 0x4d3b993c02371b6450d6fe75b02e2b3ad63688f86552802ddc4f3ca3ca4672db),
  (0x68046788d267ef4bd4f05f5ecb19e3dc459dfe6d05697943dd27d8013653fdbe, 0x45196197bc7b9f8734ff0fcc58165cb508aab59bce380a8a3a6dec358e5583b1),
  (0x1ce2008352ebe635041c59b7914a441a53ba009bda0e53900196365f61a2d915, 0x2e68560b9b988ddfda1b1d25740133c1f1df8f1ad4d1e9f5b9f74491f7479e04),
  (0x5331a50943cf51e8d916d3e63fc893ea0da4f14c36c13828b0874749128b34ec, 0x551ff452b29d7c9e43d431d22efe4c1093b7fb1da9a2dbedc54f5d326e46ced4),
  (0x2bce97d1069ddaaaaa069f5f354753426628171d82a248446d5aadc3c4d4ebf5, 0x24c3204ef08a8c214bd3a7ebdcfae9d646c212cea456439431fc54100cbf6ff5),
  (0x62b42dde298bd04202cc62bb7a32abac86d56de492129c40e0d4eebf3a224ce1, 0x3eeda676f3a43f43c4390d76029d382dc42216da3daec5b5b74cb67cb21a0e62),
  (0x58b0e2cbc2873480a90aea95eea0b500cc6c39007f87d38514eca754fddb1a0b, 0x4184d3f5cb4e5ca9a1d2619abe49b721c89d7a3ffafb1a4fcbf36e6573390a7c),
  (0xa8baeaa98eea26267d2e35d243f66bf4b5c12cc744f3b58c6df309107744669, 0x6fb7df16a8cdcfd826a537c6624f0802a47077153fdf1bdff21f8a8b5f72f35e),
  (0x68359492227924273187d278025712adb419ae31e219ae5410dbcca0635f6f67, 0x152024ba887061d3c81700304b4b691d47c61e16187d21ce81904ba2867ff73c),
  (0x5f01b2d1259c44eabea49aac6894f2cb72342781bf02d0e5b327cc61832698b, 0x54f9a12d2ab8523b79c77ad8a1a20193fa184552e7679246b5e10df358a3d0a5),
  (0x6bfd52bfabbe2ad6082007e626a9634dfc63b1c87a38b062c59b9914cb0753, 0x14d8aed61f9379ba0159f213efab12aa0a90cb0f69f7c22d0253486902aee5bf),
  (0x6dba3200a9fe2931cddeba51296ad597e063cf790f944652be41f97e11a5a48, 0x3ae36d8821a0a9de3d92a416b6199c298a3defbceb6d6ee5b9ce44cd2bbf3bba),
  (0xbe2f96f8360831a1cb08daf8a4bdbf42c6f0f686a548659274e099dba1e5d23, 0x3a528581cd28f0d16933fafb96b1da10a8a7724a0cf53ea384f700abcc526d7b),
  (0x3eebd47f513c9370c75469c297dbaa20708315d423abdb64c9bd3c3ca4fd080, 0x392eb3263eb0f6a55e40ea2db86f4c631efd004e7909bde2fae7db1dcbfed5fc),
  (0x10f1eac576f02f673dad084cdd0372064e251ba48f914285ff14dac21183204f, 0x53de238b77c853215c3f78ff0f45c61daed027d87f210450424096628f867a9f),
  (0x17059977c9b7f2ff6b3683305c067430b5f73024122af81f2600f2848cef532d, 0x20f7fc35ad371ee932f4a584c8dc253dae8ec7b8bb158cde46bb2eae60bff592),
  (0x2298758733a151f72e721255867fde73d519bf0fc6423e18b6e23876020ea6f3, 0x200ee578af3335dcd9915e32f57fb5488eb6ecd14329d4fb78adac309e717bf8),
  (0x105b6e999fcbbb90017915c351cae8b6ed8b68783573e014f758efb0f5318cd8, 0x166f8a0c297b02267dc9f5f8a87eb80896a4a8118e85c5b65bf8e693c5cadfc0),
  (0x70e936a5efd6ae3b0944ba4ca4132e745b7b3511daa247a08e627d0727a4d0f, 0x62776bb606f057ff4eedc6933f71d00bd7b741529df63250b19463736dcbd60f),
  (0x4b18b3438e28fc32812484df6d41d39b43857d110d3284d13a93c2ac84aae7dd, 0x53b32d008669d00371c9e3b4085affb54227c755857834194e99aa3d62011332),
  (0x58317fcff811b5d19e8d43a1ded673b69b90ad2b00348cc99884c80fbd443078, 0x7a57568d7dc1a57d9f11bf0e5c1d945ae48a4dbd801275c6ea4fd78e4db2f25),
  (0xe8f3539251526d401323ca18dc25baf99bf7cc753fbfc20f13a449a104d3626, 0x2a833a95e37354a4fdb934e2cc59bfb1270454cd0d163c1cd72f20311f29a69b),
  (0x97db7a5a6f0a42de71a48082a29b01857a4958f0f350d8c72207402588749bf, 0x5dad7ea9b35f8fe2889458ae2d135ddbcdd2eb7a589858f722938e3f8c03893f),
  (0x629d6fe800c958a1dde5606bb4c2f8e2ae4ad6a0a34b4a854d2abb860318f089, 0x1c3dec9f4f9a0225669c72f7a3c01ca9f21a2e8acb0e5cc0e323fb1c0a97061a),
  (0x5d439f73b9d5838e46f155bb2ca67072d46bfe2a7bde50608fd2d9aacf70c08f, 0x1cde841e3576ffa1a8fd0aad6e40a075d558ede45f202bb4cbbc058e0643da71),
  (0x1ea109a8b5c8a7ee2ce01a461e7881458413b5a784c1a5a5ec6029a21880a254, 0x2163720aa5e44b2cd255f86b2e61c8ca9098cade86508f78f23391e2d35ab3a3),
  (0x3409bf1839e10f80026e0bca1465a5426f7e95f01ac798682e7ac253939ca51c, 0x1e44d204184d2286e8a8c0136271636b88838ab5fbd511800894f8c64be502f0),
  (0x1944cbe80103f57a2b492d05d1e43ee80860d8c203008289c80cb4ab27522d99, 0x480a154e3a3ec900c6f516f2d17595151e0d3a2a5d58b0e571bd34dd2fa6352a),
  (0x3bb1462cd16bf845a94356fbc6aeef53661a884416a730e1ea40527fe218a558, 0xebb5164c1d44d96fbd57165449fba7922ddd82581e13e8f31563f69fda10cfc),
  (0x37810f3144036b062063a9add283dbb18d8e361e01c54fb8b241cc0d6bc125bc, 0x4541264016a99aa76014037a3eb0996fe3fbc4927cb0f28490863f25bd88e031),
  (0x1da423a8d464003e3a53a36a980f3cd37150105a3a5f549582ef87f786cb7660, 0x3f126114e59290c0c75c0691396ebf748647ff0f0ef212ecdd9cf1126311501b),
  (0xf646678a92fa7d4bde84cc88ac64452819f6d87ffa9a9b2931cad165770006b, 0x60e9d4e9d3f15f363dd53287069789797f570c3beb2d3f28dec3947b2b8c5d0b),
  (0x37d680aa80353d174f2f2d193815f60c002f8203ab53f56644c5f336dad14366, 0x4fb9e06e0836dc1b6b01107d7e270528855de72702a67f4c8ae9f12b14f8fced),
  (0x6aebd2b9290d49f0a980918e74390c7dd65e9df042f53075d450cf265fd965a3, 0x5443a108af92523051f00cb3f7c83f7bd1423c336e4c579851d6824f19225b9f),
  (0x707671abee587f56947d921142ae12d34876d297d650ecb36d7e7f28a5734414, 0x1c47120e88d9e03e6ec8439dc58311fb69e13fc96a67a7bb68b343129e98618a),
  (0x5f6979ad3b3ea69cc2bd6a7015ced1330f98a7e7dbc0866d2d6e279c2f881f40, 0x35046df476d03a14a13b5db12b38dd267ddea75fbe3361efe33c94220c29f9eb),
  (0x57bba623995bb982f5ec3401d05d164f035f0e7d236e3d146a66d97f27cba3ed, 0x1bb260bc4b28d403e039a8f709d74a4b58404cad677873f7addf81155c33c591),
  (0x209f2d599fcec77b9fa7f008b18c9cb9ac12de3e0b4b5e8b4022b2a7ef85bcca, 0xd584ed8e042eb589363414af40c729deb0b5332428b52713bb70ce8bab71ddc),
  (0x8b6b72c9c30ea9f2c4d52fa872bca9725f5cdcae66210b7581b215c47afb859, 0x11b1e10ff86825d71b6b9f2f98c8551686fe8092d5f1694728f098e3eb6c00a9),
  (0x1b30ab219b48a84bb5f1e9519744036377d350c2b963bf6653db86db3abf5d1e, 0x2f09c9cadf515d81ae82cbb06ad8e39bb4d47c2495462bb6c98d28f30f26e445),
  (0x51e58705fdd1163d4b23bacdbdb1396b641690adfa47427efec7e9d1d9b45b29, 0x5f366187822f08776733b81f67c7a4ffb4874eb755072fcc57a7695f18610939)]

def multiA3 : List ℕ := [
  0x19acc97c12978a5ee106c95d18b5c38ee46d34669c27518c8711666937255337,
  0x1b5bd10e8361a52b16d1643ed8b83a02ccfa68b52e17b2dc792711ad1adf4cee,
  0x79a035a691306f492875fe1590f9a5f990b0e511618d1eca373252f0a4f6d08,
  0x3f122a67fd5c6f550b93ca5d017f57f1fbf671df13f2b035c58b999859e6470,
  0x66fcca18561597b0fb707d2244f6764696ba93c67e4792de1840d175f252ea3,
  0xb83b192142b07eee017d6b43dafe92d90e81a71c3c2fffbe467e18a9c664698,
  0x218c72d8340f30e0f4a6da433967e0c267977ddbd5c83a8a6bb2c2031b20ed0,
  0x15fb021d527ad1cf5105c55aa5452587b135f3acc337bb53967140460cbeda59,
  0x14cd6adce421e074fed0800a7d414de29e29f29475f74bc90cfe69d9ad335f05,
  0x578164101aa91f6aac10af95f0948d51a24bba3dfb6d0d3d659dbb863fa762a,
  0x18b9b0a6b07fec413df87b69449fb4ef40e2759462190e03dd8e235e70855d8c,
  0x2efc2dbc8663f9f94b214acc0b23e4d2b5530d57575c964f0ce5c9e8c2a999,
  0xaaf1ee9408dce23a1d244d8c7d946dacb14f56187d718bf73876d5563a20e60,
  0x1492ab55d600a45220125eaaf251cb90ef3faee4be6f1af6532d20a3fa72e32f,
  0x54c0320cac8c519413053cacbaa31edf1b658d365a23e35f41251c4b134ab1d,
  0x117ce289d1994fe9f24ad8a2080548843878c830f36d360750fb04a8710ce804,
  0x8f5bf33b778a5f26eb9af26d28e37ab8238e5f1bf2845839f7f665d1f1e6384,
  0x1163ee323ffd5bb8cafbd12baad85d8e3ff2df2cb1d4bd53d4672b2eb5a18bb3,
  0xce1cf6c841e3c018eff381b8da51849f05ee5923cb4fc2d7ad94d8dd8167fc5,
  0x12be48a4b19506e46b5223eaecbdda379bc630790bff016209f55b7a02b50668,
  0xfe9f791953c5c3ce9b4b004fb81b630725a0aad73a869abcb31c9ad0eb102d4,
  0x165c4904a57ba3335f0ff7c60fcf85136a2f3bc4fd40208110005897ee227797,
  0x1532fb31b9f3c2716ccedadadfbdf32c380f119389759ff236edb97b24e5c72,
  0x28331af94744b9b895ddb7e7b4f5a4eafed8dd3473f62e52dba59d8726f58d2,
  0x155c6a35f13029b18e93de352896ee4326eefe26c4d6a6d45c7adafe51c4960f,
  0x1cb85a287200f62b69f42f6e8f1aeebb0429606308e318084ecdc6559d5be9fe,
  0x280b20fb48771c11198dc01cee064bb9be4d9c7aec5392d642e2d6c8f57121b,
  0x5d2b810141ad529753a8b22d9612d51b6b541a33e9c25af358dbcede453f88c,
  0x5a28114dde35ac7d377ed5fc9d399c377a6c76f361adae8725491125d67ff5d,
  0x1f6b01fac45d497b2b625f9bfe685a849714de6fdf14e543367dbe29aca9a1c,
  0x1834467bddbbfd3329a46aff80ac7dc62330ad67f3b7459f67e570175d14139d,
  0x9afd056b0ed0165539b66c0b8ebb99597a66c16f1077f71fc7a0795f4af639e]

def multiB3 : List ℕ := [
  0xc042fa078c8a3f633370708d508b6cb691e19ec7c5836084c416247cff98f6c,
  0xb1faac9c3dcefbdc9d25dbbe5cb63db05ee0b600676f1fce89f831b7806a50f,
  0x1b2de71ab5718c08f2c93ba02ddcd3336fb56ba416f82b9d5d292a27943f0030,
  0x3e8617ce97d22ab39e2e8100237d0a8a5b198164a23f4b9e48ef0313f3e8663,
  0xbe1ddb14fbc793e711d4eab952a6094663f5605b54e39663872a9fdd6d35e36,
  0x601758bf4c0c0bbc2a6ed2e971b9de32c21decd60a7f7f5972ab1f74beed3a6,
  0x449a7e16a54389a3c77ba0aeb43c250b613e2d7f7430dd8dae8cdc854f0956b,
  0xef244e3de856774dbe3f58dadfa714c52ebfd7d8e893faf8076fc98abe9446d,
  0xe8c7dca02bfd7a03aa4c1ca2ae203d049c685a9206119f13e11960282c5bf,
  0x145a82aa90ca525db869e79a0f5ec81c95c5f69f41a49760620642246d05cb8b,
  0x17e091516a33a5c8f96ea1203a29afc90c9511958077d04c2700dd8454af78eb,
  0x187b649065b89c279a68496d47af33e10cc4c2c140092b677cfb0d801dd614c9,
  0x111d564a6ce6b1de39eb283e3986f34c6ce8ac6b3ca618d118993f321d49b2b6,
  0x8202ee429b580868c6ccd07694485522c22b393733a6ed75f10c254a78255db,
  0x111fefb12f0e00ffc234436067254ea62282a6cca7651c4a5daa6abe1011f050,
  0xb1d32e9a9052b680e9f973400c42e9d66922283651554662821f3243a4bd4b9,
  0xc729fc2779a41af9867d6968b55c86dc1cbf0f3df430eb2af288e3a8952982e,
  0x103a0de0ab954922ed57737e853e188cfc6b9c7a8b7c85536df165499bae50ee,
  0x12f50fc47cb2b987c3b5c09176779f5947cde73e3fb554a0cbf8450dca5f6360,
  0xb45fd8a2d287c5181504c2393f77720586b35efba4e0bb9dd86adb6eea555c4,
  0x19b36269518a7791191f5877169ccbf24283a9210594f30846a85434083fa84,
  0x6ab365cf11b0eecb05ab4ed2c53326b65acf00b323aa3bc014aab99fed6741b,
  0x5c3f8737a964ca0fc9e30f494f0711d7a55c8cc687e8ee384d076b8a7136647,
  0x1a2c67ae59c2858ca2afaf85227e4314a49cfbee872417c9805ab4ee0355ca82,
  0x12c2a17728eeeaa636451b8ed2bf4cd7a3ee1171bb346689aa4e66ffdcd3a10d,
  0x1a1608a5b6f6fa0fbcf8e3c7a0a48fefc84392aaaa2f6b693ba94b6f338338ba,
  0x87ffb8fe47d99ef897c7e83fe0ff4cd234160bf29a04376ddae81d3a5ead6b8,
  0x20177ac9db87f5ec2a90db591cb3cac3ad34146c2ce27c7b0d3270dfcac4e7a,
  0x11075d972d20ef92cea8f62be443e0e6ce25cd482a3b24ceaba61b81cde3f17b,
  0x3b103decefaf04b68ad312b66bf76fefb9bd109ffc6ecf226f3b890c048eb1f,
  0x89eaafdeed808c20dd6e216aa5e17e0951354b53a2a1f83d034879e1eae5e67,
  0xa700476df9cc6a954c041186900e0aa40c523f652a5a4f31a708503ad2c8600]

def multiG3 : List (ℕ × ℕ) := [
  (0x5cc062d660258ccd4da8913c41282e1237bd438c88e379912e5d6dadb8231467, 0x19cb947e6aaba1ee506e46e02d7158e3c4c28affd39880acee8f04bee110f924),
  (0x42bb3b4c999dcc73f6fead5725dc4835a7adfa69efb9964b40fcefb2fa8838f, 0x1ab6c848da1033d890453880e1e97a41c700984b8bfd9b70267753e5d2e87cca),
  (0x4ca6e7a74653f7325281c039c7f959c28ab9e08ea7feefc88a89ded7427ebaab, 0x68061046931b8adedd57b213aecfde5bcdb83bdf3cf0fe0482164ff49d781a69),
  (0x6d2bef14f3a2248646ce5f5bb689136d836c9f39cfcada9d9b1871406fd19f7f, 0x3daaedee0de8adf7e897bbcf5d8a2360ace1fedb33b401f7af13be00b9dd5b73),
  (0x1bf16fd7a9fc9754e7e66e2fc133faad8581f6f141f66ccf915fda71dd17b0f1, 0x3bf815a1ed15b1ff517fa6d9388aa0c5616099707b2c2de1ed316244949d93cf),
  (0x3516ee13c91bfd45694e2acc384c48bdfc6c5c81f2cc2b0791532ee585085d17, 0x29e7c6ab29dcf50993ba1c6f14cf10db163bcf8df8d35d17ce94ef54a3debf67),
  (0x57be0254155e8edac183aca36fc0894aa5bfe735a0c3ea5938e5c98114235d13, 0x62e73bcad11d18f11f911a5ff21691c09851244ecb83c1db8fcbef35f369acd7),
  (0x467e66765724413f122c20cc2207489fba9603d9a968d001f8773444072946e0, 0x2cd3f854871687e14f86c470fd0de8d69c383f1e864c8eb73ab4d757a4fa775d),
  (0x17d16b927ab33d283e5a4755c6842884c54db0814be68ca0150484e2402553d2, 0x32102eb32e53e3af0c4720d162a4715d555830fd12aaf54fff14d45b4baf9789),
  (0x38129493b825a009d4e4431630fee1e0c08c195d7f419962299ad0366231be56, 0x56c2131d5fe9cf48d2f0c61e6e0146265f454b315359467643f9c070c2fff3d2),
  (0x647d5a231889df905e8806e0f5363fbab8fe175683abd3adf877f12518629516, 0x6297aff6d0b861392bbd3fbe94f8d0822bb1fdc5a0411968bfabe8a417a6f289),
  (0x729379e14dd9da96475002742e18eb1eb596126e766ac4e22ea528cf1e0d3a76, 0x2047522bf19696ce49dfafec2cfbbed7b8e648328b73cef1a503bc3229350572),
  (0x4d2a6dfba7893042fbcf5307eeb87fbf57dfb11bba2849ecc7fa8f24d79c4c4c, 0x3ad7d8b0b9f9a1cf53c57d3c658284dc6aea1db9d947dad74dc29c3a75d8bb51),
  (0x27b22c1478465726cc2304a2b322d5cf581defd15fd617d07b0e93e494710efb, 0x1d764eab796d254fcbd726186f140d6a2e3420da0754a245ff8388a744a08d8f),
  (0x614d4283431e078475c6c01f3b5718d6fafbacea3d7a46ba0ca1960c8523a329, 0x736eaf77be53c6948b841e06b8bd254ed88045ee8ec9bd42d45e1417a8b18a45),
  (0x27867c40a1e623163543f393bdcadd712725e528fac8abf8b6b5968aff8bdf35, 0x17fb719b17f13e2bc975ec1891a24ab8a728a79c530f419d0e4e710c5c7e1c81),
  (0x17448698a0c9647cf2ff3e5ce525ac062d60f6d1052d5a0661cd47ca3fc1052f, 0x150508b517bc8951d4e8378f12d0494a5a4b0f9a935753796410b9be801eb671),
  (0x3b5812fe9455266a6a0302a536f6573a07f28dec3da6bd5c531237954de69a4e, 0x636cc531d3df2aa142b739107fe0f69ded81a401a41a40b4ded533674a25a0b4),
  (0x68f740b58cb14c828b23faa89f9132fe5748080a2861e43fe5cb5a352fb05df3, 0x5f6112c3ff2c171430530529ce72f9adecaba30a731d01a9af2f56ecc290ef8b),
  (0x316ba383c1ecd5ac39a6fcda19227ae00c2683fa91ed95887c2c90108652c39e, 0x3238a102066566547ee5cde82b4b384696462b87cef83b3d735fe75da2e088af),
  (0x41a0a5455f7a13c82ffa7aa348640a4377907c36f58f60e98dd63ed8e119435e, 0x3cf753dd66312faec718269baf04043813d19166f53fa1bbb9f39b3b918cfe2e),
  (0x70a548df5b6b9bd188c453ccdddcdfb128ce2fa50127e123f516034ee498be53, 0x3bb85308778abc472f1e87421f784f0d79ca448ceb07e2ecb4da70748bdfe6),
  (0x4a9086cc9216ff3e217823474c5cea636fdc73c87d5987dde487c8f0c8de0bbd, 0x548a12ce2f844117e929820390890445d7476a35e8c7da5d4599bf00f1bab578),
  (0x1e54f896b8e5776cd4d9260ea85a2b164fe21c3446a4af5521166f1356773373, 0x60fab414c4b8ff8b0b0206f75454de7ca0a4cc28cf03cae03a8a1e8f9837daa9),
  (0x3a0323f64755af30b3afe4cf521bc1bff13952c8f61c42c0d59e78ace8a2afdc, 0x1d0d7fa0c7b994a40897098b11fe60b5d5774d9a54821ad870829431c4e76d09),
  (0x5569066c9f0b0a39bcb3ab2f79c39d39db6f7986a40ea10e5ae46407fd35d78a, 0x2a8ac4582075a30bd98ac4bf80f6ab14af7d9ecf05cfb478624aaf327adc4d21),
  (0x3339f34206cf75a5f7b913b574ea7a053bb796c9f42d0d793426422ebc84f9b2, 0x75841687387665c54436e88ae0a56cc46321b3d73c5e38f27926c73ac7f59a9),
  (0x5d25c49ef77f05b6748774ddc2a5c477981e28d282edd53428b809026b7a2095, 0x6c6e0e34460afb4e482dec35659b8b480b77420dc1480f3c6b107e2918e202e3),
  (0xe30449a8d8c4c7fac6ba4b027ed9e374a9e9a24ff588c33399e23454c75af50, 0x14ac5138c55ad009f0e2c6a18828029a79b06e60a0396a1cc6aa26c21c12e3a8),
  (0x63c329129692b12e3d65a46fa248796bd1055b03601c8e9105503e1c1b79ed9, 0x61260fd5954417a5bf7d6d02b3e7eadd132e49ef0f3595eca237f46ea6e948a3),
  (0x6373b615437b70504439a7c143eb3fe2ed961f2e01cc17d75094395dbbaa7c2, 0x785657b164fad094ffbc39c9bf13c63a93ab2baeca76a57ee5ed04f99461bc5),
  (0x2aaee7c35a9bbaf2529ece56ea1ad72348a84d308723296910b09157e657128b, 0x3168c835a3404c7dab1f26ae34b7e178198b64143e52f8a19ae648f778a93917)]

def multiA4 : List ℕ := [
  0xafc3f15093ee61b8938859ece914f34c161ba46ffd0a6d175ebf33740330059,
  0xe697883fcbfb81a867041f376f160920fcbfba7d71e78d673c679c9436613e7,
  0x564c87abd7ef1113d7a9e9a180aba2b046f0ace9145d57f1cb96e95532ab79b,
  0x3a98f5d89950a0f0cdf17ed29195bf88d251b8c3bd29409894643a026cb737f,
  0x5da0f43bec2db35dd8670919621a21f6a8f152f8fd8ce7efa77e2eed8e9509f,
  0xafa5a773aea0991e549586eae7d6500784ce0885bd4657937cc89c50330ace7,
  0x1177dc5ee86a63c761c7431ea792fbe8c6e66b3158c988ef4ded3ebdbe9eff00,
  0x191ecddca592d9cd5bf4311a78ec032ff6071f3088658f132b80ca1d9c210cc1,
  0x1b4bde65049476539270661bc01643f657f0cc4e6a9bc66d5caa4442d78b1bf0,
  0x147357069a800bd74acb9935bb61c8142ceeb3e05895fa74b9cf44aa96824635,
  0x15e5a261d3359f3562ed697e4e7395f9828cbf414719a0d6360f2f345cc37585,
  0x2f9e86e5cf4e2cf26fc251be1ea79909f3e3315a349abd8d3e25875c3b3bf15,
  0x1838c3a3fdbfb9c1c836f4707d585eced8cea91dc7aae08cf8f4ea1a501f8bd9,
  0x2a6e9c36d81ff2fe05038d033920a911e1faff6b5453786eddfdefb2a8c9e67,
  0xb8dbc52245faf34cb67bc923b674fdb712bfd6393a1591c4591f04894bc6a6a,
  0x1905e55831faaf02d069e516c8dbb47be54ef0d3c1a3df5cf0da0986a112e7a8]

def multiB4 : List ℕ := [
  0x118b56d152d3b9821f1ab6dbb7b322398d15128f2e609b02c2acb40e9ad742bd,
  0xea127826464e2a8feb7e7f262ac38324896f429fe073ed68752f825d7f9172a,
  0x13596b857ca06acf3399ef609825c109e932ef119caa0c1fbd8e7764e33b5f6d,
  0x5b63f9cb12d8351afac2c6aace5fb95e6ed3d49a44492303fbb2fc6cbeb5e1d,
  0x7650029bb16aff4efb83595572ba279195c94028666ad7c4781846a877da87c,
  0x129527f4c14100a3107add734d4e3271d2ce26ebf9f907503dd60a30a9e1207b,
  0x1a436b04c44c40fa3bf35b7f5f282a67cc542844b458a1abe8965786d0712237,
  0x76eeaf19b97ab15d446f95cd85763b1ea3a9f080b8ee0ad323d62a77e43fd18,
  0xda8e091cbc241a6f99aae26021335f2983bcc69f4e1ed2673ce4e13e63cacc9,
  0xee7eac52dc4309a67f465e805e448f37ad5121803a2cd8436b4e048dbed2f73,
  0x2790e38436e82dbabd601e41fba54f38ee53a82a39e218979c56a8a5f9f6719,
  0x187ddab5ba0cd14593a49af99bf3d9cd19f80d28a8ba7ed8b2afefb1ca9d71fd,
  0x12133f0c1c4c040c8db6772a5ec38a581a3aa2565182c7905aba7e0b7f95b018,
  0x1ca02fd1a8a85aa7bb601ac7c07944601abde3f43383c4165e19ed65bf61af74,
  0x159c7ab9c222b527bf087b8c02326c0618192509cf80f225a3ca9f48f9fb9cad,
  0xcd2938ac16e1cc0c1559507e04fc082837172d038abb1c091e243199d5f25ad]

def multiG4 : List (ℕ × ℕ) := [
  (0x5493f17dae86cdbc5ad6c591800e0034d845ff3d724a3c6cc1ce14d07e91e651, 0x30d4b27115d9de6bee97daf3d5b40ec752724da97bf57a58343984584e6e703f),
  (0x5b5247e055b077ea4850b8e41902250fdd9b4f31aafb931503a4087ca0c644da, 0x1322d6d23ddb3c6263519cd32c6b9db4885f1a8f959341e14d6a38e3218fa3c7),
  (0x422a8f780012c31a5922cfcaf421ed165f28d544654059170e5a399c67d12146, 0x2b50a0b708abe86640607181696a9ece35ad3a4b84def52b215c98b8ffd8a82d),
  (0x56bffcb21e12a6f1e0a227a0fc2a0a7f18e0bd213f0a9a1b6f30b624bf97a4d9, 0x5483d0b18154d38aa47e6c463bd22fd424d87669dd665d4de96a034774cacbe6),
  (0x6437d6e8aab65d2abeba8a49ccc5f08d420306d90608f2d47f831e48ece6f64f, 0x2ace866acf4034289036d35fda23492f27a959fccb9bfbbb11901bfbb48d7779),
  (0x6f81f8f0582651174268f17863c74f27066a921607cb6cc0b272a499b8c3eaf4, 0x3f0b91d0356af4596e17954010faa6e098c364dc74871eb6403b7a99869f5a55),
  (0x40cdfef09042b1cbd36d9c0d1750a193f894fff1b1b7f5ec1f89356c76719c11, 0x5d6463a1d4608f8894064a00666d7e80088543fd673cabc296da14401caa5004),
  (0xfc8703b1e20167ca56145a3d8ea71513525802c24fe514998d403477f740342, 0x6a90a3e778c34f21d229e5f24a6798c1a81cff3288b9930c92a2551059c82b89),
  (0x568907da656e90696d2b392cf07190462ccf0636f7326c5b54ea89a06afb76e, 0x50a4e00625226b8b61d96fda29555d3ffc57cee89e7c7549aa2b90165a914201),
  (0x2d0a87dbe1293238ddd1893f77e293f220aab9ad9e11de7dc57507b9d8030f16, 0x21e4dc98d7e6b47a1e40114636ce2a378835e3431a4e30bdde15ed1ba90e711a),
  (0x593225995195cc0df844b5e31d20464daa471cb0a5d0f143f2b69d419e2ed74c, 0x66027240a72755903903e4d8299fccecf1c246400b4fcb212c1cd89888dd3568),
  (0x291790a2f4e9d7b8e4fb10cd986c530a58ab8c3d1a95eb8129b48ded0ecd4d98, 0x5df3895268f3f2b846907d9eb26b62a5d59642d044ed8e39e9c20a1d2880153b),
  (0x6f217cbaa271475c92c3c184a3a6fdbe37b050c827bd21c77bbf1ce7dbdfe264, 0x318022d82b5c8f2abdf6883cb434770fc3c9ddf33f34630cdc1985bcaa1670fb),
  (0x1ff70d7981042b6875e95f303ef384cfd6d66e1c60e55e6171ae93de5dfcb587, 0x1e3a629f121717dd7cf901a2503a45c212f6677b64b9f408a2954efc127100dc),
  (0x68008684d18bc320f1d2aa4ee89bf38d0259dd362a5ecc629da180abdb29ce19, 0x31610a4d200867406daf400fa7ca2a3d8387d8bf6378da38be67ae280fefcb67),
  (0x6b8afa5ce52454abaf3eb29bb58cd652131431abd34617225e0600e80d34653e, 0x2c4af09115e7b38030fa00e9765c1a05f944ed35f3c9cd131be05a14d87c35f2)]

def multiA5 : List ℕ := [
  0x9c29789d64b24b25327e11cb46399f21e5273dace2dadf9e3547113f2ea9992,
  0x17ed7a2c6197d671274161df2ea365012eaee7a173aeb7815f48c7d23cec448a,
  0xed003645c84fef6472a1b74717e7a6d52854b64710f9837c3de521f2511817a,
  0x178e892ec12c3c1a13134680c4788c5b0907e5204a6c1b285c62e0454220bfb2,
  0x165099642da2ea563c30a07ef671c1801fbb8f05061a4632a56e620e8f487a6f,
  0x175e870e58a115ad9b0682e9305e41811bf6f9295e27e5f763217e3d0e9d9891,
  0x57d80d21444e52d74e2318fda85ae25523f1343552e29448f0d88ffa539c92f,
  0x7dcf84dbace0c784b583697409a99974480ef10ac7e5f6a6a3ddc975736d2ce]

def multiB5 : List ℕ := [
  0x5c1b7447e08248da7f6c855477a593865bf230575e0575e5ee33c19c824670,
  0x193f802b3032f3d297ef3791370bebe2ca02b9594555b3806f2a5512dda8da6f,
  0xfc301d9b8db3b3bc5f0bf91951f82961f69e61cb15cb35a8dc00549ea3b6e87,
  0xa1962ef857bc122d4fa37d4fee33aae09c83ecb6bd6375004bf7551f7c6f133,
  0x1b1d97f9dc6d422ff221209b2376d4f02c91e90e36e28f4b2d2a537770fec784,
  0x90e8645d80be10422bd5f0c35fef264456cd623afa050b949bd02fccd906bd4,
  0xfabe54b5af577f5520f029be10f035bca7e9af6b1951fea96b4b0549c13b77a,
  0x186e9e827647e460880fcb0b852adc2889eac5c7a56208e5260d225e3d7c7ba5]

def multiG5 : List (ℕ × ℕ) := [
  (0x3b6dbf553029f1bb866651fbc2fb018e2338a69f5cdf70eb928b3838f88f3836, 0x21fb7ed978f7fa3b4b7d6c7208213a4b401aab802b6e95fdc0b335e7035216a),
  (0x18ed5e552a5e30f49e1d384e927379bd84dde7f56679246882e38e30c5802a3c, 0x5b53690d64db2fed71f959e18f20833881c0d8f2aa6cd43195f6e6d066123497),
  (0xbdcd6db7ddf1b172fb72a5b0ec502494b8530830d072027a640841f2f4adab3, 0x5b44f2e583923d4fbb2ec06bfeac96097f90e1863dc59ae3370d1434e155b9e6),
  (0x69684344374fd91181f5479f523fe79a1b3fabfcc90c1eabb36bcd511c2f9ab5, 0xa2067fcb7b1fa0962e2f960c1eb4c179bf3a3e15956568db4d888122971e005),
  (0x34fc9632a3d312b36111746fa1b54251cfd03923b32d1596fe2f219b1e370c3d, 0x2ad2ee65fa5a4dce9c8b00694f45d26a2ed5ebeeb041f2aee07604c86100f190),
  (0x1332e5481c8a2cf8e40fd5c33ea36235d20e5426fe16d8080e0db470fb03f630, 0x4c6ab6c9f4cf1e30afafcf81725dd8811c6fc67eb910f53f32ddd8eb55e95973),
  (0x4d0a0fd0781181e0208adb1ead67132f239f932d1fe523b261807f18e87699aa, 0x4c66506af4d2526152b8a08727b1eda62fff2d5bf1d8f945f15dbf93131c6376),
  (0x2f2530cc0863abc2c3864f696371b4137227eb6563067f7324c21de7688391a6, 0x2344f1a45b0b2ce517e42460e3a98beec0cb01d6d60f821052be620baf5eaab7)]

def multiA6 : List ℕ := [
  0x15060f5ea9b5f8069609b1bdc61ef8329c2dc2eaa6542545ed3fc11fe5870c28,
  0x1cc769032600a20407bcbb1f36718796429fe6efbf12136b1f6f3f3dfc369dbc,
  0x1af55787c859175d5814916c4aa9e7bb6d7816d03107b4e7dd9d484784201904,
  0xe6008df18c2a6bb1e792fd9f41b45d72aaab2997190c43d56a1c5526eb9d23d]

def multiB6 : List ℕ := [
  0x165d75fe0dc4c295cdd7c17e8182b0760bf9aa0f3c158825051a9fa14d930101,
  0x136b7c162e295e70226e2efdb8a77cc369ebf59ee0693daa3aa161af2ad4c59e,
  0x7562621039272d763186b29fab4538df658117debaaf93f67ea3f1cc51d28cb,
  0xf9dee34996e7dfbe4331ce436d0461e5bced8f92908d5a7d0df1187067d03c1]

def multiG6 : List (ℕ × ℕ) := [
  (0x1b767a69e7e1c24dec7ff62b0448e94b583f0212b9a95256e9cfde15827d0b55, 0x2e8b4af9276ab8a22598930bc98c8d4e49e165f2410306e14935f0a2b74f1a12),
  (0x5033db56617cb155e400acbd773cd6b520dcdf512851631bbf5e395e2f8df2f, 0x2fe29846b7feddd1df052220cfd69fbc964b4f838e5d6fbd0ab98351043a2296),
  (0x50939d5bb4b657700c9fc08094d3f5a2e9dc61e2b0360c7351cf9b19fa5f5b3b, 0x1cda972c5ab7aa192d81ff729ba09c98306a04dd45efaaa7129f2eddb0d3b0ae),
  (0x488972c7da04e9860bbccc1da744c989639a6c2145c59f4955a77a7304df491d, 0x3331a509388a6e359b90281b0bdbeb0ba637734175346f87ad1bcbc26b7ab3c3)]

def multiA7 : List ℕ := [
  0x12fa071360610b3ee09cb5354b91bdaa838d4c5a78c63ca9d00549521cdce6d2,
  0x111cd3ccc8d669223cc8e149d9d09660572bde61fddb05e4a9ca36e7adde6f88]

def multiB7 : List ℕ := [
  0xb47eee73bf6aeb124fd7c10d9b18594504d7451ca31cc81465c1e2fc680cb51,
  0x16a50ba469accc449fc59c74a3a0d8f5b180216e7bc2228537d51d7a5a72a6b0]

def multiG7 : List (ℕ × ℕ) := [
  (0x183450077c53b1be192e530d754aaeb0073adaa7f6358471116e4e7f254fe543, 0x71a6d8ce3d052c52f196081175c3255f78cc024aae8b017e4b35613827d0d6d2),
  (0x4a8afb9264c21151c9221a429dd75248ffa9efb38deb77d188630ab926f42c27, 0x2e9b308018a2d6b2533ac3a9f1ec97728e3b98f1c28dc045138f8d1ada797aab)]

def multiA8 : List ℕ := [
  0x775491d5a80d84a2ce2be74dfbc59d96054106033b21df759b56c02971c3205]

def multiB8 : List ℕ := [
  0x12badd627b4248dd74476399a0d4b7b9149ccb07acb87745ba190f40732e0fe6]

def multiG8 : List (ℕ × ℕ) := [
  (0x3f7568cf46e142b99cd65ee9253d3a357f57e3a090cd6e4ab11426667ab09653, 0x4bfe214ca143856873737a9be60c30f76829c2a90884575e1606acb4570621dd)]

def multiQ : Tri := ⟨0x6c113e799fa66e9477e6f5e0f351ebe4ecda2f7601ecead10f30418247ad2aa4, 0x714482b0544fb733e64e369f5e37a6b0f4a8c59bbce401b6f94af5314c986d1e, 1⟩

def multiX : List ℕ := [
  0xf672b76d0a5ad5ddba55d9f3ee3aeba018e9dbfe83a3520982f101030a8ddd3,
  0x1c828db75fbc008cdf601672c8fc11ca60139eef8980a097edf65497342f82e6,
  0x5cb06fd7d17e934d7689054af576ab84a0b2aaeb1cf99ed02fbe2af7e307b7b,
  0x157d263364ef4e0c6a48d13e555eee91e87ad8894eb3c8a5945828fb51e1e0af,
  0x16eb2d8fde5292d49a2ad4e36c671b6df87f7aa1cb7c9c0b52e6af170cf89485,
  0xb3d14c992e259f074518cfb1504a1bc550d08ae1aea7376636b8a72d887cb5e,
  0x1b112ee97aae35ba7accd7cb3fe8a511131746867010778a1d4feac34dbdfe82,
  0xf40fc9cbdb936f93c89609a4a4fc146124577616a6c878db167da7c99485d0,
  0xd2dfbfd6691b7152b4ae4866f40a080b2243039e9aa4a38066ceced77634052]

def multiXi : List ℕ := [
  0x0,
  0x1249e0d0226852749351de0638b7dd7f45a04cf0b92ee659c97b9ed409ac424b,
  0x1127c1d0fbfe8747120bbe0c5b9cd9bdc2648756a838c82d9cc832986aa59b12,
  0xa6c51cd9f5dd8feb29644456d3f2196cd16545b97c738a472198597aee2f962,
  0x571a556d183f1ee5de009801705428a40bdedfa5ba4ccc4a3174e15651ceb9d,
  0x44c04b0ffd50053786c5d7b3ba2f706393d94d2f7b3b0a780956b845fcc231a,
  0x1c6e5679111e917bfadbe618aba82e52f900239187fd37c93e76a8143a4ba886,
  0x16fc7a64c574e756fa969fbb560e76f9002cd7a66197c3e09e252f3161f6df88,
  0xc109e339e6ebfe1bfe34af25674a910c203ab06482a121bf3758b3476ac1aea]

noncomputable def multiL0 : Lit := multiL.get ⟨0, by decide⟩

noncomputable def multiR0 : Lit := multiR.get ⟨0, by decide⟩

noncomputable def multiL1 : Lit := multiL.get ⟨1, by decide⟩

noncomputable def multiR1 : Lit := multiR.get ⟨1, by decide⟩

noncomputable def multiL2 : Lit := multiL.get ⟨2, by decide⟩

noncomputable def multiR2 : Lit := multiR.get ⟨2, by decide⟩

noncomputable def multiL3 : Lit := multiL.get ⟨3, by decide⟩

noncomputable def multiR3 : Lit := multiR.get ⟨3, by decide⟩

noncomputable def multiL4 : Lit := multiL.get ⟨4, by decide⟩

noncomputable def multiR4 : Lit := multiR.get ⟨4, by decide⟩

noncomputable def multiL5 : Lit := multiL.get ⟨5, by decide⟩

noncomputable def multiR5 : Lit := multiR.get ⟨5, by decide⟩

noncomputable def multiL6 : Lit := multiL.get ⟨6, by decide⟩

noncomputable def multiR6 : Lit := multiR.get ⟨6, by decide⟩

noncomputable def multiL7 : Lit := multiL.get ⟨7, by decide⟩

noncomputable def multiR7 : Lit := multiR.get ⟨7, by decide⟩

/-! Round 1. -/

theorem multi_L0 : sumOk (multiA0.drop (multiA0.length / 2)) (multiB0.take (multiB0.length / 2)) ((crsTri.take 256).take ((crsTri.take 256).length / 2)) multiQ multiL0 = true := by
  decide +kernel

theorem multi_R0 : sumOk (multiA0.take (multiA0.length / 2)) (multiB0.drop (multiB0.length / 2)) ((crsTri.take 256).drop ((crsTri.take 256).length / 2)) multiQ multiR0 = true := by
  decide +kernel

theorem multi_x0 : leNat (Sha256.hash (after (lbl "w") 0xf672b76d0a5ad5ddba55d9f3ee3aeba018e9dbfe83a3520982f101030a8ddd3 ++ lbl "L" ++ multiL0.tri.bytes ++ lbl "R" ++ multiR0.tri.bytes ++ lbl "x")) % r =
    0x1c828db75fbc008cdf601672c8fc11ca60139eef8980a097edf65497342f82e6 := by
  decide +kernel

theorem multi_xi0 : 0x1c828db75fbc008cdf601672c8fc11ca60139eef8980a097edf65497342f82e6 * 0x1249e0d0226852749351de0638b7dd7f45a04cf0b92ee659c97b9ed409ac424b % r = 1 := by
  decide +kernel

theorem multi_a0 : foldN 0x1c828db75fbc008cdf601672c8fc11ca60139eef8980a097edf65497342f82e6 multiA0 = multiA1 := by
  decide +kernel

theorem multi_b0 : foldN 0x1249e0d0226852749351de0638b7dd7f45a04cf0b92ee659c97b9ed409ac424b multiB0 = multiB1 := by
  decide +kernel

theorem multi_g0_0 : foldOk ((0x1249e0d0226852749351de0638b7dd7f45a04cf0b92ee659c97b9ed409ac424b : ℕ) : ZMod r) (((crsTri.take 256).take ((crsTri.take 256).length / 2)).take 32)
    (((crsTri.take 256).drop ((crsTri.take 256).length / 2)).take 32) ((pts multiG1).take 32) = true := by
  decide +kernel

theorem multi_g0_1 : foldOk ((0x1249e0d0226852749351de0638b7dd7f45a04cf0b92ee659c97b9ed409ac424b : ℕ) : ZMod r) ((((crsTri.take 256).take ((crsTri.take 256).length / 2)).drop 32).take 32)
    ((((crsTri.take 256).drop ((crsTri.take 256).length / 2)).drop 32).take 32) (((pts multiG1).drop 32).take 32) = true := by
  decide +kernel

theorem multi_g0_2 : foldOk ((0x1249e0d0226852749351de0638b7dd7f45a04cf0b92ee659c97b9ed409ac424b : ℕ) : ZMod r) (((((crsTri.take 256).take ((crsTri.take 256).length / 2)).drop 32).drop 32).take 32)
    (((((crsTri.take 256).drop ((crsTri.take 256).length / 2)).drop 32).drop 32).take 32) ((((pts multiG1).drop 32).drop 32).take 32) = true := by
  decide +kernel

theorem multi_g0_3 : foldOk ((0x1249e0d0226852749351de0638b7dd7f45a04cf0b92ee659c97b9ed409ac424b : ℕ) : ZMod r) (((((crsTri.take 256).take ((crsTri.take 256).length / 2)).drop 32).drop 32).drop 32)
    (((((crsTri.take 256).drop ((crsTri.take 256).length / 2)).drop 32).drop 32).drop 32) ((((pts multiG1).drop 32).drop 32).drop 32) = true := by
  decide +kernel

theorem multi_g0 : foldOk ((0x1249e0d0226852749351de0638b7dd7f45a04cf0b92ee659c97b9ed409ac424b : ℕ) : ZMod r) ((crsTri.take 256).take ((crsTri.take 256).length / 2)) ((crsTri.take 256).drop ((crsTri.take 256).length / 2)) (pts multiG1) = true :=
  (foldOk_split 32 multi_g0_0 (foldOk_split 32 multi_g0_1 (foldOk_split 32 multi_g0_2 multi_g0_3)))

/-! Round 2. -/

theorem multi_L1 : sumOk (multiA1.drop (multiA1.length / 2)) (multiB1.take (multiB1.length / 2)) ((pts multiG1).take ((pts multiG1).length / 2)) multiQ multiL1 = true := by
  decide +kernel

theorem multi_R1 : sumOk (multiA1.take (multiA1.length / 2)) (multiB1.drop (multiB1.length / 2)) ((pts multiG1).drop ((pts multiG1).length / 2)) multiQ multiR1 = true := by
  decide +kernel

theorem multi_x1 : leNat (Sha256.hash (after (lbl "x") 0x1c828db75fbc008cdf601672c8fc11ca60139eef8980a097edf65497342f82e6 ++ lbl "L" ++ multiL1.tri.bytes ++ lbl "R" ++ multiR1.tri.bytes ++ lbl "x")) % r =
    0x5cb06fd7d17e934d7689054af576ab84a0b2aaeb1cf99ed02fbe2af7e307b7b := by
  decide +kernel

theorem multi_xi1 : 0x5cb06fd7d17e934d7689054af576ab84a0b2aaeb1cf99ed02fbe2af7e307b7b * 0x1127c1d0fbfe8747120bbe0c5b9cd9bdc2648756a838c82d9cc832986aa59b12 % r = 1 := by
  decide +kernel

theorem multi_a1 : foldN 0x5cb06fd7d17e934d7689054af576ab84a0b2aaeb1cf99ed02fbe2af7e307b7b multiA1 = multiA2 := by
  decide +kernel

theorem multi_b1 : foldN 0x1127c1d0fbfe8747120bbe0c5b9cd9bdc2648756a838c82d9cc832986aa59b12 multiB1 = multiB2 := by
  decide +kernel

theorem multi_g1_0 : foldOk ((0x1127c1d0fbfe8747120bbe0c5b9cd9bdc2648756a838c82d9cc832986aa59b12 : ℕ) : ZMod r) (((pts multiG1).take ((pts multiG1).length / 2)).take 32)
    (((pts multiG1).drop ((pts multiG1).length / 2)).take 32) ((pts multiG2).take 32) = true := by
  decide +kernel

theorem multi_g1_1 : foldOk ((0x1127c1d0fbfe8747120bbe0c5b9cd9bdc2648756a838c82d9cc832986aa59b12 : ℕ) : ZMod r) (((pts multiG1).take ((pts multiG1).length / 2)).drop 32)
    (((pts multiG1).drop ((pts multiG1).length / 2)).drop 32) ((pts multiG2).drop 32) = true := by
  decide +kernel

theorem multi_g1 : foldOk ((0x1127c1d0fbfe8747120bbe0c5b9cd9bdc2648756a838c82d9cc832986aa59b12 : ℕ) : ZMod r) ((pts multiG1).take ((pts multiG1).length / 2)) ((pts multiG1).drop ((pts multiG1).length / 2)) (pts multiG2) = true :=
  (foldOk_split 32 multi_g1_0 multi_g1_1)

/-! Round 3. -/

theorem multi_L2 : sumOk (multiA2.drop (multiA2.length / 2)) (multiB2.take (multiB2.length / 2)) ((pts multiG2).take ((pts multiG2).length / 2)) multiQ multiL2 = true := by
  decide +kernel

theorem multi_R2 : sumOk (multiA2.take (multiA2.length / 2)) (multiB2.drop (multiB2.length / 2)) ((pts multiG2).drop ((pts multiG2).length / 2)) multiQ multiR2 = true := by
  decide +kernel

theorem multi_x2 : leNat (Sha256.hash (after (lbl "x") 0x5cb06fd7d17e934d7689054af576ab84a0b2aaeb1cf99ed02fbe2af7e307b7b ++ lbl "L" ++ multiL2.tri.bytes ++ lbl "R" ++ multiR2.tri.bytes ++ lbl "x")) % r =
    0x157d263364ef4e0c6a48d13e555eee91e87ad8894eb3c8a5945828fb51e1e0af := by
  decide +kernel

theorem multi_xi2 : 0x157d263364ef4e0c6a48d13e555eee91e87ad8894eb3c8a5945828fb51e1e0af * 0xa6c51cd9f5dd8feb29644456d3f2196cd16545b97c738a472198597aee2f962 % r = 1 := by
  decide +kernel

theorem multi_a2 : foldN 0x157d263364ef4e0c6a48d13e555eee91e87ad8894eb3c8a5945828fb51e1e0af multiA2 = multiA3 := by
  decide +kernel

theorem multi_b2 : foldN 0xa6c51cd9f5dd8feb29644456d3f2196cd16545b97c738a472198597aee2f962 multiB2 = multiB3 := by
  decide +kernel

theorem multi_g2 : foldOk ((0xa6c51cd9f5dd8feb29644456d3f2196cd16545b97c738a472198597aee2f962 : ℕ) : ZMod r) ((pts multiG2).take ((pts multiG2).length / 2)) ((pts multiG2).drop ((pts multiG2).length / 2)) (pts multiG3) = true := by
  decide +kernel

/-! Round 4. -/

theorem multi_L3 : sumOk (multiA3.drop (multiA3.length / 2)) (multiB3.take (multiB3.length / 2)) ((pts multiG3).take ((pts multiG3).length / 2)) multiQ multiL3 = true := by
  decide +kernel

theorem multi_R3 : sumOk (multiA3.take (multiA3.length / 2)) (multiB3.drop (multiB3.length / 2)) ((pts multiG3).drop ((pts multiG3).length / 2)) multiQ multiR3 = true := by
  decide +kernel

theorem multi_x3 : leNat (Sha256.hash (after (lbl "x") 0x157d263364ef4e0c6a48d13e555eee91e87ad8894eb3c8a5945828fb51e1e0af ++ lbl "L" ++ multiL3.tri.bytes ++ lbl "R" ++ multiR3.tri.bytes ++ lbl "x")) % r =
    0x16eb2d8fde5292d49a2ad4e36c671b6df87f7aa1cb7c9c0b52e6af170cf89485 := by
  decide +kernel

theorem multi_xi3 : 0x16eb2d8fde5292d49a2ad4e36c671b6df87f7aa1cb7c9c0b52e6af170cf89485 * 0x571a556d183f1ee5de009801705428a40bdedfa5ba4ccc4a3174e15651ceb9d % r = 1 := by
  decide +kernel

theorem multi_a3 : foldN 0x16eb2d8fde5292d49a2ad4e36c671b6df87f7aa1cb7c9c0b52e6af170cf89485 multiA3 = multiA4 := by
  decide +kernel

theorem multi_b3 : foldN 0x571a556d183f1ee5de009801705428a40bdedfa5ba4ccc4a3174e15651ceb9d multiB3 = multiB4 := by
  decide +kernel

theorem multi_g3 : foldOk ((0x571a556d183f1ee5de009801705428a40bdedfa5ba4ccc4a3174e15651ceb9d : ℕ) : ZMod r) ((pts multiG3).take ((pts multiG3).length / 2)) ((pts multiG3).drop ((pts multiG3).length / 2)) (pts multiG4) = true := by
  decide +kernel

/-! Round 5. -/

theorem multi_L4 : sumOk (multiA4.drop (multiA4.length / 2)) (multiB4.take (multiB4.length / 2)) ((pts multiG4).take ((pts multiG4).length / 2)) multiQ multiL4 = true := by
  decide +kernel

theorem multi_R4 : sumOk (multiA4.take (multiA4.length / 2)) (multiB4.drop (multiB4.length / 2)) ((pts multiG4).drop ((pts multiG4).length / 2)) multiQ multiR4 = true := by
  decide +kernel

theorem multi_x4 : leNat (Sha256.hash (after (lbl "x") 0x16eb2d8fde5292d49a2ad4e36c671b6df87f7aa1cb7c9c0b52e6af170cf89485 ++ lbl "L" ++ multiL4.tri.bytes ++ lbl "R" ++ multiR4.tri.bytes ++ lbl "x")) % r =
    0xb3d14c992e259f074518cfb1504a1bc550d08ae1aea7376636b8a72d887cb5e := by
  decide +kernel

theorem multi_xi4 : 0xb3d14c992e259f074518cfb1504a1bc550d08ae1aea7376636b8a72d887cb5e * 0x44c04b0ffd50053786c5d7b3ba2f706393d94d2f7b3b0a780956b845fcc231a % r = 1 := by
  decide +kernel

theorem multi_a4 : foldN 0xb3d14c992e259f074518cfb1504a1bc550d08ae1aea7376636b8a72d887cb5e multiA4 = multiA5 := by
  decide +kernel

theorem multi_b4 : foldN 0x44c04b0ffd50053786c5d7b3ba2f706393d94d2f7b3b0a780956b845fcc231a multiB4 = multiB5 := by
  decide +kernel

theorem multi_g4 : foldOk ((0x44c04b0ffd50053786c5d7b3ba2f706393d94d2f7b3b0a780956b845fcc231a : ℕ) : ZMod r) ((pts multiG4).take ((pts multiG4).length / 2)) ((pts multiG4).drop ((pts multiG4).length / 2)) (pts multiG5) = true := by
  decide +kernel

/-! Round 6. -/

theorem multi_L5 : sumOk (multiA5.drop (multiA5.length / 2)) (multiB5.take (multiB5.length / 2)) ((pts multiG5).take ((pts multiG5).length / 2)) multiQ multiL5 = true := by
  decide +kernel

theorem multi_R5 : sumOk (multiA5.take (multiA5.length / 2)) (multiB5.drop (multiB5.length / 2)) ((pts multiG5).drop ((pts multiG5).length / 2)) multiQ multiR5 = true := by
  decide +kernel

theorem multi_x5 : leNat (Sha256.hash (after (lbl "x") 0xb3d14c992e259f074518cfb1504a1bc550d08ae1aea7376636b8a72d887cb5e ++ lbl "L" ++ multiL5.tri.bytes ++ lbl "R" ++ multiR5.tri.bytes ++ lbl "x")) % r =
    0x1b112ee97aae35ba7accd7cb3fe8a511131746867010778a1d4feac34dbdfe82 := by
  decide +kernel

theorem multi_xi5 : 0x1b112ee97aae35ba7accd7cb3fe8a511131746867010778a1d4feac34dbdfe82 * 0x1c6e5679111e917bfadbe618aba82e52f900239187fd37c93e76a8143a4ba886 % r = 1 := by
  decide +kernel

theorem multi_a5 : foldN 0x1b112ee97aae35ba7accd7cb3fe8a511131746867010778a1d4feac34dbdfe82 multiA5 = multiA6 := by
  decide +kernel

theorem multi_b5 : foldN 0x1c6e5679111e917bfadbe618aba82e52f900239187fd37c93e76a8143a4ba886 multiB5 = multiB6 := by
  decide +kernel

theorem multi_g5 : foldOk ((0x1c6e5679111e917bfadbe618aba82e52f900239187fd37c93e76a8143a4ba886 : ℕ) : ZMod r) ((pts multiG5).take ((pts multiG5).length / 2)) ((pts multiG5).drop ((pts multiG5).length / 2)) (pts multiG6) = true := by
  decide +kernel

/-! Round 7. -/

theorem multi_L6 : sumOk (multiA6.drop (multiA6.length / 2)) (multiB6.take (multiB6.length / 2)) ((pts multiG6).take ((pts multiG6).length / 2)) multiQ multiL6 = true := by
  decide +kernel

theorem multi_R6 : sumOk (multiA6.take (multiA6.length / 2)) (multiB6.drop (multiB6.length / 2)) ((pts multiG6).drop ((pts multiG6).length / 2)) multiQ multiR6 = true := by
  decide +kernel

theorem multi_x6 : leNat (Sha256.hash (after (lbl "x") 0x1b112ee97aae35ba7accd7cb3fe8a511131746867010778a1d4feac34dbdfe82 ++ lbl "L" ++ multiL6.tri.bytes ++ lbl "R" ++ multiR6.tri.bytes ++ lbl "x")) % r =
    0xf40fc9cbdb936f93c89609a4a4fc146124577616a6c878db167da7c99485d0 := by
  decide +kernel

theorem multi_xi6 : 0xf40fc9cbdb936f93c89609a4a4fc146124577616a6c878db167da7c99485d0 * 0x16fc7a64c574e756fa969fbb560e76f9002cd7a66197c3e09e252f3161f6df88 % r = 1 := by
  decide +kernel

theorem multi_a6 : foldN 0xf40fc9cbdb936f93c89609a4a4fc146124577616a6c878db167da7c99485d0 multiA6 = multiA7 := by
  decide +kernel

theorem multi_b6 : foldN 0x16fc7a64c574e756fa969fbb560e76f9002cd7a66197c3e09e252f3161f6df88 multiB6 = multiB7 := by
  decide +kernel

theorem multi_g6 : foldOk ((0x16fc7a64c574e756fa969fbb560e76f9002cd7a66197c3e09e252f3161f6df88 : ℕ) : ZMod r) ((pts multiG6).take ((pts multiG6).length / 2)) ((pts multiG6).drop ((pts multiG6).length / 2)) (pts multiG7) = true := by
  decide +kernel

/-! Round 8. -/

theorem multi_L7 : sumOk (multiA7.drop (multiA7.length / 2)) (multiB7.take (multiB7.length / 2)) ((pts multiG7).take ((pts multiG7).length / 2)) multiQ multiL7 = true := by
  decide +kernel

theorem multi_R7 : sumOk (multiA7.take (multiA7.length / 2)) (multiB7.drop (multiB7.length / 2)) ((pts multiG7).drop ((pts multiG7).length / 2)) multiQ multiR7 = true := by
  decide +kernel

theorem multi_x7 : leNat (Sha256.hash (after (lbl "x") 0xf40fc9cbdb936f93c89609a4a4fc146124577616a6c878db167da7c99485d0 ++ lbl "L" ++ multiL7.tri.bytes ++ lbl "R" ++ multiR7.tri.bytes ++ lbl "x")) % r =
    0xd2dfbfd6691b7152b4ae4866f40a080b2243039e9aa4a38066ceced77634052 := by
  decide +kernel

theorem multi_xi7 : 0xd2dfbfd6691b7152b4ae4866f40a080b2243039e9aa4a38066ceced77634052 * 0xc109e339e6ebfe1bfe34af25674a910c203ab06482a121bf3758b3476ac1aea % r = 1 := by
  decide +kernel

theorem multi_a7 : foldN 0xd2dfbfd6691b7152b4ae4866f40a080b2243039e9aa4a38066ceced77634052 multiA7 = multiA8 := by
  decide +kernel

theorem multi_b7 : foldN 0xc109e339e6ebfe1bfe34af25674a910c203ab06482a121bf3758b3476ac1aea multiB7 = multiB8 := by
  decide +kernel

theorem multi_g7 : foldOk ((0xc109e339e6ebfe1bfe34af25674a910c203ab06482a121bf3758b3476ac1aea : ℕ) : ZMod r) ((pts multiG7).take ((pts multiG7).length / 2)) ((pts multiG7).drop ((pts multiG7).length / 2)) (pts multiG8) = true := by
  decide +kernel

/-- The rounds together. -/
theorem multi_go (Q : BElem) (hQ : multiQ.R Q) : Go Q 8 multiA0 multiB0 (crsTri.take 256) (after (lbl "w") 0xf672b76d0a5ad5ddba55d9f3ee3aeba018e9dbfe83a3520982f101030a8ddd3) multiL multiR multia
    (after (lbl "x") 0xd2dfbfd6691b7152b4ae4866f40a080b2243039e9aa4a38066ceced77634052) := by
  have h8 : Go Q 0 multiA8 multiB8 (pts multiG8) (after (lbl "x") 0xd2dfbfd6691b7152b4ae4866f40a080b2243039e9aa4a38066ceced77634052) [] [] multia (after (lbl "x") 0xd2dfbfd6691b7152b4ae4866f40a080b2243039e9aa4a38066ceced77634052) := go_last Q _ _ _ _
  have h7 := go_step hQ multi_L7 multi_R7 multi_x7 multi_xi7 multi_a7 multi_b7 multi_g7 h8
  have h6 := go_step hQ multi_L6 multi_R6 multi_x6 multi_xi6 multi_a6 multi_b6 multi_g6 h7
  have h5 := go_step hQ multi_L5 multi_R5 multi_x5 multi_xi5 multi_a5 multi_b5 multi_g5 h6
  have h4 := go_step hQ multi_L4 multi_R4 multi_x4 multi_xi4 multi_a4 multi_b4 multi_g4 h5
  have h3 := go_step hQ multi_L3 multi_R3 multi_x3 multi_xi3 multi_a3 multi_b3 multi_g3 h4
  have h2 := go_step hQ multi_L2 multi_R2 multi_x2 multi_xi2 multi_a2 multi_b2 multi_g2 h3
  have h1 := go_step hQ multi_L1 multi_R1 multi_x1 multi_xi1 multi_a1 multi_b1 multi_g1 h2
  have h0 := go_step hQ multi_L0 multi_R0 multi_x0 multi_xi0 multi_a0 multi_b0 multi_g0 h1
  exact h0

end Verif.Vectors
