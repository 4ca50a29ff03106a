import Verif.Vectors.Sha256
import Verif.Bander.DefaultCrs

/-!
# The seed of the default reference string

Which indices of `generate_random_elements`, `/repo/ipa-multipoint/src/crs.rs:96-115`, give the entries of the table of
`/repo/ipa-multipoint/src/default_crs.rs`, and why the others give none.
-/

set_option autoImplicit false

namespace Verif.Bander
open Wire Proof

/-- `b"eth_verkle_oct_2021"`, `crs.rs:155`. -/
def crsSeed : List Byte := [0x65, 0x74, 0x68, 0x5f, 0x76, 0x65, 0x72, 0x6b, 0x6c, 0x65, 0x5f, 0x6f, 0x63, 0x74, 0x5f, 0x32, 0x30, 0x32, 0x31]

/-- The candidate with an index. -/
def seedX (i : ℕ) : ℕ := leNat (Sha256.hash (crsSeed ++ (leBytes 8 i).reverse)).reverse % q

/-- What becomes of a candidate `x`: it is the next entry of the table, or no point has this coordinate because
`(a x² - 1)(d x² - 1) = d s²`, or its point fails the subgroup check because `1 - a x² = d s²`; `d` is not a square. -/
inductive SeedCert where
  | hit
  | offCurve (s : ℕ)
  | offGroup (s : ℕ)

/-- The checks. -/
def seedCheck : ℕ → List SeedCert → List ℕ → Bool
  | _, [], [] => true
  | _, [], _ :: _ => false
  | i, .hit :: cs, n :: ns => seedX i == entryX n && decide (q - entryY n < entryY n) && seedCheck (i + 1) cs ns
  | _, .hit :: _, [] => false
  | i, .offCurve s :: cs, ns =>
    Sha256.force (seedX i) (fun x => ((q - 5) * x ^ 2 + (q - 1)) * (dN * x ^ 2 + (q - 1)) % q == dN * s ^ 2 % q) && s % q != 0 && seedCheck (i + 1) cs ns
  | i, .offGroup s :: cs, ns =>
    Sha256.force (seedX i) (fun x => (1 + 5 * x ^ 2) % q == dN * s ^ 2 % q) && s % q != 0 && seedCheck (i + 1) cs ns

def seedCerts0 : List SeedCert := [
  .offGroup 0xe23a811a797898223d957fda82a3f376375108bd8042b5c9487fb9f11c9c1dc,
  .offGroup 0x695912d8e7d3f0f315c5cbd184ba9e41fe9ea851eb350e85b589f155708d888,
  .offGroup 0x2525e90c2ed113c56ba76922a1958aba0564619ee0fedcdef54ed394b9dca521,
  .hit,
  .offGroup 0x2d46c079e303c182e4a551725c913cfa23e00d9c91c4ef0805123c63062ab7f5,
  .offCurve 0x269a6c437f03babaf6f53e7b93f7600de33373f29f053a026d870baae2513455,
  .offCurve 0x96096b7aa607a04d44ca12b0dad3face31aa3c2b8bca8de263b828ef1ced7f8,
  .offGroup 0x5139cc495d9a2ac5e50e6b82e677b3d29ea165c7c8e931255b9181b08b19204,
  .offGroup 0x33b9f5ef66d706df036655fbe93b53cab70057ec398b966a3cd59842720e9bf7,
  .offGroup 0x1c1d11dfcebef48e259753c5d37bb4a0feab3ddb373325baae7eb48cb80f37a2,
  .offGroup 0xca9cb52ef2b954868a3f32a25439edf1c187b963213b289287aa7e48caf6294,
  .offCurve 0x1321ffeb93d735b62f8c14e26d162dbe121896bd844eda4f36cb369c0b858a03,
  .offCurve 0x3715e00ac03fb9d773498993fbf860cc7375f862c4d25fe18255e3081bf57ce3,
  .hit,
  .offCurve 0x29d1e80344bb72a66ae3fd88a1c44ba2dfd3d4df594f8f61d7ce24f849317d2a,
  .offGroup 0x3396c88b3332dc49ee796a9f6f334351497c408d9f33ced4e02c0af786124825,
  .offGroup 0x307e347be3aef707c2cf562a69c7a8e3a8424e9e3551d15590a49139be64906c,
  .offCurve 0x332d1567c62d4cabf156ace92de19bbf2bc379ddbbf325b2474758c0d768af79,
  .offGroup 0x16286d8300aa797c1d96279d8c5f28dcb791458683a9d8c50250794ee4ddec07,
  .hit,
  .hit,
  .offGroup 0x1d8e5bc61c876bdc409b32b7c8da30f6c987bda75b6155f23ffc6a88c41cec15,
  .hit,
  .offGroup 0x35528718f8c913a6be88de480c4d48c72f67c1da08ea7b459c7f62b3fda4f2af,
  .offCurve 0x28b13bff33b07b397168978c65e5ccad46b210e9d344636864cf349a9e0c03e3,
  .offGroup 0x1c65684066027130294010371f579ce23e70884885787b57e88326e97baa6446,
  .offCurve 0x12898545c683be9a37ac95b3dcf5c24d1d0fed3a1d34350ef8633b48d2b59da7,
  .offCurve 0x54c92dac2c1508ca80fc6c947bb539c5470c56432297f819f61ba6a72dbb95e,
  .hit,
  .hit,
  .offGroup 0x292819c13aa13a4cbd816975275632256726df392f9b0f142ab9de89c4b3f4d9,
  .offCurve 0x24692c66e42651f665b62c577fee06060629d4315dd0ea1d19c25c4464923d9c,
  .offGroup 0x2945d52a239efb58ef9d8c278409b34c600483db5592c2fb2f85a89ffc91fa0c,
  .offCurve 0x20776e6c7d84dacb9f7c49e14dbf0827528be638504c20644ffe8e5b4b66c31d,
  .hit,
  .offCurve 0x2cbb48a28c7ad65a23b88cbb3711167da3405ecfb7605bf880b0d9c5ba9e09e1,
  .offCurve 0x2b8d2ad0c7272a42dded0cee2989cc20424ccb43215df36a44a524f719e09b67,
  .offCurve 0xb35d8fa5316e4a51e47081a203834fc6c6b1a639f904c5aa905f03ccd0f829d,
  .offGroup 0x1ad52274d3a98801c4f73a9f5e3173991dd6bc887384c3c07def71d8da2c4e54,
  .offGroup 0x1ab90049bb576a2e6cf306799cbc9d23becd20c21acbf0f3fa2ba30ceb6d040f,
  .offCurve 0xbe07139441c67c1b2ceae757d3d9cde850a88dce7bb293ec9ddd80baa443223,
  .offGroup 0x7efd8340f4f55c6b74ee100739419c57fa26f9f0842f9dfe3d72bfbcdcf6218,
  .offGroup 0x1d3fc93603f083069d8e879767ce32052cd9a82ceb6bf178da990a10aa235c7b,
  .offCurve 0x2f14a6fa26d82e33cef206a56014ef96482eb5cea577d48b914967f20b339aea,
  .hit,
  .offCurve 0x956af0e1bee267aaee53fe9ffcfe2eb528847cefdba25bf522b1d9b2d0be802,
  .hit,
  .hit,
  .hit,
  .offCurve 0x1772ada4a7773d4c51b677bac52b1865769c858c9a84353c6eceea44c1ac27d1,
  .offGroup 0x296ff0dc7cb091cb16866003eb5594f00da578898a544b97cc5a86189b46493b,
  .offCurve 0x10758d2b06d0fccd1c987234e60e23b8bdac1dc647dc140003ce983617dc8f0d,
  .hit,
  .hit,
  .offGroup 0x33dcf89171ba42c3c6771c72e5fe67d5cf2b285fb8c74b6efa03d7a06ac68356,
  .offCurve 0x35f49fd5ca454cda362499cc8ccb782e72c8c4e2982217502845d41ab99271ed,
  .offCurve 0x119158e5ead4bdfc68c96e0cff35386b85dc3c54b08aaca144e7c34f8717183d,
  .offCurve 0x34fc23a75b0ff5c25ca552b5c8a74458a1b96262b08b60cfdf3055e61ba41ca0,
  .offGroup 0xe75e8ecfaa509180350fa9b2d2423d43b48a33276522bf2e2ee169c4f1f1fae,
  .offGroup 0x1d65bf1f03a463fb3926af6cbbaf4b2596829e03549b3b8f9e32cb5cc71d16e8,
  .offCurve 0x33d39f26043160d9721ce2dadf2380d6000dd84abcf226d154a2d3763c976c35,
  .offGroup 0x6132c4bec972c3a560e28712689c6eb38915fdc48e8be6418ab6970b2154dce,
  .offGroup 0x101541ed36dea73df7fa877013a0cc6c710370f9fe4f43eeb9fdd3240af48e27,
  .hit,
  .offGroup 0x373a1936ee84bd230a88f18d41e9b5aa35c93220cc7a538686111802580b0b3e,
  .hit,
  .offGroup 0x15ac8c8cdf2626d44d67f7354903934dad5e009541926afd2850f942836b3d5f,
  .offGroup 0x279473b73c16019bf43edcea0a9617876e09b8af3e172b34b77fd69d1835c0e5,
  .hit,
  .offGroup 0x5ea63c080624b3ca7c906e9e5c664514c6389926130a2805a6d3abc81e13c00,
  .offCurve 0xb97d6564e91d5dd001244d9a95e8d881f6512360e149718e74361613f274790,
  .offGroup 0xb72d51e1a8779d5c679bb252f73d23d682227d7e4e93be98fb93f52d7476b68,
  .hit,
  .hit,
  .hit,
  .offCurve 0x317bcf61b9d50f5135989cb084d21de7ab01e5c55a76cd608815193d9c861cd4,
  .hit,
  .hit,
  .offCurve 0x652ca3e4379c5d919867e0b959d58c5558615486a10f56e7a8ea6d11d91a87,
  .offCurve 0xc6d6a2786b6cfd1bc37d845cd0bb53d113da35290ccd31039c4147413a2d4d9,
  .offCurve 0x38df2e79a2d058666f45dc8fa88e9774c8435d5ab599d4e40651c51d9da6d78d,
  .offGroup 0x1ccd557c4beeb7d3832d16e7de887f68c87ed0fcf8830e03a072592765a1a8b2,
  .offGroup 0x19a5dd54046e9542ae6319ad0f20f3cf8aea387ce807e436956fed886947ddf2,
  .offGroup 0x2ba4734002a1c10176deb61eb95d917b7a3b4b0d12e8b44ac8c2c094e2bbe486,
  .offGroup 0xfd2a0ebc28b014815ccddbcd3b6466190046ae1b430f53bf8fa70727901cc3e,
  .offGroup 0x1ddc10cc7705f1cf8f7ec78a21343faf4e9ff54551b8664cc88b2b1f82ecf19,
  .offGroup 0x1dd22ab8f154f94e00f0c565c2917c928664b2c2742f0e262e6dde793c03a17c,
  .offGroup 0x31809c8b2daaad722e30df47a778528761e6c68fed132da80aa955dcd06d9e1a,
  .offGroup 0x19807da09dcce52d61fbafcd0044604f36769501f868bfe0465fe0ba3c69ca84,
  .offGroup 0x2a20e0db62edd19218d2632279552e80ba853c3b5e7157ae26e733217b1d253b,
  .offCurve 0x14beb55f8ae5cc32ce3008097f7370108b13f05175039175477885279efc2a13,
  .hit,
  .offGroup 0x728da737398220fcf49e936c52cd9c74d50daaa7dbf6f7bd655cf4500676fcc,
  .offCurve 0x5d6a60e39887f643254ef5e75967f8a85582b86025068ba7b5035bbeabfc0ef,
  .offGroup 0x131415c0ed9fbd38bff7eb7a5b91aae2a61c814402744d38db594296b3ddd07,
  .offGroup 0x1f46c8571d21aed39d14a50341853c106d23943e6a49be1b3da83e3e26d9a0c9,
  .hit,
  .hit,
  .offGroup 0x286bde6ade0af68a5c6721e728bd4a0f5b5c9062e2be1a5bf69e0b910070d138,
  .offCurve 0x1ee5ab43a38ba0cea3e8bf4756d5b4c4f519772e95ab38e0effea5b531d100c,
  .offGroup 0x313e9cbb912939524ea16e7bef7ade91e855423f2f2212f555e159a6678cf08b,
  .offGroup 0x34f9418a537893fce758da625607401e5b3168579509655c9f688bb22793789f,
  .offCurve 0xee2551eb154a92fb097d6d046f65052f74ae02492efb57c9b400f8a9548fcfa,
  .offGroup 0x8c02f89468bcaad75c6909c5f757b4ea22551d2f37a5196012018eaf1687053,
  .offCurve 0x1dada9a0d730322e965945f8aae4bd142694094adfe68f1439ce2c8fb775815f,
  .hit,
  .offCurve 0x137703d26b28b156d3342263689522908b4687ac53e0b7c0f879a5d6fa77b9ba,
  .hit,
  .offCurve 0x302a092dfce5618cc15dd37c27f872639eb280495dcf8fd6e11a2a93473ef0c0,
  .hit,
  .offGroup 0x8455c9b52f6224a729c051e0139e5937b36722ccefc9453b9ad45063642c2b6,
  .offGroup 0xfdebff3bc056bf91fc9b9d75b13390d05653337b22caef2f7dfb19b52f017a0,
  .hit,
  .offGroup 0x8296047e639b2d2b163c08631aafad704dd6dc2c40f8b7d72d37a95975aa195,
  .offGroup 0x177e5c07208104fd66234b0b82592e9ce677fbe065291dd1e478ed0e0cfee6dd,
  .hit,
  .offGroup 0xdbbed1a9b9601126eccb00553995589195cefc022cbe523e37314fb768c765c,
  .offCurve 0x122c23eaf23d6f771ba8b4c8afad843bf53f6b65dc24e9bf08ecbc41bc5e145c,
  .offGroup 0x30aa7497d99821e373fc43fca538036774d5aef241e5f32b96f4f190f5beb836,
  .offCurve 0x4043ba6577622536c565bfc119cfda109af7ee13882ee1e59e9384bc5245269,
  .offGroup 0x3837819183902fb23a8868067d40e39c1b2229250eb1496f45d793e409190726,
  .hit,
  .hit,
  .offGroup 0xe277e89cee269c6abd2a52fb1780ec9a91e0ea360760a369365b2ab4ef476bc,
  .offGroup 0x352f1b43b7b71ffe2d9b8dfbd26a11f0aad89d4ee4b2e52edf41bc4940a57a8c,
  .offCurve 0x130cb069051be83424ab83357d5e10ab2d693761ef714b3d87bbf407d520c7a9,
  .offGroup 0x25dc92e797760435851b3bc67511238bd5756fac9ed7ff00f69c0f38ff74c93a,
  .offGroup 0x21d75fb81effcd21dcfe7ac123ebead0a99a7a7b2f0596e0f199753176639ed,
  .offGroup 0x1f7cb7016257df63c0960f614d4ad008bdedcea035acb416214dda6d1cc22935,
  .offGroup 0x2c0b7f2937f2f30b4ed49a792e1c57a78adab5d2a171ee057d0500f779327ffc,
  .offGroup 0x1147820800b2b8d94a9aba6e03ae3178441862966783c671a79f6a1b356588e3,
  .hit,
  .offGroup 0x246d2715cd3e2917014ababab6736e2608296f9a6a511f95fcb7650fe1ae75f3]

theorem seed0 : seedCheck 0 seedCerts0 ((crsHex.drop 0).take 33) = true := by decide +kernel

theorem seed0_length : seedCerts0.length = 133 := by decide +kernel

def seedCerts1 : List SeedCert := [
  .hit,
  .offCurve 0x14489448ddc29cf2d7e19d4a71dccebb7844d4a98d66b43b2ab00de58b430406,
  .offCurve 0x161df0c4ea73117b610498b714245209ac3a5355c97356a1309306e5a6dd80a1,
  .offCurve 0x200bb5b342f4cabf921d7b0fa3615e8e3eac064404e285ab189c104e0cb3cdf6,
  .offGroup 0xf773fbcfe9c5b51ef2623bcac27eccb7e06fce640dba8cdc7b089e4db99ac2e,
  .hit,
  .offCurve 0x2704c757e156afa1a14e9482248de32cc48f410c2c01a34942e70c4f0f7ad52d,
  .hit,
  .offGroup 0x146fc76ec37eb0e801e6783e84ad8209d0a53b23ac0528599d50aa95c351884c,
  .offGroup 0xb71986433089298acdd9adde8a6925a4b437bdbbc80d9f3aec2a7f72b6aaa7c,
  .hit,
  .hit,
  .offGroup 0x24c0da8473fe6fd19139b6a3ca57144490c0c3188b0ebd251334c0f98935f9ac,
  .offCurve 0x18fa781979c7ad9796f9bcd69629d21e0820399b9c72b1d984b8e6e91d38b18d,
  .hit,
  .offGroup 0x6dc4f410ea54987d2896c8a263a687979e8f62b05febf91df5b8608c429226c,
  .hit,
  .offCurve 0x2cd6d7cd19075377cbecbe8fc54aee49a55231335a233be5acbd430dfb1dd1ee,
  .offGroup 0x29de89daa6b9f447655c7084c6b599549bc8cbde09360afcbe7b22d4e6b50a,
  .hit,
  .offCurve 0x1dbc950746b1a1bb23d33196d374c5ca7af85f199ff0f59c8c179ecc6dcafff6,
  .offGroup 0x200298eba05640a349a85f4b5f1f8e90e326fb355b64b87822e3769c848f376,
  .offGroup 0x35e5f0573bb4d7c943fc168119ffa30d96ac3db83ebd6460b888f566b4645ece,
  .offGroup 0x2ab1e6147d102d8d008706209c010e6b9e147b97842b06136fb8957f32d6e402,
  .offGroup 0x170700cfbc0ca668404e7a91a3b65afbc09dce41ccb0fe9662990f46b7a3eb7a,
  .offGroup 0x3033cae02a72746b0ca51d3e3d9ad8e0e339fb5a001bf40190591b9bac003888,
  .offCurve 0x11db69d75e916f981fdffe01e73d9f3422b2c42ed829cf0f4bedc0eff8463082,
  .offCurve 0x2e2dcd821d9e0b2d8205e7b40e9c26aaa70620128feb25fc98e5565d1f6a2d13,
  .offGroup 0x184d511ad2bdf7cf31be4541d49b09e51606d5f4b35da4e5e284377653b2e24b,
  .offGroup 0x29abea7872ab6623519e88d863e4c0f0bc306de82636ccd291177c65b34364f4,
  .hit,
  .offGroup 0xf37f7a9570d3ec9b8313b82afbfe0018700b43f7abdc439713d01fd372a6bb9,
  .offGroup 0x50b21acbc4b6edc51ea48788554077e100cd4c80221baf22fe5a025f010aedf,
  .offGroup 0x39050298b2b73581d62e581333eb639943ca73683ad769959e9e1ecc49923594,
  .offGroup 0x192dc4ea3ca6a60d1f7ed26c6edbfabbef98772853348f70a3709655d7ae78e1,
  .hit,
  .hit,
  .offGroup 0x70182d568d1f18901fb0f866ff9f389359dab212e083ef7ec574779273dda28,
  .offGroup 0x7d67e52685bff53277f113df6526ba00def56217efb2358a1323804867431f3,
  .offGroup 0xabdd8d66507675a98ce238620511f253f5fbe55efb515e74bf717b5c353e8d6,
  .offGroup 0x2a0ec944c40a29fb48fccf9b7d11b1f7f7eac6e87dcfb1f9f2a635e9c12a846,
  .offGroup 0x2fb5ba1e314e9804e9e4086fcc3fce15a5136ac71d3a929c31a47b485c90a03,
  .hit,
  .offGroup 0x1bda3122b312b85fdd6981c2dcd1dfcaf0a5f08e7aa9f51c96330f5ce4e3a45d,
  .offGroup 0x2b508b9106f27cc65141dfa96c1474ab9830b97979e9238dd097820a3af1fac4,
  .offCurve 0x272814fe17e0b83ceedb49a33d7ff1ae26e13e080e15bdaeb332452abe1fa2a0,
  .offCurve 0xd46ff4908adf03895d688feb08083016d435869df34d4b8c591be99962f353,
  .hit,
  .offCurve 0x13ad676bcd0ce075ee3f74364b9c5933e0173d05f1a74aaea5b0f401c3e50572,
  .offCurve 0x7ebddf6e72e020e7818b2e5d6a9b56aeec0e3909ad5a74a5dfc731c62738b67,
  .offGroup 0x3016e94c369b97beed8ef84e327a3b7b4bce82e4ddb1f7ae776abc8d2e600e44,
  .offGroup 0x19f6ab56227fb62e13a4f330fd653e9baa68cd727dccf719540129f08b7ede94,
  .hit,
  .offGroup 0x372847204338969918ccdfe4c68a5eccf1c3838a9282debe04182a0e694d66bf,
  .offCurve 0x396d53777d46e837d4c7efbbcc4324e8d6f3dc32ae0ce0e195782d61dbb6ed41,
  .offGroup 0x8cf8cd4d40e1a5279fbb4ae8f1d6d4a191969c35aedc82e34ca50fd1a73b84d,
  .offCurve 0x37359173f5643b2420bde1adf58a1555e58cb461cdd57824b44189bbbece2fc3,
  .offGroup 0x3215d9cf764d799ff012e732ace8e2aa061bc5a530a2412340f42ac28af81748,
  .offGroup 0xa4f6f38277c5bde4ba2e5e8cb9e36c2476722701d97b465c39844448c6899ca,
  .hit,
  .offGroup 0xf46b2bf37a5355771fe67866717026143f43a0078096b4694b0dc6f706abec4,
  .offGroup 0x2d7a98baafae557da22874a04bbc6cdc11d5a45f55801215ef812c3d609f0383,
  .hit,
  .offGroup 0x28476abef57e6164a8ccb01c43b0dabc88e8d80e7bc82e66e3de4471ec9f2bb,
  .hit,
  .offCurve 0x4ae0bb3d148dc07554337f5f44e8fcf5db24c475ba98a473b1e90b05757f6fc,
  .offGroup 0x16a3e9dcd434bc3ebd02c1d52abb651d6a6ecebee32e63c741c3cabe246e1abd,
  .hit,
  .offGroup 0xee3938f0c7be8a85c44901ac874f1c06a0eee2b5c1edecf6c27aaa9d4b7cb38,
  .offCurve 0x201617878c5ab860ba2b9b2514e5e9376a394ad31c687ac5baeb4d2306f1f9bd,
  .offGroup 0x2271a426265ae23124f4e626d9692de1a9a2309c62477c9030d3879eb04b5d1a,
  .offCurve 0x291c703b98a51f4fb5c851b479b4e9fc84d676cca8cf9a21a04170d319adba51,
  .offGroup 0x3863b3ca3be63afdce994b7b68b6d261f1e897a0131a5b29a77a28065221f62c,
  .offCurve 0x328d281e80461ace5236d599f7adb7305b7f59e5dc3b182950afb503acbb30a4,
  .offCurve 0x1b0ea88498e25993b4d426e086b186594615dac7a06c16e88d60b2e602e40d97,
  .offGroup 0x117fbfdf53fd74d0c4c61b08ce908360264a17a59573d55b1914ddcc86a677de,
  .offGroup 0x15b0f5dd0f7d998463a9980bd8e2f3a5b951e10deca913c08edbd7042601a27b,
  .hit,
  .offGroup 0x1b2a732cf7a599c4944cd11608368f485a4894b5a3b7fb4c2495704a5185aceb,
  .offCurve 0x375903bf731bbbe082574f27c85e5682c8143f1d0cddb15fe1977fa6d42210d1,
  .offGroup 0x207aecd4b9a227255099d34e9f3dd0977044046044a6d9936151576b61a51039,
  .offGroup 0x199fce117b9d44d9782496bfb041bd60caffb4ed978233be34a06a882af2127c,
  .offGroup 0x14440d7c42b8fc7814ce57b745bae70f4e66e732d8d875478d3733509cc9a17a,
  .offCurve 0x235a753cc8ddaa4ccb37021e580b906c6328a35bce4f65a7a54561796e00aeeb,
  .offGroup 0xcaedb66279c0d4140a697f56bff589188ee1522052f7bf136ae5e90ba531d9c,
  .offGroup 0x19d7f657c2c0ecfcf70647c7cf7f5a8ffc0a7030fe4ed71380f53c4f1d87a2cd,
  .offCurve 0x230ccaa52e08697f9f528d82cb313f9d85e6616aa433813bd26a64ca56ff31ba,
  .offCurve 0x2484fa362138834628455f344a54a438248f5a1bb1968b9a2661a1804bba6d54,
  .offGroup 0x12afb5ac7e1ff0d11cb035aa5aee1d0cbd0812194f9df6817f0fb7bf7fcc41d3,
  .hit,
  .offGroup 0x75151f8a6125ebe1498549430ecbf677d7804945bb60a2a499f3004c1878e5a,
  .offCurve 0x207ea72f58daa334fa8aab3ff71243cd4cbc49cf8d5f0b02bd28724890b4d1b2,
  .hit,
  .offGroup 0xd52f41e9f73796bc5f989ab171f064be38eac4436c998c4b2c8be6e6f1630e8,
  .offCurve 0xef7bd11a58ebcb41784d1cfa5c5b6e71f7ae8c2d61a401bbad996e026d56ba2,
  .offGroup 0x262fbc517025966fef8d47f5139553ab8532b098e6fad45164ebca94892c1904,
  .offCurve 0x2bdae51e4172ecdab7f6c76ffd9ab03dd177570c4366cde3ecc384f1fc3b3acf,
  .hit,
  .offGroup 0xac7faab92fa3fe7453eb12d9d22a64b4e698693dec73fd204e2aa8e2bfc96b7,
  .offGroup 0x36eeb6d9ccf13d79d0fb4108efbdc2b81fd4e71daa055ee721da895c70a86b6c,
  .offGroup 0xd40292d4f4371b44b39115025664d13e5fcdacb642f80ce88e9507449130c94,
  .hit,
  .hit,
  .offGroup 0x54aeb59301631744de1bfd623b26203aa77d661551d0bce94b09c8af296e1f0,
  .offCurve 0x6f8df77209680af815cd4ac4af4b73fbfbeedb472110f9ec1dfb9e00fe82dee,
  .hit,
  .offCurve 0x11c66c087edd0468136b3c5e1254e459e1419c0efae7a79f03bbef6a6e4af96b,
  .offCurve 0x33b232c7be557e3eff163da6f2b40c2e3a7c367be253f7615b7e86334cab736c,
  .offCurve 0xa5ff57a232d0fe33e5b805d9500a969806f863fa3932de017375c412e58e9ab,
  .hit,
  .offGroup 0x2a513885de43f36bc2f62f519b22e63ff5ca2472d3056f0e3bc10258dd53a368,
  .offCurve 0x8a189fde7bac85f4ba3ff76953a809122b61c3b57e3a8ae6d3cae666e0b3932,
  .offGroup 0xc5f2f19416409814b8058b11c3ab7be953dcf7ec925e7c1330e48ab23bff870,
  .offGroup 0x3d716a72acd4d425f3cf0ac8d405e85258b47ad766f44594774b97f1ba32eab,
  .hit,
  .offGroup 0xdd4855df72f35cda605470653c67bf31ec5c9f8b0e87c014da842c8d1a9e203,
  .offCurve 0x36f3b3641ed9b3a95c0698a3f317ac2eba0e2a8b043a6d402f39b3d7e5b7083e,
  .offGroup 0xb787d4bcf77836055f62131ac1dcc72e14d660e1ec2008e140ae042cb48a590,
  .hit,
  .offGroup 0x33bbf397398fe48627e27b475449531251857775b8c2dfea5931ed31859c3534,
  .hit,
  .offCurve 0x222d955945c652e1ad9721639250951d674bbb1c4c4b8e51274523d51d44128d,
  .offGroup 0x355ec24568db87755c3f7658065327ac8cf68f7f5a5cd32e91aaf8406d9a4c06,
  .hit,
  .offGroup 0x1cc801ce9f841b6fce2bd7d0355a862057ca5b6f4e156a701c13122cbf17e448,
  .offCurve 0x7f63b5b208c86f9a7506de685568f16c8a9f3ee22086692c772f71693462250,
  .offGroup 0x2ce9ba6321a0e55719e5b9fd3b21a9f8adf8394049a767ca2d46c69e92b8c0d6,
  .offGroup 0x1d2174364ff752691edfaeb8d29ce0a121f6ebd5c16f8b0354eb56ecef7e9ffd,
  .hit,
  .offGroup 0xa81fca17100de952722b1892d6b65df737f4c0700155fd00d0d3b6695639d9b,
  .offGroup 0xbcd0c4ca99a2ab97f35596bb7989cb576be47480f842c70c6b28e40fc59b904,
  .offGroup 0x13ebd18530099df77d1458671f416a54bd73edaeab4ee2b11d248ad1216294ca,
  .offGroup 0x6a9d3f2ad8664669d1412306048013614b31abf19d5a7688d2365f69513b33c]

theorem seed1 : seedCheck 133 seedCerts1 ((crsHex.drop 33).take 31) = true := by decide +kernel

theorem seed1_length : seedCerts1.length = 133 := by decide +kernel

def seedCerts2 : List SeedCert := [
  .offCurve 0x242f1a90bcc88befef8d8bbcdde71c47a655e5ad518dff5cfd164d501a63fac,
  .hit,
  .hit,
  .offGroup 0x1de3d1916a1f43d5d7646f2e3d78db76545cf9e1cb993f17a5ec86f655286cd0,
  .offGroup 0x24d231301f214f6c8ccbc05521b54d0d8752b901c4e3564e2ba12332d7402d01,
  .hit,
  .offCurve 0x21578003ebaa6c8f74a6e365e95fec5324a934b5c300518ff52d87eddb5f1385,
  .offGroup 0x25a813c6db5675ed9bda9233eacdceb18d010418068f6eec241ce3efbf72daef,
  .offCurve 0x354c44604bf6bb8161e1354be569bedf0c06b8ff89b12ad83bc15a32525cbf90,
  .offGroup 0x19c2701b3a1813a46f4ff7237b6db16c27a85b376bb94bf1eebce32b5ea7418a,
  .offGroup 0x12edd719568d7b469618c33f96517b35e65037ae79f2ad287c358ba59eb2e9b8,
  .hit,
  .offCurve 0x211d60f2212c51087d594bf8009cfca079083bbd87863a4046159199f47ce4e2,
  .offCurve 0x2af971f1d57859ea0019cec66b87c016f167deff42d931a1ff2e0b181ea89f17,
  .offGroup 0x233c2624924968abae5856435197763b5c997e492388259d4accdf35cdf42d07,
  .offCurve 0x35ba0d27f6da8b26cd2810183dde05c80b29a7e46651e9017c073413fc94c469,
  .hit,
  .offGroup 0x2b7ac793452c19fcd61b42c7454c7aa4646fe66fa17b2e2e0a1aa0330ea637de,
  .hit,
  .offGroup 0x22f64a56c040f5bf0cb43925c8a4c4ec40e70ae3ce076c2adc4ee1cd3b43cf95,
  .offCurve 0x36ef1ba18c14d77244ca68591d84052a38434d294ab7b5b07de66dc649b3a635,
  .offCurve 0x1c05fbd8fb2b297369e562b2d01daef3ae16c64321989e5154ebf50bc0607b33,
  .offGroup 0x2b8ded3f962eed3c8b5883901af3ee9d2c5d9820387c24027f3e5a067a677b88,
  .hit,
  .offCurve 0x21b01893b10c6ca8b0dc141e8d85439b53aeedac48c81e8018103405d50e52ad,
  .hit,
  .offCurve 0x1dab5787b0bb13372e4df5981de05c5e17a7536d976cfc4cd7b02af420164b80,
  .hit,
  .offGroup 0x179910d420b9a3937d4572695447cf5cc234bc8d772920f6d22d85182f77a57a,
  .hit,
  .offCurve 0x161407bc018fb61842306863d0629c411c5fcdc895378492988ab027b42768af,
  .hit,
  .offGroup 0x2e119d5e9c9192483ff33568709d19d10eac8a077805f73c861f335d340ffe3c,
  .hit,
  .hit,
  .offGroup 0x2b4749cef8951961bfacad12df709f8503277e67467776c4b8f530c7c18a4b1d,
  .offGroup 0x2a006d47f6af3ff9334117495de085dd147195e1244a7ed7555256ec4450bf76,
  .offCurve 0xae7dd8de03600e7b29dfcfb1f311d3ff539e8e7be6ac336b05b54ef14c0f6f9,
  .hit,
  .offGroup 0x3268641019de48343af0f9beb6f014e6bf40d081d1ae5dd363f16ae2b5e17b9f,
  .hit,
  .offGroup 0x25b9d8cac754174526dcfb897be094bd6e391612dd14fa1f8b528d753fcf93ed,
  .offCurve 0x92c96f97e64ded495c2d861767eb98f42aef37e7fe3ffe8806d3c4e0c0fc390,
  .offCurve 0x33abf48d98a48da13cd4c6679d5978e586e3c731b95bc1823cb352029e001440,
  .offCurve 0x2da092d9cfd0c589f4818ccdffeb751cf933b5dd090186fbe0cdbd4a73a5ac2f,
  .offGroup 0x8935ae79fbbd67dc1c6cc6ff8d7851f348d86a59b2beebf0c4eef3d7275311c,
  .offGroup 0x332f30eb93cfb4d2b774d5d0858c62705f5959a51707a272d5466feea4b703db,
  .offGroup 0x103de34087159c4543699101d7e7bb343eb5d2e464000857dcc9e22dc505df7c,
  .offGroup 0x2812a2c37d2748a4f5f8acb30e0c1df405468bbd43d7a239b5bd9d23c8b73f11,
  .hit,
  .hit,
  .hit,
  .offGroup 0x54edd6249b35dc55ec039a927786d29ef46fa27961d35c8a27e919104836afd,
  .offCurve 0x1a1aa5690e20da2cb1f8251bb3faa4a6bcccb860f5441fdade91aeef4e913e22,
  .offGroup 0xbc6e5428b134503fc117e21114f8938aa5a0deae341bf67006db2e6ee28a20c,
  .offCurve 0x164ae284b574a6fea40568b116ea0f54ac2ba6948af556fd9929b3b5ff1894d3,
  .hit,
  .offGroup 0x261c09d9ac4780c14c21d31c45c71cee9129ceb047d928369d128b79530547b5,
  .offGroup 0x24365520d51eae8fb1948bbdbf09b4531674e0d20ef28ae64b3faea9eb53bac2,
  .offGroup 0x29d34be78c9677646b778e075764ecaa3a81743f8a307fb63c4572b363b47678,
  .offGroup 0x1052e40818ec11ded8701171f2a797b39fad6e41a4c7e36d5f97401006eddf86,
  .offCurve 0x703c11d645189f766e93a414f67a3e1c713f20db5a28bc85709985b0fa5979e,
  .offCurve 0x60b54f744fa3b92564ead9319798b2be518f4dd76115c09a0dcdc4ede5e2fe6,
  .hit,
  .offGroup 0xab5fb774c854e90c529c961289345362e2155c1456d1bd147fc0fa8390c10b4,
  .hit,
  .offGroup 0x2f08dcf1ccc84d9a318a52de93d735b180d0eea8afcb1bfb565026f614d7df1a,
  .offCurve 0xac0d51a86814b877f5554bfbd07fcb93d6c858336796070b0d531de51809664,
  .offGroup 0xcc1da9a2a681548c6d655e1317cb278ee52a4d65f36a66718fe06cd292e5975,
  .offCurve 0x32d970cf620d7421a2aeb071643bcd017a6e4cb6c7a90ebe2131048fb1f8c060,
  .offGroup 0x49a31639787a8b1d5cdc9ecf95f7d91481a3cf7695b7bb47d2b1fc619c41139,
  .offGroup 0x2ba6025522dbd2a6d1a2f96a96e599fec19522a601773f66cdcbfd55d729daa6,
  .offGroup 0x9ea2b936ef6b4934d38d577827be78b031ac05fd8d4d4e430ecfddae6e1e4b0,
  .offCurve 0x1e7c6b2fbc64cfc2e96ab9d04e8351e567e9aac9e37608b6403cbaadf6b09dd5,
  .offCurve 0x59fbd06410396c9d1772342e9a7f07279720ae36d5693b6e8fb2e1ba0efa72,
  .offCurve 0x3652033b738c7c79fa3ad79f9b3cdfe358f0beb9db29074ef7b0927bf2528d02,
  .offGroup 0xef1d949ddd5d9f718daeebafe0b072ae2192f9bdcdd1e18fa9714926b5033f8,
  .hit,
  .hit,
  .offCurve 0x36e438049007b515c9d0bea8781908557826c2accd62c62ede56aa065810265e,
  .offCurve 0x20d52fc97a6788e7685fd9fa2c16ad5b3972f108071c9f82159b2f06cc9949dd,
  .hit,
  .offGroup 0x16de394356f8997af4e9ba3f51a6c2c2a4f37342217a9dd9052304ebcfa93f2a,
  .hit,
  .offGroup 0x10751b1a3213bb0e9060f5f5f17c367437455d121af9f72c38c70592ac84090e,
  .offGroup 0x70ae16331080a44d83fb5069d7d75e9d15834e0e768461d4a3bbeb0c182afa3,
  .offGroup 0x3056ac65e338056c2c1160b87ce22e17ed0ee882250df0a91fe63d8f4591d3e,
  .hit,
  .offGroup 0x87cfc6ce95ea2d7d440e7ccfef5c44dbd31d82fe586e86cf2924b658aae3436,
  .offGroup 0x320bd39b487053a3e357b846d1fc2de7c081e272803cd1e5ea98b8ec850eae90,
  .offCurve 0x3074cecd54c989835c739b617a31643bb302c2e8c55617d5be2a0ff9281c9208,
  .offGroup 0x2ba27adc294e508a0bab0d920494d8448855af8ac1d0e74c38bc5382f362d690,
  .offGroup 0x10d11d65dd6b875719d72a354142640f5f08f58501c71879b2ec73fca9dd1fba,
  .offGroup 0x2260720ce04d43c3966a49ddc26170ea31668f59fb73e390881d954c0ff23c26,
  .offGroup 0x9cdbffbf512eaa31dd7be2a9a027fdbca36675958184aa048a5a510386436cc,
  .offCurve 0xe409f2409232a94f18bc081715708e2ff44aff8eb706f1d5ff35995ec71d830,
  .offGroup 0x13568119755c41556dd0d3c8bdc614d90bfdba86a03fa7db0c350c4a43b8bafe,
  .hit,
  .offGroup 0x20c586c4f67a4ccab8ec03888196b4e465588e0db57b2c8970e31430f2b68d8a,
  .offGroup 0x2a57b5df462bb8aafc4aacdb667784276cf3adf7806990ee542e4ffd8c7cb3ea,
  .hit,
  .offCurve 0x34733ce405bc078c42e1e6a1f114f033985a855119d7d863f214a506c7a2d0af,
  .offGroup 0xb987c1558c30abc9d2251cafa69c0a501171e182438ad99a7e69208e6579f2f,
  .offCurve 0x174780971ce1d10e9ff5257006416e0361d53419d80f7f412620e633f8677a1c,
  .offGroup 0x24164464183b2b2bbd02f650cbeb9a1bfffcc4a51b14ce51eee5eeb44e6497d5,
  .offGroup 0x14979a2d298aec71f3799405a144df0dd729e885b518da9f8e1d981f600bfc98,
  .offCurve 0xacb5d54873eb9ce7356fcebf7650b740c0e496eaa6a035ae5ab249ba7a45b4e,
  .offCurve 0x35c2da08a0dc43d879f2c071b7fc785d49819e451efeb85634400d2bec32fb7b,
  .offGroup 0x104e8321151d49b3b8bc1365d643bc89ba3a5cdb16b9093abceba919f5b002c7,
  .offGroup 0x2d0074e1923390ed08e187bdd170a623e7521c2dcf1133279e5f2a41518da395,
  .hit,
  .offCurve 0xc88dd5187039471aed0a15be380b8f91f76e658e35353853dc308527165451e,
  .offCurve 0x409cbfcbf2369b20e2e1f73470898932c5d6fe559b6df4c94213944fbc872ab,
  .offCurve 0x344bd5fbdeba81f76aa9ca8b2e33d1382d73ac7e7d3e020228cd13595e71211b,
  .offGroup 0x2cd5744443971f5c9605429e6fd0d4621605524b59e3581595823efd3742ae12,
  .offGroup 0x37d3b35df75c049fcc811d856497a68c6ac6af18a5eafe67afb216ce2fb71a75,
  .offGroup 0x21b3540644939a406c7732e13d1b58c504d7a6d6fedd51ed1580c2351863c31f,
  .offGroup 0x3040fab787f47c705faa6fbd255481d333b25f3b6681a75b50ff1bd2cd464433,
  .hit,
  .offCurve 0xcd5a47435ba81c8325d62a13b0ff2659aad23514da764f84cd5c5b62507bf64,
  .offCurve 0x2801931bcf70c836efbf91a67eef2da5cfc69430f1f7b3797d54cbd20f4d940,
  .hit,
  .offCurve 0x4feb96425a5da964fbb8663b4b8027068f7fe505a0b181fb45343a40c165abf,
  .hit,
  .offGroup 0x34286337b6d9c5f4bfc8a6079edfca6cccc258b6da5fa19ec8a35fc0677b1688,
  .offGroup 0x2ab57b23c35949896d0f56c349afc4b5cffbd1c8eb977f9c841c3f91037a922a,
  .offGroup 0x108c4514bf9a8f6981f96b818fbc11c8935cf01cdf65eabc49074437714cc01d,
  .offCurve 0x14748630e344dceda9766de80ce74b96bb9462254c23351a4aa01624ff1614fe,
  .offGroup 0x87384f5c263865559ace5bd2c5463157edef60d8f155c277eb05bb28bf23977,
  .offGroup 0x2aac0baa753197cf01f353ce817717dad0d81abddd61aea96c505d3bab74ce7,
  .offCurve 0x1813c1ddc93fff70d932534d7fb9b39d3e6264eb8c0d908f0685899750be463e,
  .offCurve 0x11c88a477fe1fc6aa713ac76d5bb727fbf3ec34f09fb83716dcda8189d0f7b12,
  .offGroup 0x306cf57a6e59ee4a58e33303b853e93bf111365e9f248497a8b284764b2d8cd6]

theorem seed2 : seedCheck 266 seedCerts2 ((crsHex.drop 64).take 32) = true := by decide +kernel

theorem seed2_length : seedCerts2.length = 133 := by decide +kernel

def seedCerts3 : List SeedCert := [
  .offCurve 0x12ac9e15d3cbcbb42e91011ff36716502359a10a38565575637b7c3c76f5dde0,
  .offCurve 0x20fc07e230786eabdc84f42f09870e45971c5f3582777e1e8ef7cc274f61c2d5,
  .hit,
  .offGroup 0x2f24cebc3c864612d7a8d2f484c65c1bfbab6f055f9c0ce5e0e6f9e5454ae65,
  .offGroup 0x1806cb7d11198dd8904e5c926b5d754ed279d936169961cb09554f8fca702dec,
  .hit,
  .offGroup 0x55f74454b4fa687bcb2410df07f6873bccb558f983fa1de35b07f1ae394a4ef,
  .offGroup 0x350afe489638ce49388bae9795388f159b1e39b354bbdf787489c2c6b46acb9d,
  .offCurve 0x2db3fde45ce5dbd28cea2077b2854fd6e448db0d2ec96f48cae0470da9f5e2b2,
  .offGroup 0x101011797814bf1b19f8f10359a68a8b5207e13e43509ba654db943f07998855,
  .hit,
  .offGroup 0x2b4308c7664da905f7845d629a741bb1da348322b961f8ac604fa47435581b2a,
  .hit,
  .hit,
  .offCurve 0x26feb46e0adb76aaf1aecaa10b18ed8997f5fedbf09f44955b0d1c1312caaa76,
  .offCurve 0x12ddc16f5527a334128d14983ac5fdd08bebc05dad7fee0fa9744e2c5e098ef0,
  .offGroup 0x3655e61d17d65e71bb775e436405450ee56d2e0cbbedb17c402089da173117ec,
  .hit,
  .offCurve 0x338397d63d9148eff2dfe7ca61da9e9d2d4e881dade95cc98ba6132a92fed434,
  .offGroup 0xb54debd22366a99e425deb5e9881603109a50808a684ddc0d4a953d73e68b6f,
  .hit,
  .offGroup 0x2bcd6cea6cfd73f1b9dcf340e9492bcd70acee102cac9b45644e56d83f86d539,
  .offGroup 0x31770af750005fda1ad747eeeff308fd3771a92b38b4aa8bd1f0460db1628986,
  .offCurve 0x316345926b42f602d46f08c6924a63c6cb857d511949b670421b21c6881d6d30,
  .offGroup 0x2f55be84656626b1776b61630c3d1e9de68e5dac0498cea23b313523e36deaa,
  .offCurve 0x231c93e9ee72f3137017228fac6faa1a219e2d2ce66f4937635f0f3df41e201a,
  .offGroup 0x1e5ea7443ea2eb12e207813b971bcba24220a33ee952978181a228f467538249,
  .hit,
  .offGroup 0x10b8e7283e5a1612ee22a23d2d693b2bcc8cd311045326b10d18441712c5e74c,
  .offGroup 0x2feaad37e5b1c5bd4ae5405b16bef3f275191f17956950ee54b24a5401f0251b,
  .offCurve 0x303067f78df9094f3a44e785309a3047e681597f9fb27c3f78eabc376b576af2,
  .offGroup 0x3b4beb0ec5c1a9c5d8a0ad05349178dfe74ec1b2c6c71c7664eba672e2d162,
  .hit,
  .offGroup 0x245ac54fb6d13e8920155897d84f1475c41e806ec8b556e667b794af0825786e,
  .offCurve 0xc854a660c5d2b5baa3eacda4952d8647a908c4ba4828b638acac94fe4b8760,
  .hit,
  .offCurve 0x344ac51f3e85fc3ffab1f8ed5a4610a36c68eee01564479b3cb2c16a05034fb0,
  .offGroup 0x30f5cb834ca90fa78b1ed75b1c35ef1bb63fde3c04c21ab4208e6f23d5a9d182,
  .offGroup 0x2e5842271a63ac1e7d0a233068cde4c9f94ac4b885fa1cd43ac3778966122879,
  .offGroup 0x368f3b0223783a21fb9e4bc77fd82d5ae73a283d2915a9cf7c794b6cc8fd04e5,
  .offGroup 0x57c2bff66199c6e8bec50d8b8a71a005982033367286ad9a82a3e99bc059f59,
  .hit,
  .hit,
  .offCurve 0xb810d4b6bc34d3bd5b97308011d818ca18ce9822417252e3f56f7fb9067052d,
  .offGroup 0x2c77fa294cbe55189115da11e27f1382bab8c02d33b4c4639e0e47d8d3f6fedc,
  .offCurve 0x1006284749dd4464457cebfb3a7142a71ae7974ebb18b0b1533b9df717037ae9,
  .offGroup 0x25395453df1f4c5f2c39bdcf51ff9da569c831b2cc6ea27513ea3fe2f7c0e48c,
  .hit,
  .offGroup 0x1b21cf31f9513ce0536fed2d63e9229b51352e7be89e987a2fb08771291f2508,
  .offGroup 0x230e4a64ead0152d1d2f29180df261099335ad5e9385210bea169f5850ec18bd,
  .offGroup 0x1630dcecfb84efe08a8d4aa9fdd449b9ffc5e5963c04775e5f39f412b1ec1f1a,
  .hit,
  .hit,
  .offCurve 0x26409da078d25c6aeeec347a6aa622e151467b66757f788ceaa5d8c4e5984799,
  .offGroup 0x331e7f9c3df764af415b3a0de474dee2ff1083e5799c8e42a6b5ee88188cfecf,
  .offCurve 0x3584c116e3d56b0c645969ecfb05a0558ee28cd9309b61f9651e0065aeb24179,
  .offGroup 0x1eea7685844713187bd5214867e4825e94e456bd9bdc544fa8145164cef57f9c,
  .offGroup 0x288d5932862bd3ba9f8b909986ef45f112738db63709b0fb96acf8ddfddf95c5,
  .offGroup 0x32943f417c0ba8e13e48ee55d3fbd9e18d07cf294a54f8e72060bbc8a8150b4c,
  .offGroup 0x33fbab08e621a58cd55ecd0c42b9d864e492fe4a3044d6cdf48acc74a7d04311,
  .offGroup 0x3346016495f56a734331e63c84986f374e2e5d77ba6a14df878ede6aff1b641f,
  .offCurve 0x3631d3d0ffa765c480a7c0cb09afac3e83e4e06f88d22852b13ebf082e0d75eb,
  .hit,
  .offGroup 0x1dc6fdc9ce2b491e17407c9f7b25db371c2c5a424ac0c3edac3bc473566cde75,
  .offGroup 0x8c0e50745527768636f06ef380e7f14b919c0bfdbe6543568e5295d70b09a1b,
  .offCurve 0x2b5b2b72a9d2dd1514a542d5c1dc00afa6847c536b57e03b5682a5b97e7eec82,
  .offCurve 0x893e57088b6fb55b978df8a1035272051a9cbab4af00a0aad66ccdc2583bdad,
  .offCurve 0xfda255163d5295fdd327a3da5f2115ab4eade75bdfe128dfbdc66804a631f4a,
  .offGroup 0x100eb3cb0bdcb587974e8b5b7f6ffc708317ca64b6915ad91f8ef4609bd828bd,
  .hit,
  .offGroup 0x25339340e087dd26113ecc8a0b94c15b419962983a4e7b11f20d7993f2358aeb,
  .offCurve 0x16351362bf378579aed7668ac57eda79f6d297e943851620435c6b60488290c1,
  .offCurve 0x8094079d2260f6f61d377b711091508e93ada11ba3d3df5789ca94d6696edf4,
  .offGroup 0x2f87ef4ae9dddbe621fa80e0b5ff660d5a00c9f7a679639480f71e98856f2044,
  .hit,
  .offCurve 0x301f646ccbec2731bdca370b5acd4026ef8ba208fcbd7f904b1b6755a0211680,
  .offGroup 0x1a46478c13aa12069280eb83176c573c0768aa4fac37b14168bac2677a35a13,
  .offCurve 0x10b97439c9407e8bdc16670b14a3ed06d6cba42f587bb6050a44f786f1b23707,
  .offCurve 0x234000b86b75f8a8fb2ed8425751c9c2b60f679ab7a1a38460dd54e75b1fe4b0,
  .offGroup 0x1a73fd7d8d957776fe61e35111300d0967fe4ec54ad5ce4b553c2f3ce7e3f3bd,
  .hit,
  .offGroup 0x84c6d6906a63b6c94574579a316d2e8dfbe6ee974010110c723fd82322e575c,
  .hit,
  .offGroup 0x386bc1dcebdf700b5a31cd2c5741661ee5658f73073848660d83ea26ca5d3137,
  .hit,
  .offGroup 0x2788b0cbc33f5aae084381ae210065fdd5d0876b679c3f90e149de0c2aff908b,
  .offCurve 0xeea2476d9a4787ab3b5ded0f13be060e9eaf249e6360fc1046ee0fda36ef090,
  .offGroup 0x85a0110cb60d14f7a89a3fd142aa28aa129888fafabc7382408d22f71c2e938,
  .hit,
  .hit,
  .offGroup 0x2ebb224318e85528b6bcb8f77e70e3d360a35ca951538ffac2aa61780cd97340,
  .offGroup 0x2a50b8b4fb063dbd48ec1764a879082d51684c749a0b1df490a3db7fab74a278,
  .offCurve 0x3890256f52ac744d0be3a0e9f98fb8e9c3987cca492e99c1900e197c2fb1784,
  .hit,
  .offCurve 0x39051ec70e457f19cbba35dc0ed7b7a0c81f98c9d7566c8acea8fa126c18f2af,
  .offCurve 0x383f4ce3e3c1b4005329125535ece3c2d388bf65c5a1e3b82949c1c06ac65e92,
  .offCurve 0x1c978c4d44acda099284a2f2fb9d84b505d56cf12d77753d2aa74954c596fd9a,
  .hit,
  .offCurve 0x73b35dd10a4ea767afa2a6a53dabede15afeafb52ec00ea172e9404d53eaef6,
  .hit,
  .offCurve 0x28398cb0882e7703f459dc773d418d997ef280612b93dd988962f08599cf3bf5,
  .offGroup 0x1baa89ae5317bb80997db0d3e3765c199e081e10fef3d21bf0376b8a97297925,
  .offGroup 0x3628966698e3172d85ed7ccac5f91fb384b972b66cbf53fe386799da8084c79a,
  .offGroup 0x1327d0b87bf431a62497c805574215102b14c3f5351318a17ef32200a4562eed,
  .offGroup 0x1d275a0d436ed6f2d71f68754a878dd7d53442d200a4e4031bf178ed0dd51d9a,
  .offGroup 0x12d8f4275b104b3354dea97efde2b4cf55899bf4d9ab6da810a043d3f2882d82,
  .offGroup 0x2ed54b866bb0d7a2d33627aaf6f66b3f4eda7f62f50766b68c25a18d53a64148,
  .offGroup 0x30109967dbb4627ec098eb6bf77f4f019fe2b88cd5ed723cfed46df558f0f0a9,
  .hit,
  .offCurve 0x205bffdad38e842d76e39be854756f07494ddfe74c0b0a013ac1993b431b276,
  .offCurve 0x35624b9ef27e159f2383b87ff5f475e90cee0fc4ba9f1d2cdab207c96946bbf5,
  .offCurve 0x1f38c821fb0a766061b4edc0a91aa1343c1057b2fa59e6b52360806963e088dd,
  .hit,
  .hit,
  .offCurve 0x322b7b2e4aa99a89b25e9e3643f64c094673bb3a1d03ac8505417e576da7f853,
  .offGroup 0x325a9ba40eac671ca6817eab02ca1a75cffebbcbb36d2de6b05131d3c16dce09,
  .offCurve 0x214112a9031b7b4e299bc2b51555c16341970ff673b85a562ce9648ccf50c093,
  .offCurve 0x28f6e8dd73f1e353187b032bd0b9d97b3a8f31767b68694b88af23422fb197ca,
  .offGroup 0x36327714f6a0fdd2357ec552f9986369ea91edd4285f8094929eed7daf01458,
  .offCurve 0x1899ca1d676dd4bc84665a592e84c132983ec32f9d271c7729f570e9b7f57760,
  .offCurve 0x2b62709c076398040164b2c9062df4a007b3c642906c4f8b6243e6f7a997726f,
  .offGroup 0x1992f1cfdb867f64cfc4005dc212c6fd2812ee7655a5685709fe543f2ba0387b,
  .offCurve 0x195917f7d445c5c2675882e98223d7149525917dd1ef4ef74200451b02b9c207,
  .offGroup 0x232f6bb4497d7dbedc6562109cceee07da012de6ee8f2991918446a57a2e424c,
  .offGroup 0x16a588e560161ed31b9a77da6d6e5377748d8b697f3ef8461029a7a74a41f0f5,
  .offGroup 0x2e4fcd44eb8019d8f5e329de39b452e12d5bd9743f2ce032b8f82debe1a5df62,
  .offGroup 0xf8d09f584931e7655caabbb8219512e1132191aaea373359600ef6c538e887c,
  .hit,
  .offGroup 0x1a4c7b86ff9759170b4eb4a6de4614cfc9c471810eea388fa0e090ca3c8e26bd,
  .offGroup 0x1a2190fded6465fbd0d27d44f0a8e5f50a152dc59e53ce5cc9762db77b3dabad,
  .offCurve 0x168cc94b205b656df6f5947a72680f6659d47e602e500fb537bbd2cd97461108,
  .offGroup 0x1109faf387b9b315287dfa3071ca353617cb7101da0ab64b8d60310259bf9df4,
  .offGroup 0x22c9f19513b65b4c73c5dbf403beea50e897a4a7571721d9fe02a8a5e92d3f82]

theorem seed3 : seedCheck 399 seedCerts3 ((crsHex.drop 96).take 30) = true := by decide +kernel

theorem seed3_length : seedCerts3.length = 133 := by decide +kernel

def seedCerts4 : List SeedCert := [
  .offCurve 0x9e1361714b882067c102851988b3f00c12e760e315beed4dd53be886ce0c6e4,
  .offCurve 0x330eaf009df3becaeac3fe9daeeeed5ae034cd192ac01acc9cf2e8310e93e7bd,
  .offGroup 0x13425a4f5a3e19f2da2719e2701f18eecbf2bf16032bd9983323b11cb9d966c4,
  .hit,
  .offGroup 0x263dc6e2fdc5ea0bc43e26f829bd2ed2c77e0da264c5b8fcb9196deb698cca31,
  .offGroup 0x338664d55f285bf3c09b4ce8f882d2b24c77022d83ce097f5d5189a22ab823bf,
  .offGroup 0x2ae0301a423666ce0f2a696bfeb3acd809e615f2f12704f0aa32a2fafda10131,
  .hit,
  .offCurve 0x2be4e83bf6230fd70de6fa7b717b183c9803e8af251d764fcfb71d1c05f6adc1,
  .offGroup 0x31437127e15b624a28025bc4d3d1fd5e4ee0ad05ab2c1298c5ed2af9b031ef2a,
  .offGroup 0xdfbdaf61628a78d29253fb70860378218d07479241f360cde0c60e8ad1f397d,
  .hit,
  .offGroup 0x28ae599fe448068c96220203301e1fc74a0df8addff65b05d4ea52084ad1a1b6,
  .offGroup 0x36628c5fb9153744a9237fec9df7af230ee88032326ceeca7c29be89a6e4e06b,
  .offGroup 0x111e777883df0fe92e886a6258919d23414c5a563250b90403db43ac667995a1,
  .hit,
  .offGroup 0x15c7ea0fa6f682e00a136d7ee89892d28fd6e92429014ef175d754668866516c,
  .offCurve 0x2db14cbc69f14696a31e2a08d18b4e1cf2bab182a42009ba56f859cb11d2c78b,
  .offGroup 0xb5e20e3f8d03381ef40f57d7670f3c386504c49bfada315850f880d3f4d5e56,
  .offCurve 0x2e9fdd492b33b7acd99a0a5b7a9a2d6041183d0e6b879f662a90699b88845d3,
  .hit,
  .offGroup 0xdcca18169395ba78f4865daae87b61c87bb8428fdcb1d125b01569c555133c5,
  .offGroup 0x39191688370e0c25c9fa51e023fc847464530fb8e921b05f3a24f66921db9231,
  .offGroup 0x2958e9a0ad6a2bc7bcc6e1c7505dbac6588e92664c94bee8f7f9a8a5aee9fe29,
  .hit,
  .offCurve 0x89b48fb93f541c21d806077d00f974ca3ea61edc7c6633cec3f6150660791d6,
  .offCurve 0x37982f4c24c8aaf6c0ac182151a24907a22bc58cdf7406759e4bebaeea15583a,
  .offGroup 0x1da063f3566292fabb0d23621de689e8289582dcd01d35b1da2ebd4c51b1e10e,
  .offCurve 0x1a5cc9cd7b6d2add5d76a9fad4bae839b064497280a1e7bdd162097742fc0512,
  .hit,
  .hit,
  .hit,
  .offCurve 0x2f480749a9a8b6d77fe0e563b25516d44a617d89db24c490009b9848965c13c5,
  .offGroup 0x3078d8a2faee08305bb2ba2945d2610434a2022f2e95b92597d7b9b46723295a,
  .offGroup 0x163bd1c4b898ab8249b185fd907e3ee58a0d0a71135457085fba22a1adc4fa50,
  .offGroup 0x986db765b363969ff5a17586a9a5a87e4bdbc81299f6f3bae13eaac88542dd6,
  .offGroup 0x335ffcd36baa2fcaee0e10e5dc4eab0f7e04661dd300cab9b0f0c24ed87f45f2,
  .hit,
  .hit,
  .hit,
  .hit,
  .offGroup 0x2b8d150dcbdcbc185549b70ecfc4a05e19c8f6271f9bb4ec024f4b19c4f22557,
  .offGroup 0x139665e55fbb870d7efb2308d5e849c0335bd56190f835c90c8f313e3fd7dca,
  .offGroup 0x2f638f69dec59a54186f1ce264ae39edcc31b2ad3932ce041f83c9a284e6bfbe,
  .offGroup 0x23b9cc17100572fa21bb7986239876b586ad60899226ba49eb63e050b49c9f42,
  .hit,
  .hit,
  .offCurve 0x209c3fdefbbae8e9f66e3a7590c5736611d00e7742a3b68de1231cd7af3f35ef,
  .offGroup 0x267e95353a820fe5a910c31de6b32cb48b5c16409f98baa0a210a9bd1fa396cc,
  .hit,
  .offGroup 0x31ec707f8bfc98458bfdca1ae86eb8ea55ac32263a2433a80998a7ee416f04dc,
  .offGroup 0x18f61220b55e997c6b51ea222084c118ea77644fd1dea08d2ecdd0e008c5d8ce,
  .offGroup 0x1dd21c45e95cf63415c323f237a441de6a818e7861f5c0ed82984a3d1797c027,
  .hit,
  .hit,
  .hit,
  .offGroup 0x18115f5bd90dc8e26e7e1621e09f2be8c47bd801e83979ab48819c548155dce1,
  .offGroup 0x214156b70e0d024863064fea018436dd9c49e35b8a5ae103225d34df4bb6f985,
  .offGroup 0x2c73c9e5378e11c7f44cd1e3a5766701bffba58a96bae272051c6f95da1ac5bf,
  .offGroup 0xa98a92bee41ea2831c55c6f2c9e7f345e444655abdabeced15ec935f6af4815,
  .hit,
  .offCurve 0x24df05bb4253d18159229ed8cae90fd77961f98e69cc10109e48291cda300928,
  .hit,
  .hit,
  .offGroup 0xce561056d741ea90ff5ced615e681f90e15e37e246d9e36e527ce4465e1d85b,
  .hit,
  .offCurve 0x36090ec39717a3a1da7c698b2323059c2a6a31db068b6275291fb29e1c138c8f,
  .offGroup 0x1996eccfac20e4a13827c557df9d879961e402bb37def6c22796f0352f8f57d5,
  .offGroup 0x38afe8fb14ad62bcb37adb713991a72ccf7199e480133dd74d81bef5e20b4c01,
  .offGroup 0x233e8c9c27fcec436ee84fc6e7cb3d5805ecbb3bac0a65a588c991c6263428e6,
  .offCurve 0x36bc33695f5aa534637a5dd1e6cad1471e5f03370d2aa78ffcd4e2b094f5489e,
  .offGroup 0x1ca30f6d7ba3855463c02f354bbe2a4837dc555d257b615477e6ff3ab0b672f4,
  .offGroup 0x2a5c7fc6b7350e77171349421cd50d0c33b920e312f47f0c9010505488022e9b,
  .hit,
  .offGroup 0xb1c661a03c9a3c4b04aecc3884e691557fc58c29369142f9c623f2b8498944c,
  .offCurve 0x9235a035dedb68cba45d3209142f72540fee410bc075101de85560b536e8a89,
  .hit,
  .offGroup 0x51f9991aa9c11d75747f80e723a954a2a1678a6fc12f90f3d1b01aae56d1c6b,
  .offCurve 0xdc347a2a5502085b9495c9088993b6cc809fe66a8b8c1274e487b72b0c7d76f,
  .offCurve 0x11882e86b53b3b3dc591c46f77f9332cb7e6cb9bddf32a60e764676f7ea4651c,
  .offGroup 0x19356074c60fd6710797dfeff1107eb59ca76cce48c5b395e1df220af0d7dc7f,
  .offGroup 0x84778bd6be1da0c184e69175d64901789be7ca48a5f4db5eb3feadb263d74c9,
  .hit,
  .offCurve 0x8c360b486355b61968223b2340f9711bf89fd4844cb11e6e7a3b382946c4646,
  .offCurve 0x13b209c1d96eb29d832cac0c6d8ecae129c7dc428de213d2c58565eb65f3b416,
  .offGroup 0x5ed13d89acaefc08322d515cbf628ae0d7271e5117524e4a8fe7d87c2557028,
  .offGroup 0x2d33801da4e56e13e736507e1f019b3ce75f1c8981584a6eb2afa14c096f94f2,
  .hit,
  .offGroup 0x2e233af17c07eff898ef6b9c98abe9463343dc4e3916ef825384e7c224ee0304,
  .offGroup 0x155c7aeaae320028fcc493e6ad1611f01ff0ae0a0a8dc62c5464e1653fe79a08,
  .offGroup 0x30f26671ab7460e1f55b0c3c06bb199f30a9cef99d21fe75f47d2ceb789bad8d,
  .offGroup 0x235d992acfda0458e075e469395d2c9fa0592ff85415d238d73072be87095030,
  .offGroup 0x321e5d8ab7f2771f02e99d2c2548f90135ddff7867e304bd95a7c9836004b8b,
  .hit,
  .hit,
  .offGroup 0x1e51831a3c631fa91105aa0fa6c89a113797d58444b105c16b47181043fde0e3,
  .offGroup 0x30dd73f836b3581f62f370d4d1a97cda5325a6923ad015f68c18ce6bf65c751f,
  .hit,
  .offGroup 0x1cabcc63563948de4d4b0e8a559b009b6b4e19b1e1929970a4aba3bfbcbd70ce,
  .offGroup 0x4917293fb717998302052c611ed5a9ce1ed4df76adde558f119b67fd8d88eaf,
  .hit,
  .offGroup 0x1d1fabfd0d2b2409db95ffa568c7a3656119d4310dffdc7a9fecfae30e53bc9a,
  .hit,
  .offGroup 0x1695aadab18f191c961b12b64427f14a706b28d77a768c6eb6115eb42504ab3f,
  .offCurve 0x2ca633f513296999d4e829df6982955afbffdc5ecc81e1b3ca18bbb567debe94,
  .hit,
  .offCurve 0x31e13b769ec03891f58933610efb888fa8cce8ef03857f1187a97ac01bc8d5a3,
  .offGroup 0x24a4aaf524db2ed12dd0c579967ddc38d3bbf366817d538a861066142fc2d724,
  .offGroup 0x183e653766b5ce999849c9eabf8fb44feb8a5fec522d2cff9126eed879d3e64b,
  .offCurve 0x261c1053d059b5e6e7bbba045ce25a6f3bef35469fecec8284ea1948d4283925,
  .offGroup 0xd66e3845eb3016a24153f583642b55efbc3ef9c937384e014ce7c980c3bfdd5,
  .offCurve 0x37b0797c73a10e30065e1b6afaf5838253c9b27719a0027db5693952c10c24c4,
  .hit,
  .offGroup 0x164dcdb22fc78c2395207837b6810422d8cca2f2cc212c18f6707cab698c5bce,
  .offGroup 0x23dba350376d466aed4ee07305cb28124a2e17f306c60e320611886243977ae8,
  .hit,
  .offGroup 0x140b15e30c829f9a0856b48f821cf02b75eadbbebf24f478e0b71d4d09f4f712,
  .offGroup 0x374b212cfa92426238ea7b7a9eddb8efb3b394752d30a94bf40c7d7afc7b12b8,
  .offGroup 0x15cf53a7b9ab705531edddfd0bde62bb88bd85d6fab330974c27f481a8d0e4a4,
  .offGroup 0x298583986cf0dfd20037168ff991c15a20cc6a199ca0cc2cf8095958e3529815,
  .hit,
  .offGroup 0x1804cf31cc013110237c0406ff4e44509ccf858f561d2443ee05c88fc758e061,
  .offGroup 0x32a756ed9faa7d36556cef469205a5af0b6ed50eac67fff7f40fe776b9c674cb,
  .offGroup 0x10457406286deaa3904770df3859840961966d86ade16467e738cad45d895746,
  .hit,
  .offGroup 0x17d67a0b745c63acb479912073c5e8ce8b04c949049010b5b325dc002d5b03ce,
  .offGroup 0x158739e26a3311738d634c1a25a4824c57b6e0328e637ce0aa0f183998a83473,
  .offGroup 0xed43b62cbe9d02a5c08c50c7fdb62594e5cc5d923ee6f2419a637d6e91c4777,
  .hit,
  .offGroup 0x63c50d51c30932aa910c80d37022861cf187e3905a2476b20d5903afffd4a96,
  .offGroup 0x663c1d3e5d53646223dedc11a4b8d1323fbb31011d037a980d97811aac74d93,
  .offGroup 0x2fbe1a61a89d4a54a164988824ff4ae36c38cb67f943cedc69fe678514df20e0,
  .offCurve 0x3163580ae74a287c263da75de941764537d2942beed9afa9b3f628ce391f73d6]

theorem seed4 : seedCheck 532 seedCerts4 ((crsHex.drop 126).take 38) = true := by decide +kernel

theorem seed4_length : seedCerts4.length = 133 := by decide +kernel

def seedCerts5 : List SeedCert := [
  .offGroup 0x91c0d036e55f7564d562a0062a03bd68b85ec661b8c3efdcb08a0f30cfc18f,
  .offGroup 0x2f10ef16032eeb0839cef5fd6b82770e300f21c05dff045a0fc19152504c352b,
  .offGroup 0x4cae9aa878fbf06672a958d84a3a8a4f812a69d52ed88b1b3b77863fc049495,
  .offGroup 0x11e9a033460742bf559ab8b2f8a1115911b38abcae43e3c16b273c89b6137a,
  .offGroup 0x36565f73e0302d6a6f6c909dae58a910bd6001a21423b5499d15422166edf206,
  .offGroup 0xe55a3895766629c21459c3933c4087384fc151b7e2b0776dccd013c10474a54,
  .offCurve 0x34d67f00a74c32f1f09f99fc6bf5505d60b4e051238f23973340eb1e0a6ab7d7,
  .offCurve 0x2dfe9120358d5e1bb90aed9ab22a308369e3fa38f307f6d0f90b5413c1d4003d,
  .offGroup 0xcd0129336f49ec15446f53aad151ae67da28cd786fb588a3193b949a50221df,
  .offGroup 0x97aad6c2d942be63ea4312d1e0bfe69db08af356aa4a75a8aff2fb57078e32c,
  .offGroup 0x5c1afd0451ca4d40bea362066ce853b47b30c30b4d59cab314c587e86336324,
  .offCurve 0x124d41b675360f003d6a7c3afe7650d89f0234af72ce18470acb479c98efe4c9,
  .hit,
  .offGroup 0x84736acdf0ea203efc454664d83ee0da02dd32d6e13b4aa874728e3847e264f,
  .hit,
  .offGroup 0x346e99082041829b36a7c7fc747e949d03f6fc95082133f497ec23f84957837,
  .hit,
  .offGroup 0x2512e80bfc9c30de0c9550bc0d1473ccc7cb9e5fcafe5666e83dd1fc255fb553,
  .offGroup 0x1da001fdedcec51f548f31afa2dd33d9c07252000526fe1115aba04cf57c7b96,
  .offGroup 0x2401ff4fecea1ef155e8fdd469232ff64fd27be6dd04d6b69517a746d1c02365,
  .hit,
  .offCurve 0x21e7f2dfb813554bddf873d84db86cc31822eb49c5431aff88c723b5e68fa04,
  .hit,
  .offCurve 0x2fb36d45ccd49ea4ada22501ca84744c6b93fdbd36bef9483ce5faebd0a92d0a,
  .hit,
  .offGroup 0x3359929df714d79fbfaa12570600f64996d5851c9205459c07b3ca995d28f9eb,
  .offGroup 0x1f540a6318ab0354bc509e4763fade77194ba7068108e54485f0a8294b8bbc69,
  .offGroup 0x2f438fed2811eaddc7991f4aaa4fcef57d8ea5b52c573b92badc1a06002b3856,
  .hit,
  .offGroup 0x36ceb88965d0ad913790205496f89f7329f6ee5fbdee704b2ea010bdf935baaa,
  .hit,
  .offCurve 0x2e1b508a7d405ed6fc27d185bb6d70b3c23593574f2127194311f352bcb20ff2,
  .offGroup 0x36aac602c1fbb00d65dc698b5c27357a8d252209c61b5926b5853663cff9eec9,
  .hit,
  .offGroup 0x2a4bf5faa84d77e3daef6eab5aaba22a8ed30d81e6f766d50424c51bd1645c65,
  .offGroup 0x2c6ab7d1645544ba73a9e3ebfca7437c656091eb6f1d0577face10a5cecd5210,
  .offCurve 0x2ea2495d05cfa9b5de30a16b19f794152b27ce4d85114aa02c12fd451dbe98ed,
  .hit,
  .offGroup 0x24934e70a7a089a1e201b6fb970b9aba957b0c039dfaab741068943ab5b3fbbb,
  .hit,
  .offCurve 0x2ecbaa2f4ff825c449014a899d25cf742f77fca2da25aca13afdff286b375627,
  .offGroup 0x198b0427d571c2cb144d064883810a044faf1ec30b8a3978a3a137cae114335f,
  .offGroup 0x1af260e74f5ec2584c55329363cdbbc56c1ff3bf6b7ddbf352995dd185e09ac0,
  .hit,
  .hit,
  .offGroup 0x3028145a9f31079fc3e1bb7b272ad486e7bca47960a4cb8eca3b17a39c8dc1c3,
  .offCurve 0x21a1998ca7db4885f9fe0e5f8e403224b9b00d1ae9b665071a1e3f321b3b8a6d,
  .offCurve 0x5daa7df4ac375f3f12ec6f864b41d3b0542a557d19c1d01feb486fe2db9f7fb,
  .offCurve 0xb260e06bd1a67c9f66aa30adc659e8f966432b77c850f6a8dcda2b146e862f,
  .offGroup 0x2f487cfeb90a537502b20e92522b89b276f9dce4f1d75e78df82ad964381c8bc,
  .offGroup 0xd827e73944e90e77fcb12e8951886bc44953600abd941446582bd858d08640b,
  .offGroup 0x8d2009e1056e98c828baa7dee2c57e45c77f60ac0e5d6086d7ab82a6a07e8e3,
  .offCurve 0x39b3f92b198bed9c49d176508fd074438145af3cb3d93eb2866ceb9364c8edf3,
  .offGroup 0x2e8951d98e11131d0a43181260e95339c1af703c7af8087df68e98cd93b1bc43,
  .offGroup 0x226322595cd41c10963145e02d81d3cb89a347d2849fe54e10cd2071e8197f68,
  .offGroup 0x304753c79ae4dab4cad4df354bd493ae87030f567e1817879038bdb689d0170e,
  .offCurve 0x16d03b3233e3d2457cf80835b3c7937358bb2c830ff56dd3fa34c94801b6f2cc,
  .offGroup 0xbe7d904746b67d6d4781e809bcb47924620742547a48e6e73982bae07eb2c23,
  .hit,
  .offGroup 0x168598bb9501d659c54d0682d2a828dfac299594d7cc3e7274b34640db8d8e41,
  .hit,
  .offGroup 0x168e51a52c81b73aa309fa77c352ad7a15d994a571867d08cef68092828d71ad,
  .offCurve 0x312026e1fe5b8348fef9396b65af898b4ec4500065990ba7168a38508f3691c,
  .offGroup 0x21b113d4b797ce7f2250b362ce69ebda48d9ed07d10e926f01a80f87260d089d,
  .hit,
  .offGroup 0x695edebf11cd479896995a760a1d05114fd5dfe5095e18ef8c01d6862d68484,
  .offCurve 0x1d4d8c16198990f9c519839a8d8c2d4f54a28267a022c248a4368f98e9904fa5,
  .hit,
  .hit,
  .offGroup 0x25e03a87ec392f0039e629a26dd3ac35f33bf091e599004a8b3083cb5ddb50f9,
  .offGroup 0x30bb7dfc33dd9dab3535d7b5c46beeb2c8b3c6afc44d8a4c0be0dcad07c466eb,
  .hit,
  .offGroup 0xc6dd83b1199d894f0febbf77bfe88e1076fcf6fca28a9e47d4eead94c6d334f,
  .hit,
  .hit,
  .offGroup 0x98634dfc54cd98e852e9ee47d92998800bc1e788e253fe7b7eb833c4146d9a5,
  .offGroup 0x6ff11880849bf8ed219fb76c800f33f70da381d014271ec73c34b5225ea880e,
  .hit,
  .hit,
  .offGroup 0x91f95da63e30e17d9913f334c55b1d7e0499b3169b467357ede1999cdc15f45,
  .offCurve 0x18a44a3de394316f893166ae7279623efec6981d72119f511971737f2a767b35,
  .hit,
  .offGroup 0x3846519b83b303ce94d2e8b588ddbbd2d961ce7f2ecfbc6af82b63d44ae04a5a,
  .hit,
  .hit,
  .offGroup 0x5675550deac82268a51f2071e5c4ccb3ca1f7a8511a981a3160357a9d5fa3b4,
  .offGroup 0x368d29005f9fe68a5db9eadfc465cf879585c3595e0fa0f13f879b467da3b33c,
  .hit,
  .offCurve 0xdbc9867d72026922da4b1bc33aae6ee83d861ee9adaf6e7172c83367e95316d,
  .offCurve 0x660eff1244a50d6a590696e89f2e4c0294dddd37b44d69a72841b700e992ebd,
  .offGroup 0x507091d1b57930488fd8358d8bfab923de1bb231e79e65a13532cfb1067446b,
  .offGroup 0x1454416ae876d1e266a73d744fb995da60c8eafe55d7c7664aa3b8a3923270d8,
  .offGroup 0xc2f3fd331a0336ecc1875778594d7a4034241d4df5d12fc6d37210f7e88fd30,
  .offGroup 0x391aac66a2b659f941a395166b77dfd4891d73d5d6b8961cca7da808045fa968,
  .offGroup 0x51bbf61d1449f6632808a1b1e285654b23d6c88607002b91ae811f03c15019a,
  .hit,
  .offGroup 0x21958d71ffb5280d8c929dd3e0f4aa3929f90585f04bc8a117fc8bae087d0ece,
  .offCurve 0x245d7e13d58b6b3ad1966dc24ea351d3a34a7727e3397f90b18e8e633e5c1da5,
  .hit,
  .hit,
  .offGroup 0x177c0eeaabb9cc75df7369fbceb973e622ef02a6c6cda013b11bf546cf0a80c3,
  .hit,
  .offGroup 0x350cc41a3feea5a5e79b5add2e34d8418bf2025d3084d733d8e3fbfb69ebdaf0,
  .offGroup 0x1580095e5f9b5ddafb53769099ae587304f1a13a284058435188a2e2f7656086,
  .offGroup 0x1055996886453a1b45aec450871fbf602c8db222b062da69e19970b7287f3772,
  .hit,
  .offGroup 0x21e9b969861c624a6d1717685d0362ec4c508c96c7d606396448922e38242393,
  .offCurve 0x179150499290b0d606fa991bbc1893b0b477015d04f9650979ccce4615b23781,
  .offCurve 0xa4d84343f254444baeca668339807364a900ee64be8b2ab048ace6aff8a77ce,
  .offGroup 0x129ae44432886520b3cd141290ef5e7bd8cab79b8c0cf7c8ace4b5e28c0b9bf4,
  .offCurve 0x4ccac89ee5cf6e95691201a5837655e1ec26c6cf7dbd33dd3737f1a8e0aece2,
  .offCurve 0x2e597d2e129df6ed8e9c892e444029c249162d66f16778d57174ea96b6de032b,
  .hit,
  .offCurve 0xdf269d602fb26aace760afbb4e8c3f29d566c12917be409b21f2ea98461e864,
  .offCurve 0x150536b524aabeebe4c30cec3851678017050857c4a48158fb8c2aaa20e9f57d,
  .offGroup 0x2f3fa50c0db403c7e09935407f886e4f16c9758bdb988519401b20621a18294,
  .offCurve 0x22d7849f956fbc61f1334ff88f6f4206bf1f92e72b10974e6dc1d8f0960b5a24,
  .offCurve 0x3073ab77eae96016eb77965b252c458f696f0fd9c5cb5f3b4633ff94aad6d82a,
  .hit,
  .offGroup 0x374219224173996c8b2d8ec45771ed41906ca4fb10127d2e703879e3b13fae38,
  .offGroup 0x46c9f7c3add2f1bfa2cd856d43dc6a9551d7bff8d5fa2d8f0dca3329525752f,
  .offGroup 0x273b044a5cd8592508adb9c5b77115fed73f2b717fff14ab9b22eddd7129b021,
  .offGroup 0x1d3920b15fd397e27238a56b0c39008b9fcda342e7747b4e5b6ea244d2784774,
  .offCurve 0x1e70b7ecd630a0d0f7a659380c952d326b66a6b5ba8f06af691f7521c5a8fc18,
  .offGroup 0x274b2aba59a186717ff04821fd900c814bedc75e40171161f267b55e3af06546,
  .hit,
  .offCurve 0x2df3aec6e46e3fbf8a3fb87893c22033d31f9ea1d3df08c33eb2c75cec51d9a4,
  .offGroup 0x2bc358054fee4ed3eedc2aa801f56bc8d41c6c7457bac0e08e55242cf4da145f,
  .offGroup 0xcca70ecdc2e2eb57744e20d306d8f3967eecacf7cb9c68b268e83c22f0fd2d8,
  .offGroup 0x1534741120ec403fd1514430eaf989240227a35d892dd3e55f0c6fefa0d15587,
  .offGroup 0x18ce28a5696cae94fbdb0c419e41ef637232652e8c4b6cc238fe627bb073f7e7,
  .offGroup 0x233ccaf128f3aa871ba7a0956cc8642831354376ded8c2efdced59f360d0a7d,
  .offCurve 0x22fb59b55030c57e31f1761a297f3997390625dc952ede6b40ba58eb2718f4c1]

theorem seed5 : seedCheck 665 seedCerts5 ((crsHex.drop 164).take 35) = true := by decide +kernel

theorem seed5_length : seedCerts5.length = 133 := by decide +kernel

def seedCerts6 : List SeedCert := [
  .offGroup 0x2f257100003162c3161bcde25178d0538564c75c15535d64714cdf2c6276d8c2,
  .offGroup 0x297d89ac0b2392b3fc736dc6b074d3231ce33280f0f65453d445413ca716cabf,
  .hit,
  .offCurve 0x28206aeb9c1b94523b2672cee248741446e85484a1e5eb7a51e1ed077a2ab585,
  .offCurve 0x11702dfa026f4692df34837ea74bd97a16d051a0804bbc8d43f25b3f42db8b85,
  .offGroup 0x24686624358e4dee3644618d8d31ec1934e9b333ccae46f7256b48a31e01f06a,
  .hit,
  .offGroup 0x1f12ca9ed72f065f75edeb098adc6fa49a73c2687fce6d973e628fa2cb8fc015,
  .offGroup 0x13803c1349bb015c30dbb087f89509a56604687b809ff9b463051a83e9653c41,
  .offGroup 0x2158a3b97dcabbf91b605e3863dd92476c98977107c751be84abd3f9829f0344,
  .hit,
  .offCurve 0x392d2de07db618fc5f27d88629ecab4edefd2e7fa3ce8554098c1d938e1eade7,
  .offCurve 0x1b7e485b6f69e604fe6bcebd2b124ba1e09975537be0fcda1c231b436ddd1025,
  .offCurve 0x96ab5b37f8db5f8a159b28a95b1801d3dd8869c0bb3e9ce7d2cde47e19e32fc,
  .offGroup 0x60e70ca407957047824fa562eb8cf40aa4d32fbf09d75b67c6e4e67f464f9ce,
  .hit,
  .offGroup 0x1a9dac83dc74fae2c2ec7fcbc1582c82f9d7a611fa4502103c2377717f47fc10,
  .hit,
  .offGroup 0x26888dbf8a8b6a824ac7aa9eb696f865bf697578124b2a9030ff8caafafbb4b6,
  .offCurve 0x28d9b46189704c128ad24119cb8a2edb90ce2dfc549937f04f1bffc5eb39487b,
  .offGroup 0x38e87b74d1575991f804282fd93df52a802d6bf66ab852f61f7b7cf4a846db61,
  .offCurve 0x1b682e8e0e2f1229dc6f0a2e815d4ab312fb22c8bbdc8f8f1271d6cd63a3503f,
  .hit,
  .offGroup 0x1e15b45dc198fa1b0b96fec03e613788f6777b9a086a2d9bc50607239bb08c06,
  .offGroup 0x3561c1e4a317aec35abf7dc15f381883f0446dde0607b6662dccd2e7b094a9c3,
  .offGroup 0x358fa7ce8ec76dbe6fc2b311973468b191def9acd3026419e3ce875fa1004c58,
  .offGroup 0x20214cc83540ae9757eaa4a9cbeb15f66c740c9026e49ffb2d7a8081a1d62d30,
  .offGroup 0x2dcfd71bd5b729e7dea3a3eac2215933bb7831e3b2bb5f60d9ec9d6ba35e26f6,
  .offCurve 0x2dbb259974dd526938ee923e01091e7d86fab0d00a2837ef8b52b62be5d9d535,
  .offGroup 0xbdf54b6ec0c5e4b30d6cbceadf893b0072da58197a822482708c6c77a0391fe,
  .offGroup 0x24995e8d17d93025dc39e79dc110e505c9345597a7674b7d819c804693cc7f47,
  .offGroup 0x11445ab500fe67168bd8ef4c2a459a350b8df53a939bb300c65ea5028302f96c,
  .offCurve 0x137f562c73fc9d559af943c0b1f512b6b34394a9250080611e876c55a1c19e49,
  .offGroup 0xf65b2200bfb6f743b8ed9224f471d3b2602be91e416ab7428a81dbe1c79fab5,
  .offGroup 0x19685abed1114038acf4cb4cc13050042ac5f2574e04f7e7cbfad6f6fcc2965b,
  .offGroup 0x301f03fcc69a8656dde5ebd6f3e42d57b347104a429678474630781ee6133535,
  .hit,
  .offGroup 0xb5aa6f53d4d9ac4b47e675e2519c2c3773958703c76fe1bb1b2cc4ccfb2d9ab,
  .offGroup 0x1d14841aec381e7f3008c794700778b2c01cd5a1cd7f60ed3ef795caaf6461a9,
  .offGroup 0x256ae756305491bb610a06a333ed809d3ec7cecc7c40343ea7582800d25f04e8,
  .offCurve 0x154a3988fd24de390f354c4bbb9084502435df71b81e8c1dff6d341c7fedc36f,
  .offCurve 0x2e0d4db6ecd1e2abd8ee5b11c377ebd6fb22682c2a8a695328d23eb30ede1a1e,
  .hit,
  .offGroup 0x16bf83d8c754b067b36593c444c363ff1a080f11f6628fb42b462978f30b6ce1,
  .offGroup 0x305d71b700c16ef09ba23c19a00b554a762fb0fe3b92f6d47f2d937d6da20575,
  .offGroup 0x2553a83fabee76f74c0917ccc175ba25c237e96eefdfc3b39be43bbbf5a98393,
  .hit,
  .offCurve 0x3cb10e9fad9014ab7237670d11bd2554f44afb942025e84211699fd6fc04c61,
  .offGroup 0x1466e43f511a945d502c16636781b4551ab875211a61d4eecedeb3f8a6287561,
  .offGroup 0x34025a441383fa594bb0965e5408e962e7b0dd3b508eeb4c08e39eb050b06650,
  .offGroup 0xe32b75958541e243608d6278b9fce64abe8155f26a917cffcb67ffde40e0b38,
  .offGroup 0x2b9f687429e1d38d47832c8f136542e8d270fb04e4b27b853cedcdddc2a94ad7,
  .offGroup 0x34dc36d43318a1c0d1f715ec5b20ebc14ae4e6ef3941db2a6d713b1aac87e7fa,
  .offGroup 0x690d0d8788d236f51c68654366bb3251b73d1ab2aa59223e70dc24ff36708cb,
  .offGroup 0x34ac9d9db6027ffa652b726d4835225b11a1eaa0648782bdb8bb7416a17245ad,
  .hit,
  .offCurve 0x3709bc9f5a3ce4308b7e27fe92c4bf4bd5b811e61c811789b020bab561f41732,
  .offGroup 0x2080570563efd7a2bae2dcc00b1fb58df8d6a022d015d3bade7a49e632580ba0,
  .hit,
  .offGroup 0x3779c25b4e8fdd496c800f63574c0fc5ea69338e158b113ebbaac78c0c9e1172,
  .offGroup 0x15546f8c07a80f283f0b471edf9f4cd2197f5b1c857d4f407bc7eed74f6e1a36,
  .offGroup 0x1b0d40c6ca73fd1e9cbb487921996cc25299673b42226d306d989e3913f8c0df,
  .offGroup 0x95c01dfb0f6ee257de24a40e07f52bb727702279ed1c8153c1dcabb22bf4489,
  .offCurve 0x1047fa89a6507e9e288bc1ce761a0e52456681f5f4b303986f1a4ded8d5db672,
  .hit,
  .offGroup 0x37923ed115def9fd3300d8b63a2de690b6beb78aac19fa6c41fff55d586582a4,
  .offCurve 0xf780acb56bafefda035434b817ef29072cb1dd0b1fe344ed9e02d9b54cd9cf9,
  .offGroup 0x394cbd62388861b7dbb29263a9a3c484d5fafb4c5126238b03ee9a8b10d6cf45,
  .offGroup 0xd34a574cb96a680d7532e9d08e0f6d5a29eae8c1b7c304c2d4d1d6aaa52861,
  .offGroup 0x18608655809c9cc347a0801bc88817e451a0dc737d740ddb15e15a21c21b56f7,
  .offGroup 0x12d3a70894e8e30f0903ee8dd702aeb577ac6bbe5747e442e4e3a6bca89247fd,
  .offGroup 0x1b5db82bb0ae3d3495dd75e10d7dffd81c9c6f90d05b9b2f2707af176ed10e42,
  .offGroup 0x3c18cfa51886ec0ba1a5cdd03514ead3a4d752dc99adad0a3f4261e97f40d02,
  .offGroup 0x1e5185e8268bf94f090d27f1c3f7206588e0ca16fabbf12598db1bee726ab37b,
  .offGroup 0x26d57ac27bf28caf0a5b9596ed85b266610828760872fba6959709237ee223d4,
  .offGroup 0x3910032c3c5d56c0e8485d20eb0c8eab068cfc34e2bc8a868469fb10efec78e9,
  .hit,
  .offGroup 0x1915a809c453dd44e710a08107b47cc09e6116467dede9d7dca4068b16f8b274,
  .offGroup 0x30dc80548fb1a5745e33d2746f4acb1808951e07086da0732cefb6762ccd27c1,
  .hit,
  .hit,
  .offGroup 0x16323178a0cd71a9729bc69494efd5ed7f8cdf8eb59ba55e6da492ddd79f134f,
  .offGroup 0x1b9fe75476a2c569e2464bcae058580abaf5ee65d815f372f1e742567b7457ce,
  .offCurve 0x2a03d3b80d079b0c7544df32b66f2a01bf832a84602ada74ab2c72c2f18f3688,
  .offGroup 0x14f273b7fd9094623a72c898fa6fde0aeb195d0208c702e7c9d3e09c71c350a5,
  .offGroup 0x1dd796e62c551774e3b93212006c19ce6d7984f97cc35cc2bbc67a3883cf9b5c,
  .offGroup 0xc5e5c9acd654dbe5acf6b1a8c6e31f77a6b7b80f7beda5781acc5b7900e2af5,
  .offCurve 0x2f85c19d98396ac937d7bbd716148f45e16bc009d911e9aeab45ea872211fb7c,
  .hit,
  .offGroup 0x366395f7756016e89f4e49329eb192d8fdbff94c44292eedeb93b1090e2a2225,
  .hit,
  .hit,
  .hit,
  .offGroup 0x36746c7cbb67cb0078e4fd177d84dfc0bd829fd50ac54851f232ac88a431bfd4,
  .hit,
  .offCurve 0x1fac983efea563c8048a73a8f01c059c20f444c1048cfb34bda4954a70ee7430,
  .offGroup 0x2bcfe7c6cd2c32a9c6a215d5732bdf2714badefdf4d679d67c1c2f366e22308,
  .offGroup 0xbe4209426c786d6b27257cc22d2379991ea1f20ec404134989b805b99d0ecaa,
  .hit,
  .offGroup 0x3825319408d410fe4901ac73f06b1037d341127acd9b8ac8f09fc706654dcbd0,
  .offGroup 0xf794700a5b9b0292bf3574f55760c4d477e885d8bce74fd40f45e0ef03e4eec,
  .offGroup 0x381feb78197cc9b93d08ffac111199ab8932f29bf4a6fb0c52763e22eab639d8,
  .offGroup 0x22c4414be3b5d889085e6e0ed7ee653f0ef5c2f5495f8e2c4d4d46758d44cf3d,
  .offGroup 0x1c4e990fe4fe39b229c1c13097e6fa21a2c038fa446612f8bbad4fb9d5a321b2,
  .offCurve 0x1209ebdd7a794790efa53a58232c519fdbb1da170dd54c1b700d7d898c7c8ad,
  .offCurve 0x24ac2b4b68649e0b490f83f8d4b72fb2720fb7220cd87eb3714ea0050a488167,
  .offGroup 0x223c1bf47ef8a8487dcf77d4034019c101128495f4c9dc753c7550a8a1f5fd7b,
  .hit,
  .offCurve 0xc98161fec11b52ec030145f1bdfedcd90decae4e0caa2033f38ad7813565a4a,
  .offCurve 0xfd04985d7f74d070b3d84f9193e8496472d3a6a39124a8faaf5293b830b02c1,
  .offCurve 0xea6ba9cb5d68c020f98c96df797b054e7be356059b4e178f9b04d746d46c981,
  .offGroup 0x7943714beb82dd1155af7cb7b9e1ae2d7e3ba07f918a6e0d1fc696ad4316e88,
  .offGroup 0x54f3b320d509b566bc9e913a12e226bed54b5d6010ded85dc32e7d7cdf68ba7,
  .hit,
  .hit,
  .offGroup 0x1ff48d12fba3e1dd508a53e7466937f1f862e613a9e4ae5def5e63aad1d5506a,
  .offGroup 0x283471c5dd3588b598404267c330b083f4c5c778455fd22a171340c49d135a0c,
  .offCurve 0x343323409defbf40855670d4ed4c642dbe7d734e3da810e10770ad7310d6f338,
  .offCurve 0x3106c0633812ee7411075da654c184eb1334c2c1b9a7f6c2bd440c0037c1dd3c,
  .offGroup 0xdaca8bb90f67930d10672dd72877eb4c94261eb924737df65583b7e894afc52,
  .offGroup 0x2cf1a617e53732f9d5cac9298941fcefbba8e78b4d60803805bdeca4a9c5059f,
  .offGroup 0x238d6e699ddad8eb68d118430db322c33be8adf2aa7fc76a1a97bc8ead43955,
  .hit,
  .hit,
  .offGroup 0x5dcb7f2f243a0fc1538520f58ac25b4b6d958779e0969199dd1789a6307c2f0,
  .offGroup 0x1a94213baf687916f1b079d75eed5dd6f6b40ac9e87bdcd4aaaefdb677937724,
  .offGroup 0x2406df087c38df0ccc6253a67e3204deaf965863e0ec106707d3234fd437cbc8,
  .offCurve 0xa0f8af560c6adf035e3d39e6d90f535629d4341fa5489d7a24fcf302a9222b7,
  .offGroup 0x2f17e6ea34fd451934003e2ab9d351113e4f02fb2c1b9bd85fd3926c44673b5e,
  .offGroup 0x2b22bb2ee14cc9ff334a4cef003d4daa22831810240e44a84e92d81e72828365,
  .offGroup 0x36e88059619894bb92fe3c146205330172915eec4cca29f59c279674dbd19815,
  .hit,
  .offGroup 0xa348ac1e4e35da5f6fc69e9378be0cf2cb53fe1f516f0290f4161d555f3fbd6]

theorem seed6 : seedCheck 798 seedCerts6 ((crsHex.drop 199).take 27) = true := by decide +kernel

theorem seed6_length : seedCerts6.length = 133 := by decide +kernel

def seedCerts7 : List SeedCert := [
  .offGroup 0x257a1adc57451d1137beff5aaa1911e5c6fae6548597fe195cd62d095865c7dd,
  .offGroup 0x1093e9b3f3fb93543a456fd5b871c8b2300ed7b2934cc32ce97ddec80365a3e0,
  .hit,
  .hit,
  .offGroup 0x1b2302afa8fefaca128fb5f8dbb08955492f41bd8d6b50f6f0f849a65c18c6c6,
  .offCurve 0x30ec5a48ca2fe8f7b7547a0e91f1805f9b5cbfb0df2e649fc9718cdab527511b,
  .offGroup 0x240e740453e374da2e517534a1ec890b01c0a9ae312d3a3a1d549483e4a5430,
  .offGroup 0x21e78e603dbbd6088e3dd32bc04997bd7031260cb48eb841d2e768341a4ce49e,
  .offGroup 0x376e5a7d476137b4aef5af4b0c31b4470403ce33418fcbdfbf7f373051e9d8f8,
  .offGroup 0x1fecf6b003bb3638fc59b1b2f1af68191e202bce85dabf6713dc4ec77427074b,
  .offGroup 0x1842294dc56c52272e49315d19b10c2f057c3daf10af15d43c7c887f71b95762,
  .offGroup 0x190238e46f2157dab4eb6903eec349494b6a6bb12d25897c30e0075a94d6bb75,
  .offGroup 0x35152237ee8ba74670e989411fa34505983b919b299e63a6b8e451d0383894f0,
  .offGroup 0x3789784584cc9cd5c96f7a60d513882816f36c36c68cedf58d32eef44dd8adde,
  .offGroup 0x45e98afc138449b7ac471d9128071239001f1209272fc4fe7efc8fb543f5a17,
  .offCurve 0x103c5b505fb9ff894b873da3a58e860a6e1eea3100668053d13eb560655134f0,
  .offGroup 0x1bd84b472c1e796b7fb9f9ca4ffc21d88f8c7d4e735765f50885a5923be99557,
  .offGroup 0x33709b3f8cac3eb413e16ee709bb9bf550d8801c7caefb4bd4e25cd8640c60c5,
  .offGroup 0x197a547179d2756388d7a4c795befc380e04be13c7d1fcf6a3ea38f3484893c4,
  .offCurve 0x12768f2f788463885ed1af318df946c393bdf49986fbabda016047e1f49c30a3,
  .hit,
  .hit,
  .offGroup 0x1d6253047310b4dc79795f962ea0029735447ff43ec8bf7ac468c5b5cda6aeb8,
  .offCurve 0x298fc76481aa4b67f5be23e3a38567657b349ba395970ee034a995dcb56db4dd,
  .offGroup 0x323c82dce66ffe1f7a615c1c4e55d31ca07333110d14c678d5fea39bb1ac703d,
  .offCurve 0x28bffa45224f2018ecf0d9f7c4264b208b624ec4d694492b5732465cc3ee5615,
  .offGroup 0x2019b31447f664f7a96a9eed9e926980c083e544f65faf029e87593013b16bd9,
  .hit,
  .offCurve 0xb9a36a96b1830709ec05b2140eb7edd6fd58cf7c2ebd810ce9ddb81e8fc5069,
  .hit,
  .hit,
  .hit,
  .offGroup 0x2d292a9cd1de366f491113a84005b05e1e68965f758065616662bb7e433c7a4a,
  .offGroup 0x1b863c5d4d1be7634ea5738afebaa3d12282646ba804ab719a7d41a1d283e3bd,
  .offGroup 0x12903fb27fca2859b7317aeaffdccdc106eee3293460a1844d562759c9b27bc2,
  .offCurve 0x22b0fe93fb04553ee85ec70e9451ab7f8c017ddb2a73a10a03f3618bff5f035d,
  .offGroup 0x2c560e333f5f28907b1f5a29d50e4b7b5e0feb351eba0acaa741eae39956ec79,
  .offGroup 0x16ebc44ab37ea9b31ac584347e1b7e6ac00cd199f274c6081c3174023d0f9904,
  .offGroup 0x2c5b9e380973bc3253b15f31e153e0cb59c4143727930d843884c7ee5e8ae45,
  .offCurve 0x1d892dbbe5f907b0b32ebd701a907bd5e518cdb49ed6b4a75316bb56a7348c9f,
  .offGroup 0x1f4f548c8edd7aea9ca0b39c7c71146683d62fb2004932a238fa087e64ffdca9,
  .hit,
  .offGroup 0xf5d2ad463e1c94fb4af07c9272b492fae1f2dca478b08a4da34ff21b47113b,
  .offGroup 0x150c134238c1b0546152af40a411772b00d282a1fdea3d9291569b0e2c6a86c8,
  .offGroup 0x2c9021354ad3a6cf5e817c9e6d31d3edcad93bbe89f217c4ecd2ead899a5f060,
  .offGroup 0x1bbb471c00ba4b1e7480f7e49e2b957f9b6520f1234ba7cdea9977023e94eced,
  .offCurve 0x81ba525d513c524c96d84c1848b79291c3a272fb1ed69366029072e551c3309,
  .hit,
  .offCurve 0x377f7f7fa374cd304748ed854f0139c2b779e64274177a2df344e6c0f131fa91,
  .offCurve 0x389282fad4809f8df21072f3a9666829b5e24d64e2f24ec7a68c5a6b20b4b9c8,
  .hit,
  .offCurve 0x34b15a0f244385613d52e267ca5bf2d697910d97ccb724bffb39c067e35c6e4,
  .offGroup 0x168cea4250c5e40dc60340952d7e142da4e7df2ddeaf89318a32f13c4cef7a62,
  .offGroup 0x2dc985f20c6f35dd3856a7075938a13440bfcf25687342a6ccf892df34f78d8a,
  .offCurve 0x233368759c1d17ff92d21912edf634381b5de0711ab57df6f58516e42ba62400,
  .offGroup 0x22c280cc32d4234ea7f74b4e4ae91a5b27cb59960bf6b614405b9df6e4b07e1a,
  .hit,
  .offGroup 0x2bd24b5392b63112be560284061b40b662519ea2a20366ff1aa0db19d12e307b,
  .offGroup 0xccacd953d5aca4493c35aecfe7a6f5814d334398bdf39994378ea013495f5c7,
  .offGroup 0xf6dcaf22a2ccb14a8d3912a2e2d0595e79a66ae7760a83e9eb61c59c7e1145,
  .offGroup 0x329b6f0debbb3e46ebf9004773f42213c9e5bf2009985b104ea04d014a435d60,
  .offGroup 0x2bb5e44967276bacc5743bd2f25c17d4692c239a75de716889398e60e9789bb8,
  .offGroup 0x21779111e0c84e4b52f3ab4307e14103325b15417b452bf3e95d387b3186af96,
  .offGroup 0xa76d50fc446079fddf8ffe529fdf71fb22a74515700fed8034f14c1714ce689,
  .offGroup 0x64a2c399116141086eb063ccfd5875c30d217cea455612e29958f66a8373a5c,
  .offGroup 0x159655a5883fc425c28847806896ba8ecc229893763711a14df926f87540a963,
  .offCurve 0x184634999ce0c58cac1430800e3d0389fa74040424130d9a51fe237dfa1e70e5,
  .offGroup 0x3f200fc564408d4391f5f28e5f9ef75c129f309b07a92f096511d2d2c4e2de0,
  .offCurve 0x1c21e9cd42ebd41f5684bd2c33fa9fad23d5a039c4db912e0504db1b8473b4f2,
  .offGroup 0x36c37d81b790b7695d52cc675c010f6775c9c169f4c3b288517c1a2edf1b491b,
  .offGroup 0x2b75f7d31026a85219ceeb2656fd4dbbd3baf0df741c064782e65e8d899a9e2,
  .hit,
  .offCurve 0xe1e8df289163e62e0ad545fea8b1715a94b883d64dc3ea3662158b47bd28429,
  .hit,
  .offGroup 0x29e9e4e4cbb63e32a139bc3978a96eebd2795a40b22eb9b55563f8a776de9e05,
  .offGroup 0x32ca5931aa44733477280d6672d33d384cb1d90978c2239756c1463abfd372e8,
  .offGroup 0xcadcdca0030e930d70738111b5101c10087ae5672f7b08fd99c9d283f7f3886,
  .hit,
  .offGroup 0x27252231fb68ae3e0c10f31952c81f53832924c83e2a1b55995a668f2b890fc2,
  .hit,
  .offGroup 0x32b93c6ac1c354a45a7eda79955f3216be4191dbf34622accac995170d5b2d4c,
  .offCurve 0x17d7a70a1394f4af3ae14949e38e5a86d2415275c3c881cf726406b02259bb55,
  .hit,
  .offGroup 0x2a895a84e86df2073c12a2bda205f2737133b974d173d9004d88eb1efd0473ca,
  .hit,
  .hit,
  .hit,
  .offGroup 0x141b2fdb51f6cc80f0e3f3b8376220d24c1602d6fd4908dcbbd0e0920f017f9b,
  .offCurve 0x30b539a4e43be2bdd3348b46a9616acf6309abb42473adf2c94b440b1320bdda,
  .hit,
  .offGroup 0xd180b83d85a5c6d430fde9aeaf208d25e2ff243ef85a30028fe19775813c739,
  .hit,
  .offCurve 0x517ebaa9f39edac0385d6270b021d64edbee0b7e5daa0931fd9000ff0c0d5f4,
  .offGroup 0x352d0eeb1e2078b9548cb786fe30245650da40a4089d8e55eec3ae040faa814a,
  .hit,
  .offGroup 0x1c272e10469b530b592408de5617339e48f66c49adb14bd6a57f4beb976bc604,
  .offGroup 0x238f3ed2900bda873e52b58f1463cbf43d4418177b6d514dc87cc0bd578fc9fe,
  .hit,
  .hit,
  .hit,
  .offGroup 0x143aaa94032efe7d3b855a008334003a65280c47fe2d4cff7c74949b2d529f1d,
  .offGroup 0x2cb095f547bf010f85abc9f16b793ff2362a5a5aea82ede5eb036cb275e55d9b,
  .offGroup 0x24b1938ac2aff6911b5b43edcbd5e8ca292db45fb752b36042c6720f73a6001c,
  .offGroup 0x72620054d8d3aceadd9876a6f557a9d6dff8fcf91a03aa986360ea0fd6bc1b2,
  .offCurve 0x2d256c4121634c866dac4d19e6736b12ff6f3331997d76f5dc88713b0ca1c022,
  .offCurve 0x2bd615e478f1f20bb25c057d35552cc05a3df68b90ab5d59b56d84ac41b3d89,
  .offGroup 0xa7729c02f11bdc604cd555cafa7f2758d0637da052a7d9444c61b245bc46e67,
  .offGroup 0x3332affb2ec145d288e95d19c8ef22f8cc5cebb9441389f87e1f51667099cd41,
  .offCurve 0x7657c39535fd89dd84c2d0a46828e05abd4b58236ec21b08dd645bdd30ac3b,
  .offGroup 0x3581b9b0bce872e6a1a9c688cd140313617ab863586d9d4786a6a501e4d0d1cd,
  .offCurve 0x1c95b3bf321f28936e40ae00863c8b0f287c72975923e975d2a92443edb3f0d4,
  .hit,
  .offCurve 0x299250be0845d60ab31b453a8c31964aabfa651dbf6659c00bb4a822499d2e7c,
  .offCurve 0xc20592b1fcbe93f098c912a57d0bc5701d26ce2a90574e20024b1b4d62133c3,
  .offGroup 0x2d1528dc7750dff626f6bb849b09736df34e03b004d9044fea555e5a1d0ba990,
  .offCurve 0x30db13ab7457a6d9abdc75b68c8d81b12fb44aa23d51e5c3935ffcea0f7ffd03,
  .offGroup 0xbf265f7deb97c908b09018e8535e614d7d7cb937a50812c1a3e51d544a986bd,
  .hit,
  .offGroup 0xf534403dfe9a13dab93e967396ed2ff729cbfbc490334f643e0dc3d7b9b3277,
  .offGroup 0x185c7b07f56454bd28179f779179629cb838e5a3e7b1e2879a460e7effdb993,
  .offGroup 0x375b91b7a10e8ee4de03db9832f1ca216a3c98932c967abb1a9c0f0c1524c5fa,
  .offGroup 0x1cc74b4db6343b70f2316eaaa49f20c0ae2166b51fc9305125ddc3ebcc07b19c,
  .offCurve 0x233f5add878f14b724c3517404930edaf91b300038187f210d014a606532b32d,
  .hit,
  .offGroup 0x2a3d0392f0536276f0436287f4c36510c219dad7ed84aa34264cc742eb10bb20,
  .offGroup 0x2e18ba176192b3609f9a598a8632e20da40b52030febdccc7a0bdabb8652faae,
  .offGroup 0xb5f87de809a1121868fd46c3a4872def104d7a1f8612583b1030db75efd689,
  .offCurve 0x19a8eea9bf2d29e705b0317e720f207c7b943ad1f7dd8002d00594108cb7acf4,
  .offGroup 0x59dceda46ed97731d08009c73f02630cd46ef8a5278464bf4e794e511a13613,
  .hit]

theorem seed7 : seedCheck 931 seedCerts7 ((crsHex.drop 226).take 30) = true := by decide +kernel

theorem seed7_length : seedCerts7.length = 130 := by decide +kernel

end Verif.Bander
