import Verif.Model.EaglesongGen
import Verif.Spec.KeccakF
import Verif.Spec.Sponge

/-! # The states of SHAKE256 for the seed phrase of Eaglesong, each checked by the kernel

The numbers were computed outside; the theorems are that each is the permutation of the one before. -/

set_option autoImplicit false

namespace Verif.Hasher

open Go Spec.Sponge Spec.KeccakF

/-- the 200 bytes of a number, the lowest first -/
def unpack (n : Nat) : List Byte := (List.range 200).map fun i => BitVec.ofNat 8 (n / 256 ^ i)

/-- the states of which the output is read -/
def outStates : List Nat := [
  0x629390cb112a85226124fb81e6dcfdb7aa2eb1ae8cb5698d294ba02a757eb07d86fe07001e2f94e203334b6673fcd2e72a82986815998414b34406ae150e30c67f5532f23b61432f2a417322f4a3033e675fca474cbda9645e165957583a3264b5d204cd94871b0165f55c3df83133e289e456dfd1307cdfce1618799036aa71ff50dd2a6260c9e6b7bdeab0265d9241cb0f6e4f7f91e46ca9bada779edcf1c0a082762ad3622b3bacbbf417b806b54ce1c9fe9a3d8951cfdaec32ad9a13d3b171927c026e9e40ae,
  0x86db2bec8e69fd8709511ff62c46b62f3e5e414c3652027a3399fa93d2fab17750f1944264b69871dbd484591716da2d6f30e27522fa4be78dc6c0e9d731501bd521788e3e826725a646551f908f0fd30084456f2c76c47bde062b2e97ee19a8ab7109c5438d681e0315ac3c38b3a82822d2a2e1668456d759689c9bc456d8d467e7c7dc794b4a4a13f0157994b9cd770b8315574d05653a25de953ee7cb6bcfe5563a81eed07eb8ccee88bd7e11d22d0eb87b6e78969712d2949d2831b477c91a795239b609973b,
  0xfdffdc86582fc76888a78fda44617d72900371580d5287c372ae3cb79f368bbfcb0f74e8538f63fbb5d4e19939386c1fc8e5134035ff4b15e4ee7063b918690f3fc3c44400a99d3ba7c95f8f437b0b7105f2179edeaa47ebd98e006b74bbbb24fed160bf0ff675c37d5480352c8c11c080f83cf818ab10681f1d59da6bd20c483e2432a912085626d526f8bf5b159e49974ed2ecaf238c043bb1f318685250f41f6e8a41b501cc7566bde7d746926893da33ad037c2ea356431a9aae92ea1df893180cdc9f01c2b0,
  0x770535e33b44b8cdc859053869b0749af6630ae372f9849febc81fd022ceaa26aca3165fea4c6cc9b398ed785c4cc1f811986d631a6cc085777b2b521b74eb0fd827f55602758170cd04623a3785ba5f0df6881e7286bd24a7a1a9695db73eb23429dc3d157f63291514f10b30a0538acb2d60aa8703bb524c52ecc691ecb65eebb93a9ec94a09e4bc8fc702ab522c4c5278b6de2ea77435d4134c11341173755c63b1554da0d4ad5e57fcf29a7b2edaf2a5f7ce7012fe76c6af7626dedc078700fd01a972686f8e,
  0xf5ae6383a110625e37b4430688a2e802521cc1ff3b95b4a4bb93084b8ae2d70e038c9875ad97febf9cd5224625069d4be5921882782233f8b10abc23ec5dd9c9600a6ea77b01aeb53e88490583a5ac2f09d511500a61737ce5d13363f816663c0d983b56f0d91a9343d53c2b010aa53c736e993a7172875a60215841c88905e674ceede57f8cf8476d11117e27c96a844cf9cd0fcdfaf4f887a119b8cf1a4927780b69c4496a031b94124036e09048214a02099a4f0c33f6d2967c5f58a7fb2284457eb199d95191,
  0x8db00c4231ad12e05117d885beda51e765844be8e2ee7d8b4aedced45b867b4bd7f4fc24998e63e9ff27bce2a57b676e7c9115542db31ffdad91ee1f217223ba67523904021b747792cc81b48a2f571b93c76559eddc1e220b15722d037f1bde6cd83d8cbe306c82a32e98fed089cd8178182f9519dde49da5106ef06fd4c8675c708db2676f9c9582c0e65d17be4f901cc0c19d446baabaab4d81a3ddcdd8aedbae1e0a648781f38bd14d75c04c2b86e5a0b1e929188aa8ce6ae45b068018f272b38977b7678f7b,
  0x3ba05e0c9dd5cd199d67ff3a5d3e3d1b1da9e982266bc4e3f9cb9e8da814791a2542e251a5db2cb13a3a1af5543cfa4aa51f940f82d9c78cfbf71462dbeb143ecdaf24754f41071d38a76c0e0cc2b7bd39f1535ea8af0c9b2dfa7530eeaa446606d313ef2eda57ba4420467595f773f491c6798e25484bbdcff93e0d4729d97a4643adc278c365642227e14396f523cbacf8187a10d24706be45e6f5d496b4abc80ced86ebe29c586d397708858c041626e2c30cc854dd9d0781867e944e46bcac17ee9dc95dbccc,
  0xfae28a12b3f4f852cc9e9d131646e4563fd2d9403cb8c539bfd92fbc9fff9bbe188b50cd5ede7cce073635a254347ce5574d228b06efefcd5693ccfb59be920b5332e3cbea1d5c94d5b7fb44892dae62101b6df3c705bbfd2d286815f627e68c305dceb846e456b990ecc76e4fd04546f1c9d8facc87ff6261c1e6fce24afa83a90987a3e61320e9201c9dcdffe7f997fb35004097491cbbde29f5f9637d60add76b4c26ae559b4587cce9e955fa5a1a40815dfd44d1cd65bd6d9a2936ebacab0162174849a6eff8,
  0x55298a15c80c4649775be399b942cc178ab03aa96035361c3861996a4c70701993c08c245851a7736054a01527e93f01566f90d7e15a31db287e463cf3dd67bac0b76d9b67c9efa51868916388d90cbb7bb5c5856eac77fee2686ea117f5d0105d1e9ff16df3bcdb7649efdbe5e98cd324a164dcf9022f05928c3f916d6ca9c3c6ad952ffe599bb1c793de690de94784ea9102fc674ceac07d4657446ff5cebb9370b0b87c4d697dd774907f67985a91602371c5eb9af9bc5421bc1728408d9db341b0e9f856f88a,
  0x1e5102848d0f647411cd97e8b889801bfaa59d46de3d0f7f8324b4244fe9ba4115461d9aea36086a4441099190786e755cf14f1d3e63a92e72369d0b9198a3841fbd51ef3e5c9b238a18df6d517ed6583a7d1da7c42274048b5fa7826fe7e7246642dcbc1b36f7fc8b32a0c7da366dc68d0fbbfcfc5c8b76fa71bc8077bec4f4202c7d07d90d4767af94ed1de2599aa83598461452ba335b12c2801ea50a6c1deedcd29e53a077bab6d9b28de3f02b3e88137033d1541d1556c29d2070f4c474bd872807960efbab,
  0xb2eb5e0946383bf49a9c205418d0da8250d0efde7fcb17663b1777af6277fd9d045d731f3ba70c2e99a407ba1d19df8128c6ba8addf518590237c616bdf78c0e986430eef1735aa00f06440e05d4d819b82389ae6499b7315415c2e8f038f8e17f8778f943e5998ea9fc0a6e7e5ad9cd1009a9b5581f35606e2422b1ac3989c7a2fbbbfb9156bb89352594b4fa2e5db5eaa06072883ea6cf7f49126677f9986a409c4e1669d266998dd384af608785f02db484e1ea6f1a9c8864ad80676b065d3400389c1470601d,
  0x4a0c3dfe3806ac132dab2bdd9c9d2bd24f5a3ae08b031b06051601e7481b49751976dd468f75043ae282744ebc8ace51ca606447d11f3455abd1a1d3555861071594e6371366aa077fe27e8cf4d22307dc1c464269d2aaca99fcaadaa8e2c0c98bfe19c4057e990d4c9b187758f0fa07d2529b94d7953a711996e2bbe533fa43abb5343fd66031a00cad8f51157c59a7a9375c081eb0507ca4fd43e31824110a3b74f7564f5c90d6717bba4df76a046948ac5ded271ac51b3f41e8c2b3cb2cb6bf149cc547ec952c,
  0x5c9abeae664746586e727b070067332a2f941cce38f07f206662eeb52585b408a0abf5208455371113f09ffe4d443550365838e84ffac304da83771f24c6b0a1c611625eefb77e7d6862e570378a2bcea728405a63a553f87fc52546ddbdd88b88404296bce0c198b466f845fb6338685ff3b55f19a7110d16f0a137d6ebdb231fa83fc4bf069f55cb0381237fa3ea4bb6f90074836eef4a67b7e3e6d6a74659b82ea6e5d8a8a2170ccdac2d150ac49c5e1f945a31ff7eb4aeaa9a3e9930b52adb922552ce1066bf,
  0x39e5db36f2032356385d98b59e9008080dbf4d94fc30aa8816494018a09be6d1cae7a649ec71463f6524cd17f88733a6e099a584b302871e264cc56f7b745787eeffcc1756a6f0be25be238abcd75753101e383bb66336b06079bc2d54c513efd3e2d7cfa8fe65fe745cf92cf1277dd7e7042ecc0841f145f76137eccb701d9c44272adb5a6f245be536c32f29c7e1825143f44682f33a455a1ffbde72c0a3a91d8c1d7ad8524057baf879c20ce54601f8fe0309d4eed4d99ba386fde84059766984b76532515c15,
  0xf28ac972a1ab7ee12ebd15493891a3291569e3736d87423d64b8b348173dc46857b4bbafb138d86f51afa6bc630f745fbd084c26953e406062ec1da0fe73006a2e8af95b14525535521e1ebe72f8ce7b04ef20ab5f2e4bae3c10b56879bdecc549ad88870863ea1f99648f3abe3765097eee035f46b71d89daa64ae0902402b97bb8ed8bf1709c1e78dfb112bff6b1bf0e8345a856ce5888b4760f3e67d314dcde4177e5f69759065c833f04618358cdf7e38dcec9107d431bbecdadf76de3de0ae772f55ea31f3d,
  0x4f1d5d7d0d0733c429a3b7bd8f7d0fa4e99fb9dc7a1175e02b540ea60393baa8ad013d05c8fa12fe0e11a30bc41ac5081d251e82c4d0426994166516d9e3494504a022633dbfcbb871b5c34b72291f02b8d0b60509f847255222727432e9fac5c2efd2266d566eac7eb89d529c3512093110c4927eaf23de9f601ee7d00686f178383a3b62cbd38d13321bde4cc5a00432684e131ae5533dd2115dcc632a32bd2b77cfc9cbbef182931688a903dc73b7e3885c966554ec2dd4b91474c73953efbcf367139094ccfd,
  0x54bc635d9702a14862f2d3417db89f166dbbe5c12150bdbc02018db0a3fb6e7968ea0c4e77bd0f9361c7dd6a793e3db7e3a03c45ae2edac045fdfcbb579ab3c5056579f2d28fa2b7a697c4575ab12c3cfdabae56ca28b751e3224170b5f8728afe9fadeb57710c69b46dfc6c2d657b405efe823b93cd6620113c5b69fe496263bb486079e640913c50b325055835d5417e46ab1a836b956ddd265a71e57e142898c2fc6ba9c01a74c694eeeb1dfcf55f87010f2ec3c058f3ffddeefac813e1bed4e4037d55ba597f,
  0x6ab1da35317606854117dc3256fc616bf201bcd45153d12fc6533a390b34d479b72c7dd04af4d7474cd94563722575d4983d57027228d04f04f33035daf11fb235c1ead3e993cdc164fcf08e18c54a5c5b438f3b486b4768a746d036a5573db78ea2a51f5e9ec45a27116f48ee37f6bcc64049326e85708572880845ed8b842e61c74ca9dff411e43a78cf776d1af28db67f2a322772c854c05e9322ce9856df2e922df7fceb9ee213caec766f83ebaf405bcbd96d47abd0a72a9422d88d89abe35574789fd9d810,
  0x61678fb6c68662932670c896d9fed88fe6f9bcfc109f94659c2361fcb79ff022b6f182d87bad4f89585cf9d53cefb2b05921ac3de521f58a9ce69831cb649f9d7cbb61fa1ec085dbd0c76abd72e795fec12878cd030ec65edd3c33917d1d601b43f30d4b5a4c903f1981d88585e460446611fd595c9a812ee1d3cfef1b0857441d3c288f09712e95ac4084c056dccaff62be8951caff26502372f938c71121bbd014adc683d9cc88389752f2dcdb5363bb06bdd2962eb75b071aa0f687423c5e321b841c9de07de7,
  0xcaf23388d93b08bc98b9e4337f8d361e7e76c4b4f91437ef6bdf34f08dcb5f9c9480993df781b3e87a76d11ee3c4c1621fe3ba65979584f51576115c7f961ceb980c3746c8c1f54eb377ad3e02b74e7b05175c83a7ec708796e6a6671369315c7980d3bebd5ea6b8eb79af5aea886c2e493240217504923c115aa21a6fb8cae8a49744396ca058e3f27ce74a3b1278d565cc7fa499af99df08424557795a1258f15151f4e83bba7bb32d45875ced6657b842a005fd5aefe049d4e7e735631448582eb0693e8dd1e,
  0xe89e93400f1040a4878ec1373da9e35a4eacb15b2dba9a9304414ac956a60038eec2f956734fdd98ff83c2ea2b57976f144bd77829ffbc5deee75929a280f538736c7c782025d89c9261f1111a9b7bf9cc73f7e9a78c63c7d278c09610bc8480cc9337d4954f6474077fde797911f4f0049ab9914df566f6e06033206e09e6e1fabbdff0a44f6b0214e4475103123bcbaf3218ede7f26a677029f53b4cb22aabd185d7b8710def5fb7d8ce7fc935c39caac481b1c9a1a3b4ed0e085ee01f5605449cb79959aee281]

/-- the states before, while the phrase is absorbed -/
def inStates : List Nat := [
  0x62c2d8b862fbef70269e08c8c5f63b83189f61d9c82822d2d296b41023eb4eeae10dead6fae64a474bcf4acf8ee8e9b9e31797464699ef34ec086fefd9af624fdca1a9428ec90ab3fe75b296a326c0ffe1b3f6fa679b5b2696eab3b605222449d85b94082e264a0bd3e4c6404e07acc4e6c10aa3bbabd0f5600b52ee9be6c61979f13a43a78e7c93a94636469ebe2b36ce16e8674a7aa2d45586f521bc8f2ca8751529e341d332a005eab06938609bc22971cbae38bbf3cf581cc89fc07624a18d066c195c21fa68,
  0x9f6d6aebc7e5b7ba52366204e083e1e6451bb039eb320cd012bc9d2045b5b4632722cd4f8b6836fc31e6d5686192e914806b31a37c9b4293a717c3812fb341304328764b660a569d1d97632f31997787ea76eb62b8d488ac5e0950d919329c9964bb90b711a7946f4e87223093f4232d0db9f8dfe106bc29c1d4dc951896445624afd553e92776cca20b40d43fc15620dadbba07f48b85423654b1b02c7d88644c0d2e85632aa73de6e40c7b60d5d198d0193b41545097af0bcfd45c792b61e6e36840232ccb0d24]

def outState (k : Nat) : List Byte := unpack (outStates.getD k 0)

def inState (k : Nat) : List Byte := unpack (inStates.getD k 0)

/-- block `i` of the padded phrase -/
def phraseBlock (i : Nat) : List Byte := ((seedPhrase ++ padding 136 0x1f seedPhrase.length).drop (136 * i)).take 136

theorem absorb0 : keccakF (xorInto (List.replicate 200 0) (phraseBlock 0)) = inState 0 := by decide +kernel

theorem absorb1 : keccakF (xorInto (inState 0) (phraseBlock 1)) = inState 1 := by decide +kernel

theorem absorb2 : keccakF (xorInto (inState 1) (phraseBlock 2)) = outState 0 := by decide +kernel

theorem squeeze0 : keccakF (outState 0) = outState 1 := by decide +kernel

theorem squeeze1 : keccakF (outState 1) = outState 2 := by decide +kernel

theorem squeeze2 : keccakF (outState 2) = outState 3 := by decide +kernel

theorem squeeze3 : keccakF (outState 3) = outState 4 := by decide +kernel

theorem squeeze4 : keccakF (outState 4) = outState 5 := by decide +kernel

theorem squeeze5 : keccakF (outState 5) = outState 6 := by decide +kernel

theorem squeeze6 : keccakF (outState 6) = outState 7 := by decide +kernel

theorem squeeze7 : keccakF (outState 7) = outState 8 := by decide +kernel

theorem squeeze8 : keccakF (outState 8) = outState 9 := by decide +kernel

theorem squeeze9 : keccakF (outState 9) = outState 10 := by decide +kernel

theorem squeeze10 : keccakF (outState 10) = outState 11 := by decide +kernel

theorem squeeze11 : keccakF (outState 11) = outState 12 := by decide +kernel

theorem squeeze12 : keccakF (outState 12) = outState 13 := by decide +kernel

theorem squeeze13 : keccakF (outState 13) = outState 14 := by decide +kernel

theorem squeeze14 : keccakF (outState 14) = outState 15 := by decide +kernel

theorem squeeze15 : keccakF (outState 15) = outState 16 := by decide +kernel

theorem squeeze16 : keccakF (outState 16) = outState 17 := by decide +kernel

theorem squeeze17 : keccakF (outState 17) = outState 18 := by decide +kernel

theorem squeeze18 : keccakF (outState 18) = outState 19 := by decide +kernel

theorem squeeze19 : keccakF (outState 19) = outState 20 := by decide +kernel

end Verif.Hasher
