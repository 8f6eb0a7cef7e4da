import Verif.Model.Generate
import Verif.Model.Kawpow
import Verif.Test.Sponge

/-! # Conformance test: the whole of ProgPoW on the vector of /repo/internal/progpow/algorithm_test.go:851-2101

The dataset items and the L1 cache are those of the file; the digest is the last one of progpow094_test.go:75-80. -/

set_option autoImplicit false

namespace Verif.Test.ProgpowHash

open Verif Go Verif.Progpow

def l1 : List U32 := Dag.wordView (hex ("" ++
  "f92eafb5c24da663c1d9d3543b4bcec28a26fe6e8af96efd98cff240d46dbf2635e36a996f5220d3ced45613594449ddf039880fefbead7a3881f5c934e17f43" ++
  "2070f503ca34c149065d3940280fd7bb0bba6fab2d2f0252ca433e11bbb9d4258fbe95996ab6b9a160030552beedc24d78cb58df6b51437ad6158e3a2a61ba68" ++
  "5e0fdad6c9c63ea3438b3b0dd22c8ff9763e9782bde953dfa48912bfc646d012b545a392bd918dc299d7b7ffe12468363576f58d517d695f44f1e75a1c4f4793" ++
  "b668a5ead936c530aa22286da04742f4805afb8fb71470b42b71a609826e5cac01d34fa523839b2e7a8c1274b6d889665c0b6a815a145732c4d3a5ac71f3dbdc" ++
  "f2be9525089b9fecce702a0317d914b363702be58806552eecef7af1a6c7bb0a8db777e82122d3e7c1a46f26b85e7938ae926931938543bd01b1073459b65b6c" ++
  "637525ed8cc24ae2a9e4c0de21f1dd2fac45f06902d576dceac92ff04c56ac7728adcaf3cf64f0015df5c0ec5a33953e8e5202eae408d119aa01a0707687bcf4" ++
  "05b9b6334c703a0dddb60012c8c51ddfb06b3eb5d3f230a99bc8f4e22276b74b3d17c5da871b6669e3f1f7d47e2a46612f65c2e26e53364c3e413b103e445676" ++
  "656a9544c510881df894fa265bceee2ffbb6df08fd9e46b73d43160552ccbaf4335eda8a6e64c69efa97b5cbe650ff792e6e5c2f109c173b95eae146538285c6" ++
  "3551620fb39fc0d9f40c9522ae41a88f52b7cdff8d5105ecbbfc7d8482ff29261747e5fe74fdb11322f3987adb320c7b3e961ae88a3738676fee767f7a10c625" ++
  "8625f1d1d6e586aa5cd8c376cc3f00dab6727db5bc4a5d2aae8296c62556f024317f3f233ac049174fd1ae5405f6cd6088b265615dae25c870f43e15cce4e21b" ++
  "7dfc3665235477b4e0d05f8b568bc30078585370ac8e5c976e655f64ebc2735f74690cd87e3e2fe249865339bfa2b59ef12be32c183f48fe314b4229ea86077e" ++
  "dbef6af7a27361f4fb4405ee9c079993f7b30fb8507a5118894c1ec28db11b3f076c2ac7d5d9c43290e4d21dc082bcdd687064f629622e02be40335e0e3351fa" ++
  "8b963fd96152ee107cd32db38842e441af7c736f50d6f4bbf62ed1b18409cddf3ed57beeebbd01f7c9d5008163d6b63f6a4c09584214ff29d2122d69a1e919de" ++
  "a9babd5992311cb4aa194503bdf2592ccc1a91f44c7af6e5e4c26e4b06e6bfecc3dea55500b2a4bbb34eef08881b4dc844c90c6f4488fddf55f8b0b4f1990d19" ++
  "bf50beebe9370e6c7a55b4dea2ebf853761a6b5a9594abb4ce8183ff88392b742ce06b160918a65490a1ba4ad5dc9de51ae48281cc82119eb9e820f90a8b80d1" ++
  "558d8582a9eafb6d3fb906556d93ea3f98dc853d95702a0497b748c041f1eb65054cb64ad616753a26861620e664237775619ee4631468877caadd93f156e8b9" ++
  "bda9443bd0ca0c0a7bd37616cc380a14a88635c04062442eba2f8b0918719650a1c22e9c41cd6db3055cdc74cae0158163d243c8999eb7c668805b9beec049d0" ++
  "4829ec3692bd666c5c07bf634e21d545a765156b7585a16370a06d7b75fe3b9d7a6082d91482559ce037e3d8d60d77dd277afab113da0d3158348185460fc7e8" ++
  "accdbd9a632f321749d13da5b263d1badef5885e5f6bfb868f3ca3241e203cf93abf2fd5f315f1abcd9574622f4a4f13cf4b1f87f8abc19923f18c70936df282" ++
  "87d4743137847ea8f7d6be4f71aaea3ff4e888d3e3224d3740bf9581df9bab975d04c0627f32a41973833c7bf134e41ff83f6edf6e62ae206023a7504f4c1dca" ++
  "964b55f31e1f5c363f17da29df14ec7b15538ebfb140b17c8e8194d133e98875c7937bf5eff162b73ddf1a553291487f4c4c486f928d9f966fc791cd03f36985" ++
  "72362b183763a73e9c82579f9f1a1e3b211a1131fd642f7d544d587b7d19162af5257fd6966988a74f76c699b28f0ce744ab59b253845e566bc7cbd308eb3429" ++
  "ebe41fcecf75d095015f438cc7af118c09a238041d76050247d214c5c8a93f5e04ac4276cab548d964e71ddc046b8fa9fa03be2bd471144e75fe138166411d9d" ++
  "3a68ae66ae34a40d044c027d97f7b62e1df204b420dd3df4562d85e69c3ddbc2d6865d0237852bc78d0d8fe859cdf780af6d47736dab7e7cefff1863eb2aa1a5" ++
  "68a55746def0d8ea7f84b702982d779cbd6970be00b71af25840c751ad0275cda13475cb92377556e75c432fcc70458250b37b9150c814305a86faed9c4f992b" ++
  "8069c9ef37b3e553047f7401266b20646b58d1a01930dc4e9715a08f93dd9c48ad5eceef7315770b3fab2fa786c9b5ceebb01833edb824ee634cf115533855b9" ++
  "f60f8f77a8491b8200472720bcb67d80512606c5ce766805995cfd6bc6710d284cf6077d9f6aecee5636a07d99eb5fd2df3ac69398fa4449ce2bc5ea8cd76fc4" ++
  "70843fad9ad59988fab5bbd18419acff7accbff9e0404cf62f4447f7e45b6a587971516b870d90f51c77e5163caefbfa6b4770de0283fd9a8f1c07b551924cf0" ++
  "c4903a15e3b8d50cb6df8eb5d398543e31e521e03ab312e766424a2c93914a82af011edd5c570019515d1efbb1d57647c131e875bb8fdb12b107a8e37d2abc3f" ++
  "80e7f5b7a8ff696f9304392ed14174672ab9b41593c73f6811836277b817a0872546925e4b8840324850bc9137a1de9f439e161417b7029270ff6840a6476f73" ++
  "9a16d902ddb221cebdc5bd50796e03f4c8b6b99dae29310f8d035f4b32e5454145bd03cd77b36abd1b25b225b5a87fd24ba877914023857fc3a8cd2bda79f4cb" ++
  "f4cabe5549dc82b62408df53c3f7b29403161f96fcc5a3c62d75fe305d12eceed1b1194eaa5fdc79592a8f9c43b8adb27e6f0f114068893fe18f6fbed0bfda43" ++
  "478c3ff08f4cebd34db446088db5e3fdfb30afd930a76b48245495942656b023763b54aa69e37f3647ee07643ee6cde03e0f4a3a0e306c5a68eeb97fa6dc4b36" ++
  "e46b4e6bc8e6161d9f9927de7867d619bcfcf9a1b5ef2f998f86056b9f1bc3c6cf362af827c58c6abeca82cb14ed8362402f65eb757b93565e9e30104053592c" ++
  "dccbea4e2c6a1228d7c86de243b96b51865c24d5c7a2035b0c4eb14ecf4fd3ec14cd9c4c6ea37f7456c852d7ab37d85dd19c2f6960709fefa385f73b239d1a2e" ++
  "62888124822959602dfda37558cc404a29824b8f0a31036f2c5a78689b894853d7dcbb8c3906bc0c817936ec46ea73342ac3022f99dfe18399ac7888a7b9fc56" ++
  "b14495ff56294403279aadcd4e2a290bdf177f234119e8d0ba7621f6f29e61fcf03b80529fbde8fde17616ab3ca35e75e9fcbf1a2be4eccfaabf092286adfceb" ++
  "93858033c814dab9b12c95767184322cf94c5808e22d0282c2564bba4c9e5d58792ea91e932de73e5a764f3bcf8f92d8fe7ba690f17d3c4ce78167c2c2ad5749" ++
  "2b774bddd26e8a01b665c5a34f70bfd9f51523147b4f671e6f9d52360866ad79977e5ce0ede06feda6cf56fbdc3f5dc2421a64ce9607273fd1553591eb40e244" ++
  "aea51153e61ea688411f708520483c5664cb6d830d98ed166a39dad4ca12ba5e2e0ab92c4a9ea2b0a36e5c6d7767e96f2154faceca60db99e6bd7bc91633b824" ++
  "90d3c73fe660cfb6676cf4892ba2a59ab35444fa1a3a3f772bba9d9a72a240b6feeb743ffc505acccb1356ead5d5ccf4a53b1bd6477f072c0cbec588ae7dcd8f" ++
  "f5da15de2adaf30bdbf64228369431214dbee738313c4c121e00551eb4913b24e4f638aed7fb0f6f756e2091c37d9d54647ee1cb6fe21805c34bd4f3fb150e42" ++
  "e52b991d4d7a4ca02d970f6206b0339d41f602ab9a4d28395d8f2db59a70dc4a14c8c7ea44c6512dd8b70a02cddaca1a1ae3be8a83da9f0e0fd5a91e5107289b" ++
  "1e32415cd83454e57ec89fcd7ea19398e91fca2e1594f19af83d9f18915f2094fbc217cd55c7e6e4f2e10f7f92fec13dab2d05060b21ec46f409787672cb2d3d" ++
  "593193475151e8ef020c24f310dbe9cff89edc7b867441eefdf0ba92636f811fafe49e0a0e436d58a0ed577f57593ef4bf61dfb1b385e690f6dc713701fb3c2b" ++
  "4748dbaef86116a3a5ef3fe0c473accecd2e6b8306771489ef7c585d5d61e5441e2a54dc4b47ee2a6821e823e867d315e756e81af7a71da196b3412572346e40" ++
  "f767281abfb0d3a7bc3de3bd4b9f8dea0b897ef2a1834afe1fe80feac4b6c6aed43746596e8c4d90a9560660150045a3292ebeb4f7805d53ac8d36ea333e043b" ++
  "c1045681c6f220d1fd4854f056b255e11143bc86a05c650f95d9cb2239205b45d741ac22955f4549b9a47392b2ba4ca43e2f322995fd83ddb9deead9d9a24bc1" ++
  "ef04bdbf926cae5d66d9185f70bd309592f72d6361b7b65dbc94eb1372c67e80670679edd3eea16be005137ab4b4abdce0d92833ba73551c6f13be9ec75f7991" ++
  "54c062fff8e082a089268b51157d814830991073b82f04773d071e41010b9b1bb3565db59a93cf97f3ab3299e16c42c2255a3468a2ecb55ffcb0d94089f24374" ++
  "d911793e38ffdf9736d4e994ed78b41045259ff8f11b5de10957c933bb45759ecca6e17e5a93558d09fdf346d5841ef45c819cb87ffc3ec53256b1fcbcb8feaa" ++
  "c8dc8b9d7ad0d4956060ad798410807fceece988b4fb1b67427929948f21d0a9fdbd5416db2bd3d8e37f1b8da8f53e45e12c6215ed4fbdaecf211bb5cb87a0c7" ++
  "ec5602ccad71d0b3f674358a31af0046d36144df276cf080dab0bf8729cf2d30f38079e48d86cab8d304105eb6646b3332d9bce483768823d8385f9096b329a8" ++
  "e3e5832483d5e3099ffc5f7cbd93f92cd171780f9c202340c4bcb0ca013ec0afd728f88ed07738403056873f7de752f1bdc223590e1e4e7337b79c439d8e54d4" ++
  "d2927cf4075b38b5a7463aa4a36dc56654ac376bd32ef21b3bac269dd221ce627355e6ae71b611292201c0d7c5dfcb0cd9629c15faa187d2a624baf2f31c6768" ++
  "ffb35f793d250fcf537a709aab3c8bf09a5bd69b68ee7cd7ceb8cebc93eaf060d48f39a6875ceef3d68ea8ffe59fca7fe6afcacc119da8494d7c47a0ad66fbf7" ++
  "da5fb479ba00afde1ab71469681f84d952d50424954e66e1b8e8b03dc53c8d2d50fd80f3200a91535fb93b69e259eb59483888bf9b82ddef47211f0742d058d6" ++
  "ecfa8761222c48cfc8d79f6f409510fe91fb5d6aad07d4817f35ce2b8d933facc930793044cb5a10696127a8c0024032c2d3f194c23a8220f12655a713e97fd6" ++
  "69bf2eb6f8d41d1fd59e59e317eea0ae2f3ba15423b36d6f8b6e6968b853f93aa47a54f6b3d8b9a9d186458ca2ea51a3e218f9c8ecf91f42447709a550287564" ++
  "a94fffac32c026eee47e6f88e6baa1583337c11f01bf3be12e635ccac72be4fb1c693c797ffd42015834533ce58f8157b0d2e580483b7957103f1e8439c48ed3" ++
  "29feed90729353586d54c9c45e6e1d0d53ed81a51b6eb56e4293625b2df3247b3bad45ccf657c666405ee142da924f15d49feee71a147433763a1103d47cf44b" ++
  "7173ccb77a081036161cdea2b3e649f599e1001b94a93cff6f99bc77c1aca988239281dd517d906b5cb08bff08351c79e14c5c0da27ccf73d3f645869c774255" ++
  "1fd8c9dd5d37dc687f37fb3dc2b6ed6e26d562b00a470aba577f86e67d66d547363bc9bcc405020f445fb333157aa9ba27afe5974633e2e26a8ce1a2144ee1a1" ++
  "b2839dc65ea07476d7cf03bc997beb75b3cebec36f0f7098fef91cf71f796ec4b18753e05b4047bc18e91de1663c6313b539a8bc6260b4b2d6a3ea34178fc48c" ++
  "a6e94a5b165a2353d12d7f20595341df88206c8ad07efb5432bbb6c5a71262f4106af9c728df528aa6eec6b890df34f22194cb6c046a543448091c8a31854420" ++
  "00eb43899f665679f801270bbe94bc4b2578f2ab79278c3d25a595d07dce0c4c02f7ab41ad50d7c073c063228174628a6d74bd34621ea3ae37ee7d6a1a386f94" ++
  "b4108dfc16f6b9b75f3f2855a64f2f3872685bf5122ea6d2843c7f77ebd6cb3c56d217627080159947a568a8c5e8b4fed8449b679feebcecd2ef6b29ddaa371e" ++
  "84b33b888d09090d14c4199e2c6db533f95969832f6686b4095e7cf5a31cf4be08a27f03b6adf4871425c03da62a15d898ce6dff90a6ca42b957abccbf593d79" ++
  "74d97f847c7b9652f6523bb00c71e4a4f1b0ed0b2a4beb2c3a4fc8d3278fbcfc351e8b77aa1dfa45d0ed8f344a18e14941e979081d6e65d6a51b2b8b41eafd0b" ++
  "d9d24ba27f293e13ca35725effbefb13fac7c69a70560f7bc2a043adfec48eb74b99c06b9a04d8215f68cdbc27160a188daf4090ffae4c015d8b20dcc7f823b5" ++
  "d6d3e3071431f2574684e767db87765750493e25bdf4ed209312d5d25ed9967206e51a8df7c18187e095b2464967dbb1e12aabf3e551062d4a757e336e760013" ++
  "9f31768492703a5d7f2408a7c4d6e21fc58beadd1e2aafeeb419ff24303dfb0a3b198ef5ddd6aee3dd75a4c7c6ff62099a9895f3ab7793fc400ccccefc1ec191" ++
  "c1417b7883d0cae2fd7745f62ad0a686ce003c2127780dd9d0472ca1968268b95c7785f8db00174fc39b516b5c28d760966671d808006c4ceb7d730fe2e58170" ++
  "5054b3401319e51f0f21c0a936a50f02e1e4bae60144d0fa7ca8a3e56839755f5b0d4c5d38b1a7917d98a5d403f15c1d5f1f0bdf6878a99409418b8a062f5124" ++
  "818bebdf373bf95be51ee0da3db98e65e59580cf3061ed2b88d8f3bdcf7c2f69a30c8b9f82ef4f9376a47e9dff488f13ad8c6301075bf1713e0871038a91a818" ++
  "9afa94426a24dd44cd8ce0b2a634fafe1e794de2bf00ff8aacbad942df20e28822e398b2eb3a29dfbf4658863908d3a818dd274b80b4e2fa2bf63bd7d58c1d70" ++
  "354c1e82d762b0d25e3df3e6e05d6a48befbea0e95b18f7ecfd8ea9fe74d8884d0c1effc99d232713382190b8108e9549a2061cd060fcd23c2985e4ab9cdff4c" ++
  "61fc09fea49e3f53ff8f23949064a2508755b97248a8ac0b0219476cc68ae3b5a2e0a0bf6206bade2fe3f138dbed27281ce4d85724a7ce3fa3f6c13469b657e6" ++
  "1cf27af4c627d4071624f3fd13d72393600d8b8cf68b9b0eb9e27569a4f3ab8dbf9a6e7dc8f9190c6abeb99215d7ceafc81dbf434f3e069765713a98a8883fa4" ++
  "e4d96b1fd8f94e9fef1d5784f3d47cdc8c07d3f0c9cf4d1bded5ebe0d3cf9baa44439777fbf00201859e55c2f199362e71bdf02e1a6e1de95d1f299d469fefe4" ++
  "756550112646565c5d02e6e1c7e71e604751515996db32b242bec28c4fedce986e981295970843d0dbe3ce2842fd03fccae4bf77fec41f4b6430b30302efe0c2" ++
  "70f93f9640e2e80eafcb343c6710e31c10274116882b5cc9450ea89c230cbdc98f0cf82a27317b7c86d7b025e05632a19663b920023684b73eb25734c7e983b2" ++
  "480783ac3160538eba3e2274d43e1cbc31f92288dd0cd9bf186186f4f337f788bf356d2bb0057c55a63fad8151fbc34df0b89a48b2be4c49999e9e18841f7001" ++
  "7d772b644577aed6007c38aa802addbdd85d12822499c58fb0d85aa849b15874feaf8aaafc826c772b28863b7cf12b017f5aad04dc8f3c34538dde66fbdd50ec" ++
  "39876d551ee0b95569ac8649a57f5470de362d79dc87459f0626c10f969d112caeb6afbb4b2df3473d1413ae5cee043c12ac96c861d3acd80c5783281a24bb29" ++
  "c0ea0ea47a15f34a0b413bdb74128be48a65af3dc60163643309331469d8e2ce230555fb5ad7dbf0b86654210cefc0cdf170d120b954e228ec17fb92f71a8967" ++
  "762641162a550a63d3b899adbecf3c85e0a4d027f7cd54474e42a1702e09e6872a15f755a8d08867343e5a3637a9eec9aa6be9b619869d108c26f2a4971171e8" ++
  "7763da73fafc589f1e30f6dc21fed047ef305759fd4f718dee06c5ae31e26676ad70c84afdc79fe692b39e74af433fe364311201be7ed632426925768612e8c1" ++
  "983994e15b6a0344e1b563d347471a1bac937a185b5c14b11fc4f77aa0d0538af127bcc6723b853d637c7d6d54ad1a273838a9ad1ffcd12d6260567f070dd321" ++
  "5eacaf139c6832610dec0653b93611a3eedd0bd2861495d3caeb2194f2a0fb86d104c788e782be208e74ef06beb097856a01813b1eac57a558e0b000cd0f62d9" ++
  "846a5f9c41210178717cc6fe26d7a26f6771db95f6dc13427e7c003bf35da225a126281b20b87a60f813cedbe3069766402a0320f5a9ff2a1fff832a9b01d3ce" ++
  "59ce26d6880c29fb9688f961a50fa93a988b3a1b836a367e2c9356dda7ad08bde14821599a0b613296a162c75036a7af81f30556a346951fd19805c8043ce9b7" ++
  "05a42832cacacecd69aceb8c885d76a429d35b9c2fbcbc990ceb436a3d40131b994c4f5060aea5da041f0e43b6040b5c94ef4175181edee48d8ef9ceb2931577" ++
  "f6f1cb671208810a5445657288a06b5bd26987cc684af231929de9abbcd6f881f6f2fc77992496ec0e7f6fd2ee9897eb1fb4042bfc97c685c7d66e50bfb91b4a" ++
  "97e8b9f49ff756034b31ddc62f58e7320707c67f6b2e97b70d967878e199156bbb4f28bbde2f2f5be3637694cfcb3b859fa64782f8bed984222b4e62e5ddd45a" ++
  "b40e8e543c63bacfb34fab36c3e7ea567bde7f5365f30d455fcb8c606a77df75c28b1352a18df158e208c81550fe837bf0a1a276ad41e678fce623b30947c01a" ++
  "792b92abe8e540e6e717be5fefb9acb6061f0e729777a9a21aacd40d5a0a9c89c7cbb69e0326891b37a736d0eb81db49e9cc25ebf108a57e12ae54fdbe3681e1" ++
  "eaa7794b8e8b009698664cb14951cc346a6f9ede88dea62a8ad93deebe74550fa064afc2610601e675c79e22a3c8227b56b4375dbef9f3422dab62be55c9a507" ++
  "48795f230b073c3460b92a77e5a8f2e17f0c26c7d54eb36003413f94e044aadbd6f896370a0f9741dbdbf90ce8c991175d67ca4c13d55212130aff772c203c94" ++
  "ee47d36882cf777909f0f05ace089bf2281e436c0e4a350542c905e60764501f12488528c664fb8dbe0fe0432eae841fecec4b141e8fffc6b54b9d4bddca7fea" ++
  "0259e3d3256499ae797669fdbe2fa80fa96c466c756f8c192ef66644ff96e34c91856eb451aba69c760b18a2c3ccce37b89a026dc756e309e09a7fea069f0572" ++
  "be51ee7875fb4ecdf026bfaa7e223fdfbc7aa841a9046b219bc9974a622765cb69cddb032f41ac2b189a345d69ba9fde9f7b4c8d66d04960946ebc1fbdaceb14" ++
  "be521a7f5fab77a8c61ce7c18f0431a1007c1ffa379834893477b0dc16a02ee6b62a6eae4f607fda02223803c377d1d80ce52884a53ee9d714a355ee221723d4" ++
  "e57ed4dd959854eafd4ede584d25b3f5ebf23d6a68af94207ca3daf1f768f54c70c4a287678f400e67bb51a135dc7cdd351080663face4c1b990e8423a8f1768" ++
  "04a7ad48c776534b953010814758323420cc6183e23be26a14741bfc7200e2db17e481a12dee8be1bc7926aa9068a77e72e55053b784ecbc317e335839f33339" ++
  "82d3dfe38ed162fe04355e91c34a6e9f9c806d8eef3c3d39e246a11f59e504c9a0505b55cabe2e51eb6fc3d877902c27be3d2d004a230f109058ab61fbc99eef" ++
  "d998c2a48fd661412d03a92157a8d58e86d0aa07cbe3ca15578045ff3b67e82288778bfb13dde241e8721e7555751c36cf08b25529954b7ba529cf80a44374ca" ++
  "64f6f903a88031ee5b87d089dbb7b47f78c346f4e55f11c46dab168e71d45ed978576c58bf4d71c05bf52020adba3381d765dc416e1645645eccd266223352f7" ++
  "d1ffd64642e82fbc66be9e7cf1ef75b6ae0a844256ace82727c2a66eec2bd8dec9ec0022fd5ae66138db1f887951f5b0b16005ace28ebfcd8a446d0d88929c3c" ++
  "3f7febef8fe6a0ea8b59a3f03372916c09aeae50d65c6b6880cfe4dc45cf97395a4562998d1e80fa8ece4fa6e37eb1a317ad5bc3389722ee2b58062cf87743b5" ++
  "67e6cb36556c4d76c6716a8daf46c83558780205e0c55d1c54b8b1c3654da114befc319c0fcc8133913b3f6d3255088ec3a67cac659ab62ab0b94965ff5f07aa" ++
  "81520f73252dee4a0fded410e1f7d55da5c2484a7d068d3fe55ed5928c6afc7f6d0dfe63be52417925ba2731da9988f80feabf1c944703cf6fa3930d535699c1" ++
  "610bbc3812c56009810f25082f78bf57cec757f6b4e9a09866a9f87779666ce3d3108e1aebd0c2b995efa1c84e6fb6f00afd40cbcace76ff947efc51d150f1ee" ++
  "55ec67222a31a1312004e3ce696f769d1323936c1d0655ab29429202ec9fa1119edd06918c6640592041d6430f5b57e1f123ade6c7a4e076a2fdf1085f8c092b" ++
  "2c841994e9704898b3e21e94f0f6d353702311b0853de08edba4deee92f3a63fddd57e4357abe8d05d515b44ae62fb5485ee9c92a7759261dc43d3f06697f339" ++
  "fbee2f66af05aabbf67efbdaf54ac65020e2f2258b2f85483bdf33ba27e53b699df3f8085389a9cb091a2845a5e6b3f6c34692fadccb07b41d22876ebaaabc20" ++
  "6f30b69d6f58a44fa6f0daa2b7977a9242070daa3cf9728e47c6c03b2793465adb8a67c925c419598ccfb2fc759e643429124c7804b5f1f0b5baefb6d34e3b88" ++
  "fed7a06820b00fe4d11c921048fa1d6e485b4cdd2bbdbae9b868c0f85f2ec5eb37f0e9b2c57ea858a224de0adbcb3ce35d397696c753eafa52334a075b2cbb5f" ++
  "a332b7cc5ea78295f1b7a947890eff974b616cc7a64f55a4c69d47df7bbb0a6e55a22ee0f1fbdc1779580eaf9c7feeed6954ea38fe10323e10f17fca3628e5ca" ++
  "b0bec35d07bde757ddfecaa344c6e56e3adc73a12a5d2ccd6d194d92a99a5013b06470d8d6feaea2a90313e970352845baef863e1546f8fd33c93ad11b3c113f" ++
  "11afdba86d9b496ace16d05aeaa875761e295d4419e638f6a681f66613afc20fa12c08bca326d866dc494177277b59d4a09aff882df115b5dc17945d7cfa14c9" ++
  "8dd251a8cd2e3870f6d856a8100d92bc21b8242d49194364f1ead8e3347f6cb62a94b21fe2d524a332e4f8d164dc11d8582f2eedb9029dc2f84d9824e6f5c6ec" ++
  "8e953b3426c0667a88bc679e3577a8649f9e7a58c9bc7021d948a00e7cc436ca328b9701844188460ddc8f01a2d8b65c082234f1c99fac6c753671641b6a810a" ++
  "f4423bccaabb59a4ba34be33b828eaec194f6a26d7705af53aac3295e6d3ab475f6269f3089d460418f7e0277a3d56b572a25b600a3eb17617f81447a18b374b" ++
  "3ae6a0f66a10303c42e65001734c486d297daba7dce890a56ddcdf17fbd6f2e4c72eea7c0ca9278fff86b3e6eb4f0b3d1653f585e5bb1d9475aa7d9ff2cfa95a" ++
  "c91caafb5c5ca97001b63101c2a338a537f8feb170572052a6211ec6ca0e25340f166e1403a3a4dfc1aa1dfc0c1201816cd0e368d8c2b9d0c06690e3ea05a10a" ++
  "eece0ef97a298903c882287ab48af340f215f8884e987f93493618aba22515702d1953ddf7ba6c3aa42bcc6668db66942de94351bf1b93a2d7357e7f6bec3b2f" ++
  "cdebb000c593672f4fd44ce4b97369072bdb5bc56ec9844036ce8cc6299ae0d5e4a566a93f0a9f2b52e7e12bcfd982c297d66927e40a8936b75d4df5c60323d1" ++
  "e5ebab2c873001ac07a2a5852fc1b2b300b618dadc1f0b88e2c9cdf281a031e8a4d7d9d0cb887d1a24e4bc182075479a0a0d177e7fb78f3453c5b87cb04bdf23" ++
  "0ae8dfa49ea042f6f729bc1917739f269c1f7a3544923d9b690c1969f6471bc7f2c221ccfb2fd8bc96b3b259f6a078b6d9b1012ff63bf8f4c2a5a6b5d1d4880a" ++
  "a6a63a0a0b72f82a2a92b0e40712623f564eccaca0b4a0a15b62c8ccfbb910e18b273277325c8c3dca0668581d69e2fff0e961ec7f8f38cccf36289a9376ba15" ++
  "dd29cf7a21ae36486eed81181b447e6ffc691524fa0a94fe4a8d8c16899d9d418c554a6b7f05f78f1444f94d4a2860bc575cd73d4b5ad6d24612f64547ae8eee" ++
  "789bef293f210a0e1c6314d8305e80a704d56407d5c590a34d762a5e6ae027d982e2c70c5cd1f5a6731923201aa6f31cb636478ba5f60e692d2d251df8125686" ++
  "11841a049a395b562b18a9e0421e5ba7b59dc00716b05afaacfcf1814904511e51084e9d2b1a901744b39ec80db1bfc1754b3c9e3260a04e1937ca2f3e8c5e5b" ++
  "b6ce3dae47193a4d2ea7999acf43d318eda637f5b6a4d468232c73556526f5c019d63e869b60beb11013857d71a641c92752f1af3947f6b6ad282552361a4910" ++
  "1a429ab40266908fa2506f148a33560f4baa71f0188c40106f7e831b94d62b0cc2ba1a7b556b5af8987bba7c0f86994c5b508c4b3a904e862c1fcecf2ac37d91" ++
  "e1ec06bc4865ce1e57e37cfda12ad9ebdc991c3a6a3fcfe29350fad812b68efaceeca771eb73c16a02bd75be2688d571657e76625dec17470db0b68c495d4507" ++
  "d9cefbe44fae3f6d692d083a3db770288c49c59370e74abb349c0bfe7457343bde053d0c7602cc6746251b965fce7f633bea982950a0d3a6de4ac4123797a127" ++
  "f828eb16762cb15c9dcdba3a77f71939c3ebdb301d400fb82f1364fe757809b74898b3239ef7e87bd022bf265a383c28f7d979496befbc67d26c3b7b1c8d6491" ++
  "fe076fca2fe69b02cbc43c0ff414cb096ed1846ca989451280fcc26d7aa5ab7730b0ab699edd446dc22ac29c76135a3aaba9cf03159d5ea88484d289495f2302" ++
  "c0ec2d161883b3bec3e18a2a5ea27256fc618c6cccda1f3092ef14184de16274aadac4e8c63b710d6ef17a1ea280e42a43173cdd6013cd30e7899f804fcb0835" ++
  "b956e3db7b31e086dcaeffe3db6f63a62fda7cf79509cec004f5d54500e6220c4d6e3fc71df5c4009d4b0c486d1aa009c9fa17958971ab661eec9157ef096a5b" ++
  "b15b2abc99a53a4460fbed2401870092de2a3c17c93e736f3cef7c1d2e159809ef6feb5a4ecd70f92b57b3a5d9a6a24be4f7144738a2244704137e1eeb68078c" ++
  "3b33d97ffaa318d788659a4da3135f02acf2cd65357636c38eb84848128914b73951131d568960ffa7b0f97863bda6701f10b90431e5d8763422cc0784a3d6e2" ++
  "b2121d8a68c564656b632ee1458348e7631aa0b8558fac2f660e57b5f3e6bbbc42d1b640afa49654e8ea9aaf55376b389a91f946ec451b869b557e537f1a5bce" ++
  "4f50ddb4236306a45e2ff12a8046b759877eeb03e69cb3cfe982ac01e71b2db707325271194f00fe95db42336bd8185047c72f923db35689355a236762d02eb6" ++
  "25b66e30e9f084c945f365681fed19d22a0cedfd9bef35503eae2524d75aba005ccac312403230f7052b684da0fe7930991a1e93c1125c520a8d7bb9a98efb6e" ++
  "816aa80cb5a29d80a25394f8938ec0e4b49a00d3a583d2e3f1482a2e514902e110d4e251f88f68c5e91b00d913ea0b14b6c61eec577a4450847ccefecc2423ca" ++
  "cf7d11eb72378a2a256a201eaf22b5669d4994b3a85fe608960d8c21250a37cc9a8ab6d9f216f54aa742ca06fd83e81ea55fc606e711034ee154d0fd2ab61652" ++
  "2ab83de2c0d58d85f3aca4ffaf1afdb71f69267ccc3cda75870be46b58e03a28aea474a782a5e556106749b8f00fbfd0222bef82bbdf96fab092034bbfb8f9b0" ++
  "85f885a423befe26197a3f503549e0398a7a4fe991fc01b913f17a34268520bfd1f361a92dc73396c37608765a3575d92305f287ad52e075c0017d900697c0b3" ++
  "2d09dd8224a9155d80cfe6823abea3e476d9c4cc22a9d30308e974c2400d6a8b71490db80135474115e8305f6780dd6dcf4a99fe21df2fabe5431e1affce22e9" ++
  "fdbb81493e0b2b7994796445913d2617ea90eb4c1ab2779da99b185e6f1e1daeb181a75b9a69e7995f584c833d85a50b4572fdc86c61bba7ef1f3f91db48ea3f" ++
  "a9f9ea85c4547d8a9cb8de583b186ea5acb0f63eee864824ce015d2941ea5d1c5a0b37f863dd69135cdee498f63b3c1ce79a48494b52d4373069c6e94033828f" ++
  "ca1903bd9637761b30eee970dbb303d31d2db3bef480b377dde014b5d229cdf7dfa2458f0e940fe745ec538f4a88dbc24f7a7211fcfd796f7bd8569e6c41316a" ++
  "1bbecc75e308f11f44ac83c5ed18f0e25ba0af5d7972b5a547e482160dcc0c9a238e6982cf193c133c28108f7d6807f0e545522a9f8d15cc88713064ca707c33" ++
  "b1efa17a74f2058e8ddd5bc68e8c2febea824b46185e40ada803b08b9b5bb0019287b75d7e9b52bf2af493b8dd35d0e95764955fdb8583db7e510fca3be3567c" ++
  "bc1df03c786f18c9ae4b94740b1a083d62b4e1f2dbfe4f857472bfd1793b01b168e29d8745f85be5c32c6495aa259c32bf6de4297f387876e55b57919de20ef5" ++
  "c6bad4edf94a9964a75b973b888a73dc402e22efde9d218e4f585e62799f6a5fed9d2275ae82b4724b6227cc0930d1e4d64883f90462b51ab61a95d66f2c5311" ++
  "47cdc62a81b6b4e3cc905f1153ef0a0e9903b7fd8ebeb8fcdb3ad8aed541801d2a33c6d5303f02b030254a5b29e97293c7cf15616e931d51d91c06a7999b43d6" ++
  "58d6ce7b465984947696ed99317599daf20e12ae13e2c210a5f3df647529f4cfe98178415eba453c62c63b904d5a8666fb358c611a033c20f591f02fddeb0a5a" ++
  "c97f9bee6cd346d41ba81411c200ebb16a176cb75e44bf4071d61864eb2e1ec4385fb26ce651318dedf903640200e9bc3dca692ad5671c2d6928557193290aa7" ++
  "f58c5ebb8452fb1239b8433c646db15b1a7e32aa8ddd66e6492ff62de81076728c5122b6beaa519d5571524a1c619c7e242fe5c428931b476a38c2166584fb44" ++
  "92624fe5720530d6a294531ec0cf1035b05190e391c9735b213b983ba5af7d63ccc0d3d8d67c10c42387d0e1ac03c384cb86c917e1ff1830a5ad778485e9f41f" ++
  "546e5ba905584a1da0f1520f28d2dd067fcdb3b495c758e39396e787ba218dd166b7cb5aaf146d6a2078d9c7d3f54994616a2f0b216fd97f6035257de76337d5" ++
  "c5d20dfb303febcd417ab774ff1f351e2374fac1063cac952a2e3575095224d07469acfe8abde4d707a7c8e91f7dfd81a8bae2f8ac3123b5ab842871e50d2053" ++
  "69d91cac7de4dd1d165b1856d70ce3d27bfc4a1f1d5467cf006e40a0ddea1d1ea9cf0357f8e96bcd706f24fbe4c91e2f7c295f540183535994205f559dc12851" ++
  "5f3e286d0828667e9431de10983f057e24c971993f34135d8e757c4ae842c0e63658602631e2b9905612e38fecb59bc3864c79584b4a330660a7a5aede23dad2" ++
  "ae239137ada7713fe4d461b16f99490bf9260f1a6ddbb1b083a2c95fda8e238c0219e97cb3285498388835d481d36df23c132c8294b03ad0d5242fc4802dabf3" ++
  "42a8da32481e48d575f5f6473fba8dba6b219904fb1818f284d2737cd7fe1f9b4c15a961093df6c1ee8263f691807fba80f7065a4cad7dfca1152519d427373b" ++
  "f7b2f6767b9aa1056cd46da430aca1710b24b329e623abfcc2a54665da367a3620abcd233c50fe4e2fb717c17df91e906a63c80f3bfb9ba6272b60308a7baa07" ++
  "03964b2b5568bb7799145d7ae3621581e5c26f1c275ad1fc91f6d7c81000a1aa601e9511fc5cf61df60101c8d4b306495f0a5eddca9c92b25d6845c3b0fa5c89" ++
  "09469b6a46c6620831fa3a014cab0a67e9bb9eced61568e7ea07f14f812fb511e8adbccdda96f700acdcdadf3fa51427d9d66d2a602d5ad00b95cbd6b3799247" ++
  "7aea22b535234476369495f96fd229502ead4a33129ba7c508ca29fee6a56cced80d1446c1dd86f6189d6201758e606fc1ee73fb2eb1cef48da656273229c349" ++
  "1adfe6602a7e8cd849465fd7044f0409d9f68db2fea5a90927127bd025fa66a0620e1f2ab39b9dc39307ee0752cf1457cdf2be348c88d4ba5b03fb858a1876f6" ++
  "20055ea8eaad0fa823f8ca08c39ad7422a88ac8256ea0cd083ca37e412ed9187358c787aab70627db672667fb84bf5bc382b477e893de2ad7c244e3d43f546f6" ++
  "c740f5681ad8002206067ca5c8ba2974accc71a390fde933b0c501117c2617efc5d4fc9861655bfc8933fead96477789135374704d1dedad0b96f18c857b57f9" ++
  "8fdd2369ed2b0b3a07944d21b5b8502f5a90e832e4014d052b33a42eae0773d7ce496dc831f5df7266b5c591ea670b79733af94c97ef90fe5e2c088f21ecb60e" ++
  "efb655f18db42b4d88fcb39962404f1e3cc573d6a54c9b1fb2d519a0e8f8e737bc73d340159f016856712e957438eb26fdb314fea5d7fd836d76a9ad8f01f2db" ++
  "351367e7df73fc1a423cfcbf8f3770bad8650eae5a48947222a13ad1ef7415350a65aac93248c1676f342abc64105bdd5be11e4e861c3e406debab6c3d9c808e" ++
  "1fa5818164588767357bbb2da4c69d015743ebe16120deeb0f225ca0dd15e04fe05bfcfca2c56ffbbffc6359dca48ee5caff052bacc1755f04d1f493d834f027" ++
  "6e4b16c6bcd7e520ec9ae03cebc2ba028bbf0b93a101a8aecbbdd52a9c147f7bf5cc4a1f9e5ff2c813cbd6243db244a9e3a20d4bbc4c249acb27f66a161f6070" ++
  "ec38ab9506d162e20f834286b62df162a1f9946454f35d953c24afdecf06eee39fa04ca4098523320394fa45e857f17301a9db0f4c26bdad3096d59667f45ad4" ++
  "a3b96a0851bc921a49a1351d5e391f7e2364503a4933980250c88e70e5a0e4c2dd5797ae6fede196fa419fa67543160c28c39728b6f547269257ede1ea30e04d" ++
  "821e30209590914ed4bb1d46fb42207cb3ce805d6163eac44689236aebb69585195b974b1150bbb49ce7f5ccc26dc441aed1f5df10876b49afe9797db6af0957" ++
  "32ccdd7587d1b718d1e93813c0a377692fdef07a472450adc8dab8a68456f014c59ec3fb3c6c37d05967668f04f179dd5c3d8e3e0744ae0d8716485f9f1b8ff8" ++
  "d9a2694518cd2fd341fc493656ad879affb888a3e9e7eb9738eed7b32b35ce3e8c9c2cfa0e3de3cffb9eb32a797ae647241d8d0e783bfa1e8c9063f761e9bbbc" ++
  "11cd25cd766d41c9120814832186bddf355b8a08dab45dcfec8ef21724ba926e5b0989a87bf3705cdcf220a7b8443202c46968abd648b0bc00331e0dd0d632d7" ++
  "fa4674a31fbadf091fd1a155c84c91c92bfc0632f689f30396ed8ea8a11bcb3876a532db4082d0a7b9ecdc2c82afc4cf4d4fbae15dfae5d1c0734db1e4ea1fcf" ++
  "e93b2874b35fb233a3237bddc459da3b2c8ca11bf183be3dd8500d041adcd1303527c1b48072611af755ef57281c37a9dfe01a54da1e915b9a6437c88baea3a4" ++
  "bd025fe7119fb5104e15f00dfe6cf5442f0f3bf658df613a883787d90aec52b0cfb7471e610c03c8b100e84290e7c1e9b72ae3c26d8b99d5eb9cb5768cf0f369" ++
  "0d4603e5d2ba83eceb738dc5493af41c4ea754f2fd8a386804034991b64d81e49e6b5546734de91d31037b320abe3ae85271a2e8b36c40a30b15fd36a3a26377" ++
  "0c6036191371cb1723817e3c7991e32ea8ec79f847cb72c6d0b80f4473171c2562108769b2843d84f9c6e8e4e872ec38f280ef99d68d53a5c51323c37f363c74" ++
  "c396f9e659874ef1355b58bf083a930efc6a84c7710f41b4942979019302c31c76a54e810c8ac4b84e3264de9dc153602d57a4a4d082e5637d4135e5f82891c3" ++
  "ef0b728139c7a85b09f74bfbca0ba4c1f05f4056d20892fbd6a0e757ecc98bc0a7a7e422ca6d20c4c6cceafcf5185ca6ab92719749055e28acf83485c2fc518e" ++
  "9bf8e1a5baf9035e2a2c39c98a3bff5a98a70c2c9e3887c4d2384a108a7896e198205368b0637b3304a578abd3d26a87e70b0be9ba9c82c71220c8d4d8d5bb01" ++
  "850fb95afe78fbef56904334056e5db605dd828454439279472038469c73d4cea7e7a1c94a4ee2e4f33e7711594a5dbe602b69e577ce796dfa02e857ba9b3793" ++
  "00d707fc1d8497369ae893112e71f90adfee25a26c2f473ae79edd8e9c67fbfd772c7ca03a9df366c952365061d9066bbc10fd23bcf66278751d8e4d63775b59" ++
  "f3ea32cfc0e9c78a163d22718c44ec89872a6a9842469ce9983f5646a3489c24f5d050a9384ba07292d26f360499593ae49da7b641246bab8203f5e0d7db1f10" ++
  "40a70c638aa0350717d013dd442288ad0334f031dfc333b572e941bb6625fd7442bfd64aa99b6dd70cb6907aac5bffe6d03fb2844ac3e243b464910833ec64e2" ++
  "031b825e17ef1c6e36ae7bb35ad7e9d51f638643333736eaa2baca2e387d7e46a16541bc9587ce7da333ab70fc3156ab4abf9f1b0bf39d9e3df0c7f99930f1f4" ++
  "9648dd54a8a8a44d6b2aadfab04dcfaa175ea4fe8c46e8723832712642319436e68361078eb176db95541f4462a27d06bce76230b0f14c7ae4cb123fbd04c870" ++
  "08d3fde58789925faa9da9ec201fdf0a5865c7f31f7690a009abeb831b21e115364b742f6ea0bf3038d611f47e5a461c76cc84e7b19c9b209bbfb7c4a65c24f2" ++
  "63a0d942aaf27368a3c8881fcb8f9e378c6aefa7abefbbaa0261efe46b6d260c98840d49aba306fe5aa7799ee1fa5f763f773a3f1437992af4877c9f816fc5df" ++
  "1b98b0ff506c28d110606888e1b56b8629dfb37e741fb3041cc45e89e3d77e6b0178ef4bba5b25f2a2616ffdf333d6681ee06ab351674fe4a1bf2513e4a8e087" ++
  "ed167c925500348ee2511eca427e8f7b05add9ed5348e8b52e752ec6d296928d62b6e202a4c95abb4bc078e2278b6e51f03aa9cbb00efd844b672ba640bedfd9" ++
  "bf2011958ef70602148aa3b39bb6c1cbd678c0739db1f1a070ab8f96ed187d694bf4fa50bb5354ab4ff03275d38e488579e8715ec480871288d5d32bef26ab78" ++
  "762930e55e3989ade1cdc29c8299e4f3c7be8d1da7216e41bf76c9860abfb102b88df3bcfb0128c0cced9c9a2bc7fdb386fee6eea535368f66d9b970865b4fd4" ++
  "78da1b18f7c2931cbbf2163ce80ded85b7556afdd1c439f2c699f559235b8158052336fb1a4eb4256a54e5332d9d5c75ae02151059e0de7ead1a2ef9b488f159" ++
  "3fa4dcf7244292d3a89ed37836ddf56f9fe4af22b5856ee5f16e57098c56e67bb85c90f9c55672d4f0307eab7698d5374ab528bf5f98a8802f2f53fc1c117f89" ++
  "2e37f69269fce610bc1ae1d309dd4768d156b552119c7c312e8f1e121a5b4fd960e9a642b8ce1dba9f786221ffcaed7fdc1344cbd0f1569b9a2fa0f519b0ef73" ++
  "18af7c6f69576c239d90537aea0cb1221362ce257f55113612b73f3386f232e21d3c0eb68a2b0830481ce4665355f62981ce0ddcaafdbb6298fb97c191d3c9d0" ++
  "abf1bd22617335c94aa1d7ae518a7f5e78be2dfcb17510d9275af24f65b3b4cd39fe342a1a13adb48f46b988b64f94bfe85383f3100887c7a0dde6dbf08a1d71" ++
  "ae31b84571a49316ad4e390c81817c67543c1b831735565e5fde7e48f80be8cabed0cf2fba115cd3b521bbadbd4720a6ecc8caeb5cd010c71b7ba8b590e5c234" ++
  "201e75a12fc1ef7ae7c96d16f949ebd89205bd006352489fa62f50aca0e2920caa5a020fb5d199f24d8448bdda5c9d54f4b80b0630365dcdb26e9470fa7ac6a0" ++
  "d548710cff9739a70e8bd7c8269d423fcc9c4b393d5c53e8c5c331311726453bfa3913410c50fde0416068d17b4061248c0266ce5528086009eacb6f26cd0f80" ++
  "c98dfed49c7ab34f9e02f32327474e7c7fcf5ce7b03cf43027aa6201a5ba633bbbbf379a9df5c20b0c8e67fe66cad9767790185fa1e847849827fb61cd560f10" ++
  "716423a796792b06c422ff701830cc47742ba2f70e8a2204cc20f045f37496255aee884fe81c36d307f3e711eaef8ae82f68d211a9b2ecd64dce752a220210ce" ++
  "cc5dfd7bb9e010fc18b67755cd53dcb65bc72bbaca0234d3f4d2593aeb59d36375b1a64f02af552280b70b56e4fbdcdc3917b498c4796fca5e2fde3a1d02df36" ++
  "d74e3b7a7cf0811c1616a6143fa362039d512b59b5e084c412069b8aaf7db40ffeb408cdc8b08093e56e8f67483863d2622fad9e4515ec2e83dbc20fed0e707d" ++
  "2bce41d00ca39dcc08c2266f02fda461957650209450008a0c4dfeb77699ef2b035bccb3c8a9cea1657c1211b988b37eec3429ee678c37b0e62a8eb64af6f6ef" ++
  "c627899419d411cfe668b6bd04bc86550cc2ed6c5e909c1fb3f538398f1a4b699833c801f2d74de44634cf27230562a8b21e9735e55644af1ec8a3c340ed61e2" ++
  "6b446d11768898f56cc267f4e01dd9850fff7416cd7d96ba00b5350bb0ede384ca9e36079c00e547f7f65d2fd67e8d440d95ad114532e3a3df8a2485c0653c65" ++
  "fcd9baaa2138dce92fba84e9085ce4f0c3fc2eca6c5ca9b857cd91588b799340bb434fd4d88afb3bbac8131b8b6fbc5dc57c3c0c0c3aed28db2abbc076226990" ++
  "f503dc85f056df7a15d50fb99f8f98131d9b4cf3f0e12cfb5ae29468073e3315ab2d453ebfa8ed3a97f99fa1094d9bd6053e24bd9aafdcf2bd17ddff952024f1" ++
  "2cd3b095d28d6d6f0d550229620f70f3fb9e5ad95b169d396f96ea91cb9104ca0157481c89aa8daf7fb860ecc7dd192a7dcf014ad3eb8dde650b4baaac39c38f" ++
  "d0e8ea7b591c4bdadde809eae874e66003a26a7296fcd40abd45264812a55a7a57decbb96247c622b6b6e363999f77b0602059796d8778ef5146962fdb6784cf" ++
  "41eb756b953356ea22853df0afc6437d31fe2e65fa98afb48617c703e436c6dff8facdaa248d15c690299b4859d3914b5faba9b0d2c7c21c8453d3b38c384ceb" ++
  "e1f11eba41c3eb8ef81327b51b7ebf038ac0a0244d1f86d7be427403beb1542504f6651b17ccbbc791c573408c5ddb34176106c85212a181d76ef86bb6543a73" ++
  "61b9e1e5243632fd3d3982610ba0e3576cb28f07e1039356d61eb1181e142f6726d3fd3a465dc10dfab67b6ca398a09bf575ca3b6630213e47afb047268da4ba" ++
  "734d3c823c71cbb23d32b6c1ca52a3bd07c63b4ebde7339256de25dee67e609bc962b96f031848dbb24ce50af4188031d621ec7b8541d973f428c6f60ea56105" ++
  "7a3769c6c6041668050bb96a562f9a25e7d40b6f74556f179eb334367107ee5cd057edcdd857ad1597fe5c252cd6eff8f52b9066bab4502378692e42991ae4af" ++
  "d5b02b333d7bd0263ce4e391deedc8bd85af8e950c3e700030e97b42925609a0161053786d58e89cddce64fdb67b9d34cd4faf498972e0e9db4660a7bfa41ea6" ++
  "1936cd4f785d5a31e78c2f6d3ee8bc6297d1cc0589bd2a198acdc1975048eb892acd69abc443a58e953d4720eba4a6853c3c3a07d18640cfcf70e427ab7925a4" ++
  "42fc94a57d3b329c985723ff8952605eaac379dab26eb58a77fde45258bf52cf1e44568eb4cbd35bca4303830bdd5f87c3ab55a3a9e75a4f4c62d1b660e7a8e1" ++
  "aa2dab8fa8a93ea5ff9df54283b9d5026fbe6b3a5f2ed876960db619c450188d4be2bb35e54a7eb9166c2b2819d5a6cbd586bf8c8be8a09d9d0b0c9c80ed1da4" ++
  "070aaf6b22d5d747ae0d4fe057451e4bcdc905e9cb9c64c2fee598e8149242c9608e804ab8b99830ed53afb9e6edf125f6c99fc89efeb48bbae420c5120f5f54" ++
  "00df49e33435e5832c216a2ad3f5c883d2c12ac42df5087c80258db13e21297ff477d5e692490e0ca3a66d5892c38548e268e057ba7fb061110739f72f693187" ++
  "a12b9a17b028b031373d3afefa523bbf848c9a64d5ba4a6f83e0443e392f5a28fc9e8e52eae8be2a7694f1a2fea1b31fb591c8c1a381437cc105abb25e4fb501" ++
  "dfddb26f77791def73a8c241b0f7dbc893455e68b6e9fb385d0320485b7c1df4bde8d15bc30c6892d0e30b93ceada0187aadb62bba66c4def05ee2ec4b4eebf7" ++
  "85e8403432307a2e1438f7ce45193d2ff27a73ec18904cd4aaf24cee4792d1c8be51ffd8e6bff7adaf4cb89fbb68af91bd60b174f4f7e0031be355eb5235788f" ++
  "9cdd2ee5eb181d50beec19e057950f16dbe42e36671a20195c25b0107ac48ce0f3da2b751d209ba41b36c5f783ca8a760dafb8ae3652bce279a9bab7dfe2c88a" ++
  "8a1488bb8dcf0cef919d9bc1cd38cc284641d716aec784d82645dd0013c243b1811abdc99d2cc77ea52ab888daef0d265aa41bed6a8deca64a470195b0a44b42" ++
  "6ef1a65f4f037ed8be319abc7c320fd0f4cb31daf1cb1cf7b0db22832e01007f8d0330138fff4e54a5efcc4d1f321047f6b52d4c1c923fb4d8ec78af6fb149ac" ++
  "62380d37e2d9a6ad443dcaf8215e56cba9a142f09573624159ef9e5e7706c7191ca64ebbb32802f92983cc7b1c524f925eda2ec69a64980d1d057206d8c4d219" ++
  "b947bf4a14a91fd6b5340e5ef940ead85105ec9a409854e86a0a239141b8e633bcfc237ee4c0a0f9b07dd976667af18b6ca44b8a4fff88c8580228cd7761c3a4" ++
  "3b9215f872a12515833c09c42d86507295232fa7c2694c3e6e9d3292c0ac6370c43dfcebaf1c9f1d47a9639bf619431df839b9133694f0ae41e2954f42e3fb1e" ++
  "abad6c554b686def8d0f7e2ecd9e4eb6e1264b23296d6f3fd6aaf05d99884ffcae80b6512cda7b49995b66139363872f6231244fbdac843a426837c0c982c81d" ++
  "cbe33bd1b135f8f78fad45f5557e1a356373d818c6359535a05336dd3ce7343e9f79d1496936f39ad98d48b1bf93bbf425ee60bae0258f09f0b6837f6757268c" ++
  "9e8aab7408cfb466d8304ef77c433d53c4b476b8a8d9e81adeb06fca0048860f018674cd30dc2a85c2c806db597a600aced6587a810c54dcb194c3bf149b62f2" ++
  "174d3eb71c82292438207d5ea808e3ce133f4d5677848f5ff705d820dfc32231c014b7c23f8811b278cf3ca5c0dbc95a68cc25c8bc497dbcaf873ab3f085c907" ++
  "d77acfc9b0c5017ae02a441185b643eeec759f7b8a7bc2b0c674cc2c160bd26d09632b31224e03e32f7770a9f26fb41f8cd53c0945481f617fdebb0c34ab7956" ++
  "b5e13c2c0c0a0357691291ce3a8337695ceabb06061ba2d0a35bd095d93a549991c7f980b6894e9eb8f9152ef38423852ef8a5ddb36e60cb13138bee5c3afc86" ++
  "ddc38a04d2a0ad85daf7cdeab6832060291deb7c8b5fa1411ac70fe16c453dc539961d41d7c22ee1e0965a955c33b31878831d41b209c9a558ad400964b39dc0" ++
  "7b44ba61a5fc6d6f68c1a32f064da888bad6d71fdfc26fb98eb7de9908f4d881b9254aa83e53c68b19f2b020628cb586eaa7ff844f2ed1beb3c11bcda28ebda2" ++
  "66bf7d99e99504decd43ddaf24e990453eee46c7a3e58e6534e9af7b6e181f1dd5f7292e21cd4f43e3000bc23e2c747b47e5773862059d46a8ba3e201b644310"))

def items : List (U32 × String) := [
  (0x00206112, "" ++
    "dafc86c2cefdc18ef08f0e9733f0c9cf041fa2c0a9993e372529e309802950cfeb984cf9d26fb88720c50b14a5c49a883804b6725338383bcfd291aef24ddbba" ++
    "c55866940f0b39ae6bdfe832cc2dbfc979f2dbbf21bb0e6a4079e91795f7ef3e89f5bc3b682ef0eb381ba5cbc1627379b598d707aacfa79339654cd0c923b563" ++
    "cb2554b768182d41d18524f0bced61080520a91078838155e24dd9b90b1971781cc673c27ac14435dcbe50f47d5dec56c8f227f5625c01398ed86971702132d4" ++
    "e83e8d7500b0930c13e86633a5f2e5254e8c9d7d4dcad445616c23111385b033b6b8534319d0f3c4edf4ebc15ef22ac812e800cab146e2a0bb2d1dbe1035171d"),
  (0x001ca704, "" ++
    "8b0f78dc7471449eaadc1e6d8c3917506c4ac7f9493c14c9dce43c2d68965b13639b2994ce07f634d5910595e17acf4f71d02396a1742d99b96df3c4bd32d1d9" ++
    "bcfd00a87b503a536808d1e855d1fc19a3a58869a66ad499c60fe067ca95918355fb9593aa0b3dd2a0f5c0bdbfea6de034caa49c0b96e0a7b758428925646aec" ++
    "a4de41d5fc56dce3ccb8f57c317691ffa3186489e5fac66c668584f018c8c2128ea703537b312c018300bfaa79df39f425ca15e2e79a8b28da0fce3619172666" ++
    "28e7bfc5cf2488cf196cc841457d4729a8da5ce90033a19341427ba5e4dca76e67b05efe4a090a435e04bd6a09d1d798de11d17599cfbbde4eb1445c0336427e"),
  (0x000f8392, "" ++
    "d8e48c116957daaf9bd736db46aebb392e1ea8d50731bb8942e51de79634dcbf03e5498a7a9d99eb56c813361d599b5612b69843b58bb04b9d63fece6ee3cef7" ++
    "7e59582b8b822a2f8a304406cf4c295361588bc87884dc89802d29fd0fa3d8e7a920f7b75fd0ce92123f8b95fe22aeb56c61dbcafca6db7690f377936e7a88b4" ++
    "ab7629d0ca519b35867d2c178cbcba3338733b4e7dd9b8b7a549ad7b7f159dd69892ef136af672de2a2aa3e66bdcf410f7f3af9ecea79d0b4fdeea12b15deb20" ++
    "f327df975ffa51a2344ead2042b3cf5d4723f9d01eb01f7b60f306a0d545abb1752df414e9c77ff8bc1be426809b546bd941ae744fb42f8659d74d1583b83bcd"),
  (0x0030385d, "" ++
    "601cac11f946d298331c013fb7d702c57c0ad77b63c029d91b9288b04e7b64e1ea5c0268fe6f42fe34acb9035e9d4e17a0f78dbda7de344928f5941fe8270549" ++
    "aabe79f1429672e3b2fc7ae60ead8209bec6913db8e7c489ee84ca0017029e033008259ebab72796c548976198f5498baf329df0e5f5cba2d8ff796374b4f78c" ++
    "2b8faad90a1024f483e81b48dfac1363869ba1122525e5d962da49884e61f4a194fec956934472d843d23d7920bb5b8fb91444d9587ae9b53c8e0a8a3d76652d" ++
    "3cefa88877daa07139600678af5f4606e5b7876547cc05635fcd1af70e8be3829cdc21214f23d177d7454a6e4097f1791d2954564a6a7dfc167555de69b310e4"),
  (0x003e8553, "" ++
    "86b164c05e9f736176526777c36f967259887f46946e94be33ccbbebcf347a61c3800d7abb9718520bf132c7186a82f13158dd7a4b277465ec51393a301e4757" ++
    "afe8b5ae777b7e93f801061aece6494b95bc43e3b581f5b5176d6c195f8a441d891aa4f74ec21144f26b9dd09d1812f6b6a3740619cfcd848cb6e15c64e69102" ++
    "d7d9e5518ea20f5870b1f6ac6e4833c12264488fdcacb255690206b37e6ab8881b547903b1eb34628eab6e3dd709d1954dd68da9d65ba5a1e8b0cbd4834b09d7" ++
    "39367943e4f6ffd6d004d1baf0e1786c2a14ebe88650177da4f2ee757a44c533b4c2e5b22c0cefe8d65164f854501925293dba85fae7ad26fc00454fdb041a09"),
  (0x000de63f, "" ++
    "87c8b095d8ed50b4f744ab2f3734544da76f938b65455d2bc3754420c26f2da74c084902e352dab8393468e63ed98690eb301862209ebe601b12711af7ae5369" ++
    "556314c19f24dcd5afab4b000202b05cc60980304d1e8701fe19ca3984794d1019bc24c55cf17e9e6c85dd5a5331da8945ed93dd1159bad26a6c340aecf154cf" ++
    "46bc14f581e3f19ae17acbcdca9ed2ca5f4d76952fdd4124522866cde7c31568a16db89864e219c5f76a48beebfe72eb17381306e3ab42c0fc6884b9a5934502" ++
    "a4ec3d4bc1012d86b1e886a7de92456cbcef0ddc059d38a08eaa86cc1f7a0db6305ef8abbcce2bb2d6f16afad53a077cc4122bd837a1800952a97abc4106e968"),
  (0x001bab47, "" ++
    "cad16157ef0551e59304ee9c68a7c090afdbaaffc30619c07b38503fb9915b674e7b4f3bbf8170ea4d0c350c1f70645bd8b6f727e11303ae6e0dfbba9db56c07" ++
    "6a68a618fe4dd5695399964bc0244a9e8378a8c4c5108a285efbb98ed30817900f4eda1e9b2cb819e0dcf7d27ed76b99b66444309848d4e8c565416a4f3c2e35" ++
    "87d453517622a39e6c5cd72cdf849a84e4136af089f463dea2e6d5d761c4ead1b59b7e03748b45bce4014314bf9f237516477a361aedc21c0fd667085d95b4d1" ++
    "39392d377a7b27b93d2801a6500cfd45994ddf628b0b398a26adb6ca0b4f5ebbe62fa2a67f88f7293e2c64d587f67c3b2fd25e3a083a9f065ca940ec175ae7d1"),
  (0x003175c4, "" ++
    "83a18d625ccfa162b15e93c73c60dc14de8a923eca8c13bafd6f9f6150645f42b95ddffaff43482d9207db2bc13be0be16c887c7a56da384fe4299c133081c5f" ++
    "07615bfb4571afefe53878dc1e6cdf25885ee0f1a312b87729cef269f18c91fdad7c624180123143a4fd94ce6b5ee3bdf4c975d4a5f80a22f6c9d02cf444bddf" ++
    "0ca3ad5966843f473c5a668ce716f6db6091408ed4eecaa51fc0b90e7988c7384269431341f096ec45a7fef37abc9fe57eada16adec7a1dc250a6ce87390f04a" ++
    "e8cc22dc2b51d357b45a1737a79d8d726c808d8188de0579a79b4cd772061b3738458ee22fd33ba742a20b7a870c851500126405d1fbd8b2151be3b76d29ff5c"),
  (0x001e60e0, "" ++
    "6c216ee62f426115cc1e689c85701047c265d457870828f549459640ae2f69c02c7256b1de0d1cae161a74c724d3957edd4ed4b77e0182e0b213344488d0801e" ++
    "288b3380210a885ee5ab0e9abd6bdaa9ad94d158ebc80ab5589149b35b84cfff12fa1a4d5fb24dabc76432199af554e087493cde678b97f7a5ab0c55477afb28" ++
    "c9162df1d4f9b4fef1427585e26b79af841249dcffdc9ac51dd9e684b0e89bd18dabaec48d576de34278e8ae664d1f5f11113911bff70b94f68fc881c5cff551" ++
    "7618be915ffe6dc0897d24bea629ff059afcba25791ba31478d60fbcb7b0d128c54bbe4184716bd108ef3572225f6ca3d0709866f99b053d50c5559ed21370ab"),
  (0x000b447a, "" ++
    "7ec22a37d9076345329282b8ce982864da7c94f8e65f5366488ed8b466e8358e4dbbe1d1cce8b4d7620cf619000e8aef44c28f20fe0780276dd43fe2fdaff0eb" ++
    "4df8d0085b25c73bfb096c83304b43d7469fd27cf031dfcfaa021cc3be35d4b852b6536e9eb5f9510fb8f6a3e01b37d177e5845aa1b34d05b7130169afbb2f09" ++
    "bdb2b2f30c3879f2175c47595582f081c56fa165411ab91e509df77b26fe870ecf63e2cdd970d5dad185a943b269c19ebeba86e7a537539ee3cc0240f176ed95" ++
    "dc73daa3949dbd8a29eb2b542422b40bb0f736fedc8df7a1c8e0fd04f7183e8a75078519450a04de11fd2fa3dbb388fc5990fb35059e52694baa48a633934da3"),
  (0x0023f8aa, "" ++
    "1d5d90caf20d0cb07aaa4421ad4f8b3760271cc836752154dc5acb934f912b6a2fb7f69d5dc493c89c63157e62ca430199563b887594c9f0db8e380c1cdf948a" ++
    "932fe55acff5ca37cb2c41a8be9777a4bc17500b6d7ecf0aa0d9af1529a075f35d238716055ca1a5dfc76b66c525bb74b602c2d9ae2d9743e081f3e6d5380fae" ++
    "216f8757b328f6aa186c8aefd3c45479a5b1360667a879db87819b69deb57810c2574f7b32dd0506e3870a932522b08328a7221d8b7b3319e053b01c3ab811c3" ++
    "446dca05dee8082fd91a66d1826390896ef22b5c0eb04f537efdb64b25365ac549ec35238e8005bea4562f3fde7e43fac8c230b4001e060e9b295649422d1228"),
  (0x00317078, "" ++
    "d12cc56de461ff4479764eca1b71ebba54268a41c0ed210582c0810f268575e9e5e12a60e4774843311d61c3590dbd7059907fe4243b9da88b36f35aac69b7ab" ++
    "f8d1032e257e75d98a322dd7ef65cf5262be41a4f3366ab8d270b1a1c551b53b2f2c320ceb376102338e0bbcee52b99e0e4fbaf9dfa16c7b61cb8ff05db8fca8" ++
    "1129fd14c6427c1c98445143b2e3ae21909f585bd6a92fe1593051cbfb39abdde5219772f4baa295ee9bcfb6f04a5c35ecb49f0d57f04255d63358b06bec12de" ++
    "d54cc24279ac3a303055e8d3af027d6c08681a6412975a829a1d5d89479e288a87694f72072bed0dac80a9f4760d73194222fb978ad30a89e1ea89e9939f96f6"),
  (0x001922ba, "" ++
    "5853e385e0805b6d4acc6860f8fa6f93392a0912c5f1f8cdd86405b63014f1054d3a88518b244ff42a70b1fe01ab9900bc88ca19a40aaf7daae5d5cadaf7b593" ++
    "bcc443bda745526639e5745e84a37bddc613a2572a4ba493462b165ad0e4f926e79283462e9464806ca9aee73e1a6fce30dfccc11b95c879cc3cd731c461f31d" ++
    "dc37977822df4868a568f3a0a80a47c2095553d9902d060b5a97492c895e2821ddab9c87054b434232a14e5e3e1fc59dee99d029a84d3afc1c886f3ec52981bf" ++
    "c082f294f1abbf06b8d5ba9d01d7692269313b6b89e20ee01803b49e12ac1ebfedd9562a05eb7f29ad95e21738a9f0c0bd4a0eaca0c00fd1f8014f1c7680a6f3"),
  (0x002b423c, "" ++
    "1c0c8bb4040c5260f4b5a911b6259bfa5019bdcd3cfb767b240982b2c3cdfe527c445e5e2435ff27bc5b6d0f048facc25a9347d439806ee2ffe1308c25dd043d" ++
    "1475935ad5d7d04a37d18d3197c6268ff5b172519074babc32e7590b1adbd10335c936c2564d7206a5775334cb6bcb514caeda2cba4d4b8b8d6f456a75b209a2" ++
    "857e7e3933249621f6450221df1d977b15ffd77ef568937dd8122b3f4dbadb83141d73ddf32da861717b9cfc49de02fc7656985087614ac20fc463b922ebf161" ++
    "6931aa9d6e8e5bf662546c36862f84b589f1c2d4ea635c2fd6527123e63455469ce0adca2e963c5360015464a140bb8e0660990f64bf9183edeb6a117fcf19a9"),
  (0x000b9599, "" ++
    "15c4f7d6606715eccb38ae26342a07eeed42dd9d6193069ecd03dcbdcdc1f3da096edeb6136307c1702fed5f3177a3349ed627bba6a264935f2c789bfe335bd9" ++
    "c602b683ec57cdbb41114d76e0a2295b447090480bd7660fe52aaa88aaa810ed37f0ce6b93ac1c82bc0021562ea45bcd2bbdb5e002c849ca608473352e334ce9" ++
    "a179eb422410ff3b3f50b479c8657b94e628e444b2b7ff4093ae93e0947dca5de89b60006b279b6427c54135a93bfe73a47f2fc974c6df0b497d3c3ab569a0ff" ++
    "f5dc121e870393d3965bf71166ade121840405e0f18f07a8c3438b90e92b8741ca5b86643df148d3facbe6d1432a1810c7eef8c527ab9c12eaa093fa0eaa7182"),
  (0x0001afe0, "" ++
    "6686657fc2229e8179f2b470ab2beb9e292aa73f101ee347a8aa86513ed663574dd29153d70022e6603fd609b45a1bf938b1ccd7205c84ed66f701e46964a508" ++
    "f0fadcc3dab0167fa2d36eb04a83de255421d74bfc693e51211e678704e7db67e89c00d1f9e11520ee60ec55290c5531477bde164d93b2b31595bfd93ad54dc6" ++
    "5ce6a43c26100477edceef6d4a4003862231c1c4fd0865f030eee5a77a1098b0a5b6a1f265a0934685751a293c3bb65c0e1f20e40db8b0589725dbbfcb1f9156" ++
    "ca62358604cd33659017190e2bebf5bbcb6c5f61931563c8bee68589dcd1bf81720a2ff78edaf17be2129d782ed11241f917bffaad1a707818a1ecb25b440ecf"),
  (0x00218829, "" ++
    "e43194c0b49fc1479877e86bd05054739c6b650ea367457fb50afc051d5d06c08a2363088ba21ef5a05ebc2bb8284de05c87b4216574c2baca08d8edc0bed754" ++
    "6d4b3e0cffce8dc585cbc7ac45eacf8d7fbfc8c6178ee41d1a07a38753a4e363879d66ff5a27fb0db11b3a6b866648a8a55796e100dd4214e4a488dfc8c72e3e" ++
    "40197980cf52b3c5cd033baf7786127bc5fbba822425bff55b20fbe59c8fd969d64cfb91fe966d3dea6b461f497b7818beef9e887cfb2b78f2227e800d9030dd" ++
    "bbc4f3390991232584881698fae513ccb5765da1738a157b1b083bc4368daf2572ec2f3f621fce011b36ce34be0155e73ce5501f45ad8ce1a7f3d92c0b97e0bd"),
  (0x001e42c6, "" ++
    "a8fce1c88d1da43b153ff1b086d0afbaba7ce0b0f195e41529aa1981f75e2989c2bbcbcfb6ab8407854a8a487531d75da2904990bc93ca97d7c8933f1828fceb" ++
    "fc5b2d7fa42ecc547854a2cc193a6a8f74faa873f17c60c41f9f46e75eeca41cf8db31df736852d3a19f892ee70d3d5edb5958462cc128b064a14d0c3ce213fa" ++
    "75065980ce77290da008a8476719fdcdf4466c979f6102d5929f536064475b91987d81a53439207609c786da96d49c1e17e932dd966333b801a6340788251e79" ++
    "296e7ec68dd58e05a23bd8ad2b19e8d7ffedff2a35563512e0df7b38ddccf3bdda1e8bccbe59950d857c264070790f674be2423cd6764b2ed01153727818f819"),
  (0x003a998e, "" ++
    "642609500dcf3fa33c5f3f70be46396716821de22ae83b2bf025486d1e55ca01284d266a53b7b3ecad6427719dc3e42c87a8ce10e5dacaae619f86f72f6d54a6" ++
    "92e27bce9738e503ad6200235d7d2a0b7a62644e3d0ebafafe1a40382ea5594f38b2d403d174df0f300827497e927c09e987cd96b9973271fe7159cd95401edc" ++
    "1e986f13da788028377596dc0066a9cb02366174360d9deee16a3ed66a6944762924ca3f32af3507a734c57f5d0cabbad5056af1884041910dbde2bc9e1592d3" ++
    "a47badbb2c254a3aff22275255114744ebbd090f82c1e36f2489e2a9b1f91737f49f99f1a847c961b7953cff988b0f51c0c528f964603a5b57e1ecb72938bf50"),
  (0x00265309, "" ++
    "566c54b0f96cccb4a1e1d22c52632ec0998c9efb2dc57567b84c906c6b460bcb299705ca12425dff61b0a2e1fef4d5aebec257b6486c32ee043da077922600a3" ++
    "7f82afb093bc574271001e3506b6dcdb08d787055f653dc875bc4020364c4c126df8c3ae2416bd31589a7137c73e577fb42170c4b5e46521fa753bff7c4920a5" ++
    "a212ecaf5f9dd89461222815b4052997e611ce34430edd5039e38afccfd5c79677acc8878c550300b12341992638e25051dece76e86bfc84891dcdf109af68b4" ++
    "5b4ba0188ce7f27abdf0681ed1e433b41b9c99d8295e1661e9d2ece13e9758e8588c09d3047e3c97eb0d99ac659802076259bc6a6dd1f1abeea369e3fddc2b16"),
  (0x002be3ef, "" ++
    "a5ac124a2a4db992c3a9cf9d410dda44be4a54b452ccaa9ca7bcb7a54aa47187bf2b31b6b1f71767a35cae7d6da6a1d027b80d498e863752f8fb46610bc00f88" ++
    "120ef22ca50935042fe2d4daf013da69717eeb04ae18f99ccbb749ae5aa5da5a270ed39031b89c002f300fba415ca918e83f5d7d0b347eeebf69776747a8885c" ++
    "bc4f7784365d94a442d5f62cc1c64d1be7e062ff76fd79f73dbcd49709d4df1fdbb0bb00bd5034236f076fb1917d59eedd3202e8bbe11a11113fd04132b012b4" ++
    "e778fc3cba9d77c0420727d9c6a10a16c4ff239061d926661b0efc6ea42df27cf0d39b607caab448f146978756da066581ea11c2a75d82dfc6ff0bcaad29eb07"),
  (0x001f0d49, "" ++
    "2fde5ec087e56622acfeec464879d5428faeb662fec064bd76995d9be0c5c5525289719fb10d67b03d55b1491b6916820c2d2694374e6895c1780b8b84852395" ++
    "5ddbc31ef70934de73a5180f307eba8efa908c265530917359e63aeab880bf7c28cbc7d05232f07f9b58687ef52e955555564eff42bf9c9a7b450840ab1d6d12" ++
    "4848486086b974da2a6d25371438401563399ddc80f073992af129b8b9c52a36360d23af03aa905bb8a83614e9dee11e1a9500fe10ac155843f6fed2c1aa8ba9" ++
    "22ba5b8f2059e06b4faad044a49753472e32d621ca4c3892100b492521c4f1e062d0178c0c7c4c2acf38e31030b2a89a29782ca25d95e3c60b2f5782ffd9fe9e"),
  (0x002e60e9, "" ++
    "dde2deaa289288887b6cd77de13c1575ce08244bd1048211a59beecb8f50c505a28228edc53cb42f827931fcdd3320b2707399b5ee069390ae8c87b52aa476fb" ++
    "c636e565509fe50a15fff51fee70d6e07c45233f54db53f87b5ec7add51f12c4fbb8765fbcf9b9134501aab475f3f13769c03c39feed66d854e3429ed3d3739b" ++
    "6073d3029c571a75cb3c423d4c78e2f08804f8153f098bd21902d17f510d03d894da4bdf5550a893a229a4d5d70e4bda6bfaa3f5c71a70c6a15316a3d9f99f5f" ++
    "82af687efe40b83ade89055055bca9b4f823f04d73e88325ff8dee296f1e276fcdaefccb180c950476a60068864cdd3c42f6428ef4279dbe9dd3d2712976800b"),
  (0x002bef86, "" ++
    "2ad53cb11c1da7da8a9a6b849c06f350122afe8da243361fe5ff8c3e8d476454c2d588445534282b9d6b49fe69f2d8e94e9cf49280dbaf59204b53cabf042bb5" ++
    "aa644c3a88673b45d131114bb1d806b9fe8d09dd4076b0ef3ca1934a00358b8d5f07ce3a581abbc6e4642201f0d7cb0df49a99709147e6e724162f90e9dc86eb" ++
    "253e6fb9b4275311359ab4c77089bdc426d03914601a53bfe17f5bd7795d1387a105232eb749941bfacb1067f08c058b70aa8b9ab332459e6cc031b00ce92a30" ++
    "48b7cea9908ccb742f40e85f074f786b7f36be261f5c1bb4796b260d487e09023fe36560fd50a7d42349688c693b988fd45655bb8aa4b34b54f11caa83bb82d4"),
  (0x00210177, "" ++
    "ebfd3b168ae67b8f8c2a4e78896e0767c4aa435c1319dcf1abaacc11cccce2682b91ad186d13b4e01fe1dda1cc6ebd5a9eb1d80d2f5f1353186fc84f466a24ce" ++
    "2d0f89627aa60314dc164e496dd1053296d814118b6c551b22040da3fe46e1a55018fa179ed9d837515471932bc3702220182062a6cde1ad0f9ffb5125cbbc95" ++
    "c771a938dbbbbc0ba7e6a55917dcb0c3ca76cfb4741a32f2d2f528faa3978c983888fa48afb443bca3b0951f5f1fe7820040d9f2ce01ea6afd2aeda310ab055c" ++
    "3a81de5f022ad939fb1bef4fd64dab3340799fa28aa5d0123496dbda9046cfafdcdb738e7fc660e8f031e413a35cb9184ace850ed6838fbb4a1074bb0d0802c3"),
  (0x001574f3, "" ++
    "7f3dd5a5ff55a65f5cd473d3fcf8cebbe2b3d8d9d62a5ea66ef72f42c24f11921c6beb24da6795b3629b32825e57d49de8f432a2eed70d8217e0dca6d2efa9be" ++
    "e026f682e74e4c8b4ca5171afe7c6aa2785cb76077c90044c64517e423683f2f4ccbd74f63f75aa1f5b142afd8d2aa96a658ffad982d78faf129f4ce6ee64fce" ++
    "e72a11aa2c30e1286539d2d6f3253e4e4caca3b383e0a168b2fa2b5088f3471bef425f8e0d056ec9981e256cc5a60614e77310217d143e2d3ea375a7b96ab053" ++
    "23d8a90e85ed3a1616533774b92c78e7dfe7c3956e9a9e4a6a02eb5df7f1576b82a3c60c175a8b693199f745c42d8004dea859c113c1282519c9db02ac602a3d"),
  (0x0037dba5, "" ++
    "ba213ce234a9cd8fb6c378651e423e718bdda54b447611469d4cf77c8114d41b1ff385ece52140dbf5088d350a2e31b5cab997c4abb226e373dca9154819601a" ++
    "6faa3997636d27234b061adee5bce0bb9b91a6e16385bf66bbc4981480dd104b46b6f83b6a2e44488c475fbe7b8e19bea1611f85e2a3b0d935f5919d681d8ca3" ++
    "b247bb9b3bcd4f2331cffce5f9a70b73002f8bc9d7a51ab969db5d04faa6bb78a51e28c5d7c3bf623102387cedb0930957d90f2b416520ca0d956773303f19b5" ++
    "abf2e5d156ce0979cd2e80f428090dbd7cc8937e9ea072eb81d45a726c073b8ea56354fd928951ae46284d35316956d0e7c9f5dd7b013405981d7663b56a3276"),
  (0x0002aa8b, "" ++
    "2b558e3ac31b05cf65e7a28ba411a5303746a7a73a2dfa97fd7334f41f014a14890e088467b405f5c63111c1c7b2db218a415119f4cbdd64b4a89080760d8d1a" ++
    "382181081fd87e0944e93a71f5a0b9f07e288d68c21caf60a519000f2af1820f4b54a18e5f142b2b331fd754a97d8e0c07edc07b75a9fcabb77b22f2b1ea7be7" ++
    "81b88e6c0741510c5c1a3c1eab3b778e3a615fe4de74685547d9d240643669807e4269db42f6af89dae5f57ad58e257b1b45c086d0e4cbf7ac40dafbdfcc5aeb" ++
    "ae026cd2148df3e9b4b3689380c50d2d49b5e1950dacd306388609d2292edea3c7792fcedd97c71a8ea0ca74d28172f20c38a2524cb138b8338d2dc13220da67"),
  (0x003dab99, "" ++
    "5e6434fb4e158ed6e370a67dae9f0c1674b7f8fd74791a212f7d746b78a373dbcb3108eb0d77d250cd1c99142ae10f406620c64c6e9ff0887d1ec4b60906819f" ++
    "36ae9942d2fac2cad7d555c99c59f6e0c0caad8f6728eb702b519d850b6c52609b83c60824843963ba6004894aaeb022ed7c82b98d4b66f381aea15eaa25e4a9" ++
    "67ca2158e3e3209212150f07b0d51754ebaa820484a9b48503130f845772eb7f8d93e6df8da8cda860c52ac0a5c3aff384be96af5606bc3a54b1856abd0de110" ++
    "61516ebb167b6090535f1febf26c4a7fa39874530957642ccb6fcf7e080cca26d4965f538e4f0b4542c35e0590298b8b507e0c218a25465ebeaccb6ca013c99b"),
  (0x002800dd, "" ++
    "eab745a9589ffad9da3129df339b817dc917df7e8a89fa26a8ff9c569144025212f8065dd9eb55f3d7f18b5374f4eae343f49a1f09f694cd500a6f54164d344c" ++
    "0b47ed2ddc407c978afc95bfa96647ee973125c87d82ce02bd44befa4f4352e1e256aae8b13522860e847d10d603d8f85ef24a5683e280207ff7c819071d7bc0" ++
    "a6285b9df5924f97d2893d37ab8b4f188bcbb8ebfaa4ba67facf6abfb6adca00ecad46764faf8780dd595b4f4894036bd2f399c14e6404f21d968c2f32399e41" ++
    "c46afd194d17eab96275095773da77168efcf04cbb68b07676969873a9ebb8686a3cb5697d7d9e8bf09f51b9783da79ebc5f3c5af21fe80409c0023faf2af8ca"),
  (0x003b8f3c, "" ++
    "5db725712087503fe100ae7e0c76e89f0e7576025af4b0e7570096c5067961e75a41bef61ab2db73a5327612f89721becd862b9e0c5c7c5633b43b7fbe481b0f" ++
    "99bc145192e2f6d3229d06b0bc22050b079096b4fd244267d9df99e80c4f5e5aea270ecc00c4a8123136ac8f66ab4e12992f639088a37b7619c50504217fee63" ++
    "fc2b51c0da9ea2e50b390b8d9c648d47804e06494a40533abac2c71aa9e89c1ca36603de8fa8ccf5f693b0d6dddc72c7cdb410a9dd85f5086b8e806658cd15b6" ++
    "f8217e1224be5295b5af1ceef971e08605617a16c3a4c569cae1ab24205270b29384e3dab8c370931a221098bb78032634ceb119b6c03eed9bb4f7166e277a77"),
  (0x000455c0, "" ++
    "9b661717abf5facf6139a23406465b12a7e18c2f3112278543b2b0012579636655c792cc93c21e7bc5019e5689ec3f7599809e99c038924d393e64c5a4ae97ca" ++
    "524243d4e6da1d047a9264240fcf2fb29acafd4fe8b0ec0f860f3b7385cc79558b94bad7c40b330bf3dffe8a10125f3b0a1df6a0531d2cc7b50621f204d906af" ++
    "3c0e624e6e06563584b5872204ffb955eaefd1d326b2bccc6b0ac8afafca3e1a06b5eae76e902e149c612fe07b5bdcaecf792f9a38077de261e2de2cb6c16e83" ++
    "a39fe9f05b3073998b4a7d4872d1816c0cbcca2072aa6432dad6d5f27d8ac42a8585521943d1e1363b552d16d37f509ecfa0a0fb733a976f8f53c8f46b0a7d26"),
  (0x0022c63b, "" ++
    "8419962f8f5b6ff0675c9fbf5dc4461ef91d4c91f9f8538a9cedf5e3c2cfcd947a028ab04e94c7b3c7594532bebb680c6e322fc8851ba699c38f3ac60ff2e08b" ++
    "3d29ca7eb1ed8d80bc499288fcf7c4e7181d79f7c6061222fdbfc8373e16284f061a48a6ae8a7491171a065ce826e8b52951d24d826d29b45b585f2cffa65bf3" ++
    "ec912c576fa66e2561bc3a42b6e26b57a78e38e7fc8244fd5c639ab4746435d3d179f407899c7dafe7b8e8ce4cc0ee6bee22eace98ea71aa7acaa1abd86698f8" ++
    "3fc69209038825c0799a17aa637d0844a350b1aa16e06c5a955b58fefeb16d05b8b47d6f75e089cf6fed1d5e5fdd6124a7ef6522ba156b71ca2a1306affec86c"),
  (0x00031e26, "" ++
    "9bb50120cc5fd079caeac635cc0259a7d48407edab6f7ad74b42330dc844207b1a44946aae01264fa43efde0c5a5f10233ed4000510d40468050bca65475bef9" ++
    "82edca59e15d7df4a8c5eb8bd3f08fe482b6acd7514729826e54c136c08260558c778be2bc000e6aa838d6cf54e20e699422d42409d3874ab6f7a4d6225088a5" ++
    "a2814f69500e6677b4a54be842906675fe5209c40a34c8aa995756300e80e1fa6431a4eebaac482684fe04b343dfaa328459d372e052df7ab655a8504e9768db" ++
    "b46bee8fa45ba227bc532cb6b538d19130fa7ba5782af84242b6fd88c2ba15dd6f14299719ab58963c92f95b046b204ce1b3fd1c587ea621b9d28489bb1481a3"),
  (0x0012e5ec, "" ++
    "f5f8eec6ebb9b225898433dc2ff2cbfef281c65742a42a9196f41d3ca53af4c016af32ee48358af68555c558f41fe85cd12238259d111f4b0a08ab7a85201ace" ++
    "9864e96934789a618b8adda8848fb10e1c3548ed7d7b40bd1842e3c4d9b7b8f4858b13cd2a0d2a89f6124281af1e7d2325d42338d80b3137dcdec62b7cd5b6e9" ++
    "84e7c85deba26dab1aff9384d62e2bb84d1d021e190fed50af42a0660cf347d9edba8873576f3b8d5a80859ffc36817a9a30a007a776e423322af0ca1b5e90d0" ++
    "3234d289705f02180c805d9db2030ba36100773493fc37108f59ae1c0a83ac6d4325120a6d95b1df951953ecae48151b3755e376c98bf2c79809f9f22b0d7514"),
  (0x001dd1a2, "" ++
    "5a5690b8d72cdb514ed3214494e6685106e3811a1a668a5653ed364b08f05513ae822c50220e898a2a795e777fde61699ad5774bd16993b661001b8530454d6a" ++
    "435af1818c01fa111c24e771f550b3a8813cefb91254fbcab7e21de4b14933b19f27c1dab239e2069cc1b816076bc614ed91485006e92b8cbf7cf8df21cbf85f" ++
    "29bf82be3e27d83eb15ec83a7180d0b8bf34126b100e1f9534b1c5772dbf5741a63319b1b039b62e60a40ed6b4d5197d5212bdea0e79903982a8d39b71c4b490" ++
    "4bf7e488ae197e3572cd08807d6c2755dab823315a592096fc15863200b1e4bf70843a63b7bc8c4ffe72fef85b5f1c631f1bdb888db3aaf7a4c52b5e69379bda"),
  (0x00371aba, "" ++
    "55ff4e63401e5432c8b94e2d71e19cf4df011836daf4b4c3e0e5ab324fc662e280c6c2c2cd59513e35ad8f9164ad3579ce8a39c5ab1004ae37316fcae81f69d8" ++
    "b3fc3ad86e38ce30d1bd60494b56f040cc10694ccb40685ca73b811941275c82162065f3d32b97e108bc0d1347adc17154c1f93c0a967916f7144ed422226062" ++
    "3a9e69dc910ff3cae5a0a19a016f45e2d5b4624b33bf5a366b9219600552287640a67c963033a46b4bc3721a90082954a2fede4309a0be84318883e1ba1a501c" ++
    "852e428bb9db8614e874fcc4707eea9e54b54a8a0621b9f05defc344bb3685eb5ee368a29d6485f10a91e9fea2c43c9a4889d4ad54cf56800f5f2f9e4c204c8a"),
  (0x0016a68c, "" ++
    "5d2db195cbf6a0c1bd22e5c4c5e187fc36fd4855b6d26a653e60b9a48e835381e4eb47e5d49908602eb716ecf765c374abd06fda07e06e7f9d2077907f99ffb5" ++
    "a1ee540277e9a162bd9e16673e123c697f27f322d860300c9ab69ddfaa907dd46c588c0f2ca86c0ee81e4b79bb5ea3f3baadd3eaeed4e24371d29a7d37807388" ++
    "ab69deaf18a3f1e6654c275498eaed53533aeba756a2392081094b479ee4752274f05f1416c9a4f2d0f7c00e324dd064b317d21e9e32fd302acf859efd66a674" ++
    "45a0d9c7cf3ce3f16cf7f44d451718b376054ecf81241b96573f53ef768e4a55cfe750c85db8d347ad4512006d85e607aa6134f315ddd838c402f6ff0730ccbc"),
  (0x003ca0b5, "" ++
    "faf663dec62db3fd6baa40f057ae88fa1102f0594187a71cd6210c22f6e66a38d88a77483390ae2812bec75fc176c6d073ba98ea44e06e4360a0a9d8c380c725" ++
    "2af9c6794a1361c9294237ce3c5da4891e940935e98fb588946a3c800620e326a2e630bbfd452bdfc1f8153717e7b63f8a82c1f059f065d292aff54470901e58" ++
    "87b0d901a0476a9f0def25944863a57c812e09daf0871fe1a7c8116a0a0fbd554ebbe66359d601135ca24891a4388d320decf6387b36c8e325b307dc7b32d33e" ++
    "c8527f67e5265be81aa6d9f027a05bcfafee690c110942ff23552a9f9b5b0c6cce067ed42f582aa01ac883df7824649edd7bb39c8105398ed444b1d7ebeb7f34"),
  (0x001d576b, "" ++
    "711fe51ef36f69ff6f2594e38101f655e1c917bf5598e113c42a95a6a96cbf5e18703e5c0da5b8d14708fb566046d4684f1bb097e7562135506fae2cef53d256" ++
    "1571690fd6ee4b4edb6f4352a9710d0d8d1f9edd3f5c12baf6e1bc1c629eed6ee35a4c107d4177e8de997b0fad023579aa3ac8b5268b8d02487bc72d8e93cc4c" ++
    "ba8b49b66847b361a230532021c8d30b7215d08b2894dee9da849606b6a2fd558a918155d39470ec29decf79e23425cb366ae50bec9788b40b375e51b20e2322" ++
    "0187201dda81232136da92a297d174f317ef7a228e932adfb778bf5e7988b570d78064d74c1f1beafbfb683db3dcfd0a3de895e56ce0e3b94879ab61f4e01175"),
  (0x004044cc, "" ++
    "f7e93b8774407cc122005830368c7d4a20b4dc7d19710554f65979feb7069f7143a33f5827c92625f7db6195520b4d8ff757c2bf31bde9ec88c9b2de9ece4602" ++
    "3de012aa4bd2b7174500c612d478232d9e65c78765ffd31dc5c46d26c51d07fcf328dc3bff010a4074c0865cb379ee46e02389945670c361302b0bd26015e7a1" ++
    "1124761671e44dfe6984a3cbf91c72e73df7b4060817b8df6b018adac438cb4f64a1e0c3c4b60c38caeef0705cd4a2208c183e7515e82c80af6e73a498637e1f" ++
    "79cd13dc489575b139e550185290d640f9f09cea8a9be5eed6d9a2b803737a02e39289e75c963c5bcc43e179313f7981c439e125fd83037473dfbe8b45868344"),
  (0x001c9f0a, "" ++
    "0382fe244b40deca9ef55d76dccd67d3d9d9df0244a9a2b639af24a959dcccf659175ca858274f8c08777c81c94ac20ac68b0d6f2c8b423dcb9b357a0e9fdb79" ++
    "da0aa84929fba85c3374c4bd70aadf4161a1314a37356903ae9d797abfe45ec9743d45697e5518ee9459daa87e7cf628f8e6768982cbe4029d81064c6122b8c0" ++
    "6031eed66c4e10360bc26ee46238caa3abfaa2157dc86f2e52d2ceba475dcad71b439a604e251807c7b58bb8f5e24928c28d29c366ca5ae2eeff91413e4cb4ef" ++
    "3a5c4fbd80dab3e4567114b11889022a8f6473dcd06c0bfdc3f6583bcfc17acc3be4250217c947960be39ed9cce71f6a9015b9d514d940042f7a5e877bc0febd"),
  (0x001509f0, "" ++
    "ecb4f243cb9134dd6194fcf8f37e132b6ff95179c3a5a54e28d6dfc8434fce557da909f45330bdf8c767bd34f89a91c5448adf569f6e07b356c92f39cd8e8928" ++
    "9a84c859da638836575c3fae0a3b8eebfdcd897e6e7911bd4adcb9dd245e46d38e0506252eea1911c73fb353502a63de681ccab024ba8320a78a42889fc9b2a2" ++
    "23e77f42218e2cb02d99e8471ccf1fe95d2683919a17ab981b9975bfcefb39c7fb27b5749cd05ae2cea60e1035a35afe7d18cf3d1adef4ae4a0666922dbfe66c" ++
    "934eddcdf656967382e8f5c5d4225e52aa2206b1f5a8c189109a54c9f764797c2da5ba994e07354faa61bdb81f995cfb147180224772ae33139e73860ebd0532"),
  (0x001f1cd2, "" ++
    "c8eaf301967506982ce07a84c9a4cb10118e47743a625da49e3eefa607092f44cb0af239d8ad17aca84cd840e505ce78c0f705f93659808c696dd86a4caacd27" ++
    "b79e7c0ec929a3c0092340dd85e6ed0bb414c99f2e4000390a764e372f9210b996f48c43d9f3cf30510d46cfedc628ebf6fa1047864fdcdc4d0917bf3189d31e" ++
    "0dc454275f984e31862af29c224ef7c54cbac624faa740eb44aca3d0ca544846e4e39f277117b359f728b7fb534cf12606ab692f3248cdbaa5d65f3054b7a0a8" ++
    "a12d97ef7f9831ba2419274e19ef651fe38c3290569687a1a21768702d7be1342cabf3e3afe9d4ed5485727ec39b756aefa2534905aca1c6a660545a334dadc0"),
  (0x002c3aaf, "" ++
    "6de43f5b06c4ff464134c056a96491901f01abe75653e26c5e4cc723be43628751e787bf5ad7c1fa9573999882c1d8fe9dcc94e8b6a74554f7eb3afab22d8ad5" ++
    "d3dc06a92824aff607be9d23866cb99864f084848cfaf236c3cb35acf53494d338282638e8f03ecc62bca93a47519990d626c41d22b471ceeecc6ce7a98cffd5" ++
    "606f4fc5c396612a42d2f998f906e5ad929e272aea565c82359d00067e295bf80f7b26a8910029d5b36c87f5161a8431dabc9773132ce00b081f17bc1d0780d5" ++
    "7f13345fe0ea9f23531d9dc80b147db53ede680e1cc9970272dcb254598540363a66b599a5181326bcd785226f817bf5087dcd4237a80cd811aae705b285bb30"),
  (0x000ec061, "" ++
    "f0c71fdf7921ab5ae0394c92703c5ddafdb958ceb488a6bd5839435fd20a36ca79a6c299d10930acb049c43156673cd766f25df258f71db6346fd3a7160a0b0a" ++
    "7b098ce458e6dd53f5e351b984689472b09142b750042cbc5102002daf56e89b4462c1e0e62d81aa2db96897b21d9796ddac1d4dfd4e296e2d718d56a5e3c3ea" ++
    "74677bc2bb4fe28fd8f9151f70cd40d233c15cc1c3476e1c7cc08124d8fb2a682b2fbd71f207ef24ab33d83a1f7e2db5b75daf52949995c79b24b7b6711578ad" ++
    "9135c312e3a6cb717a2636550a955cd264199894a0bbf3336d60e26339c44f5208b18ae2a34a6269d3b12ebad0901ce21ac4e21b7e73eff4f9b188cf2fffcd32"),
  (0x001bc2dc, "" ++
    "4b19d359d36d74841431db05b99438ae958a9caefafd1461529daa54ec0379b806c0481478c13359a0763a164299b5c68262da4e71525d0e24955fa8fcb4bd85" ++
    "a96e2659d946993a34b09e92cda18eb2085fe1ba1d8c040cf697e2429518f3543e48706f54a6880a0fd03e5bd92cab4fb1353b1dfeff9e0b49686bcb010d70d3" ++
    "ba6c8cb21dd11b0f377e0c2b53bb16d2b43a2222553f4f5a4c4e873459d2cfc28456d6599fdc4c1f7832ccd379fe52cdcdeaade50d0ff5619aa9d8240e5faf6f" ++
    "e0544f9e234160d96db9b6d328b8aa472bd77c12fcd77628238e2773cdfae0209236b89f9fdc2369c42448ee7567eda8c29b377fef75419ed20f5684e337321e"),
  (0x002e8d6f, "" ++
    "b9ae3ae8947decae7ae896903df1e49764b3702520465c2d5747ec0a10d1fcaf39e5e4394c3126702afa56ebf7317269f040fd0832eab7cea7a851381ed610c1" ++
    "5a37bb599373eae61fa71aee51ae6c9e0be10ba4182b7856cdb5cdef58f9bcca35376ef186e8a1d93458e1228be182e1bf52de35c7a8c7fd4f7150c4508a336e" ++
    "fe81fed3b42a32423a1d6247abfceac465a9a9cd0860832fc32c932baf5137df320aed8d8676ed826fa7059cab3e09fd5e9fc3656acb254a7c2ff34a18ca7352" ++
    "e6a5b5ab7a0feffdc06531017cdb0b7efe7dc4179133cad61fb5a90ef358de30d92a39c0c27afd6d9405bf0014e7da3b99443c1e66963675127871f5254092d8"),
  (0x00139b41, "" ++
    "a64f9b33845322e3e3909899f8a1fecd15af85566054521b0566b51e19dfa2225daf6cf74fef27857d1dc6da0010a8609913abdfa66c1c05d820e1fac4b50045" ++
    "3e471afb1b75f98f5fde9781c8f160083751dedef86f0c9d469e241ff5478cf9e9671227a77d6f17337dcdbd17d1404160cc9191fa5db4941841505aac5996de" ++
    "be06915a226ca54408bfb1a1b9341edd9ba1c1ce2525a307a0bd61364eabc65c02f18b6e8a53dadfd76a43298ff7f9c26ceea89b251213bfe686b542fb10f63a" ++
    "d46c87b849b9d9a66648b20aeb4987077f330161837653f88f3e1915db79dcd3da422312523b868659ed93327fbde58a3e701b775b19259ae70562e8e5be8e8f"),
  (0x0007fd7a, "" ++
    "674621671dcdc3644166165758dd229944b02ba088b8284a00e3a2669fe4418e17e2d831350029bd79bb8004ee1852be3ea41c940a66b4aab980ca9ed777a2ec" ++
    "b08ee7cadd3b649e2f081c041fca9eb18bc97d1c46e4c523c6736d26ee199ffa6e2f00579ee3c1282d63b5bf6b4867bba3acfab692decd4e5d0719e09f7c119a" ++
    "0e2b4afad2b26159d7b03ce9b376301f7ebe2f71f044c33a5da33d88387ada2743d6a6fae395e82cd50d7f28f3f6d1c3194bf84d634994ba9c82e236be2f57d0" ++
    "98a288e26766c7793e7ed4af6032169c899a582f020189b012fd5ff353db573b85a3ba4ba3cf592426b141b6a275a198b8a49e9d932698994905eed69d6bd4ff"),
  (0x003cb0a3, "" ++
    "b702df846702e6d3f697206170a6d1cdcd23deac4ad2e13f9a36dddc8b3c63cec8fb6945838a9fc7fa3d860a6c55eda6ca9404a392086f46089318d243aad35a" ++
    "d97239bb2efdd5d0728fc8cee9c47820904cf758bc0ea7820710b242277f9026018ac9b833e11023486045b8f195a2cd2fba2b8a49a329ce75ad08d9ba5e1f85" ++
    "6b4d70210d21096b4ea88adf2e61fc5d77b13479ce3203f79c6cb826ccc8d3e3d449d85838262c0ec25fdd5e1d3a02f83618c97d0251982a1dac650d25d2af00" ++
    "c3a9172dab549ccf5317b713bed6599f03d1d05c9e00692446cf87fae2a7ce0953569f0c149da349b48a892cd4f7411ae2d42d59ccaabef458a054c397a2bdb3"),
  (0x001e8af5, "" ++
    "3561ccd4e4b70afb427137eb632ea26d45c306b967d4524318d274bae42713ed666a4ea859fb2dcc4cbb93cb1e19ffb3fe911db485c0ee78f268968de34bc27d" ++
    "b30044229990661018616889b8afd36f0927f2645892dc6b430163c65cf584d39f86837df623d66b814a35af280edef6cd96f614d69f561c256ba6c9a27922a8" ++
    "fc44b103a28af72be9cf64a524370cf7564c5deb5afb258dd0082d64df350504bf1e3a22afbba9697e9ceaed320de4c97c907bd9daf2588176c00afca10a41e6" ++
    "543f70b1f4e8701546c328fe9501e84b3662af4776f75d2bccad135b5d361e129974672f28a1af0918c8c8839497e89e8705efdb4f1ffc38c0a5ec33871e59bc"),
  (0x00301672, "" ++
    "4b24156f3eaffe0222a3465a4a26ac916993ab9fbfcbed158a02abc93e53b710d434e800f80f37974cb907c8c9e9c84f708b5491c59e8021b455e0123ad409b7" ++
    "fe586da01ead00350e6642a17d4886fa3f8f6a3d17d3ff44822bbd895bfaa1d0f39e5cbef04f4f52ee0c77c1db6453b15bf1bfb3e3d7e005c1796d4c7d91fff2" ++
    "091e623f0fafea36e7e1d12c15a10f5fb4a32f4a184ebad30b29fa58bb437668a55d565e5696a70de00039799e781b29b3c220cc6e3a21d5b27df7e7e7715cff" ++
    "795c8056aefa0d6281c3260309c9d9bb3cc3cdea7c9b9aaa1267f4469921c9574529989a7dcee5e7f8e9b3daa6825d967175c217ad6d25e0ab53b9e869840dce"),
  (0x00073b37, "" ++
    "b1d43c472119ca53a36e9af1518aac12742f4f7716d45f12b290f2c8bb08433981f6ce8c9c0b998522d64fd19f564ad24b2389ce7119dbe0ca64909f79451c13" ++
    "67f3a9b1a36174f8e929d5ed6c3e7a2c0a5f375e1dfd1bf460e8fedd937077335c01c9c2e51b7e3feddf051bad0f719e6aa21d4f615facdf404bfd00d1136b95" ++
    "a1f05636e4ab3f30a0b011b8baf1ba5dbbe954de82d7b9ddeb92de68b79126f04da5f92c8c9c6b4bef72d96827092243e9e9cba6a6386789462c6c66e6e276da" ++
    "5cbdb3359abd6346ec4c5c2bd30452482214f19fdab46b194094824a2588060335eb887085fec265b1519ed4c8c49841452f43d61d51d1632edeac139875ca26"),
  (0x00326ed7, "" ++
    "c51e6ee548f894425e4e98e8f5ceae67620a7a9bc698e0ecc7b5b41edb3356a1cdc03e7f4428776db9da6465a35760a8279da1f16bca4f44d1e4c278ce974ed7" ++
    "9f6abfc2dda404c28bde47b67f281101ab88e42f9fd88122dfb92524ebb9608ecc3d87afb656f2d50caf118727f734dcc0d24e3e06abfd3c3a40dccea81494ff" ++
    "44a52b440d3bf6d2785dbb39b52a708af4668d9718b13257650c86c04a065eef91600dc591e33386efd3fde0fd17a4a40b0b701c0783c836bab1d77fccd4c6ab" ++
    "beb33fce19100e65d00c06b9f7fa7a7daf58da2528a0e0fe31313294972d0811232d8354d53bde79fa6f35f8455c08590c7b071543d9816c18ff9b82a89defcd"),
  (0x0031fb94, "" ++
    "b0e9accaaaf279901c3790a82fed15f2e6303fa0d7eff93a0f58f48cad19d49b208079b0abf644c94f72c5de65c26a5709791ad1286c75f349e49b5ce8bb9a61" ++
    "5144d6f708eec1b67aafb2a282a96aaa8906699db88646684f5c147b8eb3efeec5a3726ae7420cf3ab0d1ca75ca4caccc374ce004f0b6e557e0fbeff4117c9bc" ++
    "60661f034881d4b84bea803e2eeb857eb3625ab8ec10888b5a11bf1f95921b188445c2553ab541f9fab21c0b62ae96d20fe0b7e998e46742cbf700cf50703976" ++
    "c6058ef60f833f782a0851225e8628873f504061d2faf8cebaa371b1b715c2ec7c8efc80db4ebd8521ec81619c1b885cfffafba9232abaa99e73c7875d97f997"),
  (0x00205a7c, "" ++
    "8d0caecc2d8b6f1f70792e690254b6638851b7853bb3cdd5d7b60d41fdeb94afbef64fc03c17d2c92e918e8b940b785fe85bc889027ce09cf1e9733b1687e0b4" ++
    "2d6dc00be999002de76c993be48bd3a4358ce8f5f857bb477a7e7e0d33883ca589ad8a97a2c7e0bec8a2f09ec1ff541f02d513f96ffa213bea33f7b770f3fd55" ++
    "61b61119cc65a2350597b8b9aaf47d1e0118c9700d7c4503760f1286ba9dd9a6f516ec648162117755290db234876adb1f34b848319d841996c36ae9e68b843f" ++
    "ad43941fd855898251d60b1762fecc5e053dbff214e7e203d2b4ac6b9ba6b4e9234eca463aac782a8a82ebbbafcdc8b953f2073969781be34c502513c1cb8d59"),
  (0x00142c3d, "" ++
    "522603d6c846aedb2360e31c480cff32ea93d9be0ec4dcbb4591b353a0064ceffe5a2409747d85d72c4c099964a93ca4f724f598fb94cf7e9b8e1b630742e32b" ++
    "b3431186098f453f958281254a5449ccaf2929ddfdb1832efe025ad2a4aababbcba931922bf511ec7d018e5a7d76a7dc917d5dc20c3b9ef6e1ddb00bf70555f0" ++
    "9cee0acc47a6cd8d4bbf617d1559e3e2189a1aff3b818be6f941f1af2cf627fc33e6d78e973e494183b86cdbb08cca67bd9469f5a0fcc00baae1d273ffbcae70" ++
    "1999f022e52e5cbea47028cd11593e82ee158d9245f45da345edffd75cf4e3f2d4193e9b33f7641a5e286735c6af38cf2da6024fd4acb59dd8311b5aabdd05de"),
  (0x000bc955, "" ++
    "b5d22e29d6e50cbbaab5ad9bd300dd7b0481463fcbff86882bd81549d03255d1efa01f3e2c1b993501354de28dd53bc6655918d1591ab8ad3e8f8e779ed88d3e" ++
    "9efdbfd1c2e814de3f51e6ffeb6adddfe3b97c5e72684e31cc25ce0a2f363dc8cc0b0b4a575bd74d2844a178b55976ea297c5ff36426673e539fc9817b294577" ++
    "8418b10b9aad38c8aaa4d8dd3b1cc8fa0d60cc8641cfcee786734e239badbe2c752b1ba9d7079b9831b0eaf98a69549c0f92f346f172e1623618d32ed26e6379" ++
    "2f08264c6c4a2005aec24616079120a14af2218eb34e7da8773acb0292b59d353bd90509e51448524799c15dfdbb85ffbb3cf6c2aaee347b65c0b83a9cf35d85"),
  (0x002002ab, "" ++
    "66c30f5d2b5c034ceef44e2949a50cb7dc81c3febfac41b445b0cac3031c88102b19c8684d14789fb4f8f2cefbf26ef16cea853a896c91d93faf883cc89c41ce" ++
    "b89425f909b76daa3ad698afe17496d826caf5a3ba28ff3be3b5e2335c8cceb15e7e4e0179c6c47f3d990aad46b6943cf401a5a69cf32110e92cd1aef13359b8" ++
    "a9d7012d4261ea18ef2f5f97755aa716907252b357270ae6c7df68686394722b3cefb84dc51e0c8b4942e260fcc880127ac61a76f1442ee2fee7e78a18f96557" ++
    "65578963a5986eebc27ed99df78cb6330ac9883b37b79f6188c27a86fd1083e2850e495a305b619288868eac47e8fcb5ebc15153de9603d79c078d1761d80dd3"),
  (0x002658fa, "" ++
    "911f1b2bcc0fbeb7cc456dc54838a5d6b3c314d5707b10955a20f418c0a5b750e4bd488070a653db60276754c380274c69cf1366ec852ad2046612311208001a" ++
    "ecdaad2500908deb6c7f8ad778d6ea01a0f4b47e87f52e7c13cb069ad451a3cf7aa42fd7d4a2fe0b5de5f47aeb1acf1bb9569ecb76fb62a9f1ce001242c4db38" ++
    "ea2437bc0699d9bcbaba3591c26b481701d14ed70bec62407507288a2deb3eb2411025acb1132eed5bcfc5e66967c7b746fe87ce4d208804a18c19ada4d5ef76" ++
    "2859ce74f7ffc22f3ec02b08fda3df388f073257a8438bf03304237d67e2a89a11a50d41e553fecb851ec7c7b38831879aa0041e48b24edb0581b3ff802f277d"),
  (0x001e8e47, "" ++
    "0211f52fc95878d4a90ea82f193028b5630459cc3339289f3982d42fe98d345144718080813dc7e05ea69da4a35a9187da85625292cccc326699ad5016ce62ec" ++
    "2af3c940a6062eaf36f17a14e9bac2604a7a49edb311ae80c8bf79e97e652d615273ef6d9f2107f67853e6d87e237016d6b4804b4a56d38e697b4a52bcb54b65" ++
    "f9bb2fd901ff3e267fd20c45293b4c24e4d34976c094f0111dd433923bdde62621757d44a9da56fa25df759c75c8b2a82df4b5043b17e39107b02be039064188" ++
    "47bd1581e9223dc474ce9546742bc0525c3d7f1739d613abd3fc9172999e9d82e4ef414023b5b65073bd5faae73daafcb01b23cf31f3cac116252a42a0962542"),
  (0x000575f0, "" ++
    "bc9ae1df62a7642fe4bb903705331f10d88a032b7656dd04483fd5526fd5d485854e29eb3ba77c3771e6bd3cb8ff34577839a8f945ebed43635e6cc7fab53330" ++
    "023fe034f6d0a32700820abfe9981e82dc5ed2597b69ffd18a237cc15528a0f9e2e5a348920771d7ba312b294e5fab9e80c4586031b480d29af7151996b923d4" ++
    "dad188c053b9af7162542f379ab8a3afd1110d9b588713fb6c194021c6dd69fb5305889871cf437569aab1c154be1bbcf4c1e6906c191686cdf1e51030a16388" ++
    "7ccfdfcd9a21606777e86e7e25802332f027b5dc90631140e8955a3008f1e76fec32ff28d336fafecd9b6b15c95b17c2bd6909987b48b658fc919b1b6bf639c0"),
  (0x00277275, "" ++
    "0dcd773b4f56c0c0935f5814659ddb35dd758a2870b559f16a54d5d461d2824a0e5f445057ef002710cab29988da61611897b0586bd7df5825f9ad0967e1e404" ++
    "9ed40f4a8d3c0a7d9bee54d04f3ed2874c5a09073af03be5b2ced546d7927987817beb5107e4c1743aa4ac6a4fd7a25cafab68b0578188d844e16d564d7bed02" ++
    "12b596e37c5000bea3906f520a1caff41d0602f9862e0f893241ba68e28efe0974d97a0605b24887c8654cadc0e6d14e116ac390045e46e406005fa9191ace39" ++
    "5b5ebd31ad1e347593388898c015ddaf35a345311ee16c4a062b6f189dd518ef8b8882407bc2581ae6c84d5eecf88d96a0e26f60a1f7288851b1b054697b5589")
  ]

def lookup : Progpow.Lookup := fun i =>
  match items.find? fun e => e.1 == i with
  | some e => .ok (Dag.wordView (hex e.2))
  | none => .ok (List.replicate 64 0)

#guard match Progpow.hash progpow094Cfg 30000 6981462876032703942 1082130304 lookup l1 with
  | .ok r => r == hex "67ed6cc54b89262d1ac9c3f24ad0d2362cb703c1e23881713d0350ca3035e2ae"
  | .error _ => false

#guard match progpow094 (hex "ffeeddccbbaa9988776655443322110000112233445566778899aabbccddeeff") 30000 1 1082130304 lookup l1 with
  | .ok r => r.1 == hex "67ed6cc54b89262d1ac9c3f24ad0d2362cb703c1e23881713d0350ca3035e2ae"
      && r.2 == hex "ad8fa791bfb2f474a3487d27075bf339d73e0e69d62ecab14166add94c8d0f92"
  | .error _ => false

end Verif.Test.ProgpowHash
