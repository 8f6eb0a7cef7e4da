import Verif.Model.Generate
import Verif.Model.Hashimoto
import Verif.Test.Sponge

/-! # Conformance test: Ethash on the first vector of /repo/ethash/ethash_test.go:18-24

The dataset items come from the independent program tools/ref/ref.c; the expected values are those of /repo. A lookup of any other
index fails. -/

set_option autoImplicit false

namespace Verif.Test.EthashHash

open Verif Go Verif.Ethash

def items : List (U32 × String) := [
  (25571074, "" ++
    "849ce6c7ce453641e8cf8f6d2e707811591dfa43cbf033edb0a55ff5c18baca213127080c7c2e43fe936368f0cc4368e54e69fb324e71b1ea2a9848f472bf622"),
  (25571075, "" ++
    "b42336c63304e2d93146c9ba9d5d9dbf7ce765db15542a9566dd70d7232e40ce9b0cf648d9ed0e36c3a83e9272eb198ae76a131228395fedbd11a0e3759d8489"),
  (47413828, "" ++
    "9e2cdeb70c0a396a9d7c406f69b31c774ec483197fc1b54c4849100076b3c20cdb76366872dc8d7629807ae8014f3a2230a593bbf678325010117c152434c093"),
  (47413829, "" ++
    "13cef984dfea698b59e61e192d00fb6fd96f25fa4dc48a729ccb30ee4e3c99c9b5373c0b5d11a1059256f6cedb087ddd7691df0b5b0aa230a43d1b9595c56b8e"),
  (1135134, "" ++
    "b3fae983cbfc6988a47679fb03f21ee65531bb0216d907af8f67031e1c07d2076a41fc94e211e0cc825d637b5f64470bd67e9426f9f954fa8b53aadcb340d63e"),
  (1135135, "" ++
    "f26d3880f0f37e0be192ddb2c686e376f1425e69a4118b6166ae8d225efadb3110d135750daa0d9d1331bd981e346c68561794480347e14bc587512ce2baed9f"),
  (57224544, "" ++
    "1abc1c32c44871a1903a4c0ab87ce15b1c4d02163ff3669268b3d418421456fc1615421a3fbe722a1c628892f27066adafeeed929d6c0c08b41582b99eb98c5c"),
  (57224545, "" ++
    "fd86898f55e4cc6738402ac4322028a8918f83a122e209ed3d117319e8bb390af233f1dada765738de2cee0efdeb57a4e3bcbf76a92d6a2eab7da24999101240"),
  (17587654, "" ++
    "3858f09c7588e258e587c6adcf53c7b04dff72b9b8a19295e9a1109a7148ed80100ab635d9f0bbad22143a2905eac7beb976061d7b8642672a8157b32722f857"),
  (17587655, "" ++
    "e9c5a8e0c7185eab22024f88d11ec1247109725c2aaecc8a041c4bc9cd38d180a83537da8769a99eddf072776bb1f53ddb2bdc8b1c8d8007a2577a8583b94ebd"),
  (26828842, "" ++
    "55a9e5b668721217bf9adc6b883cc880809f0b92093777bbb856f15864235ca60c460dbeed8dfc6e8d804cd8928b31825185d9536cd99c2e3651cf080e27ab0c"),
  (26828843, "" ++
    "30f2e24832d4af54627e77147246b71581b90672de658882d08ed7195a3cb6592203cabbd7a10a23fc32bb9e2ca405c5312dedddf33ffbf6705f78c781be4114"),
  (14062166, "" ++
    "f31ce876470e2a79b88e909be20048dd57fe0856848b54ef6ebdd19576f7c6480d3a0bd2421b77e99cebffc4bdbc5297d911007dd995c14e60e909a99a1d8ffe"),
  (14062167, "" ++
    "b2fbc4c097c1a3eb395c691f612ea452630c8eca6d2c74ae7bec9f076950fbb10ebaee9800cf3904974c7fc0c04d4fc6037c7c1b2dd7c4440d6a5cf15a6be77d"),
  (36471682, "" ++
    "58c4aac63d0f3bfe9c046114787c545ddc82efe238a18602d1ff30b133ec630a56564414cf4729b01450dcb11277d8531deb793c5343079883ecdbf8f486e7f7"),
  (36471683, "" ++
    "1b7f858f37771f48dd1235aa8bf0456f545951f317f3cc8019c26863f8df3dee78f642f9cf3aa178485d1bd851f884488790385dadfefea60171453afbab8427"),
  (34565018, "" ++
    "51889c61868f5dac42656084b2f8d500904e674bc231e28855ff1227a8fa8d0650b744f089c61bd998a5062f79f856293fe1430c2fb13e705cd659bd349a60b0"),
  (34565019, "" ++
    "0a0517387c5bd49bce20e8ce4a11aa51f00530362c67fb70a56bb69be735b6ebc5ea042f408abe2b633b361edf11908b89097bd001ffaa798a291f88e7abcadb"),
  (23505564, "" ++
    "540dccb929d3f8a0f3c9c72e83810d857299f2f87d1290e219da06b7cb52b3e374796ee321deca7d76514ca53d083c1d2bfa04552c663853163894e1185a63e6"),
  (23505565, "" ++
    "93d6cb1aa47f86d53943883ce024c25261cd722d182f1fa56a2b5fc10ca0dbf10a45dd374afece9148d7a52cffb33c3dc8eca81318bd6539258f9507a9aebea5"),
  (38776554, "" ++
    "29fb74a3a6a7a1c7cebcfca4a2264f67654ae1d53663fe3ec8256f9bf7998a8455bfafe725a4298e7e7063689278c902aa7ded1a470eebd4181a145deac2160d"),
  (38776555, "" ++
    "2c9ce84879d45f9be2156d8b08b2584b7cefbe4c5fe219e648e0eac51fe9543e0422a81a3d9f1846e04814e48a146a3a21c9a8adec7924bece81d67fc9c47b4b"),
  (42123174, "" ++
    "157938b0abb6d983cd24c5080a5a6ed62db58dad02b97408e6d996af6c061091b00c9bac0696459b521a04318326abea115a897d7716546001cecf01606d30e2"),
  (42123175, "" ++
    "6afc2627b304c547ae2d38edcaa4f9334b380e7914ba49fae845a6726f4d0719594f26a5da12ccb3365bfb0f33ed1ef672dc5c69f9c051d499f1b122dcc43b15"),
  (50266482, "" ++
    "09be270afb8fdc178bedfe0f179f918c3809be5e9185d4a1a7e1d7226b6fa518f28e026fd0275a6fc9497b0adf03dd466192ddd2305869fbd074fe90937705c6"),
  (50266483, "" ++
    "b239080abeb76b0f7572db4fcea463ace3cb01c67eee9d23362d0fcb861ae2e555a810fe000000aac739ccbdb13b6462f88febc983f2bfea793af4d9de35efba"),
  (36577682, "" ++
    "0273e994e4d66a4f33d1a629bfe7274998002ad965373122e96bec692e9f57c4c40688e71c68d6dbec0d86f3a34422de871e0905b06779ae4d87fa86a01a7628"),
  (36577683, "" ++
    "43de4517659a421f65fb166b6f0d47bc43660580ea427dbc5831cf65b890f50c66a7fb811ed44f5a90cfb21fc457508be7ced42e71559ad17751bedfc32590cf"),
  (13428810, "" ++
    "c5f142a26266f0faf4a4499fe14c6fe1976c8414aa52484ffe2c646b000bff37226a50436209df54f5aee2d2352cecfcd0fe6aed63a6d568845d2c4bdfb674b3"),
  (13428811, "" ++
    "a7c941d061d779593fc60b3071bc73e8489f694cad31f6c9a6b7a657557fb262067675d424f036e960417271ffabe1cf8d3d7ff1d59469964994b7126ae4ffdd"),
  (40423818, "" ++
    "96d9b18053a7f45896ab65e4d8a5c78584fa472ccc95301042e4c7d425f2db3ae46fae1689de9b6fb96e8ba22a85aad8c2782006b36d27116bfd9b01a405e112"),
  (40423819, "" ++
    "5022d846ebde487fa0aa64061088c2a40a0627c6874b16574cc0d7f14a6aacac3a8331228fc899fac24bd486f42a19f1692a9d00f20dad92bf7699e1489badef"),
  (49021556, "" ++
    "7992a3ccf174f6cddec064077c3556c13f35834ec7b6dc37d6f3df08e88d2ef02cbb9addf1085dc1f089970f164a389f6e150d1a9e5620206a8feef44d199b17"),
  (49021557, "" ++
    "25ee8924201040852a5685765deb99c434dad86fab8f4802a67d9362d3df2cddef2635a22c602be625a4aa9820d4d296684a5b45e14a61d03ed122b0e245c886"),
  (55301280, "" ++
    "d38d4e55fe2ebfa05a74cc15c537966312c57bc94c032c0ad58c194a726041a5c92949304412786686469f1f495ff302a9e4fc0936e23a69b604224248743d9b"),
  (55301281, "" ++
    "098ae11c205d175a078d05e01541b90de9de022f9a8ce6de830b1c28bc462a2014e09d096abd2ef7f16a40ce3fdd13f0751ab82a3a54766bf8de0b29e443ab6c"),
  (30003178, "" ++
    "161ce45c661b46534232da6fb2d39a6ef8be269b8ed93bdf3c723653ceecbf19e95adc749723954ba7ff09653cb720d4052692811d838924800755ba1b2cc31e"),
  (30003179, "" ++
    "2e84afa3652675180c4c30c92d0cefe2dc08c59550bf819c903d2dbc22be827c8235932c5bf02baf4557ed63217a9db15f78fc53b70712c9ad66afcc860c45fc"),
  (13744070, "" ++
    "ad862f0e26f582b6aa53bf9fc8bf420c7efcf7147dd35884849ff4865ff548dca172f276ae4112ade87c52ec81d3b060de679559d0da28335131d968b692b475"),
  (13744071, "" ++
    "2bc4282a4a0af95f9186ce486c3103c26976afca1d2c7632a83ddbec2de5bdc423c0d716a8cfc69ee0d6e30d0c45a1f773c9dc55393f69ae933e9fd4f79f3a11"),
  (24006184, "" ++
    "f68d3d2255df4f9d18b455d1fecca857b35169e403e3ec3a678d4695a017a3a4a14004b0040ee3a5eee03f71dd5ca448bf75ed7a2024b76cfda5fdbe51133510"),
  (24006185, "" ++
    "95184936742ca70577f318bc3b0b1751191ccd333e868a5e9101ae94fa41b5d24b511ceda9e94f4999083464236816315ea54d62959ae244d5a229f74739f4ea"),
  (32899102, "" ++
    "504859a8d41e5bba9ffa115d0f16b4f10b5081509969ee214169a498b5466f3ba57283ec0055be093a1a9b315dbaf4e6750bd80d968296ccd645043a494c8081"),
  (32899103, "" ++
    "27753842c74156e680224cd3d6071609904d09d70c3b46ce7565bc05926a6084043c1c479e8f1eadaf734781ba15e98b4bece87b2e8c9b72cacb33c6dd83cb35"),
  (39663364, "" ++
    "88d75ea1483ea5c6acd1d0624105613044aa9f617454716eefb849138542542f0e412433084e67250c2c515ab5b4fe95802ddd3c87fd5e33927eec967eec44b6"),
  (39663365, "" ++
    "fe0af2a1a74e857426ffacee616f66176e163db7a80fbe0916249c9b17234ce5740b4067d86c9229e1ad62a46c7e05356ff5e3496dd62ae09a68edfb3fd521a1"),
  (25853258, "" ++
    "a31badc4ad1669c09859c42bb403089fff839e5727cfb9689201b8bbf1b10f6ce4b8f8c476d9637f7fe55d51c0780d6fc917993838e4c2166415604f3552eb70"),
  (25853259, "" ++
    "174bddeb3057eb67a92f41b502b7a4a9cdb47cb9d2c1d913df4302852a9b8666828abf88357e68e50aa41b459e535257cdaced49be6593ed49606a14ba61d589"),
  (49053540, "" ++
    "dbfc12b834dc0c802a267cff44998f90536583ab8379af52a663db5cc0a82c6d1e700fac80a21e436747b1c956f0f1df0fc1740be080b4c8eeb8d7ed08c85340"),
  (49053541, "" ++
    "81def69cc4e5798ffa092faf64b6be0568c28c4abb5656404e0d5f670042a2981aa70f69e0b9bccf0df914ca7c70ae6578fbc685a9a85547ea3a65ae8f738f21"),
  (23943388, "" ++
    "0bec56b44ca24f0cb41f820dff5c51a238e204bc4bb777e22725eb77a4f70be37d08a23b3b6f3cda96bc5f64099d2c2193f51a636229fdd4b98ecf867135c4aa"),
  (23943389, "" ++
    "73adaaf766f7a70de77ca27edb2d33c5b921c9dba2b9d357bd731b838bd3021f7621cdcb4005fb0a4cbc0989616be2d108827eefa77a38dc0b313a8b0bfca159"),
  (36873040, "" ++
    "ab7a450b2808c0d7a18fe69ac100683a9d2566e84ea18916dc556e66d97c332951df216059d36b90d0dcb1de22e65e291e919128e60a779fdfd9e27bb0e71235"),
  (36873041, "" ++
    "49151d4bbafcd6f1f56f6bd53b0dd9278ee51a67b9e9f693d48c9e08dab39872d9f6c06338327ac6c0018742fb66f6998932fe7b6b38c03050ce3574d4eaaa97"),
  (4310622, "" ++
    "a423a694189b9a7f9c455295cde95c80d088aea174beab11d48c4712f03a8ba42939eb58c869149ffbabd30be694a4512e01f41d856539686d8826acb9bef25f"),
  (4310623, "" ++
    "c9b676e05f85fc647dd2cd6d007ca5c307afee9f1987a36f0a2a5f38d95f7617717114c2eb404d28c11251a5996b4d40756bf87e631c9e9aa72cd901b9a517b6"),
  (47076666, "" ++
    "085df2303e45337500c3e74b667eea5e95715fda9f36062833a973b63e7236a55c83101a69059808c975b91d480be75edcaf91641eb5ed183cf2483caddaf78b"),
  (47076667, "" ++
    "c40a4a8d8231a51c3f0a80bdc3e6808d961d57b66dfcbc87994c97d8d5d39994ffa0e66eaaaad21ec934e6e41df9daf6da42106acfa0778d9a0e986732f28ba2"),
  (29586436, "" ++
    "6d8e2171b4cd0d31226fbf0e5c037a7e3f92f19baed9d472341ad2c7ee679e0df872aaa4c5170957356a5410e503f39627ff2ce5c36c1fee488a510ca6554c48"),
  (29586437, "" ++
    "955acdcdac9e6bdee5177b599ad87bb8eb242ac5d21d12b319d33950d9eb06a536ffaba8451b33c34fa9bb0ba864913eaf037ef4e8c19d367445bbb211ab30ae"),
  (38026168, "" ++
    "71c30179c0b34c1bc89236c20d0b10665526c4ba2390bfbfbdde1ad92282b3119a6b4e3c0f96880cc0bff688e5e6a433ad702b956a3920b78b58c7c58a095746"),
  (38026169, "" ++
    "f5b968953b7a29f826ca9cf15415b8758b5f1d64e48713ef13d81d4dbc95437fdc74231eaffd65c9e98336c2102b6f475744645d37d806584d8023d1b6582c1a"),
  (23125752, "" ++
    "985037394d4f548e31281f443f5fb893d3c986275c799c624e5fdc68124eafb4f62cadab8ec2736addd5428924568919ec1cb968bf1423a28cce22f72a6cd2ed"),
  (23125753, "" ++
    "ec06ca313e74ca88d5a2b6c7d9c2f67d9666f183d598d1d901959f76459ab43a335e667ca9a4e744fa9d650978eecf269ce9e6d279615da0f5f628b9834f09ac"),
  (54659454, "" ++
    "297ee4e729c906be49ab2776fb5c08c03b441601feb37d9cfcf1f33c4ad98ab845cf6c9c31dab87210b3c6e50e07910d98ebf7e8bf33de7b70a83406f6ff8640"),
  (54659455, "" ++
    "a9082da80e9e210e8a93c4a5bbb6f92f8003b8776610dc4a486490484520d044d772905a9493451a8023bb1bf53b5b99d3ac0e915e73b13fdd353d203a113932"),
  (6097152, "" ++
    "1b1020b5bd43710e2967703e6e560ef2138b2c33216d8804c70fd9a6e07ba94028aef8ba63bb2e2796c55a3808e6ad84f1fea171a90f3941b922ef6f4cdefaee"),
  (6097153, "" ++
    "5ff3115465e4bca9b42bf6cda5516836441ea81707f7e1427bb23b79405110f5ee5580b19bf81f1c16e2e17a771af70153624ea782a5b5b07e90257093f5ebfd"),
  (39224822, "" ++
    "f3617b6f2828e5a448974e082dea7342fe7b9593061f610795a500b1bdd0a658ac25e2dff84995e01b853e6c31d7f7ed6d21b6becada40699d9a89e89e137f42"),
  (39224823, "" ++
    "9f9246a5ef6ab20306492fc9036bfa9f9622a9b813787ef3f8687a0ed39bce9f438ceea2f471182c2bc1071c3fbafb6431fcea6ac17714027934366a2a08b9c4"),
  (49001238, "" ++
    "7bf2a75585f92df131e14e6f9c509400532ab1bedaa1a3814e2ef3284e197d2b5bd5f8e634c2d34e1c019b4ced0a5ed02a83d33d5700549eb8e1cc5b296d863c"),
  (49001239, "" ++
    "f7cc2f89833e3e5efb226c778817c349e783cb8efd169a0f2ef11719392381a859b2d13713c9613631a1eeaa5628174a9cb138f61d2ba91d42020f77a75812df"),
  (16722178, "" ++
    "a096e95093e898d9e4c8552ed483c69f88651d710c9bb10aba656ac0146bf9093c2ce99919a57e5c7afddeccc369b74f750d8606c05caa74343209f58ec4cc84"),
  (16722179, "" ++
    "288ba7f098612ab7e2f6ebbdf40d44367ba466f3e9ea312a2d47862fffad806b15ddcf4f91085384523f32bfd9b1560d9272ca226a70211eeb32106b58e15a0a"),
  (18721560, "" ++
    "a1ba7c2fdd7ffd2cfd4d02ac2805363de0a85b2e9e5ee837441a9292d51c0daf38d905da18443aef004ecff0aa4a1c6398565f9c3ed9383b429c72e8ff3a83b7"),
  (18721561, "" ++
    "b7455c30d592f6740a101e7e852ee0524034c179d12efc55f8efddc3295812ab76df05fd8a3c559dc1383ac41f5d353c0b084b911102c1c735817838bdd438a8"),
  (47985210, "" ++
    "1c938ec6c0cede76250f27bc7a5eabfbb4a0fd7bf79137c79f4fafc2cc3d89548c3b37b0a55ce2c055e800a8b24605da539497c44a3dc624c22b0bdafbbc69b9"),
  (47985211, "" ++
    "5bdadb326f0478cf15fa9a47bae4c90c59a26828ef78eedd6778f47223643dff110cf3cdcb6cb2da6cd853a09116c571f0628334dc819540d56505312561c57b"),
  (33210140, "" ++
    "776c453bd84aa8040a38a9aec551d6b72c7477bb9c6a1a445415559f355f09035788eb6039c1f3b863afba5cd99bd51a8adcbfa9a844e09a6b051b7c5038b0b8"),
  (33210141, "" ++
    "6534c90f1ff704171160a546b50dc0d3e15087920a2c6ccb81c0ee6b533721083ff79032004e1006bfcdc3803addbfed5e757a6416a5c361853c9e59b2dcfa77"),
  (57114688, "" ++
    "c7cdb9a16ab934017f07d753bd9e8de76afe96eea82a8f0558a677896778496d77fa12ec17108dd009b0e69c5f3487fe471926e11eafdb9baac149c9ab04745f"),
  (57114689, "" ++
    "860e4706f82ff87f18e7116de006fb2043ff4b9268cd355d36fec00774229efcf2c60046199884d29a1dbfbfc875b0bdb6a62d0dbd5ed1bcf90c4082cb4cefcb"),
  (11137060, "" ++
    "bbcd6e20a3112fa234c7990552733d7ad875226e5b32dccc66b7b45c124d38610a0c2ba121433c49cfbc3fcba52b9bd38fe20b2806a52203af41535676db6d09"),
  (11137061, "" ++
    "5f7156dcf93864be3810ba9cf7f0861cddae6f46b67ab56095a5d649e56d1759fd7ece38c09b09edf5a662af020109486ca9fb2637ef4a89b265395a867121b2"),
  (11627472, "" ++
    "62f725653f60eb6fc6065f90228ea8e80ef452b85e0ab7e1713110d8643fb367b75d266e0a2d6f092a5899fb9ab08a4aa484cb32d2033dc8030aa3cc54fa89b8"),
  (11627473, "" ++
    "13c479c54adb4324a92262c1bddaf07eaa33908f6b8a376a45a576c4d2847217a27135abf259a0c4012f2140f9d352ac8285d61479dd79a58db449dc6706e9fe"),
  (37105984, "" ++
    "d8b6891b0148c4f78d422aff014a9601ef676a1fb0f9bcc3462e19d80a28244cc081e2c079dcba05f837d94fe5e5cc6264794a82ed6a880b979f1cedb88d27bd"),
  (37105985, "" ++
    "ab50be27027dc3b84e01c082c733aac1ea19334f4e10d4da711128aa0b0ac1e916d67c1217146e9fee325daf12f556c3551ba8374161d5eb77a1e91213a86441"),
  (13347166, "" ++
    "f2a4f12af0f94ea8fc2dd6465e835d274279db36202dd42b07580ee8e3493b3e4fc1310d0b67c5152e22f5cfe80f34a3ef7887cbc4d3bfe04a95952be82dbe4c"),
  (13347167, "" ++
    "d8547d62cfb2107b38b639a9f9a0ad0ef49a280995ef951b75a0b7aa4db6fe64234b76e8b3de0bfe1619a00fab1b3a9dc7685233427e83a60527940e5ddc3148"),
  (26237956, "" ++
    "4ebc31dd08894a5a80c77b7eb0ff3f5d4ff852fdee71198136e99ac4ead95e4902cf0719be7448301f4041c239d5f17b154d30009ff89bcd6302f7483db80198"),
  (26237957, "" ++
    "ec60605aefc8141965ef77292d6dafac728d73201094112f30afb9e44297bd03f1319e656c33f71b25d89c1fc8efdc1f8b4343f03458917a176c7be923b9144d"),
  (29688942, "" ++
    "866a6eaf94282136521e9b34a21fa6dfae5852013b41bc02f9f148b700f6ac7f3916d8dd0f73cefc51ce36c94a557a1c18fd95fd8b5d0a4f9eccd850ccb0dfc0"),
  (29688943, "" ++
    "1b87ea9972732126935c09e7ad7b1e65ca503377d77923456da26dc29b2000b86629fff319492fbaf53cd00cf3ee3fcebbe3164dbfed6fc2e0d1aa90b838b031"),
  (57040758, "" ++
    "93a58c55903a66e6016a4275ae176c42a1bca8af02ff85cb13252eeef3747b2191b319f4b810c79147946a361ea2d01bbb043ea5cfc36ba11c8035ed8b1df8a9"),
  (57040759, "" ++
    "4c9631926f54ee7b56ddfbc87ea3296a1116dfa566db5ebaabf1938c1885a901ebee3f2f358b41de99f223e66a30b005afe4e77e398999d7fb0e25538ca274cd"),
  (21271924, "" ++
    "dc11263d94b3ec2890a9070904a850526643026e511c5cb8ad5c444b120ac165656a0f8529b95e2306a885137a59f4bc2ee8b67fcbb50458f1c8d603565fbc83"),
  (21271925, "" ++
    "61c7373e3ffd003c388199ce6af5778b9be8075f384b1acfb9bd4187e64ad367fc39066a475d704bd2e59f920260aa5610bb6c0c1f95598d34a3d7a3f5a8413b"),
  (24855794, "" ++
    "610cd09ffffdeadeca898f3cde02cc4beb0aff376994d59c96c031f5d274c0e16cacd68c809b68e2db7663d095e2d7354eeb7726c93e5fc43f9f0db17673ad8a"),
  (24855795, "" ++
    "68185ee3631d0506952160fc00a8608d364ef04c5fd507c7f894f438b5a69bc0948b54de2e849973b38561f6120f3556bb1ace8dcde4e6a40cd20b3c3e6551e3"),
  (11635690, "" ++
    "9fb7648a498141f59e0465c942f5640574aceb48b862642f448ae246f7d5f968dd8c43d76d9d77cc43e9adf40a233e6a7c0412cf78897041aa9c9c0d120e0a26"),
  (11635691, "" ++
    "ff043fe5550558ae26222d0c87167af662f7b76dd6e3ff839cbea3f35f8ecd9a835a31cf3e886457fcdc9fad4dd6d03f1b145b9820a47c59e7511ae84d1932df"),
  (57973620, "" ++
    "d11b055f45ced1e93d335785622f4d42a8abc6a88f874419ba8e20905b11205a9f49b3f76633443042a93a49d6b6991dab4820122ca1caf74b7a37522accedbd"),
  (57973621, "" ++
    "15c441a0c38d1e64a652592901be9038de47099114a05b995132b74d3af285c10d09def41cda34e9bba62836ee498c17196e7114fab11ed773383926699cdc89"),
  (44948758, "" ++
    "697f21eaf6a62d6758220a9fa63fbfaa40189cbe9c02109a30772d38614d11207e5b4475b42aa31b5e18435933ccc246475b01686f1c5d53ecbd0ab94bef5dd8"),
  (44948759, "" ++
    "f80fcc5e5a53266ebaf2dfe1ded491116c391c9287f320cd4044766e644b0807f442ac73694156dd8b216a12f0f366802e658314e9854e9529a2bfbc5cdb5e17"),
  (8298868, "" ++
    "1103197bdd12f527b840667973950b374944c6aed13adffc655f311834fad02479b7052b0c59b06ee8bb47850c81279fdfb669186a18dc7317a165f8c8a2604d"),
  (8298869, "" ++
    "72778c4393afef18607f894abcf732ff8ccaf92df58b9c9d5536f094c33c0d31027c7954ba0e4407c38cc72e3fc00744d22605d4da629081f996bfe37cb7664e"),
  (2041602, "" ++
    "4244a4412f088f0e48cb4551e829afb19fb1bb356f41288add98e9d203764f4a676bee7fbe75234e23ac5943844355e7b824926df1fa5e7416cb224d8997d69e"),
  (2041603, "" ++
    "d538770f6fc4897f80b899d8d6db0e213a4f681f7235a2f683bea8a353e3024c7ec2f4586a735fdf753b05868e3bfe44f01b3fb31e33cc14ceff9dfefb990395"),
  (5537966, "" ++
    "d8ae48ce832c1ee976472e9e0c58d9b19dd9fb71739d7db536711bbacc190a488f443702169a4f503deb24a5e7393a65136909a48c3f78b8a85eb8e9a20a9480"),
  (5537967, "" ++
    "4bd1a84aa58761bf0192338589d5f62e6c8b8b774d0b2f86ec914057455ae6de6a79035c3b2babba1260e025ef805c8f3da1852c070a222baa1d579cebe7748b"),
  (4040296, "" ++
    "d4b25d7fe32306fd55c1aceb3d0957da4d8d79b44a88b92565c230620f05dd1546b4b79c1729bbf42a4a3bb5292d56c179a91956fcbc61cd44620c15bf0062b2"),
  (4040297, "" ++
    "6e3224820bee2674dc8e71aacaf63ede4d3f6d212eb96eb6b5684d91fd08281be0598d69dcf1542cc4ffa96a8d0a2aef53e986269eba209f2afe661e8d0ddf8f"),
  (4305076, "" ++
    "54618b4655d83f5239e0a8e259558ce77ce90aefdd737c56f706fa793e33cfd9b4e99359e4d362719a8fd8ec7901f97192e48fae9ff6f3ab0aec6aa88bfba877"),
  (4305077, "" ++
    "2b8e939ceb47096229c157f63a5f7de6e7eae552df8aa6a9b7983048eb0664a98ae09ca72fce3d6a23bad672e4868e9f6eff7a2d3a814d62a21c655aff8f9af0"),
  (34833158, "" ++
    "a583c88ba735c0c879aed00864d82740e0dff84a29b10652f3b843134ffabd898d3c6f15d1aa8c914182777b0f27b2854a89ee46054757783c9d1c9a046062c6"),
  (34833159, "" ++
    "635cff2a4d7bfc693e9ee9e60572857f13341af05a323bbb26737f02709c5c9180d44c0b4be144bdcc005fb3797551703a2e791efc74536ff4019cd904df7f5a"),
  (17705406, "" ++
    "8b09044f9ecccb8e1f1be1789110a617d3834a3d20f386b409f84d24c6082637aa583ae79ed3b6bd20706e941e17ae6a2ddde60f14d7f1b5bf2bbd3d4390f569"),
  (17705407, "" ++
    "a3b6d9468247e87584e8782ad12e888181ecfb6dd72ebd1da1371dddfe8fa0c1bbfc0f4f17028dbbffd379214611207de60f9f8e1eba65ca5815a65f774d8f48"),
  (35889812, "" ++
    "cb0d6a8f21dc2a3169998ecd0342bb4727d40aeab5e8c4848cc55b3b5d508d8fa0184c3ba769b9e112a4e684970b3fcf4014140cde55d3ea702d46547d33a7d2"),
  (35889813, "" ++
    "515c202d6fe237b29265f9c93fdc7da9ac4a857b8ea3426ff1f1593a5dc2d8182fe689e5e3cefe51de5add4de3fbab455a12d6548dae81463868d385861e3382"),
  (60423096, "" ++
    "65e973549a19c471b22708c0624d7ab4b30f8b1d9033d22292adf8c759af676d44fbd2b3dfa03fa103ab692fdbded6f9ca2219821bb0051331f11b0c8a702593"),
  (60423097, "" ++
    "300187176438e0c313a0e4ba2af490605fad7edd522314c0163e596b2e236cb4ec16f140d3290dfad2d6f14631a8a58576fe9c623286c9dcc57992600732524f"),
  (49828846, "" ++
    "cb040d5185bc200175021578d600a2a3a17b238310d926aed38c0315a73a0713312e944fc49024be4c20fc68bde85cbcfdf4ee08a56746caf4fff8b1fa06d079"),
  (49828847, "" ++
    "ea92ac6bf6ebd79c0d233f309b56bbb868e89f46a724d0b6617eecfde574fdc09ae86e899023f7143663eba29377a6bb166f065b2a4da380cf52fd070fda05bb"),
  (59253628, "" ++
    "2f3a759e453c6e9f1a8471beecf0b529703ac09303f7eb52d1356ce628ab7c1d3380bea3a6c54655961f5be515d088daa55b1ac3a36755f8ddc7240a709abe45"),
  (59253629, "" ++
    "f0cba4831139f437eee6b653fb39652afb6a5ddb52c3d13efe1b5cad47b517b5f37e6f526edebfeec77ed48cd053799bb6f9fef76f1444e536ef27ccff3ae33a")]

def lookup (i : U32) : Go (List U32) :=
  match items.find? fun e => e.1 == i with
  | some e => .ok (Dag.wordView (hex e.2))
  | none => .error (.panic .index)

#guard match hashimoto keccakPrims (hex "69e71ffd37268b6cf7096cdd917c2c175eaaee8eb7afed4b5cf8521b09024818") 0x2f6923f80426f157 3867147904 lookup with
  | .ok r => r.1 == hex "37fde31175fe180346444d15b4dfc6a9da3b2b41ee2298ceeccaf888b2d45df4"
      && r.2 == hex "00000000000004418223e154cd70e083a4964684bf333f4654dac2fe76b999f6"
  | .error _ => false

end Verif.Test.EthashHash
