import Verif.Model.Autolykos
import Verif.Spec.Autolykos
import Verif.Test.Table

/-! # Conformance test: the vectors of /repo/autolykos2/autolykos2_test.go

The BLAKE2b-256 digests that occur in them were computed with an independent implementation. The long inputs all end with the same
8 KiB constant and are keyed by their first eight bytes. -/

set_option autoImplicit false

namespace Verif.Test.Autolykos

open Verif Go Verif.Autolykos

def hex (s : String) : List Byte :=
  let d (c : Char) : Nat := if c.isDigit then c.toNat - 48 else c.toNat - 87
  let rec go : List Char → List Byte
    | a :: b :: l => BitVec.ofNat 8 (16 * d a + d b) :: go l
    | _ => []
  go s.toList

def table : List (String × String) :=
  [("03606a1000096000", "18cac2fcc587dd1da45a8c0481d6dad25d18ee4cc185baf0913bca22f93f8309"),
   ("00e4ba5f00096000", "b7863445352f2b777cce21e65bd1edba0cf828b09674d1145f370a642a79185a"),
   ("03b49e0400096000", "0fc1aebc2226abd6287715a8d73d1f0abb158b62e367239f09b15a525ad54efb"),
   ("01ccc31400096000", "ba93d9d29545f41907410413f152625ba45d0bfc226f854c7cb6b090c47090cd"),
   ("03f4c48b00096000", "06ec78b60acbd50572fa106328ad4d0dada134e7cbdf4a6584d703f57cfd1f17"),
   ("011b40c600096000", "e65f4b00ceadcae544682d3637c2f6eb3997dbb579291f44568c931b7b3a935a"),
   ("0031985800096000", "932756c8e51e2158d0a687a3d113e4cb3086491ce644f52c7e6b4d108f2cb76c"),
   ("018d1b7100096000", "8d84ba198ce50ae30af6492e7f106e2eb8a15c1dcc88833e7f9d543a23508d04"),
   ("00dba74d00096000", "9f14a27d51a2f4ce771eaf26b023cb7437ee0f2ba10e47cccee081bc312e9b98"),
   ("0071c85400096000", "77fc7692ba65e9cba28fc32046137882a69d25fd573957d4b03d17f81dd746b4"),
   ("0057751300096000", "d1d5a95064c29fe5b6f3a2d1658ef4fc38eb42e42e983e23ecbb59f2975729d1"),
   ("00d46f9d00096000", "7947bf19b1adc541b730009b60b27d35bbbab2bd0544b5308c4b1705ce784ac1"),
   ("0263dac700096000", "9b02dabf790746f6762bec6ec742fa4b670ab06806255e0b9f23a620cae859cd"),
   ("0334143600096000", "7d1bf2eca212f018d65b339b63265e45572fca9e59bc2c5a437a93d15c28710f"),
   ("040e39ec00096000", "2b83ccbbee6b3613df4eb670532829d053de1fc475283609263237421ba13207"),
   ("03fa2a6e00096000", "4985e58ebb15618be3cbdcf669300c157dca775be199cda2afc67903e733c7e9"),
   ("0186a43400096000", "bae9c1e8bcc03a760328daa01cebc63f445265ed04bdea927eed850252e4a3c7"),
   ("01cb1fc600096000", "61ebd7652c2c778f550f3826239dc57a0ae30141b4726088a5d1fcae086be106"),
   ("0244568e00096000", "55b4eaeceffa41177657221b83a8b3706c2795573b0739e72b822ba5f295ebf3"),
   ("01139f3800096000", "ad3d49e98b55a738cdec0c5c06215fa82c6f823b6c08ac1267c12ad16ffad9e4"),
   ("039b09fe00096000", "c558855209983c71c79526c732634790960b883af486e770d70d1b36dad1633a"),
   ("006c3e9c00096000", "66e8829e8fec084ca0b0cff1aae2e788564c56fb34134b25f43c0d3c27afb638"),
   ("0264f5f800096000", "6077e4914389108d2058eb5754ac8d8a07dc5cccc47a50aa51839ade1a34ebff"),
   ("028c389800096000", "2db24863e9ef58909cf33e53d1fb0a95685aa9aca10a6e69f460d7751e4b7306"),
   ("018f475400096000", "c43ee6ca069c570a4972cc327211bf674fdfa8e40960e069018a36e1735eae4a"),
   ("030b7a2c00096000", "2c59449449a3bdcff1e6a1d9ab51962dfa863e6742d0cf9eece3537481a8460f"),
   ("0211768900096000", "638dddd49d59ff34a67eebfab86e78b9191069282b74019c95f516214ce9308f"),
   ("01692a0900096000", "0a47a819be3084cd11f47ac0e82e5d28d4c6427929be02f73df0ad3654ee9008"),
   ("00f2ac6200096000", "81ae23681fb331bb4d72dc8e77ad0c7c5070dcf34de640426af56b212cfae75a"),
   ("00d5e49800096000", "bde5bccc040c583d8f3d9b43bb0193d6791a6de7b36674421caa75374b7c1200"),
   ("00abe27d00096000", "8e3891568d93dd88d8f9f5f0b9a1a09bf799957404f0f62b1fbeb36bf8584b9f"),
   ("017b918b00096000", "965c98faff67813ffd77fd15618147e4ac34482093a9a7cc20dd444c7c5cbd4b"),
   ("00f6e92a00096000", "8c0c56e431674e7e9f7d9e99633f5c95c4cb196ed60197bef28fc2ff02e79a10"),
   ("0320dcaf000bc497", "748fcbe2f0fcb3245da95ecae3b6bed3be16d66a1f550b0142a4f34073a135cf"),
   ("01a3a0f3000bc497", "5bc1e62b90fb78d8cb68916725c0c6a70ae6b34de24c5f5935d7397b078280ae"),
   ("022d5d2b000bc497", "a09e15515da5d6d95543e8113669b31dcf8177659b2629ece26dc482b098627e"),
   ("032ea079000bc497", "ea1ea43c0426d52e1a0cd7bcfd869be9f4189f4e6da7ba5b70b5f4ff3a54021a"),
   ("0473df4b000bc497", "10478c710decfc340e4d7af2f92d2d7ed9976ac74ebfd410e9446a916908ac8c"),
   ("00c0aea5000bc497", "2bc5a37d383c4c23db4a88c90c67ccd459e878c52bfd8ce6352b5eeab3fc30e2"),
   ("03105005000bc497", "2de9321e7bcc48632246384deedcf9fbe2143200b3e25535c5bccb446927df7c"),
   ("0479c03f000bc497", "854d12a7eed52a214f7a2a9844d7ca629ddd68998a3e38a3ac77360179879b48"),
   ("00133b1d000bc497", "5d786dd13e45ee7cb997108744e665c5ec159b7dbd8f2337ebfdbbf3a2ed47d1"),
   ("00f2b20d000bc497", "9ce0317cf6f160501bb7e049f194b5f039236ec97f79f54bc5efcea631364cfe"),
   ("0471154d000bc497", "87be521aa5ac9c0e0fe0a223de104b54816fae75a69195155ba2e4bdd1026df1"),
   ("028a4003000bc497", "bfe46add32ace202a1cd5cf9738be2fd50c67d8318a50c6de0c5450edef759eb"),
   ("021b2a5b000bc497", "53404b6a174d29ae90e421a78001b1057b4f510d940beab880d26798d697644f"),
   ("009133eb000bc497", "d23dceea49117ce464441deefbb1614b1530dfc07048b84c77af5ab6a70ad6a5"),
   ("04345639000bc497", "07c4a9a76c3d6403d669f59bce787b0f4557cc5f1aac55ecfa3262e4ba8e312e"),
   ("034c4860000bc497", "926d27e698b6fd32d409beb9b3b9dc48d778369831d19bf8bfd7e69efab0fc54"),
   ("01a88514000bc497", "32355882f829b259d53ff9d2b86c4714ef1e1be241ccfc8f34fbc0ce978ca8a4"),
   ("0411775d000bc497", "33cf22d96c199163ec76ae2038541b5e97e9185bda4f42475ded371c55a9d041"),
   ("04c3cfad000bc497", "99b09a3eaea5c267d8bc7a5335b3627d3e82768aac4fe0c275ed77c4c7f0ba58"),
   ("02300350000bc497", "4f2c7060232935c7c765ea7c52488d8ed60f62c0f74f2af62c70fb85da819b13"),
   ("0341e021000bc497", "e2b63c0995408cf490ad70bd228ecb616aea731090df4bab39ed0c7ac0692fac"),
   ("048be1db000bc497", "f301e2ad1a2fabbddfae5aa68b31a5f3b05ef64579b349dddffeef00949cea8c"),
   ("049c3cc6000bc497", "36939f6d7f492dd355b4df535c8c00a37facf1ff0206787dc301fc5df67b8594"),
   ("023ab35f000bc497", "6e62a3e56efabc305f10b04191471489792dd2c7f17875c76a04542250e21c05"),
   ("013a7f86000bc497", "a359daaa28ed3b314cd904668e8812497a8bb97479d43f4954af1c4b3c745d19"),
   ("049ad8b3000bc497", "d83035d70dbc97a58a1db881e9f03bbb4facd38f3b6b5e4991da363ce2773bc1"),
   ("011fbd97000bc497", "3fdb52a5454e01d005847747ca8e220df692af568674461575796f3bfdb47a5d"),
   ("04bd2072000bc497", "94187bfd1784a5692eecb02babd2df7a0a37395e739f1853505e452af37e70f6"),
   ("02a73cc1000bc497", "f9c74712bb37811d1b38d471f1886e9968ee71a80f92cd1a550daca6fb47afc5"),
   ("00a17070000bc497", "6bc3f15b3538a073b4be25fc690c236dfae0bf29540aa586f256faa7ea3a2bc3"),
   ("04db783e000bc497", "e4dcfbcce4f0accbb84f3ff305f4cbe1d259d8e8a681c9bfa96ab82065a72e4d"),
   ("0387ed73000bc497", "5e5fea72b861bb770afed2db81e28512fd9ac014872fafbea112fdb501821fd4"),
   ("025d7049000bc497", "49d7d83e34afe0eea7b229db95acd6a66433583cf7dde11a733aa510bda2471c"),
   ("03f2ac81000bc497", "9a1f42dc9c17509397fefb0fc28bcfb415186f0859c47f6f6a607a2d41ddc0a9"),
   ("03ef8b12000bc497", "a7697ef0067fd435d44917b2decd2ffdd12636526dd0361978141950b00b938e"),
   ("0095cc95000bc497", "d7e85bb803c1f0c9f59b16c61c5d978e3be3e7c8483319882e8d8040453f0836"),
   ("023ca87e000bc497", "9d44809bd3d3fd1b17fbbf6a3ea26e7ab450a5a0c343a51c24f5663e34e91275"),
   ("04c32721000bc497", "b7c21ee0876130457954eb3911bb434c07a0841f6a73044eb2b862c1ce2b96ea"),
   ("023fa781000bc497", "a5f411d0df6a4b17af1618b83366622062fbb29d93a32abfc3424c36bbc99d89"),
   ("03e4d93f000bc497", "ce21753eff204754d1e58dd2d3436c5704dc9c301d23d187ff357933caec2c93"),
   ("03337656000bc497", "1549319d05e354b58bc863b6c8f94befda8acd3cf1ec99f0603b37080a375348"),
   ("044afbcd000bc497", "03c0e99c41958f135c102e87276ddcca024da1b437fc79acb73b9a193aff8ac7"),
   ("03a134e7000bc497", "fa032baf855a057dec43a354c38bfaac43916cd61e481eb5f7314b2a7d735070"),
   ("0452f08e000bc497", "ff9acd095b3c147bd31ca6b7c7cbfc9acfb2ae0640558a4e2dbe19855ff61570"),
   ("01de8d4b000bc497", "6d53b3267f75640e384dc9d8b1cfc5a36476cda406fbc74e85f76a979879433a"),
   ("030ab8f8000bc497", "1ef77a327511b94dc229f7630eddf244039f17334eeeb38d723690ebc2db93d0"),
   ("04759ffc000bc497", "b3b34a2b33450bbeba55af1f536dc34e105b770e11b45477bc9d404d4acd3b6c"),
   ("03628add000bc497", "1c1a4489ececf661926d2b9349cb3eee3d86d9c22eb41fb6cdab42f025b2dc94"),
   ("03770112000bc497", "df621fbb68b63922fe4bd9d89c99eb762c731ed4587f8e02c24e0340deab6beb"),
   ("037b2640000bc497", "ab6a02c0d59d501527835e44cee94cce0c01c6ec042ad94b1a783a3d09790252"),
   ("030eb62b000bc497", "80e733eceb83a9c4348a03d338163fedc11a5af1fd3520377113136a253fcc05"),
   ("01938b0a000bc497", "2d1939690d59487049065986c71dc7a55c832d88b62532e1e59534b615db97ab"),
   ("0441ade0000bc497", "c84bc5c5b7d504676fbb78361feaa70f729cd9b8fb7d90cf81d84b43dae77ca5"),
   ("03a55305000bc497", "ce2c9280578a008c2601902383810d054bc9d38ec9b3fc355c638ff11aabbc74"),
   ("02c1e16b000bc497", "78de65a778f554831c17d665e63d7d614e46eeae8c06e1e282e74aaf314ecea9"),
   ("02d6971f000bc497", "ab02e102ff722cd457687401d34e4776af2c03b82ebfa19dbff86f586c2117fe"),
   ("02880024000bc497", "355348f04e2f39beefe9691c885a47b2537b1aab6377e1441c7a715a27a04759"),
   ("029b0cf0000bc497", "c058708f94a21b89f2ceeb31e9657e17e0b8d4ec9626f3734024f3a37120dbb5"),
   ("029c7536000bc497", "33ef89c0d20c0c0a4cdcb88cfdcb91890dc2df8625e6584cb51e7d56ef56779e"),
   ("00929c09000bc497", "f7bc36833eaa731b1b2aed2873ea482d52160c988b0bc08d73e5c351cb64f235"),
   ("01bd33a9000bc497", "3f946d48a14b0fe6c7937a521ecefdecfcfb55051029933f7cadc334bd9d7544"),
   ("022838e9000bc497", "d6bdcfc8a06cd3be0df1646f8709bf046ddacdc2792aa295a29d867d99c78b4e"),
   ("03c83672000bc497", "a80f139ca727c9355a5ae591d5b9cd96851f2b77146f8036c0b207b780658d78"),
   ("02bb6966000bc497", "3492e2b1b85cd57a527dbc425cf9f13369353a6a205131ef0838e15f774826f6"),
   ("02eeea64000bc497", "266819c0820f4cf13beffd80ca0e1d16c9a381026fe13e71a5b843934f4becf6"),
   ("048a9f0d000bc497", "8c9139c8ae6f3730bf9fe4afa087dcbe029d7100b83c85ab3a024696966e3aae"),
   ("548c3e602a8f36f8f2738f5f643b02425038044d98543a51cabaa9785e7e864f0000000000003105", "2fba08e061ba179001d60b5d5604d3b743c6b078f7a09bfb6cd970b72ab4eaf0"),
   ("cac2fcc587dd1da45a8c0481d6dad25d18ee4cc185baf0913bca22f93f8309548c3e602a8f36f8f2738f5f643b02425038044d98543a51cabaa9785e7e864f0000000000003105", "5d4b1afff4b4cb26a871bdd463cda7c6ecfe4446ce38fe8c28d8449c59091248"),
   ("1000a89ed852c24bdf73530eb582c19d4e9bec1476953eb2b6159e3353041f0c", "0002fcb113fe65e5754959872dfdbffea0489bf830beb4961ddc0e9e66a1412a"),
   ("8e26ba46cd2516cce5c0573dc92c6de8f1b7f110bee9aca4d196e5e0e391d029062360e36e133e4d", "90fd66fa1a0a8fa4ce7b887946709996ffe05ef20bd7d3a71ced7dd3cd666a6a"),
   ("8fcbe2f0fcb3245da95ecae3b6bed3be16d66a1f550b0142a4f34073a135cf8e26ba46cd2516cce5c0573dc92c6de8f1b7f110bee9aca4d196e5e0e391d029062360e36e133e4d", "544b1b7e00c0aea562303329009133eb08ee2438bd4d8a5d9b53c73822aa2a6d"),
   ("111b1aaa402bf7d98a041ee194396a4239688598e75718f6e8383e4def9a81ac", "000000006b216892578fad42f928c9a19638a2abb667a5a8113311393dcca017"),
   ("8e26ba46cd2516cce5c0573dc92c6de8f1b7f110bee9aca4d196e5e0e391d029062360e385ffa5ce", "05bbab8c9d07f3670f749ee35c2fc87862c5440f40e8a67dd360d6540e9ff224"),
   ("1f42dc9c17509397fefb0fc28bcfb415186f0859c47f6f6a607a2d41ddc0a98e26ba46cd2516cce5c0573dc92c6de8f1b7f110bee9aca4d196e5e0e391d029062360e385ffa5ce", "a461d34db147f64d391ca250d586a8c5f62878f1e268f0c5160f28a29a8124f7"),
   ("0f9a00a405037ea83fee3ce31a1eefc3a24cba69d41b0595a1c25a01ac169d6a", "0000000005353a7890377419c1ddfdec0e185fa445886597a4ed69e376190aa1")]

def lookup (d : List Byte) : List Byte :=
  let key := if d.length > 8000 && d.drop 8 == Spec.Autolykos.bigM then d.take 8 else d
  fixLen 32 (((table.find? fun e => hex e.1 == key).map fun e => hex e.2).getD [])

def prims : Prims :=
  { Prims.zero with
    blake2b256 := lookup
    blake2b256_length := fun _ => fixLen_length _ _ }

def isD (r : Go (Option (List Byte))) (d : String) : Bool :=
  match r with
  | .ok (some x) => x == hex d
  | _ => false

#guard isD (newErgo.compute prims (hex "548c3e602a8f36f8f2738f5f643b02425038044d98543a51cabaa9785e7e864f") 614400 0x3105) "0002fcb113fe65e5754959872dfdbffea0489bf830beb4961ddc0e9e66a1412a"
#guard isD (newErgo.compute prims (hex "8e26ba46cd2516cce5c0573dc92c6de8f1b7f110bee9aca4d196e5e0e391d029") 771223 0x62360e36e133e4d) "000000006b216892578fad42f928c9a19638a2abb667a5a8113311393dcca017"
#guard isD (newErgo.compute prims (hex "8e26ba46cd2516cce5c0573dc92c6de8f1b7f110bee9aca4d196e5e0e391d029") 771223 0x62360e385ffa5ce) "0000000005353a7890377419c1ddfdec0e185fa445886597a4ed69e376190aa1"

def isN (r : Go U32) (n : Nat) : Bool :=
  match r with
  | .ok x => x.toNat == n
  | _ => false

#guard isN (calcN newErgo.nBase 500000) 67108864
#guard isN (calcN newErgo.nBase 600000) 67108864
#guard isN (calcN newErgo.nBase 614400) 70464240
#guard isN (calcN newErgo.nBase 665600) 73987410
#guard isN (calcN newErgo.nBase 700000) 73987410
#guard isN (calcN newErgo.nBase 788400) 81571035
#guard isN (calcN newErgo.nBase 1051200) 104107290
#guard isN (calcN newErgo.nBase 4198400) 2143944600
#guard isN (calcN newErgo.nBase 41984000) 2143944600

end Verif.Test.Autolykos
