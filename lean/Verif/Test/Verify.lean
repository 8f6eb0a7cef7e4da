import Verif.Model.Cuckoo
import Verif.Model.Equihash
import Verif.Model.Beam
import Verif.Model.Heavy
import Verif.Model.Eaglesong
import Verif.Test.Blake

/-! # Conformance tests: the verifiers

All vectors of /repo/cuckoo/cuckoo_test.go, /repo/equihash/equihash_test.go, /repo/beamhashiii/beamhashiii_test.go,
/repo/eaglesong/eaglesong_test.go and /repo/internal/crypto/{siphash,xoshiro256plusplus}_test.go, with a BLAKE2b implemented from the RFC.
Each accepted solution is also run with one change, after which it has to be rejected. -/

set_option autoImplicit false

namespace Verif.Test.Verify

open Verif Go Blake

def accepted {ε : Type} (r : Go (Bool × Option ε)) : Bool := match r with
  | .ok (true, none) => true
  | _ => false

def rejected {ε : Type} (r : Go (Bool × Option ε)) : Bool := match r with
  | .ok (false, some _) => true
  | .ok (false, none) => true
  | _ => false

def bytesOk {ε : Type} (r : Go (Except ε (List Byte))) (x : List Byte) : Bool := match r with
  | .ok (.ok y) => y == x
  | _ => false

def wordsOk {ε : Type} (r : Go (Except ε (List U32))) (x : List Nat) : Bool := match r with
  | .ok (.ok y) => y.map BitVec.toNat == x
  | _ => false

-- cuckoo_test.go TestAeternity
def newAeternity0 : List Byte × List U64 := (hex "69435549583467653534384d6e4e6c4d714b6371365444674a6631446b783548594f4d67705041783249343d71414541414837384141413d000000000000000000000000000000000000000000000000",
  [3890503, 10945800, 13675082, 37265770, 59134911, 65609110, 66370216, 103739774, 106789697, 107985694, 127596641, 146615538, 156678301, 190249855, 201950547, 208481319, 227282905, 232569629, 238996702, 239487983, 263232495, 308800433, 312408294, 327430837, 340607627, 344254134, 351260602, 361583442, 362755409, 362837347, 369770237, 399095326, 407148988, 407172148, 421070138, 427462805, 446712135, 465827557, 495665193, 510271456, 511591296, 526002768])
#guard accepted (Cuckoo.verify prims Cuckoo.newAeternity 100 newAeternity0.1 newAeternity0.2)
#guard rejected (Cuckoo.verify prims Cuckoo.newAeternity 100 newAeternity0.1 (newAeternity0.2.set 7 1))
#guard rejected (Cuckoo.verify prims Cuckoo.newAeternity 100 ((newAeternity0.1).set 7 1) newAeternity0.2)
def newAeternity1 : List Byte × List U64 := (hex "5957616c3675576330543433356d6775473877482f4d4378354e45626f6a4837586d38547176614e3862553d566b35374733496f4141413d000000000000000000000000000000000000000000000000",
  [7836105, 26726380, 38889125, 39727288, 64401116, 70326070, 85373585, 85432342, 90883953, 109810392, 112125176, 135775488, 146909009, 150051228, 150234708, 153847664, 157299960, 164612975, 223288539, 224102291, 224135592, 228649339, 229867889, 230726801, 238333615, 251810271, 273181351, 340228388, 356834041, 371450734, 380982937, 385509637, 393291206, 402164301, 421804860, 434887335, 458458097, 476138687, 501302521, 502634151, 526554195, 527143942])
#guard accepted (Cuckoo.verify prims Cuckoo.newAeternity 100 newAeternity1.1 newAeternity1.2)
#guard rejected (Cuckoo.verify prims Cuckoo.newAeternity 100 newAeternity1.1 (newAeternity1.2.set 7 1))
#guard rejected (Cuckoo.verify prims Cuckoo.newAeternity 100 ((newAeternity1.1).set 7 1) newAeternity1.2)
def newAeternity2 : List Byte × List U64 := (hex "6a4f3142484c734a775a6571367430457650794d76394a44583274387162574859586e496171494d3245773d582b54766c6e496f4141413d000000000000000000000000000000000000000000000000",
  [9084077, 9356957, 14413886, 33765357, 34674206, 49178200, 73221256, 87356929, 88270860, 103620610, 126536117, 129437994, 130753026, 133941223, 143140775, 155070777, 175830884, 177390196, 181984441, 200864015, 202313184, 214329101, 229475251, 273627998, 293698892, 305822614, 314178525, 322424363, 323169080, 363967573, 376982516, 378742030, 379420751, 384307678, 425529678, 460845259, 475397286, 480969079, 481339587, 490269223, 496674524, 527514911])
#guard accepted (Cuckoo.verify prims Cuckoo.newAeternity 100 newAeternity2.1 newAeternity2.2)
#guard rejected (Cuckoo.verify prims Cuckoo.newAeternity 100 newAeternity2.1 (newAeternity2.2.set 7 1))
#guard rejected (Cuckoo.verify prims Cuckoo.newAeternity 100 ((newAeternity2.1).set 7 1) newAeternity2.2)
-- cuckoo_test.go TestCortex
def newCortex0 : List Byte × List U64 := (hex "6281a031a95a7669e42cf56d46b5d921b067ace29c46c89fa2698f3b895d6fcb21208e4e00000165",
  [24944773, 25283185, 158043032, 164865543, 191608008, 211533515, 282183237, 330989788, 332090825, 367772541, 374204514, 380080234, 415400211, 429805770, 463931698, 465843633, 480958228, 496291028, 497333405, 520034462, 540066511, 545564355, 554820894, 606073552, 649789713, 660591777, 660949072, 688931294, 709631579, 713970913, 731983145, 756468672, 782110200, 839460253, 846536226, 856717392, 858469881, 866202836, 894419492, 943739643, 953004590, 1046896621])
#guard accepted (Cuckoo.verify prims Cuckoo.newCortex 100 newCortex0.1 newCortex0.2)
#guard rejected (Cuckoo.verify prims Cuckoo.newCortex 100 newCortex0.1 (newCortex0.2.set 7 1))
#guard rejected (Cuckoo.verify prims Cuckoo.newCortex 100 ((newCortex0.1).set 7 1) newCortex0.2)
def newCortex1 : List Byte × List U64 := (hex "a855bfb05489f16720c241b8f89db047fd63b4e7ffc8942c37edd81c6a4ee2e321208e4e0000022a",
  [6255985, 8485061, 11693497, 17060611, 20619110, 35522991, 35894312, 38791227, 66156819, 66204368, 84837715, 88985441, 98239700, 110557340, 137683246, 139961555, 170908027, 178417001, 216501771, 222727420, 223613871, 225421265, 227659924, 253179254, 340833419, 405448443, 406043290, 436660680, 439288678, 478080975, 515009272, 537009210, 560839223, 630701281, 631343016, 645281668, 709823838, 759695167, 792035765, 890771838, 938801928, 1023793055])
#guard accepted (Cuckoo.verify prims Cuckoo.newCortex 100 newCortex1.1 newCortex1.2)
#guard rejected (Cuckoo.verify prims Cuckoo.newCortex 100 newCortex1.1 (newCortex1.2.set 7 1))
#guard rejected (Cuckoo.verify prims Cuckoo.newCortex 100 ((newCortex1.1).set 7 1) newCortex1.2)
def newCortex2 : List Byte × List U64 := (hex "a855bfb05489f16720c241b8f89db047fd63b4e7ffc8942c37edd81c6a4ee2e321208e4e00000328",
  [1779689, 3863239, 32430471, 60459296, 84796112, 133488105, 134042799, 206447978, 230679220, 251069480, 252722864, 255671304, 272581231, 351359677, 368398916, 374543926, 381477160, 382645208, 393538543, 455468132, 495156756, 620557036, 642676865, 676290057, 697624877, 749434525, 763730015, 767330545, 791837105, 794395810, 810028758, 821317509, 843394991, 867280787, 870976177, 872846398, 878212192, 885195213, 918386065, 946772884, 970996323, 981226691])
#guard accepted (Cuckoo.verify prims Cuckoo.newCortex 100 newCortex2.1 newCortex2.2)
#guard rejected (Cuckoo.verify prims Cuckoo.newCortex 100 newCortex2.1 (newCortex2.2.set 7 1))
#guard rejected (Cuckoo.verify prims Cuckoo.newCortex 100 ((newCortex2.1).set 7 1) newCortex2.2)
-- equihash_test.go TestExpandArray
#guard bytesOk (Equihash.expandArray (hex "ffffffffffffffffffffff") 11 0) (hex "07ff07ff07ff07ff07ff07ff07ff07ff")
#guard bytesOk (Equihash.expandArray (hex "aaaaad55556aaaab55555aaaaad55556aaaab55555") 21 0) (hex "155555155555155555155555155555155555155555155555")
#guard bytesOk (Equihash.expandArray (hex "000220000a7ffffe00123022b38226ac19bdf23456") 21 0) (hex "0000440000291fffff0001230045670089ab00cdef123456")
#guard bytesOk (Equihash.expandArray (hex "cccf333cccf333cccf333cccf333cccf333cccf333cccf333cccf333") 14 0) (hex "3333333333333333333333333333333333333333333333333333333333333333")
#guard bytesOk (Equihash.expandArray (hex "ffffffffffffffffffffff") 11 2) (hex "000007ff000007ff000007ff000007ff000007ff000007ff000007ff000007ff")
-- equihash_test.go TestIndicesFromMinimal
#guard wordsOk (Equihash.indicesFromMinimal 80 3 (hex "000008000040000200001000008000040000200001")) [1, 1, 1, 1, 1, 1, 1, 1]
#guard wordsOk (Equihash.indicesFromMinimal 80 3 (hex "ffffffffffffffffffffffffffffffffffffffffff")) [2097151, 2097151, 2097151, 2097151, 2097151, 2097151, 2097151, 2097151]
#guard wordsOk (Equihash.indicesFromMinimal 80 3 (hex "0ffff8002003fffe000800ffff8002003fffe00080")) [131071, 128, 131071, 128, 131071, 128, 131071, 128]
#guard wordsOk (Equihash.indicesFromMinimal 80 3 (hex "000220000a7ffffe004d10014c800ffc00002fffff")) [68, 41, 2097151, 1233, 665, 1023, 1, 1048575]
-- equihash_test.go TestVerifyZCash
def zcash : Equihash.Client := ⟨96, 5, Equihash.ascii "ZcashPoW", false⟩
def zcashHeader : List Byte := hex "457175696861736820697320616e206173796d6d657472696320506f57206261736564206f6e207468652047656e6572616c697365642042697274686461792070726f626c656d2e0100000000000000000000000000000000000000000000000000000000000000"
def zcashSoln : List Byte := hex "046a8ed451a2197332e71f39db9c79fbf93fc1443da58fb38d0599172116d555b1b21f32705ce998f60da852f77f0e7f4d63fc2dd230a3d99953a0787dfefcab341bdec8"
#guard accepted (zcash.verify prims 100 zcashHeader zcashSoln)
#guard rejected (zcash.verify prims 100 (zcashHeader.set 72 2) zcashSoln)
#guard rejected (zcash.verify prims 100 zcashHeader (zcashSoln.set 0 5))
-- equihash_test.go TestVerifyFlux
def fluxHeader : List Byte := hex "04000000389f266cdabe6a7c4e108814779ba13aa089431fba5149dfde20887e0900000024dd82bd2aedfdd633c49c12ad8144f590a2f23dd03d5f993a70dbc68a921dc2d9988e7adc9c6da15d12246eeb18623d1f8039f5ee6bcae29261e383248d752227ca9862b2fb1a1d2000c19a000000000000000000000000000000000000000000000000ba098e10"
def fluxSoln : List Byte := hex "47729e612ed3c5c2dec26730db486d5e7d78d13b0735b2cddb54619f6f31a646178fb35f3f84636c5490edd4f6f9a5010f2aaac8"
#guard accepted (Equihash.newFlux.verify prims 100 fluxHeader fluxSoln)
#guard rejected (Equihash.newFlux.verify prims 100 (fluxHeader.set 72 2) fluxSoln)
#guard rejected (Equihash.newFlux.verify prims 100 fluxHeader (fluxSoln.set 0 5))
-- beamhashiii_test.go
def beam0 : List Byte × List Byte := (hex "fc40996a518c221384c9f2542ca811cd66c4ccddb001ef40b9f9ba059c20352eb32c7d4f07a3001c",
  hex "0fc81c684be229c36b844ef8299a9744dbb8727276bff8cbd610fa7414fb6cfd67b92586f84f8bffaeeb99266994d79da3fb026a24128b84901f244b08ee6b6b954372fcb0a7d33318da6bf1854ae48f94fe8af2d3147bdc7302cc12daa1a306511122a700000000")
#guard accepted (Beam.newBeam.verify prims 100 (beam0.1) (beam0.2))
#guard rejected (Beam.newBeam.verify prims 100 (beam0.1.set 39 1) (beam0.2))
#guard rejected (Beam.newBeam.verify prims 100 (beam0.1) (beam0.2.set 20 1))
def beam1 : List Byte × List Byte := (hex "0a24ff76e1f53ddf605c66a21e9e67a68fd37ecdec17dad8500297622f9d9ad48f92d119df9a5346",
  hex "559839f684c3bd54be265dc3cf50c66c084a61e9aaca8c1eca5eb8c6be10d91ec6002d58018c19984c47669a28874cb637ec59956424d23b1bba57bb7ff93ccd5f4617d4abb55fc01b15ced28866fc6c4582b85f9422524cf53e6f36c26be675f89ee3f200000000")
#guard accepted (Beam.newBeam.verify prims 100 (beam1.1) (beam1.2))
#guard rejected (Beam.newBeam.verify prims 100 (beam1.1.set 39 1) (beam1.2))
#guard rejected (Beam.newBeam.verify prims 100 (beam1.1) (beam1.2.set 20 1))
def beam2 : List Byte × List Byte := (hex "f24852b0580aa448e0cbed5ee84d235ce622b8e443561dbcf196148df2fc024e8f92d119f597eea8",
  hex "8dd20dcc03d033a2230a871f8ec10a73ad3475e57e4fdc00fedb5851a45b7945a8888cc19ed9e2dfce8eb9b1d037c5dd8cc66aed275019f1fe765b8944f855cc050e7080fddf74d55268fb7df22d28f0e5d64616a291e3abb842d6f8eebd4bfae719abd800000000")
#guard accepted (Beam.newBeam.verify prims 100 (beam2.1) (beam2.2))
#guard rejected (Beam.newBeam.verify prims 100 (beam2.1.set 39 1) (beam2.2))
#guard rejected (Beam.newBeam.verify prims 100 (beam2.1) (beam2.2.set 20 1))
-- siphash_test.go
#guard Siphash.xorLanes (Siphash.hash24 (Siphash.newSipHasher ⟨1, 2, 3, 4⟩) 10) == 928382149599306901
#guard Siphash.xorLanes (Siphash.hash24 (Siphash.newSipHasher ⟨1, 2, 3, 4⟩) 111) == 10524991083049122233
#guard Siphash.xorLanes (Siphash.hash24 (Siphash.newSipHasher ⟨9, 7, 6, 7⟩) 12) == 1305683875471634734
#guard Siphash.xorLanes (Siphash.hash24 (Siphash.newSipHasher ⟨9, 7, 6, 7⟩) 10) == 11589833042187638814
-- xoshiro256plusplus_test.go
def draws (n : Nat) (s : Heavy.Xoshiro) : List Nat := match n with
  | 0 => []
  | n + 1 => s.next.2.toNat :: draws n s.next.1
#guard draws 12 ⟨0, 0, 0, 1⟩ == [0x0000000000800000, 0x0000000000800011, 0x0002200000800011, 0x0002200044000020, 0x00022000448008a1, 0x01102100802208a0, 0x0114002284200880, 0x0402896644a64095, 0x8a14a0a244acc891, 0x8c88ba4680b20495, 0x8b48b35586484291, 0x09d8608086e66cd5]
#guard draws 12 ⟨124123, 591204, 959691, 959109⟩ == [0x00000843b001e4db, 0x000003219d80c14a, 0x44be2003275edbad, 0x0e040b0682d9cf5b, 0xae50d583e48813b7, 0x868e6c5267cb9e0e, 0x278a90e35d6235c9, 0xe0fbdb62d8981ac2, 0xe9f929070cec215b, 0x933060e9112c0026, 0x8e3c312c503989f4, 0x0cb10bc24b1fbeca]
-- eaglesong_test.go
#guard (match Eaglesong.newNervos.compute (hex "48656c6c6f2c20776f726c64210a") with
  | .ok d => d == hex "64867e2441d162615dc2430b6bcb4d3f4b95e4d0db529fca1eece73c077d72d6"
  | _ => false)

end Verif.Test.Verify
