import Verif.Model.Configs
import Verif.Model.GenLookup
import Verif.Test.Sponge

/-! # Conformance tests: /repo/internal/dag/dag_test.go -/

set_option autoImplicit false

namespace Verif.Test.Dag

open Verif Go Verif.Dag

def isVal (r : Go U64) (v : Nat) : Bool :=
  match r with
  | .ok x => x.toNat == v
  | .error _ => false

def isBytes (r : Go (List Byte)) (v : List Byte) : Bool :=
  match r with
  | .ok x => x == v
  | .error _ => false

-- dag_test.go:34-60
#guard isVal (calcEpoch (ethereum "") 0) 0
#guard isVal (calcEpoch (ethereum "") 29999) 0
#guard isVal (calcEpoch (ethereum "") 30000) 1
#guard isVal (calcEpoch (ethereum "") 59999) 1
#guard isVal (calcEpoch (ethereum "") 5000000) 166

-- dag_test.go:105-119
#guard isBytes (seedHash keccakPrims (ethereum "") 1) (List.replicate 32 0)
#guard isBytes (seedHash keccakPrims (ethereum "") 30001) (hex "290decd9548b62a8d60345a988386fc84ba6bc95484008f6362f93160ef3e563")
#guard isBytes (seedHash keccakPrims (ethereum "") 5130001) (hex "a9b0e0c9aca72c07ba06b5bbdae8b8f69e61878301508473379bb4f71807d707")
#guard isBytes (seedHash keccakPrims (ethereum "") 61440001) (hex "20a7678ca7b50829183baac2e1e3c43fa3c4bcbc171b11cf5a9f30bebd172920")

-- dag_test.go:172-210
#guard (List.zip (List.range 10) [16776896, 16907456, 17039296, 17170112, 17301056, 17432512, 17563072, 17693888, 17824192, 17955904]).all
  fun (e, s) => isVal (calcCacheSize 100 (ethereum "") (BitVec.ofNat 64 e)) s

-- dag_test.go:253-291
#guard (List.zip (List.range 10) [1073739904, 1082130304, 1090514816, 1098906752, 1107293056, 1115684224, 1124070016, 1132461952,
  1140849536, 1149232768]).all fun (e, s) => isVal (calcDatasetSize 100 (ethereum "") (BitVec.ofNat 64 e)) s

def isText (r : Go (List Char)) (v : String) : Bool :=
  match r with
  | .ok x => x == v.toList
  | .error _ => false

-- the layout of /repo/ethash/ethash_lookup.go:3-5; the entries after the last full row are lost
#guard isText (GenLookup.formatLookupTable [16776896, 16907456, 17039296, 17170112, 17301056, 17432512, 17563072] 5)
  "[]uint64{\n\t16776896, 16907456, 17039296, 17170112, 17301056,\n}"

end Verif.Test.Dag
