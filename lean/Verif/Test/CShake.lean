import Verif.Test.Hasher
import Verif.Model.CShake
import Verif.Spec.KeccakF

/-! # cSHAKE256 against a sample of the standard -/

set_option autoImplicit false

namespace Verif.Test.CShake

open Verif.Go Verif.Hasher Verif.Test.Hasher

def shown (r : Go (List Byte)) : String :=
  match r with
  | .ok d => hex d
  | .error _ => "panic"

#guard shown (Hasher.cshake256 f1600 [0, 1, 2, 3] ("Email Signature".toList.map fun c => BitVec.ofNat 8 c.toNat) 64) ==
  "d008828e2b80ac9d2218ffee1d070c48b8e4c87bff32c9699d5b6896eee0edd164020e2be0560858d9c00c037e34a96937c561a74c412bb4c746469527281c8c"
#guard shown (Hasher.cshake256 f1600 [] [] 32) == "46b9dd2b0ba88d13233b3feb743eeb243fcd52ea62b81b82b50c27646ed5762f"
#guard shown (Hasher.keccak256 f1600 abc) == "4e03657aea45a94fc7d47ba826c8d667c0d1e6e33a64a036ec44f58fa12d6c45"

#guard Spec.KeccakF.keccakF ((List.range 200).map fun i => BitVec.ofNat 8 (i * i)) == f1600 ((List.range 200).map fun i => BitVec.ofNat 8 (i * i))

end Verif.Test.CShake
