/-! # Facts about machine words -/

set_option autoImplicit false

namespace Verif.Bits

theorem rotateRight_rotateLeft {w : Nat} (x : BitVec w) (n : Nat) : (x.rotateLeft n).rotateRight n = x := by
  ext i hi
  have hw : 0 < w := by omega
  have hn := Nat.mod_lt n hw
  simp only [BitVec.getElem_rotateRight, BitVec.getElem_rotateLeft]
  split
  · split
    · omega
    · congr 1; omega
  · split
    · congr 1; omega
    · omega

theorem rotateLeft_rotateRight {w : Nat} (x : BitVec w) (n : Nat) : (x.rotateRight n).rotateLeft n = x := by
  ext i hi
  have hw : 0 < w := by omega
  have hn := Nat.mod_lt n hw
  simp only [BitVec.getElem_rotateRight, BitVec.getElem_rotateLeft]
  split
  · split
    · omega
    · congr 1; omega
  · split
    · congr 1; omega
    · omega

theorem and_le_right {w : Nat} (x m : BitVec w) : x &&& m ≤ m := by
  rw [BitVec.le_def, BitVec.toNat_and]; exact Nat.and_le_right

end Verif.Bits
