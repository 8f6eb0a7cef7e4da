import Verif.Proof.Bitutil
import Verif.Proof.Convutil
import Verif.Spec.Bytes
import Mathlib.Logic.Function.Basic

/-! # Properties of the utility packages (C59, C60, C62) -/

set_option autoImplicit false

namespace Verif.Props

open Bitutil

/-! ## C59: XORBytes -/

/-- The byte string that a slice denotes in a memory. -/
def contents (m : Mem) (s : Slice) : List Byte := (List.range s.len).map fun i : Nat => m (s.ptr + i)

/-- A source slice may be the start of the destination, or must not overlap it. -/
def NoPartialOverlap (dst src : Slice) (n : Nat) : Prop :=
  src.ptr = dst.ptr ∨ src.ptr + n ≤ dst.ptr ∨ dst.ptr + n ≤ src.ptr

/-- **C59.** For every build (amd64 assembly, arm64 assembly, word-wise and byte-wise Go), every length and every
content: `XORBytes` returns `min(len a, len b)`, that many bytes of `dst` become the xor of the inputs, every other
byte of memory keeps its value, and it panics exactly when `dst` is too short. -/
theorem C59_xorBytes (arch : Arch) (harch : ∀ w, arch = .fast w → 0 < w) (dst a b : Slice) (m : Mem) (fuel : Nat)
    (hf : min a.len b.len + 4 ≤ fuel) (ha : NoPartialOverlap dst a (min a.len b.len))
    (hb : NoPartialOverlap dst b (min a.len b.len)) :
    (min a.len b.len ≤ dst.len → ∃ m', xorBytes arch fuel dst a b m = .ok (m', min a.len b.len) ∧
      ∀ x, m' x = if dst.ptr ≤ x ∧ x < dst.ptr + (min a.len b.len : Nat) then m (a.ptr + (x - dst.ptr)) ^^^ m (b.ptr + (x - dst.ptr))
        else m x) ∧
    (dst.len < min a.len b.len → xorBytes arch fuel dst a b m = .error (.panic .index)) := by
  have hmin : (if b.len < a.len then b.len else a.len) = min a.len b.len := by
    by_cases h : b.len < a.len
    · rw [if_pos h]; omega
    · rw [if_neg h]; omega
  unfold xorBytes
  simp only [hmin]
  obtain ⟨n, hn⟩ : ∃ n, n = min a.len b.len := ⟨_, rfl⟩
  rw [← hn] at hf ha hb ⊢
  constructor
  · intro hle
    by_cases h0 : n = 0
    · rw [if_pos h0]
      refine ⟨m, by rw [h0]; rfl, ?_⟩
      intro x
      rw [if_neg (by omega)]
    · rw [if_neg h0, if_neg (by omega)]
      have key : ∀ m', Done dst.ptr a.ptr b.ptr n m n n m' →
          ∀ x, m' x = if dst.ptr ≤ x ∧ x < dst.ptr + n then m (a.ptr + (x - dst.ptr)) ^^^ m (b.ptr + (x - dst.ptr)) else m x := by
        intro m' h x
        rw [h x]
        by_cases hc : dst.ptr ≤ x ∧ x < dst.ptr + n
        · rw [if_pos hc, if_pos ⟨hc.1, hc.2, by omega⟩]
        · rw [if_neg hc, if_neg (by tauto)]
      cases arch with
      | amd64 ax0 =>
        obtain ⟨m', e, h⟩ := sse2_done ha hb (by omega) fuel (by omega) ax0 m
        exact ⟨m', by simp only [e]; rfl, key m' h⟩
      | arm64 =>
        obtain ⟨m', e, h⟩ := arm64_done ha hb (by omega) fuel (by omega) m
        exact ⟨m', by simp only [e]; rfl, key m' h⟩
      | fast w =>
        obtain ⟨m', e, h⟩ := fast_done w (harch w rfl) ha hb m
        exact ⟨m', by simp only [e]; rfl, key m' h⟩
      | safe =>
        obtain ⟨m', e, h⟩ := safe_done ha hb m
        exact ⟨m', by simp only [e]; rfl, key m' h⟩
  · intro hlt
    rw [if_neg (by omega), if_pos (by omega)]
    rfl

/-- **C59**, in terms of byte strings: the new contents of `dst` are the xor of the two inputs followed by the old tail. -/
theorem C59_xorBytes_contents (arch : Arch) (harch : ∀ w, arch = .fast w → 0 < w) (dst a b : Slice) (m : Mem) (fuel : Nat)
    (hf : min a.len b.len + 4 ≤ fuel) (ha : NoPartialOverlap dst a (min a.len b.len))
    (hb : NoPartialOverlap dst b (min a.len b.len)) (hd : min a.len b.len ≤ dst.len) :
    ∃ m', xorBytes arch fuel dst a b m = .ok (m', min a.len b.len) ∧
      contents m' dst = List.zipWith (· ^^^ ·) (contents m a) (contents m b) ++ (contents m dst).drop (min a.len b.len) := by
  obtain ⟨m', e, h⟩ := (C59_xorBytes arch harch dst a b m fuel hf ha hb).1 hd
  refine ⟨m', e, ?_⟩
  apply List.ext_getElem
  · simp [contents]; omega
  · intro i h1 h2
    have hi : i < dst.len := by simpa [contents] using h1
    simp only [contents, List.getElem_map, List.getElem_range]
    rw [h]
    by_cases hc : i < min a.len b.len
    · rw [if_pos (by omega), List.getElem_append_left (by simpa using hc)]
      simp only [List.getElem_zipWith, List.getElem_map, List.getElem_range]
      rw [show dst.ptr + (i : Int) - dst.ptr = i by omega]
    · rw [if_neg (by omega), List.getElem_append_right (by simp; omega)]
      simp only [List.length_zipWith, List.length_map, List.length_range, List.getElem_drop, List.getElem_map, List.getElem_range]
      congr 2
      omega

/-- all builds agree -/
theorem C59_builds_agree (arch₁ arch₂ : Arch) (h₁ : ∀ w, arch₁ = .fast w → 0 < w) (h₂ : ∀ w, arch₂ = .fast w → 0 < w)
    (dst a b : Slice) (m : Mem) (fuel : Nat) (hf : min a.len b.len + 4 ≤ fuel)
    (ha : NoPartialOverlap dst a (min a.len b.len)) (hb : NoPartialOverlap dst b (min a.len b.len)) :
    xorBytes arch₁ fuel dst a b m = xorBytes arch₂ fuel dst a b m := by
  have A := C59_xorBytes arch₁ h₁ dst a b m fuel hf ha hb
  have B := C59_xorBytes arch₂ h₂ dst a b m fuel hf ha hb
  by_cases hd : min a.len b.len ≤ dst.len
  · obtain ⟨m1, e1, p1⟩ := A.1 hd
    obtain ⟨m2, e2, p2⟩ := B.1 hd
    rw [e1, e2, show m1 = m2 from funext fun x => by rw [p1, p2]]
  · rw [A.2 (by omega), B.2 (by omega)]

/-- a destination that is also an input, length 41: the hypotheses are satisfiable (aliased and disjoint operands) -/
example : NoPartialOverlap ⟨100, 50⟩ ⟨100, 41⟩ 41 ∧ NoPartialOverlap ⟨100, 50⟩ ⟨200, 64⟩ 41 ∧ (41 : Nat) ≤ 50 := by
  unfold NoPartialOverlap; simp

/-! ## C60: conversions -/

open Convutil Go

/-- **C60.** Words → bytes → words is the identity, in both byte orders. -/
theorem C60_bytes_of_words_roundtrip (arr : List U32) (o : ByteOrder) :
    (uint32ArrayToBytes arr o >>= fun b => bytesToUint32Array b o) = .ok arr := by
  rw [uint32ArrayToBytes_eq, ok_bind, bytesToUint32Array_eq]
  congr 1
  have hl := flatMap_length_const (bytesOf o 4 (w := 32)) 4 (fun a => bytesOf_length o 4 a) arr
  apply List.ext_getElem
  · rw [words32_length, hl]; omega
  · intro i h1 h2
    simp only [words32, List.getElem_map, List.getElem_range]
    rw [flatMap_block (bytesOf o 4 (w := 32)) 4 (fun a => bytesOf_length o 4 a) arr i h2]
    exact ofNat_natOf_bytesOf o _ (by omega)

/-- **C60.** Bytes → words → bytes is the identity up to the at most three trailing bytes, which are dropped. -/
theorem C60_words_of_bytes_roundtrip (buf : List Byte) (o : ByteOrder) :
    (bytesToUint32Array buf o >>= fun a => uint32ArrayToBytes a o) = .ok (buf.take (4 * (buf.length / 4))) := by
  rw [bytesToUint32Array_eq, ok_bind, uint32ArrayToBytes_eq]
  congr 1
  rw [words32, List.flatMap_map, ← flatMap_blocks 4 (buf.length / 4) buf (by omega)]
  rw [List.flatMap_def, List.flatMap_def]
  congr 1
  apply List.map_congr_left
  intro i hi
  have hi : i < buf.length / 4 := by simpa using hi
  exact bytesOf_natOf o _ (by simp; omega) (by omega)

/-- **C60.** What the conversions compute: the words are the 4-byte groups in the given order. -/
theorem C60_words_value (buf : List Byte) :
    bytesToUint32Array buf .little = .ok ((List.range (buf.length / 4)).map fun i => Spec.leWord32 buf i) := by
  rw [bytesToUint32Array_eq]
  congr 1
  apply List.map_congr_left
  intro i _
  have : ∀ bs : List Byte, leNat bs = Spec.leValue bs := by
    intro bs
    induction bs with
    | nil => rfl
    | cons b bs ih => simp only [leNat, ih]; rfl
  simp only [natOf, this, Spec.leWord32]

theorem C60_words_value_big (buf : List Byte) :
    bytesToUint32Array buf .big =
      .ok ((List.range (buf.length / 4)).map fun i => BitVec.ofNat 32 (Spec.beValue ((buf.drop (4 * i)).take 4))) := by
  rw [bytesToUint32Array_eq]
  congr 1
  apply List.map_congr_left
  intro i _
  have : ∀ bs : List Byte, leNat bs = Spec.leValue bs := by
    intro bs
    induction bs with
    | nil => rfl
    | cons b bs ih => simp only [leNat, ih]; rfl
  simp only [natOf, Spec.beValue, ← this, leNat_reverse]

/-- **C60.** Single words: 4 (8) bytes that denote the word. -/
theorem C60_uint32ToBytes (v : U32) (o : ByteOrder) :
    ∃ b, uint32ToBytes v o = .ok b ∧ b.length = 4 ∧ getU32 o b = .ok v := by
  refine ⟨_, uint32ToBytes_eq v o, by simp, ?_⟩
  rw [getU32, if_pos (by simp), List.take_of_length_le (by simp)]
  exact congrArg _ (ofNat_natOf_bytesOf o v (by omega))

theorem C60_uint64ToBytes (v : U64) (o : ByteOrder) :
    ∃ b, uint64ToBytes v o = .ok b ∧ b.length = 8 ∧ getU64 o b = .ok v := by
  refine ⟨_, uint64ToBytes_eq v o, by simp, ?_⟩
  rw [getU64, if_pos (by simp), List.take_of_length_le (by simp)]
  exact congrArg _ (ofNat_natOf_bytesOf o v (by omega))

/-- a seven-byte string: the last three bytes are lost -/
example : (bytesToUint32Array [1, 2, 3, 4, 5, 6, 7] .big >>= fun a => uint32ArrayToBytes a .big) = .ok [1, 2, 3, 4] := by
  rw [C60_words_of_bytes_roundtrip]; rfl

/-! ## C62: FNV -/

open Crypto

/-- **C62.** `Fnv1` is multiplication by the FNV prime 16777619 modulo 2^32 followed by xor. -/
theorem C62_fnv1_value (u v : U32) : (fnv1 u v).toNat = (u.toNat * 16777619 % 2 ^ 32) ^^^ v.toNat := by
  rw [fnv1, BitVec.toNat_xor, BitVec.toNat_mul, show (BitVec.ofNat 32 fnvPrime).toNat = 16777619 from rfl]

theorem C62_fnv1a_value (u v : U32) : (fnv1a u v).toNat = (u.toNat ^^^ v.toNat) * 16777619 % 2 ^ 32 := by
  rw [fnv1a, BitVec.toNat_mul, BitVec.toNat_xor, show (BitVec.ofNat 32 fnvPrime).toNat = 16777619 from rfl]

theorem C62_fnv1Uint64_value (u v : U64) : (fnv1Uint64 u v).toNat = (u.toNat * 16777619 % 2 ^ 64) ^^^ v.toNat := by
  rw [fnv1Uint64, BitVec.toNat_xor, BitVec.toNat_mul, show (BitVec.ofNat 64 fnvPrime).toNat = 16777619 from rfl]

theorem mulOdd_bijective {w : Nat} (p q : BitVec w) (h : p * q = 1) : Function.Bijective (fun u : BitVec w => u * p) := by
  constructor
  · intro u v huv
    have := congrArg (· * q) huv
    simpa [BitVec.mul_assoc, h] using this
  · intro y
    exact ⟨y * q, by simp only; rw [BitVec.mul_assoc, BitVec.mul_comm q p, h]; exact BitVec.mul_one y⟩

theorem xor_bijective {w : Nat} (v : BitVec w) : Function.Bijective (fun u : BitVec w => u ^^^ v) := by
  constructor
  · intro a b h
    have := congrArg (· ^^^ v) h
    simpa [BitVec.xor_assoc] using this
  · intro y
    exact ⟨y ^^^ v, by simp [BitVec.xor_assoc]⟩

theorem xor_bijective' {w : Nat} (v : BitVec w) : Function.Bijective (fun u : BitVec w => v ^^^ u) := by
  have := xor_bijective v
  simpa only [BitVec.xor_comm] using this

/-- **C62.** Each FNV step is a bijection in either argument when the other is fixed. -/
theorem C62_fnv1_bijective (c : U32) :
    Function.Bijective (fun u => fnv1 u c) ∧ Function.Bijective (fun v => fnv1 c v) := by
  refine ⟨?_, xor_bijective' _⟩
  exact (xor_bijective c).comp (mulOdd_bijective (BitVec.ofNat 32 fnvPrime) (BitVec.ofNat 32 0x359c449b) (by decide +kernel))

theorem C62_fnv1a_bijective (c : U32) :
    Function.Bijective (fun u => fnv1a u c) ∧ Function.Bijective (fun v => fnv1a c v) := by
  have hm := mulOdd_bijective (BitVec.ofNat 32 fnvPrime) (BitVec.ofNat 32 0x359c449b) (by decide +kernel)
  exact ⟨hm.comp (xor_bijective c), hm.comp (xor_bijective' c)⟩

theorem C62_fnv1Uint64_bijective (c : U64) :
    Function.Bijective (fun u => fnv1Uint64 u c) ∧ Function.Bijective (fun v => fnv1Uint64 c v) := by
  refine ⟨?_, xor_bijective' _⟩
  exact (xor_bijective c).comp (mulOdd_bijective (BitVec.ofNat 64 fnvPrime) (BitVec.ofNat 64 9778875398352553115) (by decide +kernel))

/-- **C62.** `FnvHash` mixes the first `len(mix)` words of `data` element-wise, and panics if `data` is shorter. -/
theorem C62_fnvHash (mix data : List U32) :
    (mix.length ≤ data.length → fnvHash mix data = .ok (List.zipWith fnv1 mix data)) ∧
    (data.length < mix.length → fnvHash mix data = .error (.panic .index)) :=
  ⟨fnvHash_eq mix data, fnvHash_short mix data⟩

example : fnvHash [1, 2] [3, 4, 5] = .ok [fnv1 1 3, fnv1 2 4] := (C62_fnvHash _ _).1 (by decide +kernel)

end Verif.Props
