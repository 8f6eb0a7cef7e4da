import Verif.Go.Prelude
import Verif.Go.Blocks
import Verif.Model.Generate
import Verif.Spec.Ethash
import Verif.Spec.Large
import Verif.Proof.Convutil
import Verif.Proof.SpecBytes

/-! # generate.go computes the published cache and dataset items -/

set_option autoImplicit false

namespace Verif.Dag

open Go Spec.Ethash

theorem byteView_eq (w : List U32) : byteView w = bytesLE w := rfl

theorem bytes_eq (w : List U32) : bytes w = bytesLE w := by
  unfold bytes bytesLE
  refine congrArg (fun f => List.flatMap f w) ?_
  funext x
  exact Spec.leEncode_eq_leBytes 4 x

theorem words_eq (b : List Byte) : words b = wordView b := by
  unfold words wordView
  refine List.map_congr_left ?_
  intro i _
  rw [Spec.leWord32, Spec.leValue_eq]

theorem wordView_length (b : List Byte) : (wordView b).length = b.length / 4 := by simp [wordView]

theorem wordView_bytesLE (w : List U32) : wordView (bytesLE w) = w := by
  have hl := bytesLE_length w
  apply List.ext_getElem
  · rw [wordView_length]; omega
  · intro i h1 h2
    simp only [wordView, List.getElem_map, List.getElem_range]
    exact word_bytesLE w i h2

theorem bytesLE_wordView (b : List Byte) (h : b.length % 4 = 0) : bytesLE (wordView b) = b := by
  have hb := eq_flatten_blocks 4 (b.length / 4) b (by omega)
  conv_rhs => rw [hb]
  rw [bytesLE, wordView, List.flatMap_map, List.flatMap_def]
  refine congrArg List.flatten ?_
  refine List.map_congr_left ?_
  intro i hi
  have := List.mem_range.mp hi
  exact leBytes_ofNat_leNat _ (by rw [List.length_take, List.length_drop]; omega)

theorem keccak512At_zero (P : Prims) (buf data : List Byte) (h : buf.length = 64) :
    keccak512At P buf 0 data = .ok (P.keccak512 data) := by
  rw [keccak512At, if_neg (by omega), List.drop_of_length_le (by omega)]
  simp

theorem fnv_eq : Crypto.fnv1 = fnv := rfl

/-! ## dataset items -/

section item

variable (P : Prims) (parents : U32) (cache : List U32) (index : U32)

theorem umod_rows (a : U32) (R : Nat) (h1 : 1 ≤ R) (h2 : R < 2 ^ 32) :
    umod a (BitVec.ofNat 32 R) = .ok (BitVec.ofNat 32 (a.toNat % R)) := by
  have h0 : BitVec.ofNat 32 R ≠ 0 := by
    intro h
    have := congrArg BitVec.toNat h
    simp only [BitVec.toNat_ofNat] at this
    rw [Nat.mod_eq_of_lt h2] at this
    simp at this; omega
  rw [umod, if_neg h0]
  refine congrArg Except.ok ?_
  apply BitVec.eq_of_toNat_eq
  have : a.toNat % R < R := Nat.mod_lt _ h1
  rw [BitVec.toNat_umod, BitVec.toNat_ofNat, BitVec.toNat_ofNat, Nat.mod_eq_of_lt h2, Nat.mod_eq_of_lt (by omega : _ < 2 ^ 32)]

/-- `uint32` offset of word `i` of row `r` -/
theorem rowOff (r i : Nat) (hi : i < 16) :
    (BitVec.ofNat 32 r * BitVec.ofNat 32 hashWords + BitVec.ofNat 32 i).toNat = 16 * (r % 2 ^ 28) + i := by
  simp only [BitVec.toNat_add, BitVec.toNat_mul, BitVec.toNat_ofNat, hashWords]
  omega

theorem rowOff0 (r : Nat) : (BitVec.ofNat 32 r * BitVec.ofNat 32 hashWords).toNat = 16 * (r % 2 ^ 28) := by
  simp only [BitVec.toNat_mul, BitVec.toNat_ofNat, hashWords]
  omega

theorem rowOf_getElem (r i : Nat) (_ : i < 16) (h : 16 * r + i < cache.length) (h' : i < (rowOf cache r).length) :
    (rowOf cache r)[i] = cache[16 * r + i] := by
  simp only [rowOf, List.getElem_take, List.getElem_drop]

theorem rowOf_length (r : Nat) (hr : r < cache.length / 16) : (rowOf cache r).length = 16 := by
  rw [rowOf, List.length_take, List.length_drop]; omega

/-- generate.go:96-99 -/
theorem seed_loop (R : Nat) (hR : R ≤ cache.length / 16) (h1 : 1 ≤ R) (h2 : R < 2 ^ 32) :
    (do
      let r ← umod index (BitVec.ofNat 32 R)
      let w ← idx cache (r * BitVec.ofNat 32 hashWords).toNat
      let mix ← putU32 .little (List.replicate hashBytes 0) 0 (w ^^^ index)
      forRange 1 hashWords mix (seedStep cache index (BitVec.ofNat 32 R))) =
    .ok (bytesLE ((Spec.Large.rowAt cache (index.toNat % R)).set 0 ((Spec.Large.rowAt cache (index.toNat % R)).getD 0 0 ^^^ index))) := by
  obtain ⟨q, hq⟩ : ∃ q, q = index.toNat % R := ⟨_, rfl⟩
  have hqR : q < R := hq ▸ Nat.mod_lt _ h1
  obtain ⟨r, hr⟩ : ∃ r, r = q % 2 ^ 28 := ⟨_, rfl⟩
  have hrq : r ≤ q := hr ▸ Nat.mod_le _ _
  rw [umod_rows _ _ h1 h2, ← hq, Spec.Large.rowAt, ok_bind, rowOff0 q, ← hr, idx_ok _ _ (by omega), ok_bind,
    show List.replicate hashBytes 0 = bytesLE (List.replicate 16 0) from (bytesLE_replicate 16).symm,
    show (0 : Nat) = 0 * 4 from rfl, putU32_bytesLE _ 0 (by simp), ok_bind]
  have hlen := rowOf_length cache r (by omega)
  obtain ⟨ws, hws⟩ : ∃ ws, ws = (List.replicate 16 (0 : U32)).set 0 (cache[16 * r]'(by omega) ^^^ index) := ⟨_, rfl⟩
  have hwl : ws.length = 16 := by rw [hws]; simp
  have hw0 : ws[0]? = some (cache[16 * r]'(by omega) ^^^ index) := by rw [hws]; simp
  rw [← hws]
  obtain ⟨s', _, e, hl, hs⟩ := loop_map (f := seedStep cache index (BitVec.ofNat 32 R))
    (g := fun i (m : List U32) => .ok (m.set i (cache.getD (16 * r + i) 0))) bytesLE
    (fun i m => m.length = 16 ∧ m[0]? = some (cache[16 * r]'(by omega) ^^^ index) ∧
      ∀ j, 1 ≤ j → j < i → m[j]? = cache[16 * r + j]?) 15 1 ws ⟨hwl, hw0, by omega⟩ (by
      rintro j m hj1 hj2 ⟨hl, h0, hm⟩
      refine ⟨_, rfl, ?_, by simpa using hl, ?_, ?_⟩
      · unfold seedStep
        rw [umod_rows _ _ h1 h2, ← hq, ok_bind, rowOff q j (by omega), ← hr, idx_ok _ _ (by omega), ok_bind,
          putU32_bytesLE _ _ (by omega)]
        simp [show 16 * r + j < cache.length by omega]
      · rw [List.getElem?_set_ne (by omega), h0]
      · intro k hk1 hk2
        by_cases hk : k = j
        · subst hk
          rw [List.getElem?_set_self (by omega)]
          simp [show 16 * r + k < cache.length by omega]
        · rw [List.getElem?_set_ne (by omega), hm k hk1 (by omega)])
  have e' : forRange 1 hashWords (bytesLE ws) (seedStep cache index (BitVec.ofNat 32 R)) = .ok (bytesLE s') := e
  rw [e']
  refine congrArg (fun x => Except.ok (bytesLE x)) ?_
  apply List.ext_getElem?
  intro j
  by_cases hj : j < 16
  · by_cases hj0 : j = 0
    · subst hj0
      rw [List.getElem?_set_self (by omega), hs.1]
      have : (rowOf cache r).getD 0 0 = cache[16 * r]'(by omega) := by
        rw [List.getD_eq_getElem?_getD, List.getElem?_eq_getElem (by omega), rowOf_getElem cache r 0 (by omega) (by omega)]
        rfl
      rw [this]
    · rw [List.getElem?_set_ne (by omega), hs.2 j (by omega) (by omega), List.getElem?_eq_getElem (by omega),
        List.getElem?_eq_getElem (by omega), rowOf_getElem cache r j hj (by omega)]
  · rw [List.getElem?_eq_none (by omega), List.getElem?_eq_none (by simp; omega)]

/-- generate.go:104-107 -/
theorem int_loop (mix : List Byte) (h : mix.length = 64) :
    forRange 0 hashWords (List.replicate hashWords 0) (intStep mix) = .ok (wordView mix) := by
  simp only [hashWords]
  rw [forRange_fill (fun i => BitVec.ofNat 32 (leNat ((mix.drop (4 * i)).take 4))) 16 _ (by simp)]
  · rw [wordView, h]
  · intro i m hi hl _
    have := getU32_at mix i (by omega)
    unfold intStep
    rw [← bind_assoc, this, ok_bind, upd_ok _ _ _ (by omega)]

/-- generate.go:116-118 -/
theorem flatten_loop (intMix : List U32) (mix : List Byte) (h : intMix.length = 16) (hm : mix.length = 64) :
    forRange 0 intMix.length mix (flattenStep intMix) = .ok (bytesLE intMix) := by
  have hmv : mix = bytesLE (wordView mix) := (bytesLE_wordView mix (by omega)).symm
  have hvl : (wordView mix).length = 16 := by rw [wordView_length]; omega
  obtain ⟨s', _, e, hl, hs⟩ := loop_map (f := flattenStep intMix) (g := fun i (m : List U32) => .ok (m.set i (intMix.getD i 0))) bytesLE
    (fun i m => m.length = 16 ∧ ∀ j, j < i → m[j]? = intMix[j]?) 16 0 (wordView mix) ⟨hvl, by omega⟩ (by
      rintro j m _ hj ⟨hl, hm⟩
      refine ⟨_, rfl, ?_, by simpa using hl, ?_⟩
      · unfold flattenStep
        rw [idx_ok _ _ (by omega), ok_bind, putU32_bytesLE _ _ (by omega)]
        simp [show j < intMix.length by omega]
      · intro k hk
        by_cases hk' : k = j
        · subst hk'
          rw [List.getElem?_set_self (by omega)]
          simp [show k < intMix.length by omega]
        · rw [List.getElem?_set_ne (by omega), hm k (by omega)])
  rw [forRange, h, hmv]
  rw [show 16 - 0 = 16 from rfl, e]
  refine congrArg (fun x => Except.ok (bytesLE x)) ?_
  apply List.ext_getElem?
  intro j
  by_cases hj : j < 16
  · exact hs j (by omega)
  · rw [List.getElem?_eq_none (by omega), List.getElem?_eq_none (by omega)]

/-- generate.go:110-113 -/
theorem parent_loop (R : Nat) (hR : R ≤ cache.length / 16) (h1 : 1 ≤ R) (h2 : R < 2 ^ 32) (n : Nat) (m0 : List U32)
    (hm0 : m0 = itemMix P.keccak512 R (Spec.Large.rowAt cache) index 0) (hl0 : m0.length = 16) :
    forRange 0 n m0 (parentStep cache index (BitVec.ofNat 32 R)) = .ok (itemMix P.keccak512 R (Spec.Large.rowAt cache) index n) ∧
    (itemMix P.keccak512 R (Spec.Large.rowAt cache) index n).length = 16 := by
  obtain ⟨m, e, hl, hm⟩ := forRange_inv (f := parentStep cache index (BitVec.ofNat 32 R))
    (fun j m => m.length = 16 ∧ m = itemMix P.keccak512 R (Spec.Large.rowAt cache) index j) 0 n m0 (by omega) ⟨hl0, hm0⟩ (by
      rintro j m _ _ ⟨hl, hm⟩
      unfold parentStep
      obtain ⟨p, hp⟩ : ∃ p, p = (fnv (index ^^^ BitVec.ofNat 32 j) (m.getD (j % 16) 0)).toNat % R := ⟨_, rfl⟩
      have hpR : p < R := hp ▸ Nat.mod_lt _ h1
      obtain ⟨r, hr⟩ : ∃ r, r = p % 2 ^ 28 := ⟨_, rfl⟩
      have hrp : r ≤ p := hr ▸ Nat.mod_le _ _
      have hrow : Spec.Large.rowAt cache p = rowOf cache r := by rw [Spec.Large.rowAt, ← hr]
      have hg : m[j % 16]'(by omega) = m.getD (j % 16) 0 := by
        rw [List.getD_eq_getElem?_getD, List.getElem?_eq_getElem (by omega)]; rfl
      refine ⟨List.zipWith fnv m (rowOf cache r), ?_, ?_, ?_⟩
      · rw [idx_ok _ _ (by omega), ok_bind, umod_rows _ _ h1 h2, ok_bind, hg, fnv_eq, ← hp, rowOff0 p, ← hr,
          slc_ok _ _ _ (by omega) (Nat.le_refl _), ok_bind, List.take_length, Crypto.fnvHash_eq _ _ (by rw [List.length_drop]; omega)]
        refine congrArg Except.ok ?_
        apply List.ext_getElem
        · simp [rowOf]; omega
        · intro i h1 h2
          simp [rowOf, fnv_eq]
      · rw [List.length_zipWith, rowOf_length cache r (by omega), hl]; rfl
      · rw [itemMix, ← hm, ← hp, hrow])
  exact ⟨hm ▸ e, hm ▸ hl⟩

/-- generate.go:89-123 -/
theorem generateDatasetItem_all (h1 : cache.length / 16 % 2 ^ 32 ≠ 0) :
    generateDatasetItem P parents cache index = .ok (Spec.Large.itemAt P.keccak512 cache parents.toNat index) := by
  obtain ⟨R, hR⟩ : ∃ R, R = cache.length / 16 % 2 ^ 32 := ⟨_, rfl⟩
  have hR' : BitVec.ofNat 32 (cache.length / 16) = BitVec.ofNat 32 R := by
    apply BitVec.eq_of_toNat_eq
    rw [BitVec.toNat_ofNat, BitVec.toNat_ofNat, hR, Nat.mod_mod]
  have hle : R ≤ cache.length / 16 := hR ▸ Nat.mod_le _ _
  have h2 : R < 2 ^ 32 := hR ▸ Nat.mod_lt _ (by omega)
  rw [← hR] at h1
  have h1 : 1 ≤ R := by omega
  obtain ⟨row, hrow⟩ : ∃ row, row = Spec.Large.rowAt cache (index.toNat % R) := ⟨_, rfl⟩
  have hrl : row.length = 16 := hrow ▸ rowOf_length cache _
    (lt_of_le_of_lt (Nat.mod_le _ _) (lt_of_lt_of_le (Nat.mod_lt _ h1) hle))
  have hs := seed_loop cache index R hle h1 h2
  rw [← hrow] at hs
  obtain ⟨mix, hmix⟩ : ∃ mix, mix = bytesLE (row.set 0 (row.getD 0 0 ^^^ index)) := ⟨_, rfl⟩
  rw [← hmix] at hs
  have hml : mix.length = 64 := by rw [hmix, bytesLE_length, List.length_set, hrl]
  have hstart : itemMix P.keccak512 R (Spec.Large.rowAt cache) index 0 = wordView (P.keccak512 mix) := by
    rw [itemMix, itemStart, words_eq, bytes_eq, ← hrow, ← hmix]
  have hk := P.keccak512_length mix
  have hp := parent_loop P cache index R hle h1 h2 parents.toNat (wordView (P.keccak512 mix)) hstart.symm
    (by rw [wordView_length, hk])
  unfold generateDatasetItem
  simp only [hR', hashWords] at hs ⊢
  have : ∀ (k : List Byte → Go (List Byte)), (do
      let r ← umod index (BitVec.ofNat 32 R)
      let w ← idx cache (r * BitVec.ofNat 32 16).toNat
      let mix ← putU32 .little (List.replicate hashBytes 0) 0 (w ^^^ index)
      let mix ← forRange 1 16 mix (seedStep cache index (BitVec.ofNat 32 R))
      k mix) = k mix := by
    intro k
    rw [← ok_bind mix k, ← hs]
    simp only [bind_assoc]
  rw [this, keccak512At_zero _ _ _ hml, ok_bind]
  have hi := int_loop (P.keccak512 mix) hk
  simp only [hashWords] at hi
  rw [hi, ok_bind, hp.1, ok_bind, flatten_loop _ _ hp.2 hk, ok_bind,
    keccak512At_zero _ _ _ (by rw [bytesLE_length, hp.2]), Spec.Large.itemAt, item, bytes_eq, hR]

/-- a cache of at most 2^28 rows has no row that a 32-bit offset does not reach -/
theorem itemAt_eq (h1 : 1 ≤ cache.length / 16) (h2 : cache.length / 16 ≤ 2 ^ 28) (n : Nat) :
    Spec.Large.itemAt P.keccak512 cache n index = itemOf P.keccak512 cache n index := by
  rw [Spec.Large.itemAt, itemOf, item, item, Nat.mod_eq_of_lt (show cache.length / 16 < 2 ^ 32 by omega)]
  refine congrArg (fun x => P.keccak512 (bytes x)) ?_
  have hrow : ∀ k, Spec.Large.rowAt cache (k % (cache.length / 16)) = rowOf cache (k % (cache.length / 16)) := fun k => by
    have := Nat.mod_lt k h1
    rw [Spec.Large.rowAt, Nat.mod_eq_of_lt (a := k % (cache.length / 16)) (by omega)]
  induction n with
  | zero => rw [itemMix, itemMix, hrow]
  | succ n ih => rw [itemMix, itemMix, ih, hrow]

/-- generate.go:89-123 -/
theorem generateDatasetItem_eq (h1 : 1 ≤ cache.length / 16) (h2 : cache.length / 16 ≤ 2 ^ 28) :
    generateDatasetItem P parents cache index = .ok (itemOf P.keccak512 cache parents.toNat index) := by
  rw [generateDatasetItem_all P parents cache index (by rw [Nat.mod_eq_of_lt (by omega)]; omega), itemAt_eq P cache index h1 h2]

theorem itemAt_length (n : Nat) : (Spec.Large.itemAt P.keccak512 cache n index).length = 64 := P.keccak512_length _

theorem itemOf_length : (itemOf P.keccak512 cache parents.toNat index).length = 64 := P.keccak512_length _

end item

/-! ## lookups and the L1 cache -/

/-- writing `w` consecutive elements from `off` -/
theorem splice_loop {α : Type} {f : Nat → List α → Go (List α)} (v : Nat → α) (off w : Nat) (l : List α) (h : off + w ≤ l.length)
    (hf : ∀ i m, i < w → m.length = l.length → f i m = .ok (m.set (off + i) (v i))) :
    forRange 0 w l f = .ok (l.take off ++ (List.range w).map v ++ l.drop (off + w)) := by
  obtain ⟨m, e, hl, hm⟩ := forRange_inv (f := f)
    (fun i m => m.length = l.length ∧ ∀ j, m[j]? = if off ≤ j ∧ j < off + i then some (v (j - off)) else l[j]?)
    0 w l (by omega) ⟨rfl, by intro j; rw [if_neg (by omega)]⟩ (by
      rintro i m _ hi ⟨hl, hm⟩
      refine ⟨_, hf i m hi hl, by simpa using hl, ?_⟩
      intro j
      by_cases hj : j = off + i
      · subst hj
        rw [List.getElem?_set_self (by omega), if_pos (by omega)]
        simp
      · rw [List.getElem?_set_ne (by omega), hm j]
        by_cases h1 : off ≤ j ∧ j < off + i
        · rw [if_pos h1, if_pos (by omega)]
        · rw [if_neg h1, if_neg (by omega)])
  rw [e]
  refine congrArg Except.ok ?_
  apply List.ext_getElem?
  intro j
  rw [hm j]
  by_cases h1 : j < off
  · rw [if_neg (by omega), List.append_assoc, List.getElem?_append_left (by rw [List.length_take]; omega), List.getElem?_take, if_pos h1]
  · by_cases h2 : j < off + w
    · rw [if_pos (by omega), List.append_assoc, List.getElem?_append_right (by rw [List.length_take]; omega),
        List.getElem?_append_left (by simp; omega), List.length_take, show min off l.length = off by omega]
      simp [show j - off < w by omega]
    · rw [if_neg (by omega), List.getElem?_append_right (by simp; omega), List.getElem?_drop]
      congr 1
      simp
      omega

section lookup

variable (P : Prims) (parents : U32) (cache : List U32)

/-- the loop at generate.go:127-133 and 81-84 fills a buffer block by block -/
theorem fill_blocks {α : Type} {f : Nat → List α → Go (List α)} (W : Nat → List α) (w n : Nat) (l : List α) (hl : l.length = w * n)
    (hW : ∀ k, (W k).length = w)
    (hf : ∀ k m, k < n → m.length = w * n → f k m = .ok (m.take (w * k) ++ W k ++ m.drop (w * k + w))) :
    forRange 0 n l f = .ok ((List.range n).flatMap W) := by
  obtain ⟨rows, hrows⟩ : ∃ rows, rows = (List.range n).map fun i => (l.drop (w * i)).take w := ⟨_, rfl⟩
  have hl2 : l = rows.flatten := by rw [hrows]; exact eq_flatten_blocks w n l hl
  have hrl : rows.length = n := by rw [hrows]; simp
  have hra : ∀ r ∈ rows, r.length = w := by
    rw [hrows]
    intro r hr
    obtain ⟨i, hi, rfl⟩ := List.mem_map.mp hr
    have hi := List.mem_range.mp hi
    have : w * i + w ≤ w * n := by rw [← Nat.mul_succ]; exact Nat.mul_le_mul_left _ hi
    rw [List.length_take, List.length_drop]; omega
  obtain ⟨s', eg, e, _⟩ := loop_map (f := f) (g := fun i (m : List (List α)) => .ok (m.set i (W i))) List.flatten
    (fun i m => m.length = n ∧ ∀ r ∈ m, r.length = w) n 0 rows ⟨hrl, hra⟩ (by
      rintro j m _ hj ⟨hml, hma⟩
      refine ⟨_, rfl, ?_, by simpa using hml, ?_⟩
      · rw [hf j _ (by omega) (by rw [flatten_length_const w m hma, hml]), flatten_splice w m hma j (by omega)]
      · intro r hr
        rcases List.mem_or_eq_of_mem_set hr with h | h
        · exact hma r h
        · rw [h, hW])
  have hfill := forRange_fill (f := fun i (m : List (List α)) => .ok (m.set i (W i))) W n rows hrl (fun i m _ _ _ => rfl)
  rw [forRange, Nat.sub_zero, eg] at hfill
  rw [forRange, Nat.sub_zero, hl2, e, Except.ok.inj hfill, List.flatMap_def]

/-- generate.go:130-132 -/
theorem itemWord_loop (item : List Byte) (hi : item.length = 64) (n : Nat) (data : List U32) (h : 16 * n + 16 ≤ data.length) :
    forRange 0 hashWords data (itemWordStep item n) = .ok (data.take (16 * n) ++ wordView item ++ data.drop (16 * n + 16)) := by
  simp only [hashWords]
  rw [splice_loop (fun i => BitVec.ofNat 32 (leNat ((item.drop (4 * i)).take 4))) (16 * n) 16 data h]
  · rw [wordView, hi]
  · intro i m h1 h2
    have := getU32_at item i (by omega)
    unfold itemWordStep
    rw [← bind_assoc, this, ok_bind, show n * hashWords + i = 16 * n + i by simp only [hashWords]; omega, upd_ok _ _ _ (by omega)]

/-- generate.go:125-136 -/
theorem generateDatasetItemUint_all (h1 : cache.length / 16 % 2 ^ 32 ≠ 0) (index size : U32) (hs : 16 * size.toNat < 2 ^ 32) :
    generateDatasetItemUint P parents cache index size =
      .ok ((List.range size.toNat).flatMap fun j =>
        words (Spec.Large.itemAt P.keccak512 cache parents.toNat (index * size + BitVec.ofNat 32 j))) := by
  have hl : (BitVec.ofNat 32 hashWords * size).toNat = 16 * size.toNat := by
    simp only [BitVec.toNat_mul, BitVec.toNat_ofNat, hashWords]; omega
  rw [generateDatasetItemUint, hl]
  apply fill_blocks _ 16
  · simp
  · intro k
    rw [words_eq, wordView_length, itemAt_length]
  · intro k m hk hm
    unfold itemStep
    rw [generateDatasetItem_all P parents cache _ h1, ok_bind, itemWord_loop _ (itemAt_length ..) _ _ (by omega), words_eq]

theorem generateDatasetItemUint_eq (h1 : 1 ≤ cache.length / 16) (h2 : cache.length / 16 ≤ 2 ^ 28) (index size : U32)
    (hs : 16 * size.toNat < 2 ^ 32) :
    generateDatasetItemUint P parents cache index size =
      .ok ((List.range size.toNat).flatMap fun j => words (itemOf P.keccak512 cache parents.toNat (index * size + BitVec.ofNat 32 j))) := by
  rw [generateDatasetItemUint_all P parents cache (by rw [Nat.mod_eq_of_lt (by omega)]; omega) index size hs]
  refine congrArg (fun f => Except.ok (List.flatMap f _)) ?_
  funext j
  rw [itemAt_eq P cache _ h1 h2]

/-- generate.go:70-85, for a destination of a whole number of items -/
theorem generateL1Cache_eq (h1 : 1 ≤ cache.length / 16) (h2 : cache.length / 16 ≤ 2 ^ 28) (dest : List U32) (n : Nat)
    (hd : dest.length = 16 * n) :
    generateL1Cache P parents dest cache =
      .ok ((List.range n).flatMap fun j => words (itemOf P.keccak512 cache parents.toNat (BitVec.ofNat 32 j))) := by
  have hl : (bytesLE dest).length = 64 * n := by rw [bytesLE_length, hd]; omega
  unfold generateL1Cache
  simp only [byteView_eq, hl, hashBytes]
  rw [show 64 * n / 64 = n by omega,
    fill_blocks (fun j => itemOf P.keccak512 cache parents.toNat (BitVec.ofNat 32 j)) 64 n _ hl (fun _ => itemOf_length ..)]
  · rw [ok_bind]
    refine congrArg Except.ok ?_
    have : (List.range n).flatMap (fun j => itemOf P.keccak512 cache parents.toNat (BitVec.ofNat 32 j)) =
        bytesLE ((List.range n).flatMap fun j => words (itemOf P.keccak512 cache parents.toNat (BitVec.ofNat 32 j))) := by
      rw [bytesLE, List.flatMap_assoc]
      refine congrArg (fun f => List.flatMap f _) ?_
      funext j
      show _ = bytesLE _
      rw [words_eq, bytesLE_wordView _ (by rw [itemOf_length])]
    rw [this, wordView_bytesLE]
  · intro k m hk hm
    unfold l1Step
    rw [generateDatasetItem_eq P parents cache _ h1 h2, ok_bind,
      copyAt_ok _ _ _ (by rw [itemOf_length]; simp only [hashBytes]; omega), itemOf_length, hashBytes, Nat.mul_comm k 64]

end lookup

/-! ## the cache -/

section cache

variable (P : Prims) (seed : List Byte)

/-- the `i`-th row of the chain -/
def chainRow : Nat → List Byte
  | 0 => P.keccak512 seed
  | i + 1 => P.keccak512 (chainRow i)

theorem chainRow_succ (i : Nat) : chainRow P seed (i + 1) = chainRow P (P.keccak512 seed) i := by
  induction i with
  | zero => rfl
  | succ i ih => rw [chainRow, ih, chainRow]

theorem chain_eq (n : Nat) : chain P.keccak512 seed n = (List.range n).map (chainRow P seed) := by
  induction n generalizing seed with
  | zero => rfl
  | succ n ih =>
    rw [chain, ih, List.range_succ_eq_map, List.map_cons, List.map_map]
    refine congrArg₂ _ rfl ?_
    refine List.map_congr_left ?_
    intro i _
    exact (chainRow_succ P seed i).symm

theorem chainRow_length (i : Nat) : (chainRow P seed i).length = 64 := by
  cases i <;> exact P.keccak512_length _

theorem keccak512At_block (rows : List (List Byte)) (h : ∀ r ∈ rows, r.length = 64) (j : Nat) (hj : j < rows.length)
    (data : List Byte) :
    keccak512At P rows.flatten (64 * j) data = .ok (rows.set j (P.keccak512 data)).flatten := by
  have hl := flatten_length_const 64 rows h
  rw [keccak512At, if_neg (by omega), flatten_splice 64 rows h j hj]

theorem all_set {rows : List (List Byte)} (h : ∀ r ∈ rows, r.length = 64) (j : Nat) (data : List Byte) :
    ∀ r ∈ rows.set j (P.keccak512 data), r.length = 64 := by
  intro r hr
  rcases List.mem_or_eq_of_mem_set hr with h' | h'
  · exact h r h'
  · rw [h', P.keccak512_length]

/-- generate.go:49-52 -/
theorem chain_loop (n : Nat) (hn : 1 ≤ n) (buf : List Byte) (hb : buf.length = 64 * n) :
    (do
      let cache ← keccak512At P buf 0 seed
      forRange 1 n cache (chainStep P)) = .ok (chain P.keccak512 seed n).flatten := by
  obtain ⟨rows, hrows⟩ : ∃ rows, rows = (List.range n).map fun i => (buf.drop (64 * i)).take 64 := ⟨_, rfl⟩
  have hl2 : buf = rows.flatten := by rw [hrows]; exact eq_flatten_blocks 64 n buf hb
  have hrl : rows.length = n := by rw [hrows]; simp
  have hra : ∀ r ∈ rows, r.length = 64 := by
    rw [hrows]
    intro r hr
    obtain ⟨i, hi, rfl⟩ := List.mem_map.mp hr
    have hi := List.mem_range.mp hi
    rw [List.length_take, List.length_drop]; omega
  rw [hl2, show (0 : Nat) = 64 * 0 from rfl, keccak512At_block P rows hra 0 (by omega), ok_bind]
  obtain ⟨s', _, e, h1, h2, h3⟩ := loop_map (f := chainStep P)
    (g := fun i (m : List (List Byte)) => .ok (m.set i (chainRow P seed i))) List.flatten
    (fun i m => m.length = n ∧ (∀ r ∈ m, r.length = 64) ∧ ∀ j, j < i → m[j]? = some (chainRow P seed j)) (n - 1) 1
    (rows.set 0 (P.keccak512 seed)) ⟨by simpa using hrl, all_set P hra 0 seed, by
      intro j hj
      obtain rfl : j = 0 := by omega
      rw [List.getElem?_set_self (by omega)]; rfl⟩ (by
      rintro j m hj1 hj2 ⟨hml, hma, hm⟩
      have hprev : m[j - 1]'(by omega) = chainRow P seed (j - 1) := by
        have := hm (j - 1) (by omega)
        rw [List.getElem?_eq_getElem (by omega)] at this
        exact Option.some.inj this
      have hrow : P.keccak512 (chainRow P seed (j - 1)) = chainRow P seed j := by
        obtain ⟨k, rfl⟩ : ∃ k, j = k + 1 := ⟨j - 1, by omega⟩
        rfl
      refine ⟨_, rfl, ?_, by simpa using hml, ?_, ?_⟩
      · unfold chainStep
        simp only [hashBytes]
        have hs := slc_block 64 m hma (j - 1) (by omega)
        rw [show 64 * (j - 1) + 64 = 64 * j by omega] at hs
        rw [show 64 * j - 64 = 64 * (j - 1) by omega, hs, ok_bind, keccak512At_block P m hma j (by omega), hprev, hrow]
      · rw [← hrow]; exact all_set P hma j _
      · intro k hk
        by_cases hkj : k = j
        · subst hkj
          rw [List.getElem?_set_self (by omega)]
        · rw [List.getElem?_set_ne (by omega), hm k (by omega)])
  rw [forRange, e]
  refine congrArg (fun x => Except.ok (List.flatten x)) ?_
  rw [chain_eq]
  apply List.ext_getElem?
  intro j
  by_cases hj : j < n
  · rw [h3 j (by omega)]; simp [hj]
  · rw [List.getElem?_eq_none (by omega), List.getElem?_eq_none (by simp; omega)]

theorem replaceRow_ok (n : Nat) (o : List (List Byte)) (j : Nat) (h1 : o.length = n) (h2 : ∀ r ∈ o, r.length = 64) :
    (replaceRow P.keccak512 n o j).length = n ∧ ∀ r ∈ replaceRow P.keccak512 n o j, r.length = 64 := by
  unfold replaceRow
  exact ⟨by simpa using h1, all_set P h2 j _⟩

/-- generate.go:59-65 -/
theorem memoStep_eq (n : Nat) (h64 : n < 2 ^ 26) (o : List (List Byte)) (temp : List Byte) (j : Nat) (hj : j < n)
    (ho : o.length = n) (ha : ∀ r ∈ o, r.length = 64) (ht : temp.length = 64) :
    ∃ temp', memoStep P n j (o.flatten, temp) = .ok ((replaceRow P.keccak512 n o j).flatten, temp') ∧ temp'.length = 64 := by
  have hl := flatten_length_const 64 o ha
  rw [ho] at hl
  have hoj : (o.getD j []).length = 64 := by
    rw [List.getD_eq_getElem?_getD, List.getElem?_eq_getElem (by omega)]
    exact ha _ (List.getElem_mem (by omega))
  have hgd : ∀ k (hk : k < o.length), o[k] = o.getD k [] := fun k hk => by
    rw [List.getD_eq_getElem?_getD, List.getElem?_eq_getElem hk]; rfl
  obtain ⟨v, hv⟩ : ∃ v, v = Spec.leValue ((o.getD j []).take 4) % n := ⟨_, rfl⟩
  have hvn : v < n := hv ▸ Nat.mod_lt _ (by omega)
  obtain ⟨s, hs⟩ : ∃ s, s = (j + n - 1) % n := ⟨_, rfl⟩
  have hsn : s < n := hs ▸ Nat.mod_lt _ (by omega)
  have hw : (slc o.flatten (j * hashBytes) o.flatten.length >>= getU32 .little) =
      .ok (BitVec.ofNat 32 (Spec.leValue ((o.getD j []).take 4))) := by
    have := getU32_at o.flatten (16 * j) (by omega)
    rw [hashBytes, show j * 64 = 16 * j * 4 by omega, this, show 4 * (16 * j) = 64 * j by omega]
    have hb := flatten_block 64 o ha j (by omega)
    rw [← hgd j (by omega), ← hb, List.take_take, Spec.leValue_eq]
    rfl
  have hwlt : Spec.leValue ((o.getD j []).take 4) < 2 ^ 32 := by
    rw [Spec.leValue_eq]
    have := leNat_lt ((o.getD j []).take 4)
    rw [List.length_take, hoj] at this
    exact this
  have hoff : (BitVec.ofNat 32 v * BitVec.ofNat 32 hashBytes).toNat = 64 * v := by
    simp only [BitVec.toNat_mul, BitVec.toNat_ofNat, hashBytes]; omega
  have hoff2 : (BitVec.ofNat 32 v * BitVec.ofNat 32 hashBytes + BitVec.ofNat 32 hashBytes).toNat = 64 * v + 64 := by
    simp only [BitVec.toNat_add, BitVec.toNat_mul, BitVec.toNat_ofNat, hashBytes]; omega
  have hls : (o[s]'(by omega)).length = 64 := ha _ (List.getElem_mem _)
  have hlv : (o[v]'(by omega)).length = 64 := ha _ (List.getElem_mem _)
  refine ⟨List.zipWith (· ^^^ ·) (o[s]'(by omega)) (o[v]'(by omega)), ?_, by rw [List.length_zipWith, hls, hlv]; rfl⟩
  unfold memoStep
  simp only
  rw [← bind_assoc, hw, ok_bind, umod_rows _ _ (by omega) (by omega), ok_bind, BitVec.toNat_ofNat, Nat.mod_eq_of_lt hwlt, ← hv,
    hoff, hoff2, ← hs, show s * hashBytes = 64 * s by rw [hashBytes]; omega, show 64 * s + hashBytes = 64 * s + 64 from rfl,
    slc_block 64 o ha s (by omega), ok_bind, slc_block 64 o ha v (by omega), ok_bind, xorBytes]
  simp only [hls, hlv, ht]
  rw [if_neg (by omega), ok_bind, List.drop_of_length_le (by omega), List.append_nil,
    show j * hashBytes = 64 * j by rw [hashBytes]; omega, keccak512At_block P o ha j (by omega), ok_bind, replaceRow, ← hv, ← hs,
    ← hgd s (by omega), ← hgd v (by omega)]
  rfl

/-- generate.go:58-66 -/
theorem memoPass_eq (n : Nat) (h64 : n < 2 ^ 26) (o : List (List Byte)) (temp : List Byte) (i : Nat)
    (ho : o.length = n) (ha : ∀ r ∈ o, r.length = 64) (ht : temp.length = 64) :
    ∃ temp', memoPass P n i (o.flatten, temp) = .ok ((cacheRound P.keccak512 n o).flatten, temp') ∧ temp'.length = 64 ∧
      (cacheRound P.keccak512 n o).length = n ∧ ∀ r ∈ cacheRound P.keccak512 n o, r.length = 64 := by
  obtain ⟨st, e, h1, h2, h3, h4⟩ := forRange_inv (f := memoStep P n)
    (fun j st => st.1 = ((List.range j).foldl (replaceRow P.keccak512 n) o).flatten ∧ st.2.length = 64 ∧
      ((List.range j).foldl (replaceRow P.keccak512 n) o).length = n ∧
      ∀ r ∈ (List.range j).foldl (replaceRow P.keccak512 n) o, r.length = 64) 0 n (o.flatten, temp) (by omega)
    ⟨rfl, ht, ho, ha⟩ (by
      rintro j ⟨c, t⟩ _ hj ⟨h1, h2, h3, h4⟩
      obtain ⟨t', e, ht'⟩ := memoStep_eq P n h64 _ t j hj h3 h4 h2
      simp only at h1
      have hr := replaceRow_ok P n _ j h3 h4
      refine ⟨_, by rw [h1]; exact e, ?_, ht', ?_, ?_⟩
      · simp only [List.range_succ, List.foldl_append, List.foldl_cons, List.foldl_nil]
      · rw [List.range_succ, List.foldl_append]; exact hr.1
      · rw [List.range_succ, List.foldl_append]; exact hr.2)
  refine ⟨st.2, ?_, h2, h3, h4⟩
  rw [memoPass, e]
  refine congrArg Except.ok ?_
  exact Prod.ext h1 rfl

/-- generate.go:34-68 -/
theorem generateCacheBytes_eq (rounds : Int) (n : Nat) (hn : 1 ≤ n) (h64 : n < 2 ^ 26) (buf : List Byte) (hb : buf.length = 64 * n) :
    generateCacheBytes P rounds buf seed = .ok (mkcache P.keccak512 n seed rounds.toNat).flatten ∧
    (mkcache P.keccak512 n seed rounds.toNat).length = n ∧ ∀ r ∈ mkcache P.keccak512 n seed rounds.toNat, r.length = 64 := by
  have hc := chain_loop P seed n hn buf hb
  have hcl : (chain P.keccak512 seed n).length = n := by rw [chain_eq]; simp
  have hca : ∀ r ∈ chain P.keccak512 seed n, r.length = 64 := by
    rw [chain_eq]
    intro r hr
    obtain ⟨i, _, rfl⟩ := List.mem_map.mp hr
    exact chainRow_length P seed i
  obtain ⟨st, e, h1, h2, h3, h4⟩ := forRange_inv (f := memoPass P n)
    (fun i st => st.1 = (mkcache P.keccak512 n seed i).flatten ∧ st.2.length = 64 ∧
      (mkcache P.keccak512 n seed i).length = n ∧ ∀ r ∈ mkcache P.keccak512 n seed i, r.length = 64)
    0 rounds.toNat ((chain P.keccak512 seed n).flatten, List.replicate hashBytes 0) (by omega) ⟨rfl, by simp [hashBytes], hcl, hca⟩ (by
      rintro i ⟨c, t⟩ _ _ ⟨h1, h2, h3, h4⟩
      obtain ⟨t', e, ht, hl, ha⟩ := memoPass_eq P n h64 _ t i h3 h4 h2
      simp only at h1
      exact ⟨_, by rw [h1]; exact e, rfl, ht, hl, ha⟩)
  refine ⟨?_, h3, h4⟩
  unfold generateCacheBytes
  simp only [hb]
  rw [show (64 * n + hashBytes - 1) / hashBytes = n by simp only [hashBytes]; omega,
    show 64 * n / hashBytes = n by simp only [hashBytes]; omega, ← bind_assoc, hc, ok_bind, e, ok_bind, h1]
  rfl

theorem words_flatten (rows : List (List Byte)) (h : ∀ r ∈ rows, r.length = 64) :
    wordView rows.flatten = rows.flatMap words := by
  have : rows.flatten = bytesLE (rows.flatMap words) := by
    rw [bytesLE, List.flatMap_assoc]
    conv_lhs => rw [← List.map_id rows]
    rw [List.flatMap_def]
    refine congrArg List.flatten (List.map_congr_left ?_)
    intro r hr
    show r = bytesLE _
    rw [words_eq, bytesLE_wordView _ (by rw [h r hr])]
  rw [this, wordView_bytesLE]

theorem generateCache_eq (rounds : Int) (n : Nat) (hn : 1 ≤ n) (h64 : n < 2 ^ 26) (dest : List U32) (hd : dest.length = 16 * n) :
    generateCache P rounds dest seed = .ok ((mkcache P.keccak512 n seed rounds.toNat).flatMap words) ∧
    ((mkcache P.keccak512 n seed rounds.toNat).flatMap words).length = 16 * n := by
  have h := generateCacheBytes_eq P seed rounds n hn h64 (bytesLE dest) (by rw [bytesLE_length, hd]; omega)
  constructor
  · rw [generateCache, byteView_eq, h.1, ok_bind, words_flatten _ h.2.2]
    rfl
  · rw [← words_flatten _ h.2.2, wordView_length, flatten_length_const 64 _ h.2.2, h.2.1]; omega

end cache

end Verif.Dag
