import Verif.Proof.HostOrder
import Verif.Props.Generate

/-! # Machines of either byte order: property C77 -/

set_option autoImplicit false

namespace Verif.Props

open Go Dag Spec.Ethash Spec.Disk

/-- **C77** The bytes of memory do not depend on the byte order of the machine: on both kinds they are the rows of the published
cache. -/
theorem C77_bytes (order : ByteOrder) (P : Prims) (seed : List Byte) (rounds : Int) (n : Nat) (hn : 1 ≤ n) (h64 : n < 2 ^ 26)
    (dest : List U32) (hd : dest.length = 16 * n) :
    ∃ w, generateCacheOn order P rounds dest seed = .ok w ∧ w.length = 16 * n ∧
      byteViewOn order w = (mkcache P.keccak512 n seed rounds.toNat).flatten := by
  cases order with
  | little =>
    obtain ⟨w, e, hl, hb⟩ := C37_generateCache P seed rounds n hn h64 dest hd
    exact ⟨w, e, hl, by rw [← hb, bytes_eq]; rfl⟩
  | big =>
    obtain ⟨w, e, hl, hb⟩ := C37_generateCache P seed rounds n hn h64 (dest.map reversed) (by rw [List.length_map, hd])
    refine ⟨w.map reversed, by rw [generateCacheOn_big, e]; rfl, by rw [List.length_map, hl], ?_⟩
    rw [bytes_map_reversed, ← hb, bytes_eq]
    rfl

/-- **C77** The words do: on a big-endian machine each one is the published word with its bytes in the opposite order. -/
theorem C77_words (P : Prims) (seed : List Byte) (rounds : Int) (n : Nat) (hn : 1 ≤ n) (h64 : n < 2 ^ 26) (dest : List U32)
    (hd : dest.length = 16 * n) :
    generateCacheOn .little P rounds dest seed = .ok ((mkcache P.keccak512 n seed rounds.toNat).flatMap words) ∧
    generateCacheOn .big P rounds dest seed = .ok (((mkcache P.keccak512 n seed rounds.toNat).flatMap words).map reversed) := by
  refine ⟨(generateCache_eq P seed rounds n hn h64 dest hd).1, ?_⟩
  rw [generateCacheOn_big, (generateCache_eq P seed rounds n hn h64 (dest.map reversed) (by rw [List.length_map, hd])).1]
  rfl

/-- **C77** A big-endian machine has the published cache exactly when the four bytes of each of its words read the same in both
directions. -/
theorem C77_right_iff (P : Prims) (seed : List Byte) (rounds : Int) (n : Nat) (hn : 1 ≤ n) (h64 : n < 2 ^ 26) (dest : List U32)
    (hd : dest.length = 16 * n) :
    generateCacheOn .big P rounds dest seed = .ok ((mkcache P.keccak512 n seed rounds.toNat).flatMap words) ↔
      ∀ x ∈ (mkcache P.keccak512 n seed rounds.toNat).flatMap words, Palindrome x := by
  rw [(C77_words P seed rounds n hn h64 dest hd).2]
  constructor
  · intro h x hx
    rw [← reversed_eq_iff]
    have := Except.ok.inj h
    exact (List.map_inj_left.mp (this.trans (List.map_id _).symm)) x hx
  · intro h
    refine congrArg Except.ok ?_
    conv_rhs => rw [← List.map_id ((mkcache P.keccak512 n seed rounds.toNat).flatMap words)]
    refine List.map_congr_left ?_
    intro x hx
    exact (reversed_eq_iff x).mpr (h x hx)

/-- **C77** The L1 cache: its bytes are the first dataset items of the cache it is given, on both kinds; its words are the
little-endian words of the items on one and the big-endian words on the other. -/
theorem C77_l1 (order : ByteOrder) (P : Prims) (parents : U32) (cache dest : List U32) (n : Nat) (hd : dest.length = 16 * n)
    (h1 : 16 ≤ cache.length) (h2 : cache.length ≤ 2 ^ 32) :
    ∃ l1, generateL1CacheOn order P parents dest cache = .ok l1 ∧
      byteViewOn order l1 = (List.range n).flatMap (fun j => itemOf P.keccak512 cache parents.toNat (BitVec.ofNat 32 j)) ∧
      l1 = ((List.range n).flatMap fun j => words (itemOf P.keccak512 cache parents.toNat (BitVec.ofNat 32 j))).map
        (fun x => if order = .big then reversed x else x) := by
  have key : byteView ((List.range n).flatMap fun j => words (itemOf P.keccak512 cache parents.toNat (BitVec.ofNat 32 j))) =
      (List.range n).flatMap fun j => itemOf P.keccak512 cache parents.toNat (BitVec.ofNat 32 j) := by
    rw [byteView, List.flatMap_assoc]
    refine congrArg (fun f => List.flatMap f _) ?_
    funext j
    show bytesLE _ = _
    rw [words_eq, bytesLE_wordView _ (by rw [itemOf_length])]
  cases order with
  | little =>
    refine ⟨_, C39_l1 P parents cache dest n hd h1 h2, key, ?_⟩
    rw [show (fun x : U32 => if ByteOrder.little = .big then reversed x else x) = id from rfl, List.map_id]
  | big =>
    refine ⟨((List.range n).flatMap fun j => words (itemOf P.keccak512 cache parents.toNat (BitVec.ofNat 32 j))).map reversed, ?_, ?_, rfl⟩
    · rw [generateL1CacheOn_big, C39_l1 P parents cache (dest.map reversed) n (by rw [List.length_map, hd]) h1 h2]
      rfl
    · rw [bytes_map_reversed, key]

/-- **C77** The lookups read the words, so on a big-endian machine they return the items of another cache: the published one with
the bytes of each word in the opposite order. -/
theorem C77_lookup (P : Prims) (parents : U32) (seed : List Byte) (rounds : Int) (n : Nat) (hn : 1 ≤ n) (h64 : n < 2 ^ 26)
    (dest : List U32) (hd : dest.length = 16 * n) (i : Nat) :
    ∃ w, generateCacheOn .big P rounds dest seed = .ok w ∧ lookup512 P parents w (BitVec.ofNat 32 i) =
      .ok (words (itemOf P.keccak512 (((mkcache P.keccak512 n seed rounds.toNat).flatMap words).map reversed) parents.toNat
        (BitVec.ofNat 32 i))) := by
  refine ⟨_, (C77_words P seed rounds n hn h64 dest hd).2, ?_⟩
  have hl := (generateCache_eq P seed rounds n hn h64 dest hd).2
  refine (C39_lookups P parents _ ?_ ?_ i).1 <;> rw [List.length_map, hl] <;> omega

/-- a hash function that keeps its input: the first 64 bytes, padded with zeros -/
def padPrims : Prims := { Prims.zero with
  keccak512 := fun d => (d ++ List.replicate 64 0).take 64
  keccak512_length := fun d => by rw [List.length_take, List.length_append, List.length_replicate]; omega }

/-- **C77** … and these can be other items: for some hash function and seed, one row, 256 parents and index 0. -/
theorem C77_differs : ∃ (P : Prims) (seed : List Byte) (w v : List U32),
    generateCacheOn .little P 0 (List.replicate 16 0) seed = .ok w ∧ generateCacheOn .big P 0 (List.replicate 16 0) seed = .ok v ∧
    lookup512 P 256 w 0 ≠ lookup512 P 256 v 0 := by
  have h := C77_words padPrims [1] 0 1 (by omega) (by omega) (List.replicate 16 0) rfl
  refine ⟨padPrims, [1], _, _, h.1, h.2, ?_⟩
  have h1 := (C39_lookups padPrims 256 ((mkcache padPrims.keccak512 1 [1] (0 : Int).toNat).flatMap words) (by decide) (by decide) 0).1
  have h2 := (C39_lookups padPrims 256 (((mkcache padPrims.keccak512 1 [1] (0 : Int).toNat).flatMap words).map reversed) (by decide) (by decide) 0).1
  rw [show (0 : U32) = BitVec.ofNat 32 0 from rfl, h1, h2]
  intro h
  exact absurd (Except.ok.inj h) (by decide +kernel)

/-- **C77** The files: a big-endian machine writes the same bytes after another magic. -/
theorem C77_file (P : Prims) (seed : List Byte) (rounds : Int) (n : Nat) (hn : 1 ≤ n) (h64 : n < 2 ^ 26) :
    fillContentOn .little (8 + 64 * n) (fun b => generateCacheOn .little P rounds b seed) =
      .ok (magic ++ (mkcache P.keccak512 n seed rounds.toNat).flatten) ∧
    fillContentOn .big (8 + 64 * n) (fun b => generateCacheOn .big P rounds b seed) =
      .ok (magicBig ++ (mkcache P.keccak512 n seed rounds.toNat).flatten) := by
  constructor
  · obtain ⟨w, e, _, hb⟩ := C77_bytes .little P seed rounds n hn h64 (List.replicate (16 * n) 0) List.length_replicate
    rw [← hb, show 64 * n = 4 * (16 * n) by omega, fillContentOn_little, fillContent_eq (16 * n) _ w e, file, bytes_eq]
    rfl
  · obtain ⟨w, e, _, hb⟩ := C77_bytes .big P seed rounds n hn h64 (List.replicate (16 * n) 0) List.length_replicate
    rw [← hb, show 64 * n = 4 * (16 * n) by omega, fillContentOn_big (16 * n) _ w e]

/-- **C77** Which files of eight bytes or more a machine accepts. -/
theorem C77_accepted_iff (order : ByteOrder) (content : List Byte) (lock : Bool) (o : MapEnv) (h8 : 8 ≤ content.length) (w : List U32) :
    memoryMapContentOn order content lock o = .ok (some w) ↔
      o.mapFails = false ∧ (lock && o.lockFails) = false ∧
      ∃ rest, content = (if order = .big then magicBig else magic) ++ rest ∧ w = wordViewOn order rest := by
  by_cases hm : o.mapFails = true
  · rw [memoryMapContentOn_fail _ _ _ _ (Or.inl hm), hm]
    simp
  have hm' : o.mapFails = false := by simpa using hm
  cases order with
  | little =>
    rw [memoryMapContentOn_little, if_neg (by decide)]
    by_cases ht : content.take 8 = magic
    · have hc : content = magic ++ content.drop 8 := by rw [← ht, List.take_append_drop]
      by_cases hl : (lock && o.lockFails) = true
      · rw [hc, memoryMapContent_magic_lock _ _ hm' _ hl, hl]
        simp
      · have hl' : (lock && o.lockFails) = false := by simpa using hl
        rw [hc, memoryMapContent_magic _ _ hm' _ hl', hl']
        constructor
        · intro h
          exact ⟨hm', rfl, _, rfl, (Option.some.inj (Except.ok.inj h)).symm⟩
        · rintro ⟨_, _, r, h1, h2⟩
          rw [h2, List.append_cancel_left h1]
          rfl
    · rw [memoryMapContent_wrong _ _ _ hm' h8 ht]
      constructor
      · intro h; cases h
      · rintro ⟨_, _, r, h1, _⟩
        exact absurd (by rw [h1]; rfl) ht
  | big =>
    rw [if_pos rfl]
    by_cases ht : content.take 8 = magicBig
    · have hc : content = magicBig ++ content.drop 8 := by rw [← ht, List.take_append_drop]
      by_cases hl : (lock && o.lockFails) = true
      · rw [hc, memoryMapContentOn_magic_lock _ _ hm' _ hl, hl]
        simp
      · have hl' : (lock && o.lockFails) = false := by simpa using hl
        rw [hc, memoryMapContentOn_magic _ _ hm' _ hl', hl']
        constructor
        · intro h
          exact ⟨hm', rfl, _, rfl, (Option.some.inj (Except.ok.inj h)).symm⟩
        · rintro ⟨_, _, r, h1, h2⟩
          rw [h2, List.append_cancel_left h1]
    · rw [memoryMapContentOn_wrong _ _ _ hm' h8 ht]
      constructor
      · intro h; cases h
      · rintro ⟨_, _, r, h1, _⟩
        exact absurd (by rw [h1]; rfl) ht

/-- **C77** Neither kind of machine accepts a file of the other: it says that the magic is invalid, and does not panic. -/
theorem C77_foreign (rest : List Byte) (lock : Bool) (o : MapEnv) :
    memoryMapContentOn .big (magic ++ rest) lock o = .ok none ∧ memoryMapContentOn .little (magicBig ++ rest) lock o = .ok none := by
  by_cases hm : o.mapFails = true
  · exact ⟨memoryMapContentOn_fail _ _ _ _ (Or.inl hm), memoryMapContentOn_fail _ _ _ _ (Or.inl hm)⟩
  have hm' : o.mapFails = false := by simpa using hm
  refine ⟨memoryMapContentOn_wrong _ _ _ hm' (by simp [magic]) ?_, memoryMapContent_wrong _ _ _ hm' (by simp [magicBig]) ?_⟩
  · show magic ≠ magicBig; decide
  · show magicBig ≠ magic; decide

/-- **C77** Each kind of machine reads from its own file what it had in memory. -/
theorem C77_own (order : ByteOrder) (P : Prims) (seed : List Byte) (rounds : Int) (n : Nat) (hn : 1 ≤ n) (h64 : n < 2 ^ 26)
    (dest : List U32) (hd : dest.length = 16 * n) (lock : Bool) (o : MapEnv) (hm : o.mapFails = false)
    (hl : (lock && o.lockFails) = false) :
    ∃ w content, generateCacheOn order P rounds dest seed = .ok w ∧
      fillContentOn order (8 + 64 * n) (fun b => generateCacheOn order P rounds b seed) = .ok content ∧
      memoryMapContentOn order content lock o = .ok (some w) := by
  have hw := C77_words P seed rounds n hn h64 dest hd
  have hf := C77_file P seed rounds n hn h64
  have h := generateCacheBytes_eq P seed rounds n hn h64 (bytesLE dest) (by rw [bytesLE_length, hd]; omega)
  cases order with
  | little =>
    refine ⟨_, _, hw.1, hf.1, ?_⟩
    rw [memoryMapContentOn_little, memoryMapContent_magic _ _ hm _ hl, words_flatten _ h.2.2]
  | big =>
    refine ⟨_, _, hw.2, hf.2, ?_⟩
    rw [memoryMapContentOn_magic _ _ hm _ hl, wordViewOn_big, words_flatten _ h.2.2]

/-- the cache of epoch 0 of ethash -/
example (P : Prims) (seed : List Byte) : ∃ w, generateCacheOn .big P 3 (List.replicate (16 * 262139) 0) seed = .ok w ∧
    w.length = 16 * 262139 ∧ byteViewOn .big w = (mkcache P.keccak512 262139 seed 3).flatten :=
  C77_bytes .big P seed 3 262139 (by omega) (by omega) _ List.length_replicate

/-- a word that reads the same in both directions and one that does not -/
example : Palindrome 0x12343412 ∧ ¬ Palindrome 0x00000001 ∧ reversed 0x12345678 = 0x78563412 := by
  refine ⟨?_, ?_, ?_⟩ <;> (try unfold Palindrome) <;> decide

end Verif.Props
