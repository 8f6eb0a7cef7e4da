import Verif.Proof.Beam
import Verif.Proof.Faults

/-! # BeamHash III: the verification function -/

set_option autoImplicit false

namespace Verif.Beam

open Go Spec Spec.Beam Spec.Wagner Pairing

/-! ### combining rows -/

variable (K : Sip.State)

/-- the row of block `w` before round `r + 1` -/
def rowVal (ixs : List Nat) (r w : Nat) : Node := ⟨work K r (block ixs r w), (block ixs r w).map (BitVec.ofNat 32)⟩

/-- the condition under which the rows of blocks `A`, `B` are combined at level `r` -/
def PairCond (r : Nat) (A B : List Nat) : Prop :=
  mixed K r A % 2 ^ 24 = mixed K r B % 2 ^ 24 ∧ (∀ a b, A[0]? = some a → B[0]? = some b → a < b) ∧ ∀ a ∈ A, ∀ b ∈ B, a ≠ b

theorem ofNat_inj32 {a b : Nat} (ha : a < 2 ^ 25) (hb : b < 2 ^ 25) : BitVec.ofNat 32 a = BitVec.ofNat 32 b ↔ a = b := by
  constructor
  · intro h
    have := congrArg BitVec.toNat h
    rwa [BitVec.toNat_ofNat, BitVec.toNat_ofNat, Nat.mod_eq_of_lt (by omega), Nat.mod_eq_of_lt (by omega)] at this
  · rintro rfl; rfl

theorem ofNat_lt32 {a b : Nat} (ha : a < 2 ^ 25) (hb : b < 2 ^ 25) : BitVec.ofNat 32 a < BitVec.ofNat 32 b ↔ a < b := by
  rw [BitVec.lt_def, BitVec.toNat_ofNat, BitVec.toNat_ofNat, Nat.mod_eq_of_lt (by omega), Nat.mod_eq_of_lt (by omega)]

theorem mask_eq (m : Nat) : beNat (List.replicate m (0xFF : Byte)) = 2 ^ (8 * m) - 1 := by
  induction m with
  | zero => simp [beNat]
  | succ m ih =>
    rw [List.replicate_succ, beNat_cons, ih, List.length_replicate, pow256, show (0xFF : Byte).toNat = 255 from rfl,
      show 8 * (m + 1) = 8 * m + 8 by ring, Nat.pow_add]
    have := Nat.two_pow_pos (8 * m)
    omega

theorem shr_mask (n r : Nat) (h : r ≤ n) : (2 ^ n - 1) >>> (n - r) = 2 ^ r - 1 := by
  apply Nat.eq_of_testBit_eq
  intro i
  rw [Nat.testBit_shiftRight, Nat.testBit_two_pow_sub_one, Nat.testBit_two_pow_sub_one]
  congr 1
  apply propext
  omega

theorem rem_eq : ∀ r < 5, remBefore (BitVec.ofNat 32 (1 + r)) = BitVec.ofNat 32 (bits r) ∧
    remAfter (BitVec.ofNat 32 (1 + r)) = BitVec.ofNat 32 (bits (r + 1)) ∧
    (workBitsSize - BitVec.ofNat 32 (bits (r + 1))).toNat = 448 - bits (r + 1) ∧ bits (r + 1) ≤ 448 := by decide

/-- the error returned for a fault -/
def faultErr : Fault → Err
  | .collision => .collision
  | .order => .order
  | .duplicate => .duplicate

theorem combine_ok (r : Nat) (hr : r < 5) (A B : List Nat) (hAl : A.length = 2 ^ r) (hBl : B.length = 2 ^ r)
    (hA25 : ∀ a ∈ A, a < 2 ^ 25) (hB25 : ∀ b ∈ B, b < 2 ^ 25) :
    PairOk (combine (BitVec.ofNat 32 (1 + r))) ⟨work K r A, A.map (BitVec.ofNat 32)⟩ ⟨work K r B, B.map (BitVec.ofNat 32)⟩
      ⟨work K (r + 1) (A ++ B), (A ++ B).map (BitVec.ofNat 32)⟩ (PairCond K r A B)
      (fun e => ∃ f, Faulty (Agree K r A B) A B f ∧ e = faultErr f) := by
  have hp := Nat.two_pow_pos r
  obtain ⟨a0, hA0⟩ : ∃ a0, A[0]? = some a0 := ⟨A[0], List.getElem?_eq_getElem (by omega)⟩
  obtain ⟨b0, hB0⟩ : ∃ b0, B[0]? = some b0 := ⟨B[0], List.getElem?_eq_getElem (by omega)⟩
  have hAm : a0 ∈ A := List.mem_of_getElem? hA0
  have hBm : b0 ∈ B := List.mem_of_getElem? hB0
  have ha0 := hA25 a0 hAm
  have hb0 := hB25 b0 hBm
  have hAi : idx (A.map (BitVec.ofNat 32)) 0 = .ok (BitVec.ofNat 32 a0) := by simp [idx, hA0]
  have hBi : idx (B.map (BitVec.ofNat 32)) 0 = .ok (BitVec.ofNat 32 b0) := by simp [idx, hB0]
  obtain ⟨r1, r2, r3, r4⟩ := rem_eq r hr
  have hdup : ((A.map (BitVec.ofNat 32)).any fun i => (B.map (BitVec.ofNat 32)).any fun j => i == j) = false ↔
      ∀ a ∈ A, ∀ b ∈ B, a ≠ b := by
    simp only [List.any_eq_false, List.mem_map, forall_exists_index, and_imp, List.any_eq_true, not_exists, not_and,
      forall_apply_eq_imp_iff₂, beq_iff_eq]
    constructor
    · intro hh a ha b hb hab
      exact hh a ha b hb (by rw [hab])
    · intro hh a ha b hb hab
      exact hh a ha b hb ((ofNat_inj32 (hA25 a ha) (hB25 b hb)).1 hab)
  have hmA := applyMix_eq r hr A hA25 hAl (work K r A) (work_lt K r A)
  have hmB := applyMix_eq r hr B hB25 hBl (work K r B) (work_lt K r B)
  rw [show mix (bits r) A (work K r A) = mixed K r A from rfl] at hmA
  rw [show mix (bits r) B (work K r B) = mixed K r B from rfl] at hmB
  have hmk : beNat (List.replicate 56 (0xFF : Byte)) >>> (448 - bits (r + 1)) = 2 ^ bits (r + 1) - 1 := by
    rw [mask_eq, show 8 * 56 = 448 from rfl]
    exact shr_mask 448 _ r4
  have hmask : ∀ x : Nat, x &&& collisionMask = x % 2 ^ 24 := fun x => Nat.and_two_pow_sub_one_eq_mod x 24
  have hval : validateSubtrees ⟨mixed K r A, A.map (BitVec.ofNat 32)⟩ ⟨mixed K r B, B.map (BitVec.ofNat 32)⟩ =
      if mixed K r A % 2 ^ 24 = mixed K r B % 2 ^ 24 then
        if b0 < a0 then .ok (some .order)
        else if ((A.map (BitVec.ofNat 32)).any fun i => (B.map (BitVec.ofNat 32)).any fun j => i == j) then .ok (some .duplicate)
        else .ok none
      else .ok (some .collision) := by
    simp only [validateSubtrees, hmask]
    by_cases h1 : mixed K r A % 2 ^ 24 = mixed K r B % 2 ^ 24
    · rw [if_pos h1, if_neg (fun hx => hx h1), hBi, ok_bind, hAi, ok_bind]
      by_cases ho : b0 < a0
      · rw [if_pos ho, if_pos ((ofNat_lt32 hb0 ha0).2 ho)]; rfl
      · rw [if_neg ho, if_neg (fun hx => ho ((ofNat_lt32 hb0 ha0).1 hx))]; rfl
    · rw [if_neg h1, if_pos h1]; rfl
  constructor
  · rintro ⟨h1, h2, h3⟩
    have hab := h2 a0 b0 hA0 hB0
    simp only [combine]
    rw [r1, hmA, ok_bind, hmB, ok_bind, hval, if_pos h1, if_neg (by omega), if_neg (by rw [hdup.2 h3]; simp), ok_bind]
    simp only [newNodeFromChildrenRef]
    have hwork : work K (r + 1) (A ++ B) = (mixed K r A ^^^ mixed K r B) / 2 ^ 24 % 2 ^ bits (r + 1) := by
      simp only [work]
      rw [List.take_left' hAl, List.drop_left' hAl]
      rfl
    rw [hAi, ok_bind, hBi, ok_bind, if_pos ((ofNat_lt32 ha0 hb0).2 hab), r2, r3, hmk,
      Nat.and_two_pow_sub_one_eq_mod, Nat.shiftRight_eq_div_pow, List.map_append, hwork]
    simp only [pure_eq_ok, ok_bind]
  · intro hn
    simp only [combine]
    rw [r1, hmA, ok_bind, hmB, ok_bind, hval]
    by_cases h1 : mixed K r A % 2 ^ 24 = mixed K r B % 2 ^ 24
    · rw [if_pos h1]
      by_cases h2 : b0 < a0
      · rw [if_pos h2]; exact ⟨.order, ⟨.order, ⟨h1, a0, b0, hA0, hB0, h2⟩, rfl⟩, rfl⟩
      · rw [if_neg h2]
        by_cases h3 : ∀ a ∈ A, ∀ b ∈ B, a ≠ b
        · exfalso
          apply hn
          refine ⟨h1, ?_, h3⟩
          intro a b ha hb
          rw [hA0] at ha; rw [hB0] at hb
          obtain rfl : a0 = a := by simpa using ha
          obtain rfl : b0 = b := by simpa using hb
          have := h3 a0 hAm b0 hBm
          omega
        · have hd : ((A.map (BitVec.ofNat 32)).any fun i => (B.map (BitVec.ofNat 32)).any fun j => i == j) = true := by
            by_contra hc
            exact h3 (hdup.1 (by simpa using hc))
          rw [if_pos hd]
          refine ⟨.duplicate, ⟨.duplicate, ⟨h1, ?_, ?_⟩, rfl⟩, rfl⟩
          · intro a b ha hb
            rw [hA0] at ha; rw [hB0] at hb
            obtain rfl : a0 = a := by simpa using ha
            obtain rfl : b0 = b := by simpa using hb
            omega
          · by_contra hc
            refine h3 fun a ha b hb hab => hc ⟨a, ha, by rwa [hab]⟩
    · rw [if_neg h1]; exact ⟨.collision, ⟨.collision, h1, rfl⟩, rfl⟩

/-! ### the whole function -/

attribute [local irreducible] work

theorem block_mem {ixs : List Nat} {r w a : Nat} (h : a ∈ block ixs r w) : a ∈ ixs := List.mem_of_mem_drop (List.mem_of_mem_take h)

variable {ixs : List Nat}

theorem rows_eq (k0 k1 k2 k3 : U64) (hl : ixs.length = 2 ^ 5) (h25 : ∀ i ∈ ixs, i < 2 ^ 25) :
    forRange 0 (ixs.map (BitVec.ofNat 32)).length [] (rowStep [k0, k1, k2, k3] (ixs.map (BitVec.ofNat 32))) =
      .ok ((List.range (2 ^ 5)).map (rowVal ⟨k0, k1, k2, k3⟩ ixs 0)) := by
  obtain ⟨s, e, hs⟩ := forRange_inv (f := rowStep [k0, k1, k2, k3] (ixs.map (BitVec.ofNat 32)))
    (fun i rows => rows = (List.range i).map (rowVal ⟨k0, k1, k2, k3⟩ ixs 0)) 0 (ixs.map (BitVec.ofNat 32)).length [] (by omega) rfl (by
      rintro i rows _ hi rfl
      have hil : i < ixs.length := by simpa using hi
      refine ⟨_, ?_, rfl⟩
      simp only [rowStep]
      rw [idx_ok _ _ hi, ok_bind, List.getElem_map, newNode_eq _ _ _ _ _ (h25 _ (List.getElem_mem hil)), ok_bind]
      simp only [pure_eq_ok]
      rw [List.range_succ, List.map_append, List.map_cons, List.map_nil, rowVal, block_zero hil]
      unfold work
      rfl)
  rw [e, hs, List.length_map, hl]

/-- the conditions checked at all levels -/
def AllPairs (ixs : List Nat) : Prop :=
  ∀ r < 5, ∀ w < 2 ^ (5 - (r + 1)), PairCond K r (block ixs r (2 * w)) (block ixs r (2 * w + 1))

theorem levels (hl : ixs.length = 2 ^ 5) (h25 : ∀ i ∈ ixs, i < 2 ^ 25) (fuel : Nat) (hf : 6 ≤ fuel) :
    (AllPairs K ixs ∧ Pairing.rounds (fun round => combine (BitVec.ofNat 32 round)) fuel 1 ((List.range (2 ^ 5)).map (rowVal K ixs 0)) =
      .ok (.ok [rowVal K ixs 5 0])) ∨
    (¬ AllPairs K ixs ∧ ∃ f, FirstFault 5 (Agree K) ixs f ∧
      Pairing.rounds (fun round => combine (BitVec.ofNat 32 round)) fuel 1 ((List.range (2 ^ 5)).map (rowVal K ixs 0)) =
      .ok (.error (faultErr f))) := by
  have hR := rounds_spec (fun round => combine (BitVec.ofNat 32 round)) 1 (rowVal K ixs)
    (fun r w => PairCond K r (block ixs r (2 * w)) (block ixs r (2 * w + 1)))
    (fun r w e => ∃ f, FaultAt (Agree K) ixs r w f ∧ e = faultErr f) 5 (by
      intro r hr w hw
      obtain ⟨h1, h2⟩ := child_lt hr hw
      have := combine_ok K r hr (block ixs r (2 * w)) (block ixs r (2 * w + 1))
        (block_length hl (Nat.le_of_lt hr) h1) (block_length hl (Nat.le_of_lt hr) h2)
        (fun a ha => h25 a (block_mem ha)) (fun a ha => h25 a (block_mem ha))
      rw [← block_succ] at this
      exact this) 5 0 fuel (by omega) hf
  rcases hR with ⟨h1, h2⟩ | ⟨r, w, e, _, hr, hw, hn, ⟨f, hf, rfl⟩, hb, hc, h2⟩
  · exact Or.inl ⟨fun r hr w hw => h1 r (by omega) hr w hw, h2⟩
  · refine Or.inr ⟨fun hA => hn (hA r hr w hw), f, ⟨r, w, hr, hw, hf, ?_⟩, h2⟩
    rintro r' w' hw' (hlt | ⟨rfl, hlt⟩)
    · obtain ⟨k1, k2⟩ := blocks_ne hl r' (by omega) w' hw'
      exact (no_faulty k1 k2).1 (hb r' (by omega) hlt w' hw')
    · obtain ⟨k1, k2⟩ := blocks_ne hl r' hr w' hw'
      exact (no_faulty k1 k2).1 (hc w' hlt)

theorem allPairs_noFault (hl : ixs.length = 2 ^ 5) : AllPairs K ixs ↔ NoFault 5 (Agree K) ixs :=
  ⟨fun hA r w hr hw => (no_faulty (blocks_ne hl r hr w hw).1 (blocks_ne hl r hr w hw).2).1 (hA r hr w hw),
    fun hA r hr w hw => (no_faulty (blocks_ne hl r hr w hw).1 (blocks_ne hl r hr w hw).2).2 (hA r w hr hw)⟩

theorem allPairs_iff (hl : ixs.length = 2 ^ 5) : (AllPairs K ixs ∧ work K 5 ixs = 0) ↔ IsSolution K ixs := by
  have hheads : ∀ r w, (block ixs r (2 * w))[0]? = ixs[w * 2 ^ (r + 1)]? ∧
      (block ixs r (2 * w + 1))[0]? = ixs[w * 2 ^ (r + 1) + 2 ^ r]? := by
    intro r w
    rw [block_getElem? _ _ _ (Nat.two_pow_pos r), block_getElem? _ _ _ (Nat.two_pow_pos r)]
    constructor
    · congr 1; ring
    · congr 1; ring
  constructor
  · rintro ⟨hA, hz⟩
    refine ⟨hl, (nodup_iff hl).2 (fun r hr w hw => (hA r hr w hw).2.2), ?_, ?_, hz⟩
    · intro r hr w hw a b ha hb
      apply (hA r hr w hw).2.1
      · rw [(hheads r w).1, ha]
      · rw [(hheads r w).2, hb]
    · intro r hr w hw
      exact (hA r hr w hw).1
  · intro hs
    refine ⟨?_, hs.zero⟩
    intro r hr w hw
    refine ⟨hs.collide r hr w hw, ?_, (nodup_iff hl).1 hs.distinct r hr w hw⟩
    intro a b ha hb
    rw [(hheads r w).1] at ha
    rw [(hheads r w).2] at hb
    exact hs.ordered r hr w hw a b ha hb

/-- word `i` read as `LittleEndian.Uint64(hash[8i : 8i+8])` -/
theorem word64_read (hash : List Byte) (i lo hi : Nat) (hlo : lo = 8 * i) (hhi : hi = 8 * i + 8) (h : hi ≤ hash.length) :
    (do getU64 .little (← slc hash lo hi)) = .ok (leWord64 hash i) := by
  subst hlo hhi
  rw [slc_ok _ _ _ (by omega) h, ok_bind, getU64, if_pos (by simp; omega), natOf, leWord64, leValue_eq]
  rw [List.drop_take, List.take_take]
  simp

theorem prePow_eq (P : Prims) (personal header soln : List Byte) (hp : personal.length ≤ 8) (hl : soln.length = 104) :
    initializePrePow P personal header soln =
      .ok (let K := key P personal header (soln.drop 100); [K.v0, K.v1, K.v2, K.v3]) := by
  have hnl : (soln.drop 100).length = 4 := by simp; omega
  have hn : ((soln.take soln.length).drop 100) = soln.drop 100 := by rw [List.take_length]
  simp only [initializePrePow]
  rw [Equihash.copy_zero, ok_bind, Equihash.put_le personal 4 8 rfl, ok_bind]
  have e : personal.length + 4 = (personal ++ leEncode 4 workBitsSize.toNat).length := by simp
  rw [e, Equihash.put_le _ 0 4 rfl, ok_bind, Equihash.copy_zero, ok_bind, slc_ok _ _ _ (by omega) (by omega), ok_bind, hn, getU32,
    if_pos (by omega), ok_bind, Equihash.put_le header 0 4 rfl, ok_bind]
  have hnonce : leEncode 4 (BitVec.ofNat 32 (natOf .little ((soln.drop 100).take 4))).toNat = soln.drop 100 := by
    rw [List.take_of_length_le (by omega), leEncode_eq_leBytes]
    exact bytesOf_natOf .little (soln.drop 100) hnl (by omega)
  rw [hnonce]
  simp only [List.replicate_zero, List.append_nil]
  have hb : Crypto.blake2b P (header ++ soln.drop 100) (personal ++ leEncode 4 workBitsSize.toNat ++ leEncode 4 numRounds.toNat) 32 =
      .ok (P.blake2bRaw (header ++ soln.drop 100) (personal ++ leEncode 4 448 ++ leEncode 4 5) 32) := by
    simp only [Crypto.blake2b]
    rw [if_neg]
    · rfl
    · simp; omega
  rw [hb, ok_bind]
  obtain ⟨H, hH⟩ : ∃ H, H = P.blake2bRaw (header ++ soln.drop 100) (personal ++ leEncode 4 448 ++ leEncode 4 5) 32 := ⟨_, rfl⟩
  have hHl : H.length = 32 := by rw [hH]; exact P.blake2bRaw_length _ _ _ (by omega) (by omega)
  rw [← hH]
  simp only [← bind_assoc]
  rw [word64_read H 0 0 8 rfl rfl (by omega), ok_bind, word64_read H 1 8 16 rfl rfl (by omega), ok_bind,
    word64_read H 2 16 24 rfl rfl (by omega), ok_bind, word64_read H 3 24 32 rfl rfl (by omega), ok_bind]
  simp only [key, ← hH]
  rfl

theorem prePow_long (P : Prims) (personal header soln : List Byte) (hp : 8 < personal.length) (hl : soln.length = 104) :
    initializePrePow P personal header soln = panic .explicit := by
  have hnl : (soln.drop 100).length = 4 := by simp; omega
  have hn : ((soln.take soln.length).drop 100) = soln.drop 100 := by rw [List.take_length]
  simp only [initializePrePow]
  rw [Equihash.copy_zero, ok_bind, Equihash.put_le personal 4 8 rfl, ok_bind]
  have e : personal.length + 4 = (personal ++ leEncode 4 workBitsSize.toNat).length := by simp
  rw [e, Equihash.put_le _ 0 4 rfl, ok_bind, Equihash.copy_zero, ok_bind, slc_ok _ _ _ (by omega) (by omega), ok_bind, hn, getU32,
    if_pos (by omega), ok_bind, Equihash.put_le header 0 4 rfl, ok_bind]
  simp only [Crypto.blake2b]
  rw [if_pos]
  · rfl
  · right
    simp
    omega

/-- the outcome of a run of `verify` for the key `K` -/
def Outcome (K : Sip.State) (ixs : List Nat) (r : Go (Bool × Option Err)) : Prop :=
  (r = .ok (true, none) ∧ NoFault 5 (Agree K) ixs ∧ work K 5 ixs = 0) ∨
  (r = .ok (false, none) ∧ NoFault 5 (Agree K) ixs ∧ work K 5 ixs ≠ 0) ∨
  ∃ f, r = .ok (false, some (faultErr f)) ∧ FirstFault 5 (Agree K) ixs f

theorem tail_spec (hl : ixs.length = 2 ^ 5) (h25 : ∀ i ∈ ixs, i < 2 ^ 25) (fuel : Nat) (hf : 6 ≤ fuel) :
    Outcome K ixs (do
      let rows ← forRange 0 (ixs.map (BitVec.ofNat 32)).length [] (rowStep [K.v0, K.v1, K.v2, K.v3] (ixs.map (BitVec.ofNat 32)))
      match ← Pairing.rounds (fun round => combine (BitVec.ofNat 32 round)) fuel 1 rows with
      | .error e => pure (false, some e)
      | .ok rows => do
        let top ← idx rows 0
        if top.bitset ≠ 0 then pure (false, none) else pure (true, none)) := by
  have hrows : forRange 0 (ixs.map (BitVec.ofNat 32)).length [] (rowStep [K.v0, K.v1, K.v2, K.v3] (ixs.map (BitVec.ofNat 32))) =
      .ok ((List.range (2 ^ 5)).map (rowVal K ixs 0)) := by
    obtain ⟨k0, k1, k2, k3⟩ := K
    exact rows_eq k0 k1 k2 k3 hl h25
  rw [hrows, ok_bind]
  have hrow : (rowVal K ixs 5 0).bitset = work K 5 ixs := by
    show work K 5 (block ixs 5 0) = _
    exact congrArg (work K 5) (block_top hl)
  have hiff := allPairs_noFault K hl
  have hlev := levels K hl h25 fuel hf
  unfold Outcome
  generalize work K 5 ixs = wk at hrow ⊢
  generalize rowVal K ixs 5 0 = top at hrow hlev
  subst hrow
  rcases hlev with ⟨hA, e⟩ | ⟨_, f, hA, e⟩
  · rw [e, ok_bind]
    dsimp only
    rw [show idx [top] 0 = .ok top from rfl, ok_bind]
    by_cases hx : top.bitset = 0
    · rw [if_neg (fun hc => hc hx)]
      exact Or.inl ⟨rfl, hiff.1 hA, hx⟩
    · rw [if_pos hx]
      exact Or.inr (Or.inl ⟨rfl, hiff.1 hA, hx⟩)
  · rw [e, ok_bind]
    exact Or.inr (Or.inr ⟨f, rfl, hA⟩)

theorem verify_outcome (P : Prims) (personal header soln : List Byte) (hp : personal.length ≤ 8) (hl : soln.length = 104) (fuel : Nat)
    (hf : 6 ≤ fuel) :
    Outcome (key P personal header (soln.drop 100)) (indices soln) (verify P fuel personal header soln) := by
  have hpre := prePow_eq P personal header soln hp hl
  obtain ⟨K, hK⟩ : ∃ K, K = key P personal header (soln.drop 100) := ⟨_, rfl⟩
  rw [← hK] at hpre ⊢
  unfold verify
  rw [hpre, ok_bind, indices_eq soln hl, ok_bind]
  exact tail_spec K (indices_length soln) (indices_lt soln) fuel hf

theorem verify_spec (P : Prims) (personal header soln : List Byte) (hp : personal.length ≤ 8) (hl : soln.length = 104) (fuel : Nat)
    (hf : 6 ≤ fuel) :
    (verify P fuel personal header soln = .ok (true, none) ∧ IsSolution (key P personal header (soln.drop 100)) (indices soln)) ∨
    ((verify P fuel personal header soln = .ok (false, none) ∨ ∃ e, verify P fuel personal header soln = .ok (false, some e)) ∧
      ¬ IsSolution (key P personal header (soln.drop 100)) (indices soln)) := by
  have hout := verify_outcome P personal header soln hp hl fuel hf
  generalize key P personal header (soln.drop 100) = K at hout ⊢
  have hil := indices_length soln
  rcases hout with ⟨e, hA, hx⟩ | ⟨e, hA, hx⟩ | ⟨f, e, hA⟩
  · exact Or.inl ⟨e, (allPairs_iff K hil).1 ⟨(allPairs_noFault K hil).2 hA, hx⟩⟩
  · exact Or.inr ⟨Or.inl e, fun hs => hx hs.zero⟩
  · exact Or.inr ⟨Or.inr ⟨_, e⟩, fun hs => not_noFault hA ((allPairs_noFault K hil).1 ((allPairs_iff K hil).2 hs).1)⟩

end Verif.Beam
