import Verif.Proof.InMem.IsolationSmall
import Verif.Model.InMem.Clients

/-! # Ethash, ProgPow and Octopus write to their own arrays only -/

set_option autoImplicit false

namespace Verif

open Go

variable {n : Ty → Nat}

/-- what is known about two slices of bytes -/
def Fresh2 (n : Ty → Nat) (p : Slice .byte × Slice .byte) : Prop := n .byte ≤ p.1.arr ∧ n .byte ≤ p.2.arr

namespace Crypto.InMem

theorem spares_fnvHash {mix : Slice .word} (hm : n .word ≤ mix.arr) (data : Slice .word) : Spares n (fnvHash mix data) fun _ => True := by
  unfold fnvHash
  spares

theorem spares_keccak256 (P : Prims) (b : Slice .byte) : Spares n (keccak256 P b) fun s => n .byte ≤ s.arr := by
  unfold keccak256
  spares

theorem spares_keccak512 (P : Prims) (b : Slice .byte) : Spares n (keccak512 P b) fun s => n .byte ≤ s.arr := by
  unfold keccak512
  spares

theorem spares_keccak512Hasher (P : Prims) {dest : Slice .byte} (hd : n .byte ≤ dest.arr) (data : Slice .byte) :
    Spares n (keccak512Hasher P dest data) fun _ => True := by
  unfold keccak512Hasher
  spares

end Crypto.InMem

macro_rules | `(tactic| spares_rule) => `(tactic| with_reducible first
  | exact Crypto.InMem.spares_keccak256 _ _ | exact Crypto.InMem.spares_keccak512 _ _
  | (refine Crypto.InMem.spares_fnvHash ?_ _; spares_side) | (refine Crypto.InMem.spares_keccak512Hasher _ ?_ _; spares_side))

namespace Dag.InMem

theorem spares_generateDatasetItem (P : Prims) (parents : U32) (cache : Slice .word) (index : U32) :
    Spares n (generateDatasetItem P parents cache index) fun s => n .byte ≤ s.arr := by
  unfold generateDatasetItem
  spares

macro_rules | `(tactic| spares_rule) => `(tactic| with_reducible exact Dag.InMem.spares_generateDatasetItem _ _ _ _)

theorem spares_generateDatasetItemUint (P : Prims) (parents : U32) (cache : Slice .word) (index size : U32) :
    Spares n (generateDatasetItemUint P parents cache index size) fun s => n .word ≤ s.arr := by
  unfold generateDatasetItemUint
  spares

theorem spares_lookup512 (P : Prims) (parents : U32) (cache : Slice .word) (index : U32) :
    Spares n (lookup512 P parents cache index) fun s => n .word ≤ s.arr := spares_generateDatasetItemUint P parents cache index 1

theorem spares_lookup2048 (P : Prims) (parents : U32) (cache : Slice .word) (index : U32) :
    Spares n (lookup2048 P parents cache index) fun s => n .word ≤ s.arr := spares_generateDatasetItemUint P parents cache index 4

end Dag.InMem

namespace Ethash.InMem

theorem spares_round {lookup : Lookup} (hl : ∀ i, Spares n (lookup i) fun s => n .word ≤ s.arr) (rows seedHead : U32) {mix temp : Slice .word}
    (hm : n .word ≤ mix.arr) (ht : n .word ≤ temp.arr) (i : Nat) : Spares n (round lookup rows seedHead mix temp i) fun _ => True := by
  unfold round
  spares
  exact (hl _).post fun _ _ => ht

theorem spares_hashimoto (P : Prims) (hash : Slice .byte) (nonce datasetSize : U64) {lookup : Lookup} (hl : ∀ i, Spares n (lookup i) fun s => n .word ≤ s.arr) :
    Spares n (hashimoto P hash nonce datasetSize lookup) (Fresh2 n) := by
  unfold hashimoto
  spares
  all_goals first
    | (exact spares_round hl _ _ (by assumption) (by assumption) _)
    | exact Spares.pure ⟨by assumption, by assumption⟩

end Ethash.InMem

namespace Progpow.InMem

/-- the rows are new, or empty -/
def Rows (n : Ty → Nat) (mix : List (Slice .word)) : Prop := ∀ r ∈ mix, n .word ≤ r.arr ∨ r.len = 0

theorem spares_initMix (seed : U64) (numLanes numRegs : Nat) : Spares n (initMix seed numLanes numRegs) (Rows n) := by
  unfold initMix
  refine Spares.forRange (Rows n) _ _ _ ?_ fun lane mix hm => ?_
  · intro r hr
    rw [List.eq_of_mem_replicate hr]
    exact Or.inr rfl
  · unfold laneInit
    refine Spares.bind (Spares.make _ _) fun row hrow => ?_
    refine Spares.bind (Spares.values _ _ _ fun reg rng => by spares) fun _ _ => ?_
    refine Spares.lift.post fun mix' hu r hr => ?_
    unfold Go.upd at hu
    by_cases hc : lane < mix.length
    · rw [if_pos hc] at hu
      obtain rfl := Except.ok.inj hu
      rcases List.mem_or_eq_of_mem_set hr with h | rfl
      · exact hm r h
      · exact Or.inl hrow
    · rw [if_neg hc] at hu
      cases hu

theorem spares_mergeAt {mix : List (Slice .word)} (hm : Rows n mix) (l : Nat) (dst data sel : U32) : Spares n (mergeAt mix l dst data sel) fun _ => True := by
  unfold mergeAt
  refine Spares.bind Spares.lift fun row hrow => Spares.bind (Spares.idx _ _) fun a _ => Spares.upd ?_ _ _
  unfold Go.idx at hrow
  cases hg : mix[l]? with
  | none => rw [hg] at hrow; cases hrow
  | some r =>
    rw [hg] at hrow
    obtain rfl := Except.ok.inj hrow
    exact hm r (List.mem_of_getElem? hg)

macro_rules | `(tactic| spares_rule) => `(tactic| with_reducible (refine Progpow.InMem.spares_mergeAt ?_ _ _ _ _; assumption))

theorem spares_cacheOp (cfg : Config) (l1 : Slice .word) {mix : List (Slice .word)} (hm : Rows n mix) (state : MixRngState) :
    Spares n (cacheOp cfg l1 mix state) fun _ => True := by
  unfold cacheOp
  spares
  unfold cacheLane
  spares

theorem spares_mathOp (cfg : Config) {mix : List (Slice .word)} (hm : Rows n mix) (state : MixRngState) : Spares n (mathOp cfg mix state) fun _ => True := by
  unfold mathOp
  spares
  all_goals (unfold mathLane; spares)

theorem spares_opStep (cfg : Config) (l1 : Slice .word) {mix : List (Slice .word)} (hm : Rows n mix) (i : Nat) (state : MixRngState) :
    Spares n (opStep cfg l1 mix i state) fun _ => True := by
  have hc := spares_cacheOp cfg l1 hm state
  have ho := spares_mathOp cfg hm
  unfold opStep
  by_cases h1 : i < cfg.roundCacheAccesses <;> by_cases h2 : i < cfg.roundMathOperations
  · simp only [if_pos h1, if_pos h2]; exact hc.bind fun s _ => ho s
  · simp only [if_pos h1, if_neg h2]; exact hc.bind fun s _ => Spares.pure trivial
  · simp only [if_neg h1, if_pos h2]; exact (Spares.pure (Q := fun _ => True) trivial).bind fun s _ => ho s
  · simp only [if_neg h1, if_neg h2]; exact (Spares.pure (Q := fun _ => True) trivial).bind fun s _ => Spares.pure trivial

theorem spares_dagDraw {dsts sels : Slice .word} (hd : n .word ≤ dsts.arr) (hs : n .word ≤ sels.arr) (i : Nat) (state : MixRngState) :
    Spares n (dagDraw dsts sels i state) fun _ => True := by
  unfold dagDraw
  spares

theorem spares_dagLane (cfg : Config) (r : U32) (k : Nat) (item dsts sels : Slice .word) {mix : List (Slice .word)} (hm : Rows n mix) (l : Nat) :
    Spares n (dagLane cfg r k item dsts sels mix l) fun _ => True := by
  unfold dagLane
  spares
  unfold dagWord
  spares

theorem spares_round (cfg : Config) (seed : U64) (r : U32) {mix : List (Slice .word)} (hm : Rows n mix) (datasetSize : U64) {lookup : Lookup}
    (hl : ∀ i, Spares n (lookup i) fun s => n .word ≤ s.arr) (l1 : Slice .word) : Spares n (round cfg seed r mix datasetSize lookup l1) fun _ => True := by
  unfold round
  refine Spares.bind Spares.lift fun state _ => ?_
  refine Spares.bind Spares.lift fun lane _ => ?_
  refine Spares.bind Spares.lift fun row _ => ?_
  refine Spares.bind (Spares.idx _ _) fun x _ => ?_
  refine Spares.bind Spares.lift fun itemIndex _ => ?_
  refine Spares.bind (hl _) fun item _ => ?_
  refine Spares.bind Spares.lift fun _ _ => ?_
  refine Spares.bind (Spares.values _ _ _ fun i state => spares_opStep cfg l1 hm i state) fun state _ => ?_
  refine Spares.bind (Spares.make _ _) fun dsts hd => ?_
  refine Spares.bind (Spares.make _ _) fun sels hs => ?_
  refine Spares.bind (Spares.values _ _ _ fun i state => spares_dagDraw hd hs i state) fun _ _ => ?_
  exact Spares.each _ _ fun l => spares_dagLane cfg r _ item dsts sels hm l

theorem spares_hash (cfg : Config) (height seed datasetSize : U64) {lookup : Lookup} (hl : ∀ i, Spares n (lookup i) fun s => n .word ≤ s.arr) (l1 : Slice .word) :
    Spares n (InMem.hash cfg height seed datasetSize lookup l1) fun s => n .byte ≤ s.arr := by
  unfold InMem.hash
  refine Spares.bind (spares_initMix _ _ _) fun mix hm => ?_
  refine Spares.bind Spares.lift fun number _ => ?_
  refine Spares.bind (Spares.each _ _ fun i => spares_round cfg number _ hm datasetSize hl l1) fun _ _ => ?_
  spares

theorem spares_hashWordStep (hash : Slice .byte) (i : Nat) (seed : List U32) : Spares n (hashWordStep hash i seed) fun _ => True := by
  unfold hashWordStep
  spares

theorem spares_mixWordStep (seed : List U32) (mixHash : Slice .byte) (i : Nat) (state : List U32) :
    Spares n (mixWordStep seed mixHash i state) fun _ => True := by
  unfold mixWordStep
  spares

theorem spares_headBytes (state : List U32) : Spares n (headBytes state) fun s => n .byte ≤ s.arr := by
  unfold headBytes
  spares

macro_rules | `(tactic| spares_rule) => `(tactic| with_reducible first
  | exact Progpow.InMem.spares_hashWordStep _ _ _ | exact Progpow.InMem.spares_mixWordStep _ _ _ _ | exact Progpow.InMem.spares_headBytes _)

theorem spares_kawpow (hash : Slice .byte) (height nonce datasetSize : U64) {lookup : Lookup} (hl : ∀ i, Spares n (lookup i) fun s => n .word ≤ s.arr) (l1 : Slice .word) :
    Spares n (kawpow hash height nonce datasetSize lookup l1) (Fresh2 n) := by
  have hi : Spares n (kawpowInitialize hash nonce) fun _ => True := by
    unfold kawpowInitialize
    spares
  have hf : ∀ seed mixHash, Spares n (kawpowFinalize seed mixHash) fun s => n .byte ≤ s.arr := by
    intro seed mixHash
    unfold kawpowFinalize
    spares
  unfold kawpow
  refine Spares.bind hi fun p _ => ?_
  exact Spares.bind (spares_hash _ _ _ _ hl l1) fun m hm => Spares.bind (hf _ _) fun d hd => Spares.pure ⟨hm, hd⟩

theorem spares_firopow (hash : Slice .byte) (height nonce datasetSize : U64) {lookup : Lookup} (hl : ∀ i, Spares n (lookup i) fun s => n .word ≤ s.arr) (l1 : Slice .word) :
    Spares n (firopow hash height nonce datasetSize lookup l1) (Fresh2 n) := by
  have hi : Spares n (firopowInitialize hash nonce) fun _ => True := by
    unfold firopowInitialize
    spares
  have hf : ∀ seed mixHash, Spares n (firopowFinalize seed mixHash) fun s => n .byte ≤ s.arr := by
    intro seed mixHash
    unfold firopowFinalize
    spares
  unfold firopow
  refine Spares.bind hi fun p _ => ?_
  exact Spares.bind (spares_hash _ _ _ _ hl l1) fun m hm => Spares.bind (hf _ _) fun d hd => Spares.pure ⟨hm, hd⟩

theorem spares_progpow094 (hash : Slice .byte) (height nonce datasetSize : U64) {lookup : Lookup} (hl : ∀ i, Spares n (lookup i) fun s => n .word ≤ s.arr) (l1 : Slice .word) :
    Spares n (progpow094 hash height nonce datasetSize lookup l1) (Fresh2 n) := by
  have hi : Spares n (progpow094Initialize hash nonce) fun _ => True := by
    unfold progpow094Initialize
    spares
  have hf : ∀ seed mixHash, Spares n (progpow094Finalize seed mixHash) fun s => n .byte ≤ s.arr := by
    intro seed mixHash
    unfold progpow094Finalize
    spares
  unfold progpow094
  refine Spares.bind hi fun p _ => ?_
  exact Spares.bind (spares_hash _ _ _ _ hl l1) fun m hm => Spares.bind (hf _ _) fun d hd => Spares.pure ⟨hm, hd⟩

end Progpow.InMem

namespace Octopus.InMem

theorem spares_dataStep {d : Slice .word} (hd : n .word ≤ d.arr) (i j : Nat) (hasher : Siphash.SipHasher) : Spares n (dataStep d i j hasher) fun _ => True := by
  unfold dataStep
  spares

theorem spares_fill (v0 v1 v2 v3 warpID : U64) {d : Slice .word} (hd : n .word ≤ d.arr) : Spares n (fill v0 v1 v2 v3 warpID d) fun _ => True := by
  unfold fill
  refine Spares.each _ _ fun i => ?_
  exact Spares.bind (Spares.values _ _ _ fun j s => spares_dataStep hd i j s) fun _ _ => Spares.pure trivial

theorem spares_evalStep (a b c w w2 : U64) (d : Slice .word) {resBuf : Slice .word} (hr : n .word ≤ resBuf.arr) (i : Nat) (s : U64 × U64 × U64) :
    Spares n (evalStep a b c w w2 d resBuf i s) fun _ => True := by
  unfold evalStep
  refine Spares.bind (Q := fun _ => True) (Spares.values _ _ _ fun j pv => ?_) fun pv _ => ?_
  · unfold hornerStep
    spares
  · spares

theorem spares_evaluate (a b c w nonce : U64) (d : Slice .word) : Spares n (evaluate a b c w nonce d) fun p => n .word ≤ p.2.arr := by
  unfold evaluate
  refine Spares.bind Spares.lift fun _ _ => Spares.bind Spares.lift fun _ _ => ?_
  refine Spares.bind (Spares.make _ _) fun resBuf hr => ?_
  exact Spares.bind (Spares.values _ _ _ fun i s => spares_evalStep _ _ _ _ _ d hr i s) fun s _ => Spares.pure hr

theorem spares_initHalfMix (P : Prims) (hash : Slice .byte) (result : U64) : Spares n (initHalfMix P hash result) fun s => n .byte ≤ s.arr := by
  unfold initHalfMix
  spares

theorem spares_accessStep {lookup : Lookup} (hl : ∀ i, Spares n (lookup i) fun s => n .word ≤ s.arr) (f k : U32) (resBuf : Slice .word) {mix : Slice .word}
    (hm : n .word ≤ mix.arr) (i : Nat) : Spares n (accessStep lookup f k resBuf mix i) fun _ => True := by
  unfold accessStep
  spares
  unfold nodeStep
  refine Spares.bind (hl _) fun _ _ => ?_
  spares

theorem spares_reduce4 (mix : Slice .word) (w : Nat) : Spares n (reduce4 mix w) fun _ => True := by
  unfold reduce4
  spares

macro_rules | `(tactic| spares_rule) => `(tactic| with_reducible exact Octopus.InMem.spares_reduce4 _ _)

theorem spares_mixing (P : Prims) (halfMix : Slice .byte) (resBuf : Slice .word) (datasetSize : U64) {lookup : Lookup}
    (hl : ∀ i, Spares n (lookup i) fun s => n .word ≤ s.arr) : Spares n (mixing P halfMix resBuf datasetSize lookup) fun s => n .byte ≤ s.arr := by
  unfold mixing
  refine Spares.bind (Spares.lit _ _) fun mix hm => ?_
  refine Spares.bind (Spares.forRange (fun s => n .byte ≤ s.arr) _ _ mix hm fun _ s hs => Spares.append hs _) fun mix hm => ?_
  refine Spares.bind (Spares.slc _ _ _) fun head _ => Spares.bind (Spares.getU32 _ _) fun firstVal _ => ?_
  refine Spares.bind (Convutil.InMem.spares_bytesToUint32Array _ _) fun w hw => ?_
  refine Spares.bind (Spares.each _ _ fun i => spares_accessStep hl _ _ resBuf hw i) fun _ _ => ?_
  spares

theorem spares_octopus (P : Prims) (fuel : Nat) (hash : Slice .byte) (nonce datasetSize : U64) {lookup : Lookup}
    (hl : ∀ i, Spares n (lookup i) fun s => n .word ≤ s.arr) : Spares n (octopus P fuel hash nonce datasetSize lookup) fun s => n .byte ≤ s.arr := by
  have hg : ∀ lo hi, Spares n (Mem.slc hash lo hi >>= Mem.getU64 .little) fun _ => True := fun lo hi => by spares
  unfold octopus
  refine Spares.bind (hg _ _) fun v0 _ => Spares.bind (hg _ _) fun v1 _ => Spares.bind (hg _ _) fun v2 _ => Spares.bind (hg _ _) fun v3 _ => ?_
  refine Spares.bind (Spares.make _ _) fun d hd => ?_
  refine Spares.bind Spares.lift fun a _ => Spares.bind Spares.lift fun b _ => Spares.bind Spares.lift fun c _ => Spares.bind Spares.lift fun w _ => ?_
  refine Spares.bind (spares_fill _ _ _ _ _ hd) fun _ _ => ?_
  refine Spares.bind (spares_evaluate _ _ _ _ _ _) fun p _ => ?_
  exact Spares.bind (spares_initHalfMix P hash _) fun h _ => spares_mixing P h _ _ hl

end Octopus.InMem

namespace Clients.InMem

/-- what is known about two optional slices -/
def Fresh2? (n : Ty → Nat) (o : Option (Slice .byte × Slice .byte)) : Prop := ∀ p, o = some p → Fresh2 n p

theorem some_fresh2 {m : Mem (Slice .byte × Slice .byte)} (h : Spares n m (Fresh2 n)) : Spares n (m >>= fun r => pure (some r)) (Fresh2? n) :=
  h.bind fun r hr => Spares.pure fun p hp => by obtain rfl := Option.some.inj hp; exact hr

theorem spares_prepare (fuel : Nat) (d : Dag.Config) {g : GetCache} (hg : ∀ e, Spares n (g e) fun _ => True) (height : U64) :
    Spares n (prepare fuel d g height) fun _ => True := by
  unfold prepare
  exact Spares.bind Spares.lift fun e _ => Spares.bind Spares.lift fun s _ => Spares.bind (hg e) fun c _ => Spares.pure trivial

theorem spares_ethash (P : Prims) (fuel : Nat) (d : Dag.Config) {g : GetCache} (hg : ∀ e, Spares n (g e) fun _ => True) (hash : Slice .byte) (height nonce : U64) :
    Spares n (ethash P fuel d g hash height nonce) (Fresh2? n) := by
  unfold ethash
  refine Spares.ite (Spares.pure fun _ h => by cases h) (Spares.bind (spares_prepare fuel d hg height) fun x _ => ?_)
  exact some_fresh2 (Ethash.InMem.spares_hashimoto P hash nonce _ fun i => Dag.InMem.spares_lookup512 P _ _ i)

theorem spares_kawpow (P : Prims) (fuel : Nat) (d : Dag.Config) {g : GetCache} (hg : ∀ e, Spares n (g e) fun _ => True) (hash : Slice .byte) (height nonce : U64) :
    Spares n (kawpow P fuel d g hash height nonce) (Fresh2? n) := by
  unfold kawpow
  refine Spares.ite (Spares.pure fun _ h => by cases h) (Spares.bind (spares_prepare fuel d hg height) fun x _ => ?_)
  exact some_fresh2 (Progpow.InMem.spares_kawpow hash height nonce _ (fun i => Dag.InMem.spares_lookup2048 P _ _ i) _)

theorem spares_firopow (P : Prims) (fuel : Nat) (d : Dag.Config) {g : GetCache} (hg : ∀ e, Spares n (g e) fun _ => True) (hash : Slice .byte) (height nonce : U64) :
    Spares n (firopow P fuel d g hash height nonce) (Fresh2? n) := by
  unfold firopow
  refine Spares.ite (Spares.pure fun _ h => by cases h) (Spares.bind (spares_prepare fuel d hg height) fun x _ => ?_)
  exact some_fresh2 (Progpow.InMem.spares_firopow hash height nonce _ (fun i => Dag.InMem.spares_lookup2048 P _ _ i) _)

theorem spares_octopus (P : Prims) (fuel : Nat) (d : Dag.Config) {g : GetCache} (hg : ∀ e, Spares n (g e) fun _ => True) (hash : Slice .byte) (height nonce : U64) :
    Spares n (octopus P fuel d g hash height nonce) (Fresh? n) := by
  unfold octopus
  refine Spares.ite (Spares.pure fun _ h => by cases h) (Spares.bind (spares_prepare fuel d hg height) fun x _ => ?_)
  exact (Octopus.InMem.spares_octopus P fuel hash nonce _ fun i => Dag.InMem.spares_lookup512 P _ _ i).bind fun r hr =>
    Spares.pure fun p hp => by obtain rfl := Option.some.inj hp; exact hr

end Clients.InMem

end Verif
