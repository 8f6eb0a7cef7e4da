import Verif.Proof.Hasher

/-! # Functions that keep a hasher between digests (for C106) -/

set_option autoImplicit false

namespace Verif.Hasher

open Go Dag Spec.Sponge

/-- the computation gives `g`, whatever the object was used for before -/
def Sim {α : Type} (m : Using α) (g : Go α) : Prop := ∀ s, Prod.fst <$> m.run s = g

variable {α β σ : Type}

theorem sim_pure (a : α) : Sim (pure a) (pure a) := fun _ => rfl

theorem sim_lift (g : Go α) : Sim (liftM g : Using α) g := fun s => by
  cases g with
  | error e => rfl
  | ok a => rfl

theorem sim_bind {m : Using α} {g : Go α} {k : α → Using β} {k' : α → Go β} (h : Sim m g) (hk : ∀ a, Sim (k a) (k' a)) : Sim (m >>= k) (g >>= k') := by
  intro s
  have hs := h s
  show Prod.fst <$> (m.run s >>= fun p => (k p.1).run p.2) = g >>= k'
  cases hm : m.run s with
  | error e =>
    rw [hm] at hs
    rw [← hs]
    rfl
  | ok p =>
    rw [hm] at hs
    rw [← hs]
    exact hk p.1 p.2

theorem sim_loop (n i : Nat) (a : σ) (f : Nat → σ → Using σ) (g : Nat → σ → Go σ) (h : ∀ i a, Sim (f i a) (g i a)) (s : Sponge) :
    Prod.fst <$> Go.loop n i (a, s) (fun i p => f i p.1 p.2) = Go.loop n i a g := by
  induction n generalizing i a s with
  | zero => rfl
  | succ n ih =>
    have hs := h i a s
    rw [Go.loop, Go.loop]
    cases hm : (f i a).run s with
    | error e =>
      rw [hm] at hs
      rw [← hs]
      have hm' : f i a s = .error e := hm
      show Prod.fst <$> (f i a s >>= _) = _
      rw [hm']
      rfl
    | ok p =>
      rw [hm] at hs
      rw [← hs]
      have hm' : f i a s = .ok p := hm
      show Prod.fst <$> (f i a s >>= _) = _
      rw [hm']
      exact ih (i + 1) p.1 p.2

theorem sim_forRange (lo hi : Nat) (a : σ) (f : Nat → σ → Using σ) (g : Nat → σ → Go σ) (h : ∀ i a, Sim (f i a) (g i a)) :
    Sim (Using.forRange lo hi a f) (Go.forRange lo hi a g) := fun s => sim_loop _ _ a f g h s

/-- the result of a computation with a new hasher -/
theorem sim_run {m : Using α} {g : Go α} (h : Sim m g) (k : α → Go β) : (m.run fresh >>= fun p => k p.1) = g >>= k := by
  have hs := h fresh
  cases hm : m.run fresh with
  | error e =>
    rw [hm] at hs
    rw [← hs]
    rfl
  | ok p =>
    rw [hm] at hs
    rw [← hs]
    rfl

theorem good512 (f : List Byte → List Byte) (hf : ∀ x, x.length = 200 → (f x).length = 200) : (legacyKeccak512 f).Good :=
  ⟨by simp [legacyKeccak512], by simp [legacyKeccak512], hf⟩

theorem good256 (f : List Byte → List Byte) (hf : ∀ x, x.length = 200 → (f x).length = 200) : (legacyKeccak256 f).Good :=
  ⟨by simp [legacyKeccak256], by simp [legacyKeccak256], hf⟩

section

variable {P : Prims} {f : List Byte → List Byte} (hf : ∀ x, x.length = 200 → (f x).length = 200)
include hf

theorem sim_keccak512 (h512 : ∀ d, P.keccak512 d = digest f 72 1 64 d) (buf : List Byte) (off : Nat) (data : List Byte) :
    Sim (hashAt (legacyKeccak512 f) buf off data) (keccak512At P buf off data) := by
  intro s
  obtain ⟨s', _, e⟩ := call_eq _ (good512 f hf) s (buf.drop off) data
  have e : call (legacyKeccak512 f) s (buf.drop off) data = if (buf.drop off).length < 64 then .error (.panic .slice)
      else .ok (digest f 72 1 64 data ++ (buf.drop off).drop 64, s') := e
  rw [List.length_drop, List.drop_drop, ← h512] at e
  show Prod.fst <$> hashAt (legacyKeccak512 f) buf off data s = _
  unfold hashAt keccak512At
  by_cases h1 : buf.length < off
  · rw [if_pos h1, if_pos (by omega)]
    rfl
  · by_cases h2 : buf.length < off + 64
    · rw [if_pos (by omega)] at e
      rw [if_neg h1, if_pos h2, e]
      rfl
    · rw [if_neg (by omega)] at e
      rw [if_neg h1, if_neg h2, e, List.append_assoc]
      rfl

theorem sim_keccak256 (h256 : ∀ d, P.keccak256 d = digest f 136 1 32 d) (buf : List Byte) (data : List Byte) :
    Sim (hashAt (legacyKeccak256 f) buf 0 data) (keccak256At P buf data) := by
  intro s
  obtain ⟨s', _, e⟩ := call_eq _ (good256 f hf) s (buf.drop 0) data
  have e : call (legacyKeccak256 f) s (buf.drop 0) data = if buf.length < 32 then .error (.panic .slice)
      else .ok (digest f 136 1 32 data ++ buf.drop 32, s') := e
  rw [← h256] at e
  show Prod.fst <$> hashAt (legacyKeccak256 f) buf 0 data s = _
  unfold hashAt keccak256At
  rw [if_neg (Nat.not_lt_zero _)]
  by_cases h2 : buf.length < 32
  · rw [if_pos h2] at e
    rw [if_pos h2, e]
    rfl
  · rw [if_neg h2] at e
    rw [if_neg h2, e]
    rfl

theorem seedHash_eq (h256 : ∀ d, P.keccak256 d = digest f 136 1 32 d) (d : Config) (height : U64) :
    seedHash (legacyKeccak256 f) d height = Dag.seedHash P d height := by
  unfold seedHash Dag.seedHash
  dsimp only
  by_cases h : height < d.seedEpochLength
  · rw [if_pos h, if_pos h]
  · rw [if_neg h, if_neg h]
    show (udiv height d.seedEpochLength >>= _) = (udiv height d.seedEpochLength >>= _)
    congr 1
    funext n
    have := sim_run (sim_forRange 0 n.toInt.toNat (List.replicate 32 (0 : Byte)) _ _ fun _ seed => sim_keccak256 hf h256 seed seed) pure
    rw [bind_pure] at this
    exact this

theorem sim_item (h512 : ∀ d, P.keccak512 d = digest f 72 1 64 d) (parents : U32) (cache : List U32) (index : U32) :
    Sim (generateDatasetItem (legacyKeccak512 f) parents cache index) (Dag.generateDatasetItem P parents cache index) := by
  have hk := sim_keccak512 hf h512
  unfold generateDatasetItem Dag.generateDatasetItem
  refine sim_bind (sim_lift _) fun r => sim_bind (sim_lift _) fun w => sim_bind (sim_lift _) fun mix => sim_bind (sim_lift _) fun mix =>
    sim_bind (hk _ _ _) fun mix => sim_bind (sim_lift _) fun im => sim_bind (sim_lift _) fun im => sim_bind (sim_lift _) fun mix => hk _ _ _

theorem sim_lookup (h512 : ∀ d, P.keccak512 d = digest f 72 1 64 d) (parents : U32) (cache : List U32) (size index : U32) :
    Sim (lookup (legacyKeccak512 f) parents cache size index) (generateDatasetItemUint P parents cache index size) := by
  unfold lookup generateDatasetItemUint
  apply sim_forRange
  intro n data
  unfold itemStep Dag.itemStep
  exact sim_bind (sim_item hf h512 _ _ _) fun item => sim_lift _

theorem l1_eq (h512 : ∀ d, P.keccak512 d = digest f 72 1 64 d) (parents : U32) (dest cache : List U32) :
    generateL1Cache (legacyKeccak512 f) parents dest cache = Dag.generateL1Cache P parents dest cache := by
  unfold generateL1Cache Dag.generateL1Cache
  refine sim_run (sim_forRange 0 _ _ _ _ fun i l1 => ?_) fun l1 => pure (wordView l1)
  unfold l1Step Dag.l1Step
  exact sim_bind (sim_item hf h512 _ _ _) fun item => sim_lift _

theorem cache_eq (h512 : ∀ d, P.keccak512 d = digest f 72 1 64 d) (rounds : Int) (dest : List U32) (seed : List Byte) :
    generateCache (legacyKeccak512 f) rounds dest seed = Dag.generateCache P rounds dest seed := by
  have hk := sim_keccak512 hf h512
  unfold generateCache Dag.generateCache
  refine sim_run ?_ fun cache => pure (wordView cache)
  unfold generateCacheBytes
  refine sim_bind (hk _ _ _) fun cache => sim_bind (sim_forRange _ _ _ _ _ fun k cache => ?_) fun cache =>
    sim_bind (sim_forRange _ _ _ _ _ fun _ st => sim_forRange _ _ _ _ _ fun j st => ?_) fun st => sim_pure _
  · unfold chainStep Dag.chainStep
    exact sim_bind (sim_lift _) fun data => hk _ _ _
  · unfold memoStep Dag.memoStep
    exact sim_bind (sim_lift _) fun _ => sim_bind (sim_lift _) fun _ => sim_bind (sim_lift _) fun _ => sim_bind (sim_lift _) fun _ =>
      sim_bind (sim_lift _) fun _ => sim_bind (sim_lift _) fun _ => sim_bind (hk _ _ _) fun _ => sim_pure _

end

end Verif.Hasher
