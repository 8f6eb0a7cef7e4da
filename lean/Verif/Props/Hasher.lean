import Verif.Proof.HasherUse

/-! # C106: hash objects that are reused -/

set_option autoImplicit false

namespace Verif.Props

open Go Hasher Spec.Sponge

/-- several calls of one hasher, each with its `dest` and its `data`; the contents of the destinations afterwards -/
def series (K : Kind) : List (List Byte × List Byte) → Using (List (List Byte))
  | [] => pure []
  | (dest, data) :: jobs => do
    let d ← (fun s => call K s dest data : Using (List Byte))
    let ds ← series K jobs
    pure (d :: ds)

/-- **C106** Whatever the object was used for before, a call of the hasher writes the digest of its own input to the front of the destination and
leaves the rest of it, or panics because the destination is too short. -/
theorem C106_call (K : Kind) (hK : K.Good) (s : Sponge) (dest data : List Byte) : Prod.fst <$> call K s dest data =
    if dest.length < K.outputLen then .error (.panic .slice)
    else .ok (digest K.f K.rate K.ds K.outputLen data ++ dest.drop K.outputLen) := by
  obtain ⟨s', _, e⟩ := call_eq K hK s dest data
  rw [e]
  split <;> rfl

/-- **C106** So over any series of calls of one hasher each digest is that of its input. -/
theorem C106_series (K : Kind) (hK : K.Good) (jobs : List (List Byte × List Byte)) (hl : ∀ j ∈ jobs, K.outputLen ≤ j.1.length) (s : Sponge) :
    Prod.fst <$> (series K jobs).run s =
      .ok (jobs.map fun j => digest K.f K.rate K.ds K.outputLen j.2 ++ j.1.drop K.outputLen) := by
  have h : Sim (series K jobs) (.ok (jobs.map fun j => digest K.f K.rate K.ds K.outputLen j.2 ++ j.1.drop K.outputLen)) := by
    induction jobs with
    | nil => exact sim_pure _
    | cons j jobs ih =>
      obtain ⟨dest, data⟩ := j
      have h1 : Sim (fun s => call K s dest data : Using (List Byte)) (.ok (digest K.f K.rate K.ds K.outputLen data ++ dest.drop K.outputLen)) := by
        intro s
        have := C106_call K hK s dest data
        rw [if_neg (Nat.not_lt.mpr (hl (dest, data) List.mem_cons_self))] at this
        exact this
      exact sim_bind h1 fun d => sim_bind (ih fun j hj => hl j (List.mem_cons_of_mem _ hj)) fun ds => sim_pure _
  exact h s

/-- **C106** The reset is needed: after a call that returned, writing to the object without it panics. -/
theorem C106_reset_needed (K : Kind) (hK : K.Good) (s s' : Sponge) (dest data d : List Byte) (h : call K s dest data = .ok (d, s')) (p : List Byte) :
    write K s' p = .error (.panic .explicit) := by
  obtain ⟨t, ht, e⟩ := call_eq K hK s dest data
  rw [h] at e
  by_cases hl : dest.length < K.outputLen
  · rw [if_pos hl] at e
    cases e
  · rw [if_neg hl] at e
    obtain rfl : s' = t := congrArg Prod.snd (Except.ok.inj e)
    unfold write
    rw [ht]
    rfl

/-- **C106** The hasher is not for several goroutines: if two calls of one hasher both reset it and write before they read, the first to read gets the
digest of the two inputs one after the other, and the second the bytes after it in the output of the sponge for these. If one of them resets after
the other wrote, both get digests without the first input. -/
theorem C106_shared (K : Kind) (hK : K.Good) (s : Sponge) (d1 d2 : List Byte) :
    (∃ t u, write K (reset (reset s)) d1 = .ok t ∧ write K t d2 = .ok u ∧
      (read K u K.outputLen).1 = digest K.f K.rate K.ds K.outputLen (d1 ++ d2) ∧
      (read K (read K u K.outputLen).2 K.outputLen).1 = (List.range K.outputLen).map fun i => output K.f K.rate K.ds (d1 ++ d2) (K.outputLen + i)) ∧
    (∃ t u, write K (reset s) d1 = .ok t ∧ write K (reset t) d2 = .ok u ∧
      (read K u K.outputLen).1 = digest K.f K.rate K.ds K.outputLen d2 ∧
      (read K (read K u K.outputLen).2 K.outputLen).1 = (List.range K.outputLen).map fun i => output K.f K.rate K.ds d2 (K.outputLen + i)) := by
  have second : ∀ d u, Squeezed K d K.outputLen u → (read K u K.outputLen).1 =
      (List.range K.outputLen).map fun i => output K.f K.rate K.ds d (K.outputLen + i) := by
    intro d u hu
    unfold Hasher.read
    rw [hu.r]
    exact (squeezed_step K hK d K.outputLen u hu K.outputLen).1
  obtain ⟨t, h1, h2⟩ := absorbed_write K hK [] d1 fresh (absorbed_fresh K hK)
  obtain ⟨u, h3, h4⟩ := absorbed_write K hK _ d2 t h2
  obtain ⟨v, h5, h6⟩ := absorbed_write K hK [] d2 fresh (absorbed_fresh K hK)
  rw [List.nil_append] at h4 h6
  have r1 := read_absorbed K hK _ u h4 K.outputLen
  have r2 := read_absorbed K hK _ v h6 K.outputLen
  exact ⟨⟨t, u, h1, h3, r1.1, second _ _ r1.2⟩, ⟨t, v, h1, h5, r2.1, second _ _ r2.2⟩⟩

/-- a series of operations on one hash object, of one caller or of several in turn; the bytes read at each -/
def operations (K : Kind) : List Op → Sponge → Go (List (List Byte))
  | [], _ => pure []
  | .reset :: ops, s => do
    let r ← operations K ops (reset s)
    pure ([] :: r)
  | .write p :: ops, s => do
    let s ← write K s p
    let r ← operations K ops s
    pure ([] :: r)
  | .read m :: ops, s => do
    let r ← operations K ops (Hasher.read K s m).2
    pure ((Hasher.read K s m).1 :: r)

/-- **C106** Every series of operations on one object, in whatever order several callers come: what is read is a part of the output of the sponge for all
that was written since the last reset, the part after what was read before; and the series panics exactly if something is written after a read with no
reset between. -/
theorem C106_operations (K : Kind) (hK : K.Good) (ops : List Op) :
    operations K ops fresh = match outputs K.f K.rate K.ds ops ⟨[], none⟩ with
      | some r => .ok r
      | none => .error (.panic .explicit) := by
  have main : ∀ (ops : List Op) (w : Written) (s : Sponge),
      (w.taken = none ∧ Absorbed K w.msg s ∨ ∃ i, w.taken = some i ∧ Squeezed K w.msg i s) →
      operations K ops s = match outputs K.f K.rate K.ds ops w with
        | some r => .ok r
        | none => .error (.panic .explicit) := by
    intro ops
    induction ops with
    | nil => intros; rfl
    | cons op ops ih =>
      intro w s h
      cases op with
      | reset =>
        unfold operations outputs
        rw [ih ⟨[], none⟩ (reset s) (.inl ⟨rfl, absorbed_fresh K hK⟩)]
        cases outputs K.f K.rate K.ds ops ⟨[], none⟩ <;> rfl
      | write p =>
        unfold operations outputs
        rcases h with ⟨h1, h2⟩ | ⟨i, h1, h2⟩
        · obtain ⟨t, e, h3⟩ := absorbed_write K hK _ p s h2
          rw [e, if_pos h1]
          change (operations K ops t >>= fun r => pure ([] :: r)) = _
          rw [ih ⟨w.msg ++ p, none⟩ t (.inl ⟨rfl, h3⟩)]
          cases outputs K.f K.rate K.ds ops ⟨w.msg ++ p, none⟩ <;> rfl
        · have e : write K s p = .error (.panic .explicit) := by
            unfold write
            rw [h2.r]
            rfl
          rw [e, if_neg (by rw [h1]; simp)]
          rfl
      | read m =>
        unfold operations outputs
        have hr : (Hasher.read K s m).1 = (List.range m).map (fun j => output K.f K.rate K.ds w.msg (w.taken.getD 0 + j)) ∧
            Squeezed K w.msg (w.taken.getD 0 + m) (Hasher.read K s m).2 := by
          rcases h with ⟨h1, h2⟩ | ⟨i, h1, h2⟩
          · have := read_absorbed K hK _ s h2 m
            rw [h1]
            simp only [Option.getD_none, Nat.zero_add]
            exact this
          · rw [h1]
            unfold Hasher.read
            rw [h2.r]
            exact squeezed_step K hK _ i s h2 m
        rw [ih ⟨w.msg, some (w.taken.getD 0 + m)⟩ _ (.inr ⟨_, rfl, hr.2⟩), hr.1]
        cases outputs K.f K.rate K.ds ops ⟨w.msg, some (w.taken.getD 0 + m)⟩ <;> rfl
  exact main ops ⟨[], none⟩ fresh (.inl ⟨rfl, absorbed_fresh K hK⟩)

/-- **C106** A caller whose reset, write and read are not interrupted gets its digest, whatever others did before and, if that does not panic, do after. -/
theorem C106_uninterrupted (K : Kind) (hK : K.Good) (before after : List Op) (d : List Byte) (r : List (List Byte))
    (h : operations K (before ++ [.reset, .write d, .read K.outputLen] ++ after) fresh = .ok r) :
    r[before.length + 2]? = some (digest K.f K.rate K.ds K.outputLen d) := by
  rw [C106_operations K hK] at h
  have main : ∀ (before : List Op) (w : Written) (r : List (List Byte)),
      outputs K.f K.rate K.ds (before ++ [.reset, .write d, .read K.outputLen] ++ after) w = some r →
      r[before.length + 2]? = some (digest K.f K.rate K.ds K.outputLen d) := by
    intro before
    induction before with
    | nil =>
      intro w r h
      simp only [List.nil_append, List.cons_append, outputs, if_true, Option.getD_none, Nat.zero_add, Option.map_map, Option.map_eq_some_iff] at h
      obtain ⟨x, _, rfl⟩ := h
      rfl
    | cons op before ih =>
      intro w r h
      have step : ∀ (w' : Written) (o : List Byte),
          (outputs K.f K.rate K.ds (before ++ [.reset, .write d, .read K.outputLen] ++ after) w').map (o :: ·) = some r →
          r[(op :: before).length + 2]? = some (digest K.f K.rate K.ds K.outputLen d) := by
        intro w' o h
        obtain ⟨x, hx, rfl⟩ := Option.map_eq_some_iff.mp h
        have := ih w' x hx
        rw [List.length_cons, show before.length + 1 + 2 = (before.length + 2) + 1 by omega, List.getElem?_cons_succ]
        exact this
      cases op with
      | reset => exact step _ _ h
      | write p =>
        rw [List.cons_append, List.cons_append, outputs] at h
        by_cases hw : w.taken = none
        · rw [if_pos hw] at h
          exact step _ _ h
        · rw [if_neg hw] at h
          cases h
      | read m => exact step _ _ h
  cases e : outputs K.f K.rate K.ds (before ++ [.reset, .write d, .read K.outputLen] ++ after) ⟨[], none⟩ with
  | none => rw [e] at h; cases h
  | some x =>
    rw [e] at h
    obtain rfl : x = r := Except.ok.inj h
    exact main before _ _ e

/-- the digests are those of sponges with one permutation -/
structure Sponges (P : Prims) (f : List Byte → List Byte) : Prop where
  len : ∀ x : List Byte, x.length = 200 → (f x).length = 200
  k256 : ∀ d, P.keccak256 d = digest f 136 1 32 d
  k512 : ∀ d, P.keccak512 d = digest f 72 1 64 d

section

variable {P : Prims} {f : List Byte → List Byte} (h : Sponges P f)
include h

/-- **C106** The seed of an epoch, computed with one hasher that overwrites its own input. -/
theorem C106_seed (d : Dag.Config) (height : U64) : Hasher.seedHash (legacyKeccak256 f) d height = Dag.seedHash P d height :=
  seedHash_eq h.len h.k256 d height

/-- **C106** The cache, computed with one hasher. -/
theorem C106_cache (rounds : Int) (dest : List U32) (seed : List Byte) :
    Hasher.generateCache (legacyKeccak512 f) rounds dest seed = Dag.generateCache P rounds dest seed := cache_eq h.len h.k512 rounds dest seed

/-- **C106** The L1 cache, computed with one hasher. -/
theorem C106_l1 (parents : U32) (dest cache : List U32) :
    Hasher.generateL1Cache (legacyKeccak512 f) parents dest cache = Dag.generateL1Cache P parents dest cache := l1_eq h.len h.k512 parents dest cache

/-- **C106** Lookups: the function that `NewLookupFunc512`, `-1024` or `-2048` returned gives, at every call in any series of calls, the item of the
index that it is called with, or the panic. -/
theorem C106_lookup (parents : U32) (cache : List U32) (index : U32) (s : Sponge) :
    Prod.fst <$> (lookup (legacyKeccak512 f) parents cache 1 index).run s = Dag.lookup512 P parents cache index ∧
    Prod.fst <$> (lookup (legacyKeccak512 f) parents cache 2 index).run s = Dag.lookup1024 P parents cache index ∧
    Prod.fst <$> (lookup (legacyKeccak512 f) parents cache 4 index).run s = Dag.lookup2048 P parents cache index :=
  ⟨sim_lookup h.len h.k512 parents cache 1 index s, sim_lookup h.len h.k512 parents cache 2 index s, sim_lookup h.len h.k512 parents cache 4 index s⟩

end

/-- digests of sponges in the place of Keccak -/
def spongePrims (f : List Byte → List Byte) : Prims := { Prims.zero with
  keccak256 := digest f 136 1 32
  keccak512 := digest f 72 1 64
  keccak256_length := fun d => by simp [digest]
  keccak512_length := fun d => by simp [digest] }

/-- the hypotheses are met by every permutation of states -/
example (f : List Byte → List Byte) (hf : ∀ x : List Byte, x.length = 200 → (f x).length = 200) : Sponges (spongePrims f) f :=
  ⟨hf, fun _ => rfl, fun _ => rfl⟩

/-- two callers in turn: the second one's write panics after the first one's read -/
example (K : Kind) (hK : K.Good) (d1 d2 : List Byte) (m : Nat) :
    operations K [.reset, .reset, .write d1, .read m, .write d2, .read m] fresh = .error (.panic .explicit) := by
  rw [C106_operations K hK]
  rfl

/-- two callers one after the other -/
example (K : Kind) (hK : K.Good) (d1 d2 : List Byte) :
    operations K ([.reset, .write d1, .read K.outputLen] ++ [.reset, .write d2, .read K.outputLen] ++ []) fresh =
      .ok [[], [], digest K.f K.rate K.ds K.outputLen d1, [], [], digest K.f K.rate K.ds K.outputLen d2] := by
  rw [C106_operations K hK]
  simp [outputs, digest]

/-- two digests by one hasher, the second of the first, in the same memory -/
example (f : List Byte → List Byte) (hf : ∀ x : List Byte, x.length = 200 → (f x).length = 200) (s : Sponge) (b : List Byte) (hb : b.length = 64) :
    Prod.fst <$> (series (legacyKeccak512 f) [(b, b), (digest f 72 1 64 b, digest f 72 1 64 b)]).run s =
      .ok [digest f 72 1 64 b, digest f 72 1 64 (digest f 72 1 64 b)] := by
  rw [C106_series _ (good512 f hf) _ (by
    intro j hj
    rcases List.mem_cons.mp hj with rfl | hj
    · exact Nat.le_of_eq hb.symm
    · rw [List.mem_singleton.mp hj]
      simp [legacyKeccak512, digest])]
  have e1 : b.drop 64 = [] := List.drop_eq_nil_iff.mpr (by omega)
  have e2 : (digest f 72 1 64 b).drop 64 = [] := List.drop_eq_nil_iff.mpr (by simp [digest])
  simp only [List.map_cons, List.map_nil, legacyKeccak512, e1, e2, List.append_nil]

/-- A shared hasher gives wrong digests: for the permutation that moves each byte of the state by one place, two inputs of one byte. -/
example : digest (List.rotateLeft · 1) 72 1 64 ([1] ++ [2]) ≠ digest (List.rotateLeft · 1) 72 1 64 [1] := by decide +kernel

end Verif.Props
