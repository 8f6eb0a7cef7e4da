import Verif.Model.InMem.Clients
import Verif.Proof.InMem.Octopus
import Verif.Proof.InMem.Progpow

/-! # `Compute` of the DAG-based clients, in memory -/

set_option autoImplicit false

namespace Verif

open Go

namespace Go

variable {t : Ty}

theorem delivers_of_builds {m : Mem (Slice t)} {h : Heap} {g : Go (List t.Val)} (hm : Builds m h g) {xs : List t.Val} (hg : g = .ok xs) :
    Delivers m h xs := by
  obtain ⟨s, h', e, F, k, n⟩ := hm xs hg
  exact ⟨s, h', e, untouched_iff.1 F, n, k⟩

/-- the shape `if wrong length { return nil, err }; …; return digest, nil` -/
theorem deliversOr_of_runs {m : Mem (Option (Slice t))} {h : Heap} {g : Go (Option (List t.Val))}
    (hm : Runs m h g fun a b h' => Frame h h' none ∧ match a, b with
      | .none, .none => True
      | .some s, .some xs => Held h' s xs ∧ newer h t s.arr
      | _, _ => False) {o : Option (List t.Val)} (hg : g = .ok o) : DeliversOr m h o := by
  obtain ⟨a, h', e, F, q⟩ := hm o hg
  cases o with
  | none =>
    cases a with
    | none => exact ⟨h', e, untouched_iff.1 F⟩
    | some s => exact q.elim
  | some xs =>
    cases a with
    | none => exact q.elim
    | some s => exact ⟨s, h', e, untouched_iff.1 F, q.2, q.1⟩

theorem deliversOr_some {m : Mem (Slice t)} {h : Heap} {g : Go (List t.Val)} (hm : Builds m h g) {o : Option (List t.Val)}
    (hg : (g >>= fun d => pure (some d)) = .ok o) : DeliversOr (m >>= fun d => pure (some d)) h o :=
  deliversOr_of_runs (Runs.last hm fun _ _ _ _ q => ⟨q.1, q.2⟩) hg

theorem deliversOr_none {h : Heap} {o : Option (List t.Val)} (hg : (pure .none : Go (Option (List t.Val))) = .ok o) :
    DeliversOr (pure .none : Mem (Option (Slice t))) h o := by
  obtain rfl := Except.ok.inj hg
  exact ⟨h, rfl, untouched_iff.1 (Frame.refl h none)⟩

theorem deliversTwo_none {h : Heap} {o : Option (List t.Val × List t.Val)} (hg : (pure .none : Go (Option (List t.Val × List t.Val))) = .ok o) :
    DeliversTwo (pure .none : Mem (Option (Slice t × Slice t))) h o := by
  obtain rfl := Except.ok.inj hg
  exact ⟨h, rfl, untouched_iff.1 (Frame.refl h none)⟩

theorem reports_of_runs {α : Type} {m : Mem α} {h : Heap} {g : Go α} (hm : Runs m h g fun a b h' => a = b ∧ Frame h h' none) {b : α} (hg : g = .ok b) :
    Reports m h b := by
  obtain ⟨a, h', e, rfl, F⟩ := hm b hg
  exact ⟨h', e, untouched_iff.1 F⟩

end Go

namespace Clients.InMem

open Dag

/-- `GetCache` gives the slices of a cache: it may allocate, and writes to no memory that the caller has -/
def Gets (h : Heap) (getCache : GetCache) (g : U64 → Go Loaded) : Prop :=
  ∀ e b, g e = .ok b → ∃ c l h', getCache e h = .ok ((c, l), h') ∧ Untouched h h' ∧ Held h' c b.cache ∧ Held h' l b.l1

theorem runs_prepare (fuel : Nat) (d : Config) {H : Heap} {getCache : GetCache} {g : U64 → Go Loaded} (hg : Gets H getCache g) (height : U64) :
    Runs (prepare fuel d getCache height) H (Clients.prepare fuel d g height)
      fun a b h' => a.1 = b.1 ∧ Frame H h' none ∧ Held h' a.2.1 b.2.cache ∧ Held h' a.2.2 b.2.l1 := by
  unfold prepare Clients.prepare
  refine Runs.val Runs.lift fun epoch _ => ?_
  refine Runs.val Runs.lift fun size _ => ?_
  have h1 : Runs (getCache epoch) H (g epoch) fun a b h' => Frame H h' none ∧ Held h' a.1 b.cache ∧ Held h' a.2 b.l1 := by
    intro b hb
    obtain ⟨c, l, h', e, u, k1, k2⟩ := hg epoch b hb
    exact ⟨(c, l), h', e, untouched_iff.2 u, k1, k2⟩
  exact Runs.last h1 fun a b h' _ q => ⟨rfl, q⟩

/-- what the two-result clients share -/
theorem deliversTwo_client (fuel : Nat) (d : Config) {H : Heap} {getCache : GetCache} {g : U64 → Go Loaded} (hg : Gets H getCache g) (height : U64)
    {hash : Slice .byte} {xs : List Byte} (kh : Held H hash xs)
    {f : U64 → Slice .word → Slice .word → Mem (Slice .byte × Slice .byte)} {gf : U64 → Loaded → Go (List Byte × List Byte)}
    (hf : ∀ size h c l b, Held h hash xs → Held h c b.cache → Held h l b.l1 → Runs (f size c l) h (gf size b) (Progpow.InMem.Pair h))
    {o : Option (List Byte × List Byte)}
    (ho : (if xs.length ≠ 32 then pure .none else do
      let (size, cache) ← Clients.prepare fuel d g height
      let r ← gf size cache
      pure (some r)) = .ok o) :
    DeliversTwo (if hash.len ≠ 32 then pure .none else do
      let (size, cache, l1) ← prepare fuel d getCache height
      let r ← f size cache l1
      pure (some r)) H o := by
  rw [kh.len] at ho
  by_cases hl : hash.len ≠ 32
  · rw [if_pos hl] at ho ⊢
    exact deliversTwo_none ho
  rw [if_neg hl] at ho ⊢
  have key := Runs.bind (R := fun a b h' => ∃ p q, a = some p ∧ b = some q ∧ Progpow.InMem.Pair H p q h') (runs_prepare fuel d hg height)
    (k := fun x => do let r ← f x.1 x.2.1 x.2.2; pure (some r)) (l := fun x => do let r ← gf x.1 x.2; pure (some r)) (by
      rintro ⟨s, c, l⟩ ⟨s', b⟩ h' _ ⟨rfl, F, k1, k2⟩
      refine Runs.last (hf _ h' c l b (kh.keep F) k1 k2) fun p q h2 _ hp => ⟨p, q, rfl, rfl, ?_⟩
      obtain ⟨G, a1, a2, a3, a4, a5⟩ := hp
      exact ⟨F.trans G, a1, newer.mono F a2, a3, newer.mono F a4, a5⟩)
  obtain ⟨a, h', e, p, q, rfl, rfl, F, a1, a2, a3, a4, a5⟩ := key o ho
  exact ⟨p.1, p.2, h', e, untouched_iff.1 F, a2, a4, a5, a1, a3⟩

theorem deliversTwo_ethash (P : Prims) (fuel : Nat) (d : Config) {H : Heap} {getCache : GetCache} {g : U64 → Go Loaded} (hg : Gets H getCache g)
    {hash : Slice .byte} {xs : List Byte} (kh : Held H hash xs) (height nonce : U64) {o : Option (List Byte × List Byte)}
    (ho : Clients.ethash P fuel d g xs height nonce = .ok o) : DeliversTwo (ethash P fuel d getCache hash height nonce) H o :=
  deliversTwo_client fuel d hg height kh (f := fun size c _ => Ethash.InMem.hashimoto P hash nonce size (Dag.InMem.lookup512 P d.datasetParents c))
    (gf := fun size b => Ethash.hashimoto P xs nonce size (lookup512 P d.datasetParents b.cache))
    (fun size _ _ _ _ k1 k2 _ => Ethash.InMem.runs_hashimoto P k1 (Ethash.InMem.like_lookup512 P d.datasetParents k2) nonce size) ho

theorem deliversTwo_kawpow (P : Prims) (fuel : Nat) (d : Config) {H : Heap} {getCache : GetCache} {g : U64 → Go Loaded} (hg : Gets H getCache g)
    {hash : Slice .byte} {xs : List Byte} (kh : Held H hash xs) (height nonce : U64) {o : Option (List Byte × List Byte)}
    (ho : Clients.kawpow P fuel d g xs height nonce = .ok o) : DeliversTwo (kawpow P fuel d getCache hash height nonce) H o :=
  deliversTwo_client fuel d hg height kh (f := fun size c l => Progpow.InMem.kawpow hash height nonce size (Dag.InMem.lookup2048 P d.datasetParents c) l)
    (gf := fun size b => Progpow.kawpow xs height nonce size (lookup2048 P d.datasetParents b.cache) b.l1)
    (fun size _ _ _ _ k1 k2 k3 => Progpow.InMem.runs_kawpow k1 height nonce size (Ethash.InMem.like_lookup2048 P d.datasetParents k2) k3) ho

theorem deliversTwo_firopow (P : Prims) (fuel : Nat) (d : Config) {H : Heap} {getCache : GetCache} {g : U64 → Go Loaded} (hg : Gets H getCache g)
    {hash : Slice .byte} {xs : List Byte} (kh : Held H hash xs) (height nonce : U64) {o : Option (List Byte × List Byte)}
    (ho : Clients.firopow P fuel d g xs height nonce = .ok o) : DeliversTwo (firopow P fuel d getCache hash height nonce) H o :=
  deliversTwo_client fuel d hg height kh (f := fun size c l => Progpow.InMem.firopow hash height nonce size (Dag.InMem.lookup2048 P d.datasetParents c) l)
    (gf := fun size b => Progpow.firopow xs height nonce size (lookup2048 P d.datasetParents b.cache) b.l1)
    (fun size _ _ _ _ k1 k2 k3 => Progpow.InMem.runs_firopow k1 height nonce size (Ethash.InMem.like_lookup2048 P d.datasetParents k2) k3) ho

theorem deliversOr_octopus (P : Prims) (fuel : Nat) (d : Config) {H : Heap} {getCache : GetCache} {g : U64 → Go Loaded} (hg : Gets H getCache g)
    {hash : Slice .byte} {xs : List Byte} (kh : Held H hash xs) (height nonce : U64) {o : Option (List Byte)}
    (ho : Clients.octopus P fuel d g xs height nonce = .ok o) : DeliversOr (octopus P fuel d getCache hash height nonce) H o := by
  unfold Clients.octopus at ho
  unfold octopus
  rw [kh.len] at ho
  by_cases hl : hash.len ≠ 32
  · rw [if_pos hl] at ho ⊢
    exact deliversOr_none ho
  rw [if_neg hl] at ho ⊢
  refine deliversOr_of_runs ?_ ho
  refine Runs.bind (runs_prepare fuel d hg height) ?_
  rintro ⟨s, c, l⟩ ⟨s', b⟩ h' _ ⟨rfl, F, k1, _⟩
  refine Runs.last (Octopus.InMem.builds_octopus P fuel (kh.keep F) nonce s (Ethash.InMem.like_lookup512 P d.datasetParents k1)) fun p q h2 _ hp => ?_
  exact ⟨F.trans hp.1, hp.2.1, newer.mono F hp.2.2⟩

end Clients.InMem

end Verif
