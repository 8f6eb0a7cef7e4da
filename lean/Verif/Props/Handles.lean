import Verif.Proof.Handles
import Verif.Props.Files

/-! # Descriptors and mappings: property C94

`Trace p es a` are calls of the program `p` with any results, in a row from its beginning: `es` is what they did to descriptors and mappings, and
`a` is the value if the program has ended with one. -/

set_option autoImplicit false

namespace Verif.Props

open Go Dag Files Spec.Handles

attribute [local irreducible] Tables.ethashCacheSizes Tables.ethashDatasetSizes Tables.firopowDatasetSizes Tables.octopusCacheSizes
  Tables.octopusDatasetSizes

section One

variable (P : Prims) (fuel : Nat) (d : Config) (e : U64)

/-- **C94** `generate` never uses a closed descriptor or memory that is not mapped, and closes and unmaps nothing twice, whatever is held before.
When it returns, exactly the buffers that it returns are mapped and open in addition; `s` counts the failures of `Unmap`, each of which leaves a
mapping and possibly a descriptor. -/
theorem C94_generate (h : Held) (es : List Event) (a : Option Buffers) (ht : Trace (Files.generate P fuel d e) es a) :
    ∃ h', Spec.Handles.run h es = some h' ∧ ∀ b, a = some b → ∀ f, ∃ s, h'.stuck f = h.stuck f + s ∧ h'.maps f = h.maps f + holds b f + s ∧
      h.opens f + holds b f ≤ h'.opens f ∧ h'.opens f ≤ h.opens f + holds b f + s := by
  obtain ⟨h', h1, h2⟩ := (Handles.generate_safe P fuel d e h).trace ht
  refine ⟨h', h1, fun b hb f => ⟨h'.stuck f - h.stuck f, ?_⟩⟩
  have := h2 b hb f
  omega

/-- **C94** A cache that is generated, read any number of times, and finalized: no mistake, and in the end as many mappings remain as `Unmap` has
failed, and at most as many descriptors. -/
theorem C94_life (reads : List Bool) (es : List Event) (a : Option Unit) (ht : Trace (life P fuel d e reads) es a) :
    ∃ h', Spec.Handles.run nothing es = some h' ∧ (a = some () → ∀ f, h'.maps f = h'.stuck f ∧ h'.opens f ≤ h'.stuck f) := by
  obtain ⟨h', h1, h2⟩ := (Handles.life_safe P fuel d e reads nothing).trace ht
  refine ⟨h', h1, fun hb f => ?_⟩
  have := h2 () hb f
  simp only [nothing] at this
  omega

theorem stuck_zero {h h' : Held} {es : List Event} (hr : Spec.Handles.run h es = some h') (hn : ∀ f, Event.stuck f ∉ es) (g : Nat) :
    h'.stuck g = h.stuck g := by
  induction es generalizing h with
  | nil => cases hr; rfl
  | cons x es ih =>
    unfold Spec.Handles.run at hr
    cases hx : after h x with
    | none => rw [hx] at hr; cases hr
    | some h1 =>
      rw [hx] at hr
      rw [ih hr fun f hf => hn f (List.mem_cons_of_mem _ hf)]
      have key : ∀ (c : Prop) [Decidable c] (k : Held), (if c then none else some k) = some h1 → h1 = k := by
        intro c _ k hk
        by_cases hc : c
        · rw [if_pos hc] at hk; cases hk
        · rw [if_neg hc] at hk; exact (Option.some.inj hk).symm
      cases x with
      | opened f => cases hx; rfl
      | stuck f => exact absurd List.mem_cons_self (hn f)
      | use f => rw [key _ _ hx]
      | closed f => rw [key _ _ hx]
      | mapped f => rw [key _ _ hx]
      | access f => rw [key _ _ hx]
      | unmapped f => rw [key _ _ hx]

/-- **C94** If `Unmap` never fails, nothing stays open or mapped. -/
theorem C94_clean (reads : List Bool) (es : List Event) (ht : Trace (life P fuel d e reads) es (some ())) (hn : ∀ f, Event.stuck f ∉ es) :
    ∃ h', Spec.Handles.run nothing es = some h' ∧ ∀ f, h'.maps f = 0 ∧ h'.opens f = 0 := by
  obtain ⟨h', h1, h2⟩ := C94_life P fuel d e reads es _ ht
  refine ⟨h', h1, fun f => ?_⟩
  have h3 := h2 rfl f
  rw [stuck_zero h1 hn f] at h3
  simp only [nothing] at h3
  omega

end One

/-! ## Several caches in one process -/

/-- `c` are the events of `a` and `b` in some order, those of each in their own -/
inductive Shuffle : List Event → List Event → List Event → Prop
  | nil : Shuffle [] [] []
  | left (x : Event) {a b c : List Event} : Shuffle a b c → Shuffle (x :: a) b (x :: c)
  | right (x : Event) {a b c : List Event} : Shuffle a b c → Shuffle a (x :: b) (x :: c)

/-- the events of any number of goroutines in some order -/
inductive Together : List (List Event) → List Event → Prop
  | nil : Together [] []
  | cons {a b c : List Event} {ls : List (List Event)} : Together ls b → Shuffle a b c → Together (a :: ls) c

/-- both -/
def both (h k : Held) : Held := ⟨fun f => h.opens f + k.opens f, fun f => h.maps f + k.maps f, fun f => h.stuck f + k.stuck f⟩

theorem both_comm (h k : Held) : both h k = both k h := by
  unfold both
  refine Held.mk.injEq .. ▸ ⟨funext fun f => Nat.add_comm _ _, funext fun f => Nat.add_comm _ _, funext fun f => Nat.add_comm _ _⟩

theorem inc_add (n m : Nat → Nat) (f : Nat) : inc (fun g => n g + m g) f = fun g => inc n f g + m g := by
  funext g
  unfold inc
  by_cases e : g = f
  · rw [if_pos e, if_pos e]; dsimp only; omega
  · rw [if_neg e, if_neg e]

theorem dec_add (n m : Nat → Nat) (f : Nat) (h : n f ≠ 0) : Spec.Handles.dec (fun g => n g + m g) f = fun g => Spec.Handles.dec n f g + m g := by
  funext g
  unfold Spec.Handles.dec
  by_cases e : g = f
  · rw [if_pos e, if_pos e]; subst e; dsimp only; omega
  · rw [if_neg e, if_neg e]

theorem after_both (h h' k : Held) (x : Event) (hx : after h x = some h') : after (both h k) x = some (both h' k) := by
  have key : ∀ (n m : Nat) (a b : Held), (if n = 0 then none else some a) = some h' → (n ≠ 0 → b = both a k) →
      (if n + m = 0 then none else some b) = some (both h' k) := by
    intro n m a b h1 h2
    by_cases hn : n = 0
    · rw [if_pos hn] at h1; cases h1
    · rw [if_neg hn] at h1
      rw [if_neg (by omega), h2 hn, Option.some.inj h1]
  cases x with
  | opened f =>
    have := Option.some.inj hx
    subst this
    exact congrArg some (congrArg (fun o => Held.mk o _ _) (inc_add _ _ f))
  | use f => exact key _ _ _ _ hx fun _ => rfl
  | closed f => exact key _ _ _ _ hx fun hn => congrArg (fun o => Held.mk o _ _) (dec_add _ _ f hn)
  | mapped f => exact key _ _ _ _ hx fun _ => congrArg (fun o => Held.mk _ o _) (inc_add _ _ f)
  | access f => exact key _ _ _ _ hx fun _ => rfl
  | unmapped f => exact key _ _ _ _ hx fun hn => congrArg (fun o => Held.mk _ o _) (dec_add _ _ f hn)
  | stuck f => exact key _ _ _ _ hx fun _ => congrArg (fun o => Held.mk _ _ o) (inc_add _ _ f)

theorem run_cons {h h' : Held} {x : Event} {es : List Event} (hr : Spec.Handles.run h (x :: es) = some h') :
    ∃ h1, after h x = some h1 ∧ Spec.Handles.run h1 es = some h' := by
  unfold Spec.Handles.run at hr
  cases hx : after h x with
  | none => rw [hx] at hr; cases hr
  | some h1 => rw [hx] at hr; exact ⟨h1, rfl, hr⟩

theorem shuffle_run {a b c : List Event} (hs : Shuffle a b c) {h h' k k' : Held} (ha : Spec.Handles.run h a = some h')
    (hb : Spec.Handles.run k b = some k') : Spec.Handles.run (both h k) c = some (both h' k') := by
  induction hs generalizing h k with
  | nil => cases ha; cases hb; rfl
  | left x _ ih =>
    obtain ⟨h1, h2, h3⟩ := run_cons ha
    unfold Spec.Handles.run
    rw [after_both _ _ k x h2]
    exact ih h3 hb
  | right x _ ih =>
    obtain ⟨k1, h2, h3⟩ := run_cons hb
    unfold Spec.Handles.run
    rw [both_comm, after_both _ _ h x h2, both_comm]
    exact ih ha h3

/-- **C94** Any number of caches in one process, at whatever points of their lives and with their calls in any order: no mistake; and if all of
them are finalized, as many mappings remain as `Unmap` has failed, and at most as many descriptors. -/
theorem C94_together (P : Prims) (ls : List (List Event)) (es : List Event) (ht : Together ls es)
    (hl : ∀ l ∈ ls, ∃ fuel d e reads a, Trace (life P fuel d e reads) l a) :
    ∃ h', Spec.Handles.run nothing es = some h' ∧
      ((∀ l ∈ ls, ∃ fuel d e reads, Trace (life P fuel d e reads) l (some ())) → ∀ f, h'.maps f = h'.stuck f ∧ h'.opens f ≤ h'.stuck f) := by
  have key : ∃ h', Spec.Handles.run nothing es = some h' ∧ ((∀ l ∈ ls, ∃ h', Spec.Handles.run nothing l = some h' ∧
      ∀ f, h'.maps f = h'.stuck f ∧ h'.opens f ≤ h'.stuck f) → ∀ f, h'.maps f = h'.stuck f ∧ h'.opens f ≤ h'.stuck f) := by
    induction ht with
    | nil => exact ⟨nothing, rfl, fun _ f => ⟨rfl, Nat.le_refl _⟩⟩
    | @cons a b c ls _ hs ih =>
      obtain ⟨h1, h2, h3⟩ := ih fun l h => hl l (List.mem_cons_of_mem _ h)
      obtain ⟨fuel, d, e, reads, r, h4⟩ := hl a List.mem_cons_self
      obtain ⟨h5, h6, _⟩ := C94_life P fuel d e reads a r h4
      refine ⟨both h5 h1, shuffle_run hs h6 h2, fun hall f => ?_⟩
      obtain ⟨h7, h8, h9⟩ := hall a List.mem_cons_self
      rw [h6] at h8
      have := Option.some.inj h8
      subst this
      have a1 := h9 f
      have a2 := h3 (fun l h => hall l (List.mem_cons_of_mem _ h)) f
      simp only [both]
      omega
  obtain ⟨h1, h2, h3⟩ := key
  refine ⟨h1, h2, fun hall => h3 fun l hm => ?_⟩
  obtain ⟨fuel, d, e, reads, h4⟩ := hall l hm
  obtain ⟨h5, h6, h7⟩ := C94_life P fuel d e reads l _ h4
  exact ⟨h5, h6, h7 rfl⟩

/-! ## Traces -/

theorem trace_bind {α β : Type} {p : Prog α} {es es' : List Event} {o : Option α} {a : α} {r : Option β} (h : Trace p es o) (ho : o = some a)
    {f : α → Prog β} (h' : Trace (f a) es' r) : Trace (p >>= f) (es ++ es') r := by
  induction h with
  | here p => cases ho
  | ret b => cases ho; exact h'
  | call c k x es o _ ih =>
    rw [List.append_assoc]
    exact Trace.call c (fun y => k y >>= f) x _ r (ih ho)

/-- the calls of `memoryMapAndGenerate` up to `Unmap`, which fails -/
def unmapFails (f : Nat) : List Event := [.opened f, .use f, .mapped f, .access f, .access f, .access f, .access f, .stuck f]

theorem unmap_fails (path : String) (size : U64) (lck : Bool) (gen : List U32 → Prog (List U32)) (f : Nat) (content : List Byte) (w : List U32)
    (hc : 2 ≤ (wordView content).length) (hg : gen ((wordView content).drop 2) = .ret w) :
    Trace (Files.memoryMapAndGenerate path size lck gen) (unmapFails f) (some none) := by
  have h1 : Trace (finish f (tempPath path 0) path lck) [.stuck f] (some none) :=
    Trace.call (.unmap f) _ (false : Bool) [] _ (Trace.ret none)
  have h2 : Trace (fill f gen) [.access f, .access f, .access f, .access f] (some ()) := by
    refine Trace.call (.read f) _ content _ _ ?_
    refine Trace.call (.store f _ _) _ () _ _ ?_
    refine Trace.call (.read f) _ content _ _ ?_
    show Trace (lift (slc (wordView content) dumpMagic.length (wordView content).length) >>= fun data => gen data >>= fun data =>
      store f (4 * dumpMagic.length) (byteView data)) _ _
    rw [slc_ok (wordView content) dumpMagic.length _ hc (Nat.le_refl _)]
    rw [List.take_of_length_le (Nat.le_refl _)]
    show Trace (gen ((wordView content).drop 2) >>= fun data => store f (4 * dumpMagic.length) (byteView data)) _ _
    rw [hg]
    exact Trace.call (.store f _ _) _ () _ _ (Trace.ret ())
  refine Trace.call (.mkdirAll path) _ (true : Bool) _ _ ?_
  refine Trace.call .random _ (0 : Nat) _ _ ?_
  refine Trace.call (.create (tempPath path 0)) _ (some f : Option Nat) _ _ ?_
  refine Trace.call (.truncate f _) _ (true : Bool) _ _ ?_
  refine Trace.call (.map f) _ (true : Bool) _ _ ?_
  exact trace_bind h2 rfl h1

/-- **C94** The exception is real: in Ethereum's first `generate`, with no file in the directory, `Unmap` fails in `memoryMapAndGenerate`
(mmap.go:151-153). The cache is then generated in memory, and the whole life of the cache has no further call for the temporary file, which stays
mapped. (Its descriptor is left to the finalizer that `os.File` has of its own, which is not modelled.) -/
theorem C94_leak (P : Prims) (dir : String) (hdir : dir ≠ "") (fuel : Nat) (hf : 2 ^ 63 < fuel) (f : Nat) :
    Trace (life P fuel (ethereum dir) 0 []) (unmapFails f) (some ()) ∧
    ∃ h', Spec.Handles.run nothing (unmapFails f) = some h' ∧ h'.opens f = 1 ∧ h'.maps f = 1 ∧ h'.stuck f = 1 := by
  constructor
  · have hcl : (ethereum dir, Spec.Chain.eth) ∈ clients dir := by simp [clients]
    have hus : usable .eth (0 : U64).toNat := ⟨Or.inl (by decide), by decide⟩
    obtain ⟨size, sd, r, hr1, hr2, hsr, hsz, hseed, hw, hl1, hcp, hlp⟩ := client_facts P dir _ _ hcl 0 hus fuel hf
    obtain ⟨_, hm, hsd⟩ := clients_match dir _ _ hcl
    obtain ⟨w, hwd⟩ : ∃ w, w = pubCache P (ethereum dir) size sd := ⟨_, rfl⟩
    have hgen : ∀ dest : List U32, dest.length = 16 * r → generateCache P (ethereum dir).cacheRounds dest sd = .ok w := by
      intro dest hd
      rw [hwd]
      exact pubCache_gen P (ethereum dir) size sd r hr1 hr2 hsr dest hd
    have hsl : sd.length = 32 := by
      have := hseed.symm.trans (seedHash_eq P (ethereum dir) hm.sel _)
      injection this with this
      rw [this, seed_length]
    obtain ⟨cp, hcpd⟩ : ∃ x, x = cacheStorageLocation (ethereum dir) (sd.take 8) := ⟨_, rfl⟩
    obtain ⟨lp, hlpd⟩ : ∃ x, x = l1StorageLocation (ethereum dir) (sd.take 8) := ⟨_, rfl⟩
    have hprog : Files.generate P fuel (ethereum dir) 0 = Files.memoryMap cp false >>= fun old =>
        complete P (ethereum dir) 0 size sd cp lp old (some (.mem [])) := by
      rw [Files.generate, hsz, hseed]
      show (if dir = "" then _ else Files.generateOnDisk P (ethereum dir) 0 size sd) = _
      rw [if_neg hdir, Files.generateOnDisk, slc_ok sd 0 8 (by omega) (by omega), List.drop_zero, hcpd, hlpd]
      rfl
    have hcl : (wordView (List.replicate (8 + 4 * (16 * r)) (0 : Byte))).length = 2 + 16 * r := by
      rw [wordView_length, List.length_replicate]
      omega
    have hfail := unmap_fails cp size false (fun buffer => lift (generateCache P (ethereum dir).cacheRounds buffer sd)) f
      (List.replicate (8 + 4 * (16 * r)) 0) w (by omega) (by
        show lift (generateCache _ _ _ _) = _
        rw [hgen _ (by rw [List.length_drop, hcl]; omega)]
        rfl)
    have hfresh : generateCache P (ethereum dir).cacheRounds (freshCache size) sd = .ok w := hgen _ (freshCache_length size r hsr)
    have h1 : Trace (Files.provideCache P (ethereum dir) size sd cp) (unmapFails f ++ []) (some (.mem w)) := by
      refine trace_bind hfail rfl ?_
      show Trace (lift (generateCache _ _ _ _) >>= _) _ _
      rw [hfresh]
      exact Trace.ret _
    have h2 : Trace (complete P (ethereum dir) 0 size sd cp lp none (some (.mem []))) ((unmapFails f ++ []) ++ []) (some ⟨.mem w, .mem []⟩) :=
      trace_bind h1 rfl (Trace.ret _)
    have h3 : Trace (Files.generate P fuel (ethereum dir) 0) (unmapFails f) (some ⟨.mem w, .mem []⟩) := by
      rw [hprog]
      refine Trace.call (.open cp) _ (none : Option Nat) _ _ ?_
      rw [List.append_nil, List.append_nil] at h2
      exact h2
    have h4 := trace_bind (f := fun b => touches b [] >>= fun _ => finalizer b) h3 rfl (Trace.ret ())
    rw [List.append_nil] at h4
    exact h4
  · refine ⟨⟨inc (fun _ => 0) f, inc (fun _ => 0) f, inc (fun _ => 0) f⟩, ?_, ?_, ?_, ?_⟩ <;> simp [unmapFails, Spec.Handles.run, after, nothing, inc]

/-- the hypotheses of `C94_clean` are met by a cache that is there, is read three times, and is finalized -/
example (P : Prims) (dir : String) (hdir : dir ≠ "") (fuel : Nat) (hf : 2 ^ 63 < fuel) (f : Nat) :
    Trace (life P fuel (ethereum dir) 0 [true, true, true])
      [.opened f, .mapped f, .access f, .access f, .access f, .access f, .unmapped f, .closed f] (some ()) := by
  have hcl : (ethereum dir, Spec.Chain.eth) ∈ clients dir := by simp [clients]
  have hus : usable .eth (0 : U64).toNat := ⟨Or.inl (by decide), by decide⟩
  obtain ⟨size, sd, r, hr1, hr2, hsr, hsz, hseed, hw, hl1, hcp, hlp⟩ := client_facts P dir _ _ hcl 0 hus fuel hf
  obtain ⟨_, hm, hsd⟩ := clients_match dir _ _ hcl
  have hsl : sd.length = 32 := by
    have := hseed.symm.trans (seedHash_eq P (ethereum dir) hm.sel _)
    injection this with this
    rw [this, seed_length]
  have h1 : Trace (Files.generate P fuel (ethereum dir) 0) [.opened f, .mapped f, .access f] (some ⟨.file f, .mem []⟩) := by
    rw [Files.generate, hsz, hseed]
    show Trace (if dir = "" then _ else Files.generateOnDisk P (ethereum dir) 0 size sd) _ _
    rw [if_neg hdir, Files.generateOnDisk, slc_ok sd 0 8 (by omega) (by omega), List.drop_zero]
    have hk : Trace (checkMagic f false) [.access f] (some (some f)) := by
      refine Trace.call (.read f) _ (byteView (dumpMagic ++ [1])) _ _ ?_
      show Trace (lift (forRangeE 0 dumpMagic.length () (magicStep (wordView (byteView (dumpMagic ++ [1]))))) >>= fun r => match r with
        | .ret _ => do
          let _ ← unmap f
          let _ ← close f
          .ret none
        | .cont _ => Files.mapped f (wordView (byteView (dumpMagic ++ [1]))) false) _ _
      rw [show wordView (byteView (dumpMagic ++ [1])) = dumpMagic ++ [1] from wordView_bytesLE _, magic_ok]
      show Trace (lift (slc _ _ _) >>= fun _ => Prog.ret (some f)) _ _
      rw [slc_ok _ _ _ (by simp) (Nat.le_refl _)]
      exact Trace.ret _
    have hmm : ∀ path, Trace (Files.memoryMap path false) [.opened f, .mapped f, .access f] (some (some f)) := by
      intro path
      refine Trace.call (.open _) _ (some f : Option Nat) _ _ ?_
      exact Trace.call (.map f) _ (true : Bool) _ _ hk
    exact trace_bind (hmm _) rfl (Trace.ret _)
  refine trace_bind (es := [.opened f, .mapped f, .access f]) h1 rfl ?_
  refine Trace.call (.read f) _ ([] : List Byte) _ _ ?_
  refine Trace.call (.read f) _ ([] : List Byte) _ _ ?_
  refine Trace.call (.read f) _ ([] : List Byte) _ _ ?_
  refine Trace.call (.unmap f) _ (true : Bool) _ _ ?_
  exact Trace.call (.close f) _ (true : Bool) _ _ (Trace.ret ())

end Verif.Props
