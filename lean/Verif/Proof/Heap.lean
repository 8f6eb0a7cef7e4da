import Verif.Spec.Memory
import Verif.Go.Lemmas

/-! # Reasoning about memory -/

set_option autoImplicit false

namespace Verif.Go

variable {α β σ τ : Type} {t : Ty}

/-- the arrays of `h` are still there, and unchanged unless they are in `M` -/
def Frame (h h' : Heap) (M : Ty → Nat → Prop) : Prop :=
  ∀ t i a, (h.store t)[i]? = some a → ∃ a', (h'.store t)[i]? = some a' ∧ a'.length = a.length ∧ (¬ M t i → a' = a)

/-- the array of one slice -/
def only (s : Slice t) : Ty → Nat → Prop := fun t' i => t' = t ∧ i = s.arr

/-- no array -/
def none : Ty → Nat → Prop := fun _ _ => False

/-- the arrays that `h` does not have yet -/
def newer (h : Heap) : Ty → Nat → Prop := fun t i => (h.store t).length ≤ i

theorem Frame.refl (h : Heap) (M : Ty → Nat → Prop) : Frame h h M := fun _ _ a ha => ⟨a, ha, rfl, fun _ => rfl⟩

theorem Frame.mono {h h' : Heap} {M N : Ty → Nat → Prop} (hf : Frame h h' M) (hm : ∀ t i, M t i → N t i) : Frame h h' N := by
  intro t i a ha
  obtain ⟨a', h1, h2, h3⟩ := hf t i a ha
  exact ⟨a', h1, h2, fun hn => h3 fun hm' => hn (hm t i hm')⟩

theorem Frame.trans {h h1 h2 : Heap} {M : Ty → Nat → Prop} (ha : Frame h h1 M) (hb : Frame h1 h2 M) : Frame h h2 M := by
  intro t i a hi
  obtain ⟨a1, e1, l1, c1⟩ := ha t i a hi
  obtain ⟨a2, e2, l2, c2⟩ := hb t i a1 e1
  exact ⟨a2, e2, l2.trans l1, fun hn => (c2 hn).trans (c1 hn)⟩

/-- what is new after the first step may change in the second -/
theorem Frame.trans_newer {h h1 h2 : Heap} {M : Ty → Nat → Prop} (ha : Frame h h1 M) (hb : Frame h1 h2 fun t i => M t i ∨ newer h t i) :
    Frame h h2 M := by
  intro t i a hi
  obtain ⟨a1, e1, l1, c1⟩ := ha t i a hi
  obtain ⟨a2, e2, l2, c2⟩ := hb t i a1 e1
  refine ⟨a2, e2, l2.trans l1, fun hn => (c2 ?_).trans (c1 hn)⟩
  rintro (hm | hm)
  · exact hn hm
  · have := (List.getElem?_eq_some_iff.1 hi).1
    exact absurd hm (Nat.not_le.2 this)

theorem Frame.none_only {h h' : Heap} (hf : Frame h h' none) (M : Ty → Nat → Prop) : Frame h h' M := hf.mono fun _ _ h => h.elim

/-- a step that changes arrays made since `h` only -/
theorem Frame.own {h h1 h2 : Heap} {M : Ty → Nat → Prop} (ha : Frame h h1 none) (hb : Frame h1 h2 M) (hM : ∀ t i, M t i → newer h t i) : Frame h h2 none :=
  ha.trans_newer (hb.mono fun t i hm => Or.inr (hM t i hm))

theorem Frame.length {h h' : Heap} {M : Ty → Nat → Prop} (hf : Frame h h' M) (t : Ty) : (h.store t).length ≤ (h'.store t).length := by
  by_contra hc
  have hc := Nat.not_le.1 hc
  obtain ⟨a', h1, _⟩ := hf t (h'.store t).length _ (List.getElem?_eq_getElem hc)
  have := (List.getElem?_eq_some_iff.1 h1).1
  omega

theorem Held.len {h : Heap} {s : Slice t} {xs : List t.Val} (hs : Held h s xs) : xs.length = s.len := by
  obtain ⟨a, _, h2, h3, rfl⟩ := hs
  rw [List.length_take, List.length_drop]
  omega

theorem Held.arr {h : Heap} {s : Slice t} {xs : List t.Val} (hs : Held h s xs) : s.arr < (h.store t).length := by
  obtain ⟨a, h1, _⟩ := hs
  exact (List.getElem?_eq_some_iff.1 h1).1

theorem Held.old {h : Heap} {s : Slice t} {xs : List t.Val} (hs : Held h s xs) : ¬ newer h t s.arr := Nat.not_le.2 hs.arr

theorem Held.frame {h h' : Heap} {s : Slice t} {xs : List t.Val} {M : Ty → Nat → Prop} (hs : Held h s xs) (hf : Frame h h' M) (hm : ¬ M t s.arr) :
    Held h' s xs := by
  obtain ⟨a, h1, h2, h3, h4⟩ := hs
  obtain ⟨a', e1, _, e3⟩ := hf t s.arr a h1
  have := e3 hm
  subst this
  exact ⟨a', e1, h2, h3, h4⟩

theorem Held.keep {h h' : Heap} {s : Slice t} {xs : List t.Val} (hs : Held h s xs) (hf : Frame h h' none) : Held h' s xs := hs.frame hf (fun h => h)

theorem Held.unique {h : Heap} {s : Slice t} {xs ys : List t.Val} (hx : Held h s xs) (hy : Held h s ys) : xs = ys := by
  obtain ⟨a, h1, _, _, rfl⟩ := hx
  obtain ⟨b, g1, _, _, rfl⟩ := hy
  rw [h1] at g1
  rw [Option.some.inj g1]

theorem only_ne {s : Slice t} {u : Ty} {r : Slice u} (h : t ≠ u ∨ r.arr ≠ s.arr) : ¬ only s u r.arr := by
  rintro ⟨h1, h2⟩
  rcases h with h | h
  · exact h h1.symm
  · exact h h2

/-! ## Runs -/

/-- If the computation without memory gives a value, the one with memory does, and they are related. -/
def Runs (m : Mem α) (h : Heap) (g : Go β) (Q : α → β → Heap → Prop) : Prop :=
  ∀ b, g = .ok b → ∃ a h', m h = .ok (a, h') ∧ Q a b h'

theorem Mem.bind_ok {m : Mem α} {k : α → Mem β} {h h' : Heap} {a : α} (hm : m h = .ok (a, h')) : (m >>= k) h = k a h' := by
  show Mem.bind m k h = _
  unfold Mem.bind
  rw [hm]
  rfl

theorem Runs.bind {γ δ : Type} {m : Mem α} {k : α → Mem γ} {h : Heap} {g : Go β} {l : β → Go δ} {Q : α → β → Heap → Prop} {R : γ → δ → Heap → Prop}
    (h1 : Runs m h g Q) (h2 : ∀ a b h', g = .ok b → Q a b h' → Runs (k a) h' (l b) R) : Runs (m >>= k) h (g >>= l) R := by
  intro d hd
  cases hg : g with
  | error e => rw [hg] at hd; cases hd
  | ok b =>
    rw [hg] at hd
    obtain ⟨a, h', e, q⟩ := h1 b hg
    rw [Mem.bind_ok e]
    exact h2 a b h' hg q d hd

theorem Runs.pure {a : α} {b : β} {h : Heap} {Q : α → β → Heap → Prop} (hq : Q a b h) : Runs (Pure.pure a) h (.ok b) Q := by
  intro b' hb
  obtain rfl := Except.ok.inj hb
  exact ⟨a, h, rfl, hq⟩

theorem Runs.lift {g : Go α} {h : Heap} : Runs (Mem.lift g) h g fun a b h' => a = b ∧ h' = h := by
  intro b hb
  refine ⟨b, h, ?_, rfl, rfl⟩
  unfold Mem.lift
  rw [hb]

theorem Runs.heap {γ : Type} {m : Mem α} {k : α → Mem γ} {h h' : Heap} {a : α} {g : Go β} {Q : γ → β → Heap → Prop} (hm : m h = .ok (a, h'))
    (hk : Runs (k a) h' g Q) : Runs (m >>= k) h g Q := by
  intro b hb
  rw [Mem.bind_ok hm]
  exact hk b hb

theorem Runs.post {m : Mem α} {h : Heap} {g : Go β} {Q R : α → β → Heap → Prop} (hm : Runs m h g Q) (hq : ∀ a b h', g = .ok b → Q a b h' → R a b h') :
    Runs m h g R := by
  intro b hb
  obtain ⟨a, h', e, q⟩ := hm b hb
  exact ⟨a, h', e, hq a b h' hb q⟩

/-- the last statement -/
theorem Runs.last {γ δ : Type} {m : Mem α} {k : α → γ} {h : Heap} {g : Go β} {l : β → δ} {Q : α → β → Heap → Prop} {R : γ → δ → Heap → Prop}
    (h1 : Runs m h g Q) (h2 : ∀ a b h', g = .ok b → Q a b h' → R (k a) (l b) h') : Runs (m >>= fun a => Pure.pure (k a)) h (g >>= fun b => Pure.pure (l b)) R :=
  h1.bind fun a b h' e q => Runs.pure (h2 a b h' e q)

/-! ## Reading -/

theorem array_ok {h : Heap} {s : Slice t} {a : List t.Val} (ha : (h.store t)[s.arr]? = some a) : Mem.array s h = .ok (a, h) := by
  unfold Mem.array
  rw [ha]

theorem contents_ok {h : Heap} {s : Slice t} {xs : List t.Val} (hs : Held h s xs) : Mem.contents s h = .ok (xs, h) := by
  obtain ⟨a, h1, _, _, rfl⟩ := hs
  unfold Mem.contents
  rw [Mem.bind_ok (array_ok h1)]
  rfl

theorem runs_read {h : Heap} {s : Slice t} {xs : List t.Val} (hs : Held h s xs) (f : List t.Val → Go α) :
    Runs (do let ys ← Mem.contents s; Mem.lift (f ys)) h (f xs) fun a b h' => a = b ∧ h' = h :=
  Runs.heap (contents_ok hs) Runs.lift

theorem runs_idx {h : Heap} {s : Slice t} {xs : List t.Val} (hs : Held h s xs) (i : Nat) :
    Runs (Mem.idx s i) h (Go.idx xs i) fun a b h' => a = b ∧ h' = h := runs_read hs _

theorem runs_getU32 {h : Heap} {s : Slice .byte} {xs : List Byte} (hs : Held h s xs) (o : ByteOrder) :
    Runs (Mem.getU32 o s) h (Go.getU32 o xs) fun a b h' => a = b ∧ h' = h := runs_read hs _

theorem runs_getU64 {h : Heap} {s : Slice .byte} {xs : List Byte} (hs : Held h s xs) (o : ByteOrder) :
    Runs (Mem.getU64 o s) h (Go.getU64 o xs) fun a b h' => a = b ∧ h' = h := runs_read hs _

theorem held_slc {h : Heap} {s : Slice t} {xs : List t.Val} (hs : Held h s xs) {lo hi : Nat} (h1 : lo ≤ hi) (h2 : hi ≤ xs.length) :
    Mem.slc s lo hi h = .ok (⟨s.arr, s.off + lo, hi - lo, s.cap - lo⟩, h) ∧ Held h (⟨s.arr, s.off + lo, hi - lo, s.cap - lo⟩ : Slice t) ((xs.take hi).drop lo) := by
  have hl := hs.len
  obtain ⟨a, g1, g2, g3, rfl⟩ := hs
  refine ⟨?_, a, g1, ?_, ?_, ?_⟩
  · unfold Mem.slc
    rw [if_pos ⟨h1, by omega⟩]
    rfl
  · show hi - lo ≤ s.cap - lo
    omega
  · show s.off + lo + (s.cap - lo) ≤ a.length
    omega
  · show (a.drop (s.off + lo)).take (hi - lo) = _
    rw [List.take_take, List.drop_take, List.drop_drop, Nat.min_eq_left (by omega)]

theorem runs_slc {h : Heap} {s : Slice t} {xs : List t.Val} (hs : Held h s xs) (lo hi : Nat) :
    Runs (Mem.slc s lo hi) h (Go.slc xs lo hi) fun a b h' => h' = h ∧ a.arr = s.arr ∧ Held h a b := by
  intro b hb
  unfold Go.slc at hb
  by_cases hc : lo ≤ hi ∧ hi ≤ xs.length
  · rw [if_pos hc] at hb
    obtain rfl := Except.ok.inj hb
    obtain ⟨e, hh⟩ := held_slc hs hc.1 hc.2
    exact ⟨_, _, e, rfl, rfl, hh⟩
  · rw [if_neg hc] at hb
    cases hb

/-! ## Allocation -/

theorem store_add (h : Heap) (t : Ty) (a : List t.Val) : (h.add t a).store t = h.store t ++ [a] := by
  unfold Heap.add
  simp

theorem store_add_ne (h : Heap) (t u : Ty) (a : List t.Val) (hu : u ≠ t) : (h.add t a).store u = h.store u := by
  unfold Heap.add
  simp [hu]

theorem frame_add (h : Heap) (t : Ty) (a : List t.Val) : Frame h (h.add t a) none := by
  intro u i b hb
  refine ⟨b, ?_, rfl, fun _ => rfl⟩
  by_cases hu : u = t
  · subst hu
    rw [store_add, List.getElem?_append_left (List.getElem?_eq_some_iff.1 hb).1, hb]
  · rw [store_add_ne _ _ _ _ hu, hb]

theorem frame_next (h : Heap) (t : Ty) : Frame h (h.next t) none := fun _ _ a ha => ⟨a, ha, rfl, fun _ => rfl⟩

theorem held_add (h : Heap) (t : Ty) (xs extra : List t.Val) :
    Held (h.add t (xs ++ extra)) (⟨(h.store t).length, 0, xs.length, xs.length + extra.length⟩ : Slice t) xs := by
  refine ⟨xs ++ extra, ?_, Nat.le_add_right _ _, by simp, by simp⟩
  rw [store_add]
  simp

/-- what a function that makes a slice does -/
def Makes (m : Mem (Slice t)) (h : Heap) (xs : List t.Val) : Prop :=
  ∃ s h', m h = .ok (s, h') ∧ Frame h h' none ∧ Held h' s xs ∧ newer h t s.arr

theorem makes_fresh (h : Heap) (t : Ty) (xs : List t.Val) : Makes (Mem.fresh t xs) h xs :=
  ⟨_, _, rfl, (frame_add _ _ _).trans (frame_next _ _), (held_add h t xs _).keep (frame_next _ _), Nat.le_refl _⟩

theorem makes_lit (h : Heap) (t : Ty) (xs : List t.Val) : Makes (Mem.lit t xs) h xs := by
  refine ⟨_, _, rfl, frame_add _ _ _, ?_, Nat.le_refl _⟩
  have := held_add h t xs []
  rwa [List.append_nil] at this

theorem makes_make (h : Heap) (t : Ty) (n : Nat) : Makes (Mem.make t n) h (List.replicate n t.zero) := by
  refine ⟨_, _, rfl, frame_add _ _ _, ?_, Nat.le_refl _⟩
  have := held_add h t (List.replicate n t.zero) []
  rw [List.append_nil] at this
  simpa using this

/-! ## Writing -/

theorem store_poke (h : Heap) (t : Ty) (arr pos : Nat) (vs : List t.Val) :
    (h.poke t arr pos vs).store t = (h.store t).modify arr fun a => a.take pos ++ vs ++ a.drop (pos + vs.length) := by
  unfold Heap.poke
  simp

theorem store_poke_ne (h : Heap) (t u : Ty) (arr pos : Nat) (vs : List t.Val) (hu : u ≠ t) : (h.poke t arr pos vs).store u = h.store u := by
  unfold Heap.poke
  simp [hu]

/-- writing to existing cells changes one array -/
theorem frame_poke {h : Heap} {arr pos : Nat} {vs a : List t.Val} (ha : (h.store t)[arr]? = some a) (hl : pos + vs.length ≤ a.length) :
    Frame h (h.poke t arr pos vs) fun t' i => t' = t ∧ i = arr := by
  intro u i b hb
  by_cases hu : u = t
  · subst hu
    rw [store_poke, List.getElem?_modify, hb]
    by_cases hi : arr = i
    · subst hi
      simp only [if_true, Option.map_eq_map, Option.map_some]
      rw [ha] at hb
      obtain rfl := Option.some.inj hb
      refine ⟨_, rfl, ?_, fun hn => absurd (by simp) hn⟩
      simp only [List.length_append, List.length_take, List.length_drop]
      omega
    · simp only [hi, if_false, Option.map_eq_map, Option.map_some]
      exact ⟨b, rfl, rfl, fun _ => rfl⟩
  · rw [store_poke_ne _ _ _ _ _ _ hu, hb]
    exact ⟨b, rfl, rfl, fun _ => rfl⟩

theorem splice_take_drop {A : Type} {a vs : List A} {off len i : Nat} (h1 : off + len ≤ a.length) (h2 : i + vs.length ≤ len) :
    ((a.take (off + i) ++ vs ++ a.drop (off + i + vs.length)).drop off).take len =
      ((a.drop off).take len).take i ++ vs ++ ((a.drop off).take len).drop (i + vs.length) := by
  apply List.ext_getElem?
  intro j
  simp only [List.getElem?_take, List.getElem?_drop, List.getElem?_append, List.length_take, List.length_append, List.length_drop]
  by_cases c1 : j < len
  · rw [if_pos c1]
    by_cases c2 : j < i
    · rw [if_pos (by omega), if_pos (by omega), if_pos (by omega), if_pos (by omega), if_pos (by omega), if_pos c2, if_pos c1]
    · by_cases c3 : j < i + vs.length
      · rw [if_pos (by omega), if_neg (by omega), if_pos (by omega), if_neg (by omega)]
        congr 1
        omega
      · rw [if_neg (by omega), if_neg (by omega), if_pos (by omega)]
        congr 1
        omega
  · rw [if_neg c1]
    rw [if_neg (by omega), if_neg (by omega)]

theorem held_poke {h : Heap} {s : Slice t} {xs vs : List t.Val} {i : Nat} (hs : Held h s xs) (hi : i + vs.length ≤ xs.length) :
    Held (h.poke t s.arr (s.off + i) vs) s (xs.take i ++ vs ++ xs.drop (i + vs.length)) := by
  have hl := hs.len
  obtain ⟨a, g1, g2, g3, rfl⟩ := hs
  rw [hl] at hi
  refine ⟨a.take (s.off + i) ++ vs ++ a.drop (s.off + i + vs.length), ?_, g2, ?_, splice_take_drop (by omega) hi⟩
  · rw [store_poke, List.getElem?_modify, g1]
    simp
  · simp only [List.length_append, List.length_take, List.length_drop]
    omega

/-- what a function that overwrites a slice does -/
theorem blit_ok {h : Heap} {s : Slice t} {xs : List t.Val} (vs : List t.Val) (i : Nat) (hs : Held h s xs) (hi : i + vs.length ≤ xs.length) :
    ∃ h', Mem.blit s i vs h = .ok ((), h') ∧ Frame h h' (only s) ∧ Held h' s (xs.take i ++ vs ++ xs.drop (i + vs.length)) := by
  refine ⟨_, rfl, ?_, held_poke hs hi⟩
  have hl := hs.len
  obtain ⟨a, g1, g2, g3, g4⟩ := hs
  exact frame_poke g1 (by omega)

/-- related to a computation that gives the new elements of `s` -/
def Writes (m : Mem Unit) (h : Heap) (s : Slice t) (g : Go (List t.Val)) : Prop :=
  Runs m h g fun _ b h' => Frame h h' (only s) ∧ Held h' s b

theorem runs_upd {h : Heap} {s : Slice t} {xs : List t.Val} (hs : Held h s xs) (i : Nat) (v : t.Val) : Writes (Mem.upd s i v) h s (Go.upd xs i v) := by
  intro b hb
  unfold Go.upd at hb
  by_cases hc : i < xs.length
  · rw [if_pos hc] at hb
    obtain rfl := Except.ok.inj hb
    obtain ⟨h', e, f, k⟩ := blit_ok [v] i hs (by simpa using Nat.succ_le_of_lt hc)
    refine ⟨(), h', ?_, f, ?_⟩
    · unfold Mem.upd
      rw [if_pos (by rw [← hs.len]; exact hc)]
      exact e
    · rw [List.set_eq_take_append_cons_drop, if_pos hc]
      simpa using k
  · rw [if_neg hc] at hb
    cases hb

/-- writing through `s[off:]` -/
theorem blit_sub {h : Heap} {s : Slice t} {xs : List t.Val} (vs : List t.Val) (off : Nat) (hs : Held h s xs) (hi : off + vs.length ≤ xs.length) (cap len : Nat) :
    ∃ h', Mem.blit (⟨s.arr, s.off + off, len, cap⟩ : Slice t) 0 vs h = .ok ((), h') ∧ Frame h h' (only s) ∧
      Held h' s (xs.take off ++ vs ++ xs.drop (off + vs.length)) := blit_ok vs off hs hi

theorem slc_tail {h : Heap} {s : Slice t} {xs : List t.Val} (hs : Held h s xs) {off : Nat} (ho : off ≤ xs.length) :
    Mem.slc s off s.len h = .ok (⟨s.arr, s.off + off, s.len - off, s.cap - off⟩, h) := (held_slc hs (hs.len ▸ ho) (Nat.le_of_eq hs.len.symm)).1

theorem runs_copyAt {h : Heap} {s r : Slice t} {xs ys : List t.Val} (hs : Held h s xs) (hr : Held h r ys) (off : Nat) :
    Writes (Mem.copyAt s off r) h s (Go.copyAt xs off ys) := by
  intro b hb
  unfold Go.copyAt at hb
  by_cases hc : off ≤ xs.length
  · rw [if_pos hc] at hb
    obtain rfl := Except.ok.inj hb
    have hl := hs.len
    obtain ⟨h', e, f, k⟩ := blit_sub (ys.take (s.len - off)) off hs (by rw [List.length_take]; omega) (s.cap - off) (s.len - off)
    refine ⟨(), h', ?_, f, ?_⟩
    · unfold Mem.copyAt
      rw [Mem.bind_ok (slc_tail hs hc)]
      unfold Mem.copy
      rw [Mem.bind_ok (contents_ok hr)]
      exact e
    · rw [hl]
      rw [List.length_take] at k
      by_cases hle : ys.length ≤ s.len - off
      · rwa [Nat.min_eq_right hle] at k
      · have e1 : xs.drop (off + min (s.len - off) ys.length) = [] := by rw [List.drop_eq_nil_iff]; omega
        have e2 : xs.drop (off + ys.length) = [] := by rw [List.drop_eq_nil_iff]; omega
        rw [e1] at k
        rw [e2]
        exact k
  · rw [if_neg hc] at hb
    cases hb

theorem length_bytesOf {w : Nat} (o : ByteOrder) (n : Nat) (v : BitVec w) : (bytesOf o n v).length = n := by
  cases o <;> simp [bytesOf, leBytes, beBytes]

theorem runs_putU32 {h : Heap} {s : Slice .byte} {xs : List Byte} (hs : Held h s xs) (o : ByteOrder) (off : Nat) (v : U32) :
    Writes (Mem.putU32 o s off v) h s (Go.putU32 o xs off v) := by
  intro b hb
  unfold Go.putU32 at hb
  by_cases h1 : xs.length < off
  · rw [if_pos h1] at hb; cases hb
  rw [if_neg h1] at hb
  by_cases h2 : xs.length < off + 4
  · rw [if_pos h2] at hb; cases hb
  rw [if_neg h2] at hb
  obtain rfl := Except.ok.inj hb
  have hl := hs.len
  obtain ⟨h', e, f, k⟩ := blit_sub (t := .byte) (bytesOf o 4 v) off hs (by rw [length_bytesOf]; omega) (s.cap - off) (s.len - off)
  refine ⟨(), h', ?_, f, ?_⟩
  · unfold Mem.putU32
    rw [Mem.bind_ok (slc_tail hs (by omega))]
    unfold Mem.put32
    rw [if_neg (by show ¬ s.len - off < 4; omega)]
    exact e
  · rw [length_bytesOf] at k
    exact k

theorem runs_putU64 {h : Heap} {s : Slice .byte} {xs : List Byte} (hs : Held h s xs) (o : ByteOrder) (off : Nat) (v : U64) :
    Writes (Mem.putU64 o s off v) h s (Go.putU64 o xs off v) := by
  intro b hb
  unfold Go.putU64 at hb
  by_cases h1 : xs.length < off
  · rw [if_pos h1] at hb; cases hb
  rw [if_neg h1] at hb
  by_cases h2 : xs.length < off + 8
  · rw [if_pos h2] at hb; cases hb
  rw [if_neg h2] at hb
  obtain rfl := Except.ok.inj hb
  have hl := hs.len
  obtain ⟨h', e, f, k⟩ := blit_sub (t := .byte) (bytesOf o 8 v) off hs (by rw [length_bytesOf]; omega) (s.cap - off) (s.len - off)
  refine ⟨(), h', ?_, f, ?_⟩
  · unfold Mem.putU64
    rw [Mem.bind_ok (slc_tail hs (by omega))]
    unfold Mem.put64
    rw [if_neg (by show ¬ s.len - off < 8; omega)]
    exact e
  · rw [length_bytesOf] at k
    exact k

/-- `append`: the result is in the array of the first slice, or in a new one -/
theorem append_ok {h : Heap} {s r : Slice t} {xs ys : List t.Val} (hs : Held h s xs) (hr : Held h r ys) :
    ∃ q h', Mem.append s r h = .ok (q, h') ∧ Frame h h' (only s) ∧ Held h' q (xs ++ ys) ∧
      ((q.arr = s.arr ∧ s.len + ys.length ≤ s.cap) ∨ (newer h t q.arr ∧ Frame h h' none)) := by
  have hl := hs.len
  unfold Mem.append
  rw [Mem.bind_ok (contents_ok hr)]
  by_cases hc : s.len + ys.length ≤ s.cap
  · rw [if_pos hc]
    -- the slice with its capacity in use
    obtain ⟨a, g1, g2, g3, g4⟩ := hs
    have hx : Held h (⟨s.arr, s.off, s.len + ys.length, s.cap⟩ : Slice t) ((a.drop s.off).take (s.len + ys.length)) :=
      ⟨a, g1, hc, g3, rfl⟩
    have hlen := hx.len
    obtain ⟨h', e, f, k⟩ := blit_ok ys s.len hx (Nat.le_of_eq hlen.symm)
    refine ⟨⟨s.arr, s.off, s.len + ys.length, s.cap⟩, h', ?_, f, ?_, Or.inl ⟨rfl, hc⟩⟩
    · rw [Mem.bind_ok (show Mem.blit s s.len ys h = .ok ((), h') from e)]
      rfl
    · have e1 : ((a.drop s.off).take (s.len + ys.length)).take s.len = xs := by
        rw [List.take_take, Nat.min_eq_left (by omega), g4]
      have e2 : ((a.drop s.off).take (s.len + ys.length)).drop (s.len + ys.length) = [] := by
        rw [List.drop_eq_nil_iff, List.length_take]
        omega
      rw [e1, e2, List.append_nil] at k
      exact k
  · rw [if_neg hc, Mem.bind_ok (contents_ok hs)]
    obtain ⟨q, h', e, f, k, n⟩ := makes_fresh h t (xs ++ ys)
    exact ⟨q, h', e, f.none_only _, k, Or.inr ⟨n, f⟩⟩

/-! ## Loops -/

theorem runs_loop {f : Nat → σ → Mem σ} {g : Nat → τ → Go τ} (I : Nat → σ → τ → Heap → Prop) :
    ∀ (n i : Nat) (a : σ) (b : τ) (h : Heap), I i a b h →
      (∀ j a b h, i ≤ j → j < i + n → I j a b h → Runs (f j a) h (g j b) fun a' b' h' => I (j + 1) a' b' h') →
      Runs (Mem.loop n i a f) h (Go.loop n i b g) fun a' b' h' => I (i + n) a' b' h'
  | 0, i, a, b, h, h0, _ => by
    unfold Mem.loop Go.loop
    exact Runs.pure h0
  | n + 1, i, a, b, h, h0, hs => by
    unfold Mem.loop Go.loop
    refine (hs i a b h (Nat.le_refl _) (by omega) h0).bind fun a' b' h' _ h1 => ?_
    have := runs_loop I n (i + 1) a' b' h' h1 fun j a b h hj hn => hs j a b h (by omega) (by omega)
    rwa [show i + 1 + n = i + (n + 1) from by omega] at this

theorem runs_forRange {f : Nat → σ → Mem σ} {g : Nat → τ → Go τ} (I : σ → τ → Heap → Prop) (lo hi : Nat) (a : σ) (b : τ) (h : Heap) (h0 : I a b h)
    (hs : ∀ j a b h, lo ≤ j → j < hi → I a b h → Runs (f j a) h (g j b) I) :
    Runs (Mem.forRange lo hi a f) h (Go.forRange lo hi b g) I :=
  runs_loop (fun _ => I) (hi - lo) lo a b h h0 fun j a b h h1 h2 hi => hs j a b h h1 (by omega) hi

/-- the relation between the results of steps -/
def Related {ρ κ : Type} (I : σ → τ → Heap → Prop) (R : ρ → κ → Heap → Prop) : Step σ ρ → Step τ κ → Heap → Prop
  | .cont a, .cont b, h => I a b h
  | .ret a, .ret b, h => R a b h
  | _, _, _ => False

theorem runs_loopE {ρ κ : Type} {f : Nat → σ → Mem (Step σ ρ)} {g : Nat → τ → Go (Step τ κ)} (I : Nat → σ → τ → Heap → Prop) (R : ρ → κ → Heap → Prop) :
    ∀ (n i : Nat) (a : σ) (b : τ) (h : Heap), I i a b h →
      (∀ j a b h, i ≤ j → j < i + n → I j a b h → Runs (f j a) h (g j b) (Related (I (j + 1)) R)) →
      Runs (Mem.loopE n i a f) h (Go.loopE n i b g) (Related (I (i + n)) R)
  | 0, i, a, b, h, h0, _ => Runs.pure h0
  | n + 1, i, a, b, h, h0, hs => by
    unfold Mem.loopE Go.loopE
    refine Runs.bind (hs i a b h (Nat.le_refl _) (by omega) h0) fun x y h' _ q => ?_
    rcases x with a' | a' <;> rcases y with b' | b'
    · have := runs_loopE I R n (i + 1) a' b' h' q fun j a b h h1 h2 => hs j a b h (by omega) (by omega)
      rw [show i + 1 + n = i + (n + 1) by omega] at this
      exact this
    · exact q.elim
    · exact q.elim
    · exact Runs.pure q

theorem runs_forRangeE {ρ κ : Type} {f : Nat → σ → Mem (Step σ ρ)} {g : Nat → τ → Go (Step τ κ)} (I : σ → τ → Heap → Prop) (R : ρ → κ → Heap → Prop) (lo hi : Nat)
    (a : σ) (b : τ) (h : Heap) (h0 : I a b h) (hs : ∀ j a b h, lo ≤ j → j < hi → I a b h → Runs (f j a) h (g j b) (Related I R)) :
    Runs (Mem.forRangeE lo hi a f) h (Go.forRangeE lo hi b g) (Related I R) :=
  runs_loopE (fun _ => I) R (hi - lo) lo a b h h0 fun j a b h h1 h2 hi => hs j a b h h1 (by omega) hi

theorem runs_forever {ρ κ : Type} {f : σ → Mem (Step σ ρ)} {g : τ → Go (Step τ κ)} (I : σ → τ → Heap → Prop) (R : ρ → κ → Heap → Prop)
    (hs : ∀ a b h, I a b h → Runs (f a) h (g b) (Related I R)) :
    ∀ (fuel : Nat) (a : σ) (b : τ) (h : Heap), I a b h → Runs (Mem.forever fuel a f) h (Go.forever fuel b g) R
  | 0, _, _, _, _ => by
    intro b hb
    cases hb
  | n + 1, a, b, h, h0 => by
    unfold Mem.forever Go.forever
    refine Runs.bind (hs a b h h0) fun x y h' _ q => ?_
    rcases x with a' | a' <;> rcases y with b' | b'
    · exact runs_forever I R hs n a' b' h' q
    · exact q.elim
    · exact q.elim
    · exact Runs.pure q

/-- a loop that overwrites one slice -/
theorem runs_each {f : Nat → Mem Unit} {g : Nat → List t.Val → Go (List t.Val)} {h : Heap} {s : Slice t} {xs : List t.Val} (lo hi : Nat) (hs : Held h s xs)
    (hb : ∀ j h1 ys, lo ≤ j → j < hi → Frame h h1 (only s) → Held h1 s ys → Writes (f j) h1 s (g j ys)) :
    Writes (Mem.each lo hi f) h s (Go.forRange lo hi xs g) := by
  refine runs_forRange (fun (_ : Unit) b h' => Frame h h' (only s) ∧ Held h' s b) lo hi () xs h ⟨Frame.refl _ _, hs⟩ ?_
  rintro j _ ys h1 hj hj' ⟨f1, k1⟩
  exact (hb j h1 ys hj hj' f1 k1).post fun _ _ _ _ q => ⟨f1.trans q.1, q.2⟩

/-! ## Functions that make a slice -/

theorem untouched_iff {h h' : Heap} : Frame h h' none ↔ Untouched h h' := by
  constructor
  · intro hf t i a ha
    obtain ⟨a', e, _, q⟩ := hf t i a ha
    rw [e, q fun h => h]
  · intro hu t i a ha
    exact ⟨a, hu t i a ha, rfl, fun _ => rfl⟩

/-- related to a computation that gives the elements of the new slice -/
def Builds (m : Mem (Slice t)) (h : Heap) (g : Go (List t.Val)) : Prop :=
  Runs m h g fun s b h' => Frame h h' none ∧ Held h' s b ∧ newer h t s.arr

theorem Makes.bind {γ δ : Type} {m : Mem (Slice t)} {k : Slice t → Mem γ} {h : Heap} {xs : List t.Val} {g : Go δ} {Q : γ → δ → Heap → Prop}
    (hm : Makes m h xs) (hk : ∀ s h', Frame h h' none → Held h' s xs → newer h t s.arr → Runs (k s) h' g Q) : Runs (m >>= k) h g Q := by
  obtain ⟨s, h', e, f, k1, n⟩ := hm
  exact Runs.heap e (hk s h' f k1 n)

theorem Makes.builds {m : Mem (Slice t)} {h : Heap} {xs : List t.Val} (hm : Makes m h xs) : Builds m h (.ok xs) := by
  intro b hb
  obtain rfl := Except.ok.inj hb
  obtain ⟨s, h', e, f, k, n⟩ := hm
  exact ⟨s, h', e, f, k, n⟩

theorem newer.mono {h h' : Heap} {M : Ty → Nat → Prop} (hf : Frame h h' M) {t : Ty} {i : Nat} (hn : newer h' t i) : newer h t i := Nat.le_trans (hf.length t) hn

/-- a step that writes to a slice made since `h` -/
theorem Frame.write {h h1 h2 : Heap} {s : Slice t} (ha : Frame h h1 none) (hb : Frame h1 h2 (only s)) (hn : newer h t s.arr) : Frame h h2 none :=
  ha.own hb (by rintro _ _ ⟨rfl, rfl⟩; exact hn)

theorem Held.other {u : Ty} {h h' : Heap} {s : Slice t} {r : Slice u} {xs : List t.Val} (hs : Held h s xs) (hf : Frame h h' (only r)) (hne : t ≠ u ∨ s.arr ≠ r.arr) :
    Held h' s xs := hs.frame hf (only_ne (by rcases hne with h | h; exacts [Or.inl fun e => h e.symm, Or.inr h]))

/-- a slice of before is not one made since -/
theorem Held.ne {h h1 : Heap} {s r : Slice t} {xs : List t.Val} (hs : Held h s xs) (hr : newer h t r.arr) (_ : Frame h h1 none) : s.arr ≠ r.arr := by
  intro e
  exact hs.old (e ▸ hr)

theorem runs_put32 {h : Heap} {s : Slice .byte} {xs : List Byte} (hs : Held h s xs) (o : ByteOrder) (v : U32) :
    Writes (Mem.put32 o s v) h s (Go.putU32 o xs 0 v) := by
  have := runs_putU32 hs o 0 v
  unfold Mem.putU32 at this
  intro b hb
  obtain ⟨a, h', e, q⟩ := this b hb
  rw [Mem.bind_ok (slc_tail hs (Nat.zero_le _))] at e
  exact ⟨a, h', e, q⟩

theorem runs_put64 {h : Heap} {s : Slice .byte} {xs : List Byte} (hs : Held h s xs) (o : ByteOrder) (v : U64) :
    Writes (Mem.put64 o s v) h s (Go.putU64 o xs 0 v) := by
  have := runs_putU64 hs o 0 v
  unfold Mem.putU64 at this
  intro b hb
  obtain ⟨a, h', e, q⟩ := this b hb
  rw [Mem.bind_ok (slc_tail hs (Nat.zero_le _))] at e
  exact ⟨a, h', e, q⟩

theorem runs_copy {h : Heap} {s r : Slice t} {xs ys : List t.Val} (hs : Held h s xs) (hr : Held h r ys) :
    Writes (Mem.copy s r) h s (Go.copyAt xs 0 ys) := by
  have := runs_copyAt hs hr 0
  unfold Mem.copyAt at this
  intro b hb
  obtain ⟨a, h', e, q⟩ := this b hb
  rw [Mem.bind_ok (slc_tail hs (Nat.zero_le _))] at e
  exact ⟨a, h', e, q⟩

theorem makes_makeCap (h : Heap) (t : Ty) (n c : Nat) (hc : n ≤ c) :
    ∃ h', Mem.makeCap t n c h = .ok (⟨(h.store t).length, 0, n, c⟩, h') ∧ Frame h h' none ∧
      Held h' (⟨(h.store t).length, 0, n, c⟩ : Slice t) (List.replicate n t.zero) := by
  refine ⟨_, rfl, frame_add _ _ _, List.replicate c t.zero, ?_, hc, by simp, ?_⟩
  · rw [store_add]
    simp
  · simp [List.take_replicate, Nat.min_eq_left hc]

/-- a slice made since `h`, written and returned -/
theorem Writes.ret {m : Mem Unit} {h h1 : Heap} {s : Slice t} {g : Go (List t.Val)} (hm : Writes m h1 s g) (f1 : Frame h h1 none) (n : newer h t s.arr) :
    Runs (m >>= fun _ => Pure.pure s) h1 g fun s b h' => Frame h h' none ∧ Held h' s b ∧ newer h t s.arr := by
  intro b hb
  obtain ⟨u, h2, e, f2, k2⟩ := hm b hb
  refine ⟨s, h2, ?_, f1.write f2 n, k2, n⟩
  rw [Mem.bind_ok e]
  rfl

/-- a statement that writes to a slice -/
theorem Writes.bind {γ δ : Type} {m : Mem Unit} {k : Unit → Mem γ} {h : Heap} {s : Slice t} {g : Go (List t.Val)} {l : List t.Val → Go δ} {Q : γ → δ → Heap → Prop}
    (hm : Writes m h s g) (hk : ∀ b h', g = .ok b → Frame h h' (only s) → Held h' s b → Runs (k ()) h' (l b) Q) : Runs (m >>= k) h (g >>= l) Q :=
  Runs.bind hm fun _ b h' e q => hk b h' e q.1 q.2

/-- a value read from memory -/
theorem Runs.val {γ δ : Type} {m : Mem α} {k : α → Mem γ} {h : Heap} {g : Go α} {l : α → Go δ} {Q : γ → δ → Heap → Prop}
    (hm : Runs m h g fun a b h' => a = b ∧ h' = h) (hk : ∀ a, g = .ok a → Runs (k a) h (l a) Q) : Runs (m >>= k) h (g >>= l) Q :=
  Runs.bind hm fun a b h' e q => by
    obtain ⟨rfl, rfl⟩ := q
    exact hk a e

/-- a slice of a slice -/
theorem runs_slc_bind {γ δ : Type} {h : Heap} {s : Slice t} {xs : List t.Val} (hs : Held h s xs) (lo hi : Nat) {k : Slice t → Mem γ} {l : List t.Val → Go δ}
    {Q : γ → δ → Heap → Prop} (hk : ∀ (r : Slice t) b, r.arr = s.arr → Go.slc xs lo hi = .ok b → Held h r b → Runs (k r) h (l b) Q) :
    Runs (Mem.slc s lo hi >>= k) h (Go.slc xs lo hi >>= l) Q :=
  Runs.bind (runs_slc hs lo hi) fun a b h' e q => by
    obtain ⟨rfl, h1, h2⟩ := q
    exact hk a b h1 e h2

/-- the first cell, as of a `big.Int` -/
theorem idx_zero {h : Heap} {s : Slice t} {x : t.Val} (hs : Held h s [x]) : Mem.idx s 0 h = .ok (x, h) := by
  obtain ⟨a, h', e, rfl, rfl⟩ := runs_idx hs 0 x rfl
  exact e

theorem upd_zero {h : Heap} {s : Slice t} {x : t.Val} (hs : Held h s [x]) (v : t.Val) :
    ∃ h', Mem.upd s 0 v h = .ok ((), h') ∧ Frame h h' (only s) ∧ Held h' s [v] := by
  obtain ⟨a, h', e, q⟩ := runs_upd hs 0 v [v] rfl
  exact ⟨h', e, q⟩

end Verif.Go
