import Verif.Model.InMem.Generate
import Verif.Proof.InMem.Ethash
import Verif.Proof.Generate

/-! # Cache generation with memory -/

set_option autoImplicit false

namespace Verif

open Go

namespace Go

variable {t : Ty}

theorem UntouchedBut.refl (s : Slice t) (h : Heap) : UntouchedBut s h h := fun _ _ a ha => ⟨a, ha, rfl, fun _ _ => rfl⟩

theorem UntouchedBut.trans {s : Slice t} {h h1 h2 : Heap} (ha : UntouchedBut s h h1) (hb : UntouchedBut s h1 h2) : UntouchedBut s h h2 := by
  intro u i a hi
  obtain ⟨a1, e1, l1, c1⟩ := ha u i a hi
  obtain ⟨a2, e2, l2, c2⟩ := hb u i a1 e1
  exact ⟨a2, e2, l2.trans l1, fun j hj => (c2 j hj).trans (c1 j hj)⟩

theorem UntouchedBut.frame {s : Slice t} {h h1 : Heap} (ha : UntouchedBut s h h1) : Frame h h1 (only s) := by
  intro u i a hi
  obtain ⟨a1, e1, l1, c1⟩ := ha u i a hi
  refine ⟨a1, e1, l1, fun hn => List.ext_getElem? fun j => c1 j ?_⟩
  rintro ⟨h1, h2, _⟩
  exact hn ⟨h1, h2⟩

/-- a step that writes to arrays made since `h` -/
theorem UntouchedBut.own {s : Slice t} {h h1 h2 : Heap} {M : Ty → Nat → Prop} (ha : UntouchedBut s h h1) (hb : Frame h1 h2 M)
    (hM : ∀ u i, M u i → newer h u i) : UntouchedBut s h h2 := by
  intro u i a hi
  obtain ⟨a1, e1, l1, c1⟩ := ha u i a hi
  obtain ⟨a2, e2, l2, c2⟩ := hb u i a1 e1
  have : a2 = a1 := c2 fun hm => absurd (hM u i hm) (Nat.not_le.2 (List.getElem?_eq_some_iff.1 hi).1)
  subst this
  exact ⟨a2, e2, l1, c1⟩

theorem Frame.untouchedBut {h h1 : Heap} (s : Slice t) (hf : Frame h h1 none) : UntouchedBut s h h1 :=
  (UntouchedBut.refl s h).own hf fun _ _ h => h.elim

/-- all of a slice is overwritten -/
theorem blit_all {h : Heap} {s : Slice t} {xs vs : List t.Val} (hs : Held h s xs) (hl : vs.length = s.len) :
    ∃ h', Mem.blit s 0 vs h = .ok ((), h') ∧ UntouchedBut s h h' ∧ Held h' s vs := by
  have hx := hs.len
  obtain ⟨h', e, f, k⟩ := blit_ok vs 0 hs (by omega)
  refine ⟨h', e, ?_, ?_⟩
  · obtain rfl : h.poke t s.arr (s.off + 0) vs = h' := (Prod.mk.inj (Except.ok.inj e)).2
    obtain ⟨b, g1, g2, g3, _⟩ := hs
    intro u i a ha
    by_cases hu : u = t
    · subst hu
      rw [store_poke, List.getElem?_modify, ha]
      by_cases hi : s.arr = i
      · subst hi
        rw [g1] at ha
        obtain rfl := Option.some.inj ha
        simp only [if_true, Option.map_eq_map, Option.map_some]
        refine ⟨_, rfl, ?_, fun j hj => ?_⟩
        · simp only [List.length_append, List.length_take, List.length_drop]
          omega
        · have hj : ¬ (s.off ≤ j ∧ j < s.off + s.len) := fun hj' => hj ⟨trivial, trivial, hj'⟩
          simp only [List.getElem?_append, List.length_append, List.length_take, List.getElem?_take, List.getElem?_drop]
          by_cases c : j < s.off
          · rw [if_pos (by omega), if_pos (by omega), if_pos (by omega)]
          · rw [if_neg (by omega)]
            congr 1
            omega
      · simp only [hi, if_false, Option.map_eq_map, Option.map_some]
        exact ⟨a, rfl, rfl, fun _ _ => rfl⟩
    · rw [store_poke_ne _ _ _ _ _ _ hu, ha]
      exact ⟨a, rfl, rfl, fun _ _ => rfl⟩
  · rw [show xs.drop (0 + vs.length) = [] from by rw [List.drop_eq_nil_iff]; omega] at k
    simpa using k

end Go

namespace Dag.InMem

open Crypto.InMem

/-! ## Views -/

theorem byteView_append (a b : List U32) : byteView (a ++ b) = byteView a ++ byteView b := by simp [byteView]

theorem byteView_length (a : List U32) : (byteView a).length = 4 * a.length := bytesLE_length a

theorem byteView_take (a : List U32) (n : Nat) (hn : n ≤ a.length) : (byteView a).take (4 * n) = byteView (a.take n) := by
  conv_lhs => rw [← List.take_append_drop n a, byteView_append]
  rw [List.take_append_of_le_length (by rw [byteView_length, List.length_take]; omega), List.take_of_length_le]
  rw [byteView_length, List.length_take]
  omega

theorem byteView_drop (a : List U32) (n : Nat) (hn : n ≤ a.length) : (byteView a).drop (4 * n) = byteView (a.drop n) := by
  conv_lhs => rw [← List.take_append_drop n a, byteView_append]
  rw [List.drop_append_of_le_length (by rw [byteView_length, List.length_take]; omega), List.drop_of_length_le, List.nil_append]
  rw [byteView_length, List.length_take]
  omega

theorem wordView_byteView (a : List U32) : wordView (byteView a) = a := wordView_bytesLE a

theorem byteView_wordView (b : List Byte) (h : b.length % 4 = 0) : byteView (wordView b) = b := bytesLE_wordView b h

theorem byteView_inj {a b : List U32} (h : byteView a = byteView b) : a = b := by
  rw [← wordView_byteView a, h, wordView_byteView]

/-- the bytes of a word slice -/
def Bytes (h : Heap) (s : Slice .word) (b : List Byte) : Prop := Held h s (wordView b) ∧ b.length = 4 * s.len

theorem Bytes.of {h : Heap} {s : Slice .word} {ws : List U32} (hs : Held h s ws) : Bytes h s (byteView ws) :=
  ⟨by rw [wordView_byteView]; exact hs, by rw [byteView_length, hs.len]⟩

theorem array_bytes {h : Heap} {s : Slice .word} {b : List Byte} (hs : Bytes h s b) : ∃ a, (h.store .word)[s.arr]? = some a ∧
    s.off + s.cap ≤ a.length ∧ s.len ≤ s.cap ∧ ((byteView a).drop (4 * s.off)).take (4 * s.len) = b := by
  obtain ⟨⟨a, h1, h2, h3, h4⟩, h5⟩ := hs
  refine ⟨a, h1, h3, h2, ?_⟩
  rw [byteView_drop _ _ (by omega), byteView_take _ _ (by rw [List.length_drop]; omega), h4, byteView_wordView _ (by omega)]

theorem view_array {h : Heap} {v : View} {a : List U32} (ha : (h.store .word)[v.arr]? = some a) : v.array h = .ok (byteView a, h) := by
  unfold View.array
  rw [Mem.bind_ok (array_ok (t := .word) (s := ⟨v.arr, 0, 0, 0⟩) ha)]
  rfl

theorem view_contents {h : Heap} {s : Slice .word} {b : List Byte} (hs : Bytes h s b) (x l c : Nat) (hl : x + l ≤ b.length) :
    (⟨s.arr, 4 * s.off + x, l, c⟩ : View).contents h = .ok ((b.drop x).take l, h) := by
  have h5 := hs.2
  obtain ⟨a, h1, h3, h2, rfl⟩ := array_bytes hs
  unfold View.contents
  rw [Mem.bind_ok (view_array h1)]
  refine congrArg Except.ok ?_
  refine congrArg (Prod.mk · h) ?_
  rw [List.drop_take, List.drop_drop, List.take_take, Nat.min_eq_left (by omega)]

theorem view_slc {h : Heap} {s : Slice .word} {b : List Byte} (hs : Bytes h s b) (lo hi : Nat) :
    Runs ((View.of s).slc lo hi) h (Go.slc b lo hi) fun v ys h' => h' = h ∧ v = ⟨s.arr, 4 * s.off + lo, hi - lo, 4 * s.cap - lo⟩ ∧
      lo ≤ hi ∧ hi ≤ b.length ∧ ys = (b.drop lo).take (hi - lo) := by
  intro ys hy
  have h5 := hs.2
  obtain ⟨a, h1, h3, h2, _⟩ := array_bytes hs
  unfold Go.slc at hy
  by_cases hc : lo ≤ hi ∧ hi ≤ b.length
  · rw [if_pos hc] at hy
    obtain rfl := Except.ok.inj hy
    refine ⟨_, h, ?_, rfl, rfl, hc.1, hc.2, by rw [List.drop_take]⟩
    unfold View.slc
    rw [if_pos ⟨hc.1, by show hi ≤ 4 * s.cap; omega⟩]
    rfl
  · rw [if_neg hc] at hy
    cases hy

/-- the tail of a view exists -/
theorem view_tail {h : Heap} {s : Slice .word} {b : List Byte} (hs : Bytes h s b) (lo : Nat) (hl : lo ≤ b.length) :
    (View.of s).slc lo (View.of s).len h = .ok (⟨s.arr, 4 * s.off + lo, 4 * s.len - lo, 4 * s.cap - lo⟩, h) := by
  have h5 := hs.2
  obtain ⟨a, h1, h3, h2, _⟩ := array_bytes hs
  unfold View.slc
  rw [if_pos ⟨by show lo ≤ 4 * s.len; omega, by show 4 * s.len ≤ 4 * s.cap; omega⟩]
  rfl

theorem modify_congr {A : Type} (l : List A) (i : Nat) (f g : A → A) (h : ∀ a, l[i]? = some a → f a = g a) : l.modify i f = l.modify i g := by
  apply List.ext_getElem?
  intro j
  rw [List.getElem?_modify, List.getElem?_modify]
  by_cases hj : i = j
  · subst hj
    cases hl : l[i]? with
    | none => simp
    | some a => simp [h a hl]
  · simp [hj]

theorem view_blit {h : Heap} {s : Slice .word} {b : List Byte} (hs : Bytes h s b) (x l c : Nat) (bs : List Byte) (hl : x + bs.length ≤ b.length) :
    ∃ h', (⟨s.arr, 4 * s.off + x, l, c⟩ : View).blit bs h = .ok ((), h') ∧ UntouchedBut s h h' ∧
      Bytes h' s (b.take x ++ bs ++ b.drop (x + bs.length)) := by
  have h5 := hs.2
  obtain ⟨M, hM⟩ : ∃ M, M = b.take x ++ bs ++ b.drop (x + bs.length) := ⟨_, rfl⟩
  have hMl : M.length = 4 * s.len := by
    rw [hM]
    simp only [List.length_append, List.length_take, List.length_drop]
    omega
  have hwl : (wordView M).length = s.len := by rw [wordView_length]; omega
  rw [← hM]
  obtain ⟨h', e, u, k⟩ := blit_all hs.1 hwl
  refine ⟨h', ?_, u, k, hMl⟩
  rw [← e]
  obtain ⟨a, h1, h3, h2, hb⟩ := array_bytes hs
  unfold View.blit
  rw [Mem.bind_ok (view_array h1)]
  unfold Mem.blit
  refine congrArg Except.ok ?_
  refine congrArg (Prod.mk ()) ?_
  unfold Heap.poke
  refine congrArg (fun st => { h with store := st }) ?_
  refine congrArg (Function.update h.store .word) ?_
  refine modify_congr _ _ _ _ fun a' ha' => ?_
  rw [h1] at ha'
  obtain rfl := Option.some.inj ha'
  have hal := byteView_length a
  -- the spliced array
  have key : byteView (a.take (s.off + 0) ++ wordView M ++ a.drop (s.off + 0 + (wordView M).length)) =
      (byteView a).take (4 * s.off + x) ++ bs ++ (byteView a).drop (4 * s.off + x + bs.length) := by
    rw [byteView_append, byteView_append, byteView_wordView M (by omega), Nat.add_zero, hwl, ← byteView_take a _ (by omega), ← byteView_drop a _ (by omega),
      hM, ← hb]
    apply List.ext_getElem?
    intro j
    simp only [List.getElem?_append, List.length_append, List.length_take, List.length_drop, List.getElem?_take, List.getElem?_drop, hal]
    by_cases c1 : j < 4 * s.off
    · rw [if_pos (by omega), if_pos (by omega), if_pos (by omega), if_pos (by omega), if_pos (by omega), if_pos (by omega)]
    · by_cases c2 : j < 4 * s.off + x
      · rw [if_pos (by omega), if_neg (by omega), if_pos (by omega), if_pos (by omega), if_pos (by omega), if_pos (by omega), if_pos (by omega), if_pos (by omega),
          if_pos (by omega)]
        congr 1
        omega
      · by_cases c3 : j < 4 * s.off + x + bs.length
        · rw [if_pos (by omega), if_neg (by omega), if_pos (by omega), if_neg (by omega), if_pos (by omega), if_neg (by omega)]
          congr 1
          omega
        · by_cases c4 : j < 4 * s.off + 4 * s.len
          · rw [if_pos (by omega), if_neg (by omega), if_neg (by omega)]
            split_ifs <;> first | omega | (congr 1; omega)
          · rw [if_neg (by omega), if_neg (by omega)]
            congr 1
            omega
  have hw := congrArg wordView key
  rw [wordView_byteView] at hw
  rw [← hw]
  have hfull : (a.take (s.off + 0) ++ wordView M ++ a.drop (s.off + 0 + (wordView M).length)).length = a.length := by
    simp only [List.length_append, List.length_take, List.length_drop, hwl]
    omega
  show a.take (0 + 0) ++ _ ++ a.drop (0 + 0 + _) = _
  rw [hfull]
  simp

/-- a computation that writes to a word slice through its bytes -/
def Patches (m : Mem Unit) (h : Heap) (s : Slice .word) (g : Go (List Byte)) : Prop :=
  Runs m h g fun _ b h' => UntouchedBut s h h' ∧ Bytes h' s b

theorem patches_hashToView (P : Prims) {h : Heap} {s : Slice .word} {b : List Byte} (hs : Bytes h s b) (x l c : Nat) (xs : List Byte) (hc : b.length ≤ x + c) :
    Patches (hashToView P ⟨s.arr, 4 * s.off + x, l, c⟩ xs) h s (keccak512At P b x xs) := by
  intro d hd
  unfold keccak512At at hd
  by_cases h0 : b.length < x + 64
  · rw [if_pos h0] at hd; cases hd
  rw [if_neg h0] at hd
  obtain rfl := Except.ok.inj hd
  have hl := P.keccak512_length xs
  obtain ⟨h', e, u, k⟩ := view_blit hs x 64 c (P.keccak512 xs) (by rw [hl]; omega)
  refine ⟨(), h', ?_, u, by rw [hl] at k; exact k⟩
  unfold hashToView
  have e1 : (⟨s.arr, 4 * s.off + x, l, c⟩ : View).slc 0 64 h = .ok (⟨s.arr, 4 * s.off + x, 64, c⟩, h) := by
    unfold View.slc
    rw [if_pos ⟨Nat.zero_le _, by show 64 ≤ c; omega⟩]
    rfl
  rw [Mem.bind_ok e1]
  exact e

theorem patches_chain (P : Prims) {h : Heap} {s : Slice .word} {b : List Byte} (hs : Bytes h s b) (k : Nat) :
    Patches (chain P (View.of s) k) h s (chainStep P k b) := by
  intro d hd
  unfold chainStep at hd
  dsimp only at hd
  cases hg : Go.slc b (hashBytes * k - hashBytes) (hashBytes * k) with
  | error e => rw [hg] at hd; cases hd
  | ok ys =>
    rw [hg] at hd
    have hlen : ¬ b.length < hashBytes * k + 64 := by
      intro hc
      rw [show ((Except.ok ys : Go (List Byte)) >>= fun data => keccak512At P b (hashBytes * k) data) = keccak512At P b (hashBytes * k) ys from rfl, keccak512At,
        if_pos hc] at hd
      cases hd
    have h5 := hs.2
    obtain ⟨v, h', e, rfl, rfl, q1, q2, rfl⟩ := view_slc hs _ _ ys hg
    unfold chain
    simp only []
    rw [Mem.bind_ok (view_tail hs _ (by omega)), Mem.bind_ok e, Mem.bind_ok (view_contents hs _ _ _ (by omega))]
    have hcap := hs.1
    obtain ⟨a, _, g3, g2, _⟩ := array_bytes hs
    exact patches_hashToView P hs _ _ _ _ (by omega) d hd

theorem writes_xorViews {h : Heap} {dst : Slice .byte} {ts xs ys : List Byte} {a b : View} (hd : Held h dst ts) (ha : a.contents h = .ok (xs, h))
    (hb : b.contents h = .ok (ys, h)) : Writes (xorViews dst a b) h dst (xorBytes ts xs ys) := by
  intro d hd'
  unfold xorBytes at hd'
  simp only [] at hd'
  by_cases h0 : ts.length < min xs.length ys.length
  · rw [if_pos h0] at hd'; cases hd'
  rw [if_neg h0] at hd'
  obtain rfl := Except.ok.inj hd'
  have hl : (List.zipWith (· ^^^ ·) xs ys).length = min xs.length ys.length := List.length_zipWith
  obtain ⟨h', e, f, k⟩ := blit_ok (t := .byte) (List.zipWith (· ^^^ ·) xs ys) 0 hd (by rw [hl]; omega)
  refine ⟨(), h', ?_, f, ?_⟩
  · unfold xorViews
    rw [Mem.bind_ok ha, Mem.bind_ok hb, if_neg (by rw [← hd.len]; exact h0)]
    exact e
  · rw [hl] at k
    simpa using k

/-- one iteration of the memory-hard loop: `cache` and `temp` are written -/
theorem runs_memo (P : Prims) (rows : Nat) {h : Heap} {s : Slice .word} {temp : Slice .byte} {b ts : List Byte} (hs : Bytes h s b) (ht : Held h temp ts) (j : Nat) :
    Runs (memo P (View.of s) temp rows j) h (memoStep P rows j (b, ts)) fun _ r h' =>
      (∃ h1, Frame h h1 (only temp) ∧ UntouchedBut s h1 h') ∧ Bytes h' s r.1 ∧ Held h' temp r.2 := by
  unfold memo memoStep
  simp only []
  have hlen : (View.of s).len = b.length := hs.2.symm
  have h5 := hs.2
  obtain ⟨a, _, g3, g2, _⟩ := array_bytes hs
  rw [hlen]
  refine Runs.bind (view_slc hs _ _) fun v ys h' _ q => ?_
  obtain ⟨rfl, rfl, q1, q2, rfl⟩ := q
  refine Runs.heap (view_contents hs _ _ _ (by omega)) ?_
  refine Runs.val Runs.lift fun w _ => ?_
  refine Runs.val Runs.lift fun r _ => ?_
  refine Runs.bind (view_slc hs _ _) fun v1 ys1 h' _ q => ?_
  obtain ⟨rfl, rfl, p1, p2, rfl⟩ := q
  refine Runs.bind (view_slc hs _ _) fun v2 ys2 h' _ q => ?_
  obtain ⟨rfl, rfl, r1, r2, rfl⟩ := q
  refine (writes_xorViews ht (view_contents hs _ _ _ (by omega)) (view_contents hs _ _ _ (by omega))).bind fun ts' h1 _ f1 k1 => ?_
  have hs1 : Bytes h1 s b := ⟨hs.1.other f1 (Or.inl (by decide)), hs.2⟩
  have e2 := view_tail hs1 (j * hashBytes) (by omega)
  rw [hlen, ← h5] at e2
  refine Runs.heap e2 ?_
  refine Runs.heap (contents_ok k1) ?_
  intro r' hr'
  cases hk : keccak512At P b (j * hashBytes) ts' with
  | error e => rw [hk] at hr'; cases hr'
  | ok b' =>
    rw [hk] at hr'
    obtain rfl := Except.ok.inj hr'
    obtain ⟨u, h2, e, u2, k2⟩ := patches_hashToView P hs1 (j * hashBytes) (b.length - j * hashBytes) (4 * s.cap - j * hashBytes) ts' (by omega) b' hk
    exact ⟨u, h2, e, ⟨h1, f1, u2⟩, k2, k1.other u2.frame (Or.inl (by decide))⟩

theorem patches_generateCache (P : Prims) (cacheRounds : Int) {h : Heap} {dest : Slice .word} {seed : Slice .byte} {ws : List U32} {sd : List Byte}
    (hd : Held h dest ws) (hs : Held h seed sd) :
    Runs (generateCache P cacheRounds dest seed) h (Dag.generateCache P cacheRounds ws sd) fun _ b h' => UntouchedBut dest h h' ∧ Held h' dest b := by
  unfold generateCache Dag.generateCache generateCacheBytes
  simp only [bind_assoc]
  have hb := Bytes.of hd
  have hlen : (View.of dest).len = (byteView ws).length := hb.2.symm
  obtain ⟨a, _, g3, g2, _⟩ := array_bytes hb
  rw [hlen]
  refine Runs.heap (contents_ok hs) ?_
  refine Runs.bind (Q := fun _ b h' => UntouchedBut dest h h' ∧ Bytes h' dest b)
    (patches_hashToView P hb 0 _ _ sd (by have := hb.2; omega)) fun _ b1 h1 _ q1 => ?_
  refine Runs.bind (Q := fun _ b h' => UntouchedBut dest h h' ∧ Bytes h' dest b)
    (runs_forRange (fun (_ : Unit) b h' => UntouchedBut dest h h' ∧ Bytes h' dest b) 1 _ () b1 h1 q1 ?_) fun _ b2 h2 _ q2 => ?_
  · rintro j _ b h1 _ _ ⟨u1, k1⟩
    exact (patches_chain P k1 j).post fun _ _ _ _ q => ⟨u1.trans q.1, q.2⟩
  refine (makes_make h2 .byte hashBytes).bind fun temp h3 F3 kt nt => ?_
  have nt' : newer h .byte temp.arr := newer.mono q2.1.frame nt
  have start : UntouchedBut dest h h3 ∧ Bytes h3 dest b2 ∧ Held h3 temp (List.replicate hashBytes 0) :=
    ⟨q2.1.trans (F3.untouchedBut dest), ⟨q2.2.1.keep F3, q2.2.2⟩, kt⟩
  have body : ∀ (j : Nat) (st : List Byte × List Byte) (h4 : Heap), (UntouchedBut dest h h4 ∧ Bytes h4 dest st.1 ∧ Held h4 temp st.2) →
      Runs (memo P (View.of dest) temp ((byteView ws).length / hashBytes) j) h4 (memoStep P ((byteView ws).length / hashBytes) j st)
        fun _ st' h5 => UntouchedBut dest h h5 ∧ Bytes h5 dest st'.1 ∧ Held h5 temp st'.2 := by
    rintro j ⟨b, ts⟩ h4 ⟨u4, k4, t4⟩
    refine (runs_memo P _ k4 t4 j).post fun _ r h5 _ q => ?_
    obtain ⟨⟨h6, f6, u6⟩, k5, t5⟩ := q
    exact ⟨(u4.own f6 (by rintro _ _ ⟨rfl, rfl⟩; exact nt')).trans u6, k5, t5⟩
  have hall := runs_forRange (f := fun _ (_ : Unit) => Mem.each 0 ((byteView ws).length / hashBytes) (memo P (View.of dest) temp ((byteView ws).length / hashBytes)))
    (g := memoPass P ((byteView ws).length / hashBytes))
    (fun (_ : Unit) (st : List Byte × List Byte) h' => UntouchedBut dest h h' ∧ Bytes h' dest st.1 ∧ Held h' temp st.2) 0 cacheRounds.toNat () (b2, List.replicate hashBytes 0)
    h3 start (fun _ _ st h4 _ _ hI => runs_forRange (fun (_ : Unit) (st : List Byte × List Byte) h' => UntouchedBut dest h h' ∧ Bytes h' dest st.1 ∧ Held h' temp st.2)
      0 _ () st h4 hI fun j _ st h5 _ _ hJ => body j st h5 hJ)
  intro r hr
  obtain ⟨st, hst, he⟩ : ∃ st, Go.forRange 0 cacheRounds.toNat (b2, List.replicate hashBytes 0) (memoPass P ((byteView ws).length / hashBytes)) = .ok st ∧
      wordView st.1 = r := by
    cases hg : Go.forRange 0 cacheRounds.toNat (b2, List.replicate hashBytes 0) (memoPass P ((byteView ws).length / hashBytes)) with
    | error e => rw [hg] at hr; cases hr
    | ok st =>
      rw [hg] at hr
      exact ⟨st, rfl, Except.ok.inj hr⟩
  obtain ⟨u, h', e, q1, q3, _⟩ := hall st hst
  exact ⟨u, h', e, q1, he ▸ q3.1⟩

theorem patches_copy {h : Heap} {s : Slice .word} {b : List Byte} (hs : Bytes h s b) {item : Slice .byte} {xs : List Byte} (hi : Held h item xs) (off : Nat) :
    Patches (do let d ← (View.of s).slc off (View.of s).len; d.copy item) h s (Go.copyAt b off xs) := by
  intro d hd
  unfold Go.copyAt at hd
  by_cases hc : off ≤ b.length
  · rw [if_pos hc] at hd
    obtain rfl := Except.ok.inj hd
    have hl := hs.2
    obtain ⟨h', e, u, k⟩ := view_blit hs off (4 * s.len - off) (4 * s.cap - off) (xs.take (4 * s.len - off)) (by rw [List.length_take]; omega)
    refine ⟨(), h', ?_, u, ?_⟩
    · rw [Mem.bind_ok (view_tail hs _ hc)]
      unfold View.copy
      rw [Mem.bind_ok (contents_ok hi)]
      exact e
    · rw [hl]
      rw [List.length_take] at k
      by_cases hle : xs.length ≤ 4 * s.len - off
      · rwa [Nat.min_eq_right hle] at k
      · have e1 : b.drop (off + min (4 * s.len - off) xs.length) = [] := by rw [List.drop_eq_nil_iff]; omega
        have e2 : b.drop (off + xs.length) = [] := by rw [List.drop_eq_nil_iff]; omega
        rw [e1] at k
        rw [e2]
        exact k
  · rw [if_neg hc] at hd
    cases hd

theorem patches_generateL1Cache (P : Prims) (parents : U32) {h : Heap} {dest cache : Slice .word} {ws cs : List U32}
    (hd : Held h dest ws) (hc : Held h cache cs) (hne : cache.arr ≠ dest.arr) :
    Runs (generateL1Cache P parents dest cache) h (Dag.generateL1Cache P parents ws cs) fun _ b h' => UntouchedBut dest h h' ∧ Held h' dest b := by
  unfold generateL1Cache Dag.generateL1Cache
  dsimp only
  have hb := Bytes.of hd
  have hlen : (View.of dest).len = (byteView ws).length := hb.2.symm
  have hall := runs_forRange (f := fun i (_ : Unit) => do
      let item ← generateDatasetItem P parents cache (BitVec.ofNat 32 i)
      let d ← (View.of dest).slc (i * hashBytes) (View.of dest).len
      d.copy item)
    (g := l1Step P parents cs) (fun (_ : Unit) b h' => UntouchedBut dest h h' ∧ Bytes h' dest b) 0 ((byteView ws).length / hashBytes) () (byteView ws) h
    ⟨UntouchedBut.refl _ _, hb⟩ (by
      rintro j _ b h1 _ _ ⟨u1, k1⟩
      unfold l1Step
      refine Runs.bind (builds_generateDatasetItem P parents (hc.other u1.frame (Or.inr hne)) _) fun item xs h2 _ q => ?_
      obtain ⟨f2, k2, _⟩ := q
      refine (patches_copy (⟨k1.1.keep f2, k1.2⟩ : Bytes h2 dest b) k2 (j * hashBytes)).post fun _ _ _ _ q => ⟨?_, q.2⟩
      exact (u1.trans (f2.untouchedBut dest)).trans q.1)
  rw [hlen] at hall ⊢
  intro r hr
  cases hg : Go.forRange 0 ((byteView ws).length / hashBytes) (byteView ws) (l1Step P parents cs) with
  | error e => rw [hg] at hr; cases hr
  | ok b =>
    rw [hg] at hr
    obtain rfl := Except.ok.inj hr
    obtain ⟨u, h', e, q1, q2⟩ := hall b hg
    exact ⟨u, h', e, q1, q2.1⟩

/-! ## The seed hash -/

theorem runs_keccak256Hasher (P : Prims) {h : Heap} {s r : Slice .byte} {xs ys : List Byte} (hs : Held h s xs) (hr : Held h r ys) :
    Writes (keccak256Hasher P s r) h s (keccak256At P xs ys) := by
  intro b hb
  unfold keccak256At at hb
  by_cases hc : xs.length < 32
  · rw [if_pos hc] at hb; cases hb
  rw [if_neg hc] at hb
  obtain rfl := Except.ok.inj hb
  unfold keccak256Hasher
  rw [Mem.bind_ok (contents_ok hr), Mem.bind_ok (held_slc hs (Nat.zero_le _) (by omega)).1]
  have hl := P.keccak256_length ys
  obtain ⟨h', e, f, k⟩ := blit_sub (t := .byte) (P.keccak256 ys) 0 hs (by rw [hl]; omega) (s.cap - 0) (32 - 0)
  refine ⟨(), h', e, f, ?_⟩
  rw [hl] at k
  simpa using k

theorem builds_seedHash (P : Prims) (d : Config) (H : Heap) (height : U64) : Builds (seedHash P d height) H (Dag.seedHash P d height) := by
  unfold seedHash Dag.seedHash
  refine (makes_make H .byte 32).bind fun seed H1 F1 k1 n1 => ?_
  by_cases hc : height < d.seedEpochLength
  · rw [if_pos hc]
    simp only [if_pos hc]
    exact Runs.pure ⟨F1, k1, n1⟩
  · rw [if_neg hc]
    simp only [if_neg hc]
    refine Runs.val Runs.lift fun n _ => ?_
    refine Writes.ret ?_ F1 n1
    refine runs_each 0 _ k1 fun j h1 ys _ _ f1 k1 => ?_
    exact runs_keccak256Hasher P k1 k1

/-! ## `generate` -/

/-- what `generate` returns: new memory with the contents of the list model -/
theorem runs_generate (P : Prims) (fuel : Nat) (d : Config) (hsd : d.storageDir = "") (epoch : U64) (fs : FS) (o : GenEnv) (H : Heap) :
    Runs (generate P fuel d epoch) H (Dag.generate P fuel d epoch fs o) fun a b h' => Frame H h' none ∧ Held h' a.1 b.1.cache ∧ Held h' a.2 b.1.l1 ∧
      newer H .word a.1.arr ∧ (d.l1Enabled = true → newer H .word a.2.arr ∧ a.1.arr ≠ a.2.arr) ∧ (d.l1Enabled = false → a.2 = nilWords ∧ b.1.l1 = []) := by
  unfold generate Dag.generate
  refine Runs.val Runs.lift fun size _ => ?_
  refine Runs.bind (builds_seedHash P d H _) fun seed sd H1 _ q => ?_
  obtain ⟨F1, ks, ns⟩ := q
  rw [if_pos hsd]
  unfold generateInMemory
  simp only [bind_assoc]
  refine (makes_make H1 .word _).bind fun cache H2 F2 kc nc => ?_
  have nc' : newer H .word cache.arr := newer.mono F1 nc
  refine Runs.bind (patches_generateCache P d.cacheRounds kc (ks.keep F2)) fun _ ws H3 _ q => ?_
  obtain ⟨u3, k3⟩ := q
  have F3 : Frame H H3 none := (F1.trans F2).write u3.frame nc'
  by_cases hl : d.l1Enabled = true
  · rw [if_pos hl, if_pos hl]
    unfold memoryL1
    simp only [bind_assoc]
    refine (makes_make H3 .word _).bind fun l1 H4 F4 kl nl => ?_
    have hne : cache.arr ≠ l1.arr := k3.ne nl F4
    have nl' : newer H .word l1.arr := newer.mono F3 nl
    refine Runs.bind (patches_generateL1Cache P d.datasetParents kl (k3.keep F4) hne) fun _ ls H5 _ q => ?_
    obtain ⟨u5, k5⟩ := q
    refine Runs.pure ⟨(F3.trans F4).write u5.frame nl', (k3.keep F4).other u5.frame (Or.inr hne), k5, nc', fun _ => ⟨nl', hne⟩, fun h => ?_⟩
    rw [hl] at h
    cases h
  · rw [if_neg hl, if_neg hl]
    refine Runs.pure ⟨F3, k3, ?_, nc', fun h => absurd h hl, fun _ => ⟨rfl, rfl⟩⟩
    have h0 : 0 < (H3.store .word).length := Nat.lt_of_le_of_lt (Nat.zero_le _) k3.arr
    exact ⟨_, List.getElem?_eq_getElem h0, Nat.le_refl _, Nat.zero_le _, by simp [nilWords]⟩

end Dag.InMem

end Verif
