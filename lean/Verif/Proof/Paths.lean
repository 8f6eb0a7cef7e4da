import Verif.Model.Paths
import Verif.Spec.Paths

/-! # Cleaned paths and the places they name -/

set_option autoImplicit false

namespace Verif.Dag.Paths

open Spec.Paths

theorem splitSlash_eq (p : List Char) : splitSlash p = elements p := by
  induction p with
  | nil => rfl
  | cons c cs ih =>
    unfold splitSlash at ih ⊢
    rw [List.foldr_cons, ih]
    rfl

theorem elements_ne (p : List Char) : elements p ≠ [] := by
  cases p with
  | nil => simp [elements]
  | cons c cs =>
    unfold elements
    by_cases h : c = '/'
    · rw [if_pos h]; simp
    · rw [if_neg h]
      cases elements cs <;> simp

theorem elements_cons {c : Char} (h : c ≠ '/') (cs : List Char) : ∃ w ws, elements cs = w :: ws ∧ elements (c :: cs) = (c :: w) :: ws := by
  cases he : elements cs with
  | nil => exact absurd he (elements_ne cs)
  | cons w ws =>
    refine ⟨w, ws, rfl, ?_⟩
    rw [elements, if_neg h, he]

theorem elements_append (a b : List Char) : elements (a ++ '/' :: b) = elements a ++ elements b := by
  induction a with
  | nil => simp [elements]
  | cons c cs ih =>
    by_cases h : c = '/'
    · rw [List.cons_append, elements, if_pos h, ih, elements, if_pos h]; rfl
    · obtain ⟨w, ws, h1, h2⟩ := elements_cons h cs
      obtain ⟨w', ws', h1', h2'⟩ := elements_cons h (cs ++ '/' :: b)
      rw [ih, h1, List.cons_append] at h1'
      obtain ⟨rfl, rfl⟩ := List.cons.inj h1'
      rw [List.cons_append, h2', h2]
      rfl

theorem elements_plain {w : List Char} (h : '/' ∉ w) : elements w = [w] := by
  induction w with
  | nil => rfl
  | cons c cs ih =>
    have hc : c ≠ '/' := fun hh => h (by simp [hh])
    rw [elements, if_neg hc, ih fun hh => h (by simp [hh])]

theorem elements_slashless (p : List Char) : ∀ w ∈ elements p, '/' ∉ w := by
  induction p with
  | nil => intro w hw; simp [elements] at hw; simp [hw]
  | cons c cs ih =>
    by_cases h : c = '/'
    · rw [elements, if_pos h]
      intro w hw
      rcases List.mem_cons.1 hw with rfl | hw
      · simp
      · exact ih w hw
    · obtain ⟨w, ws, h1, h2⟩ := elements_cons h cs
      rw [h2]
      rw [h1] at ih
      intro v hv
      rcases List.mem_cons.1 hv with rfl | hv
      · intro hh
        rcases List.mem_cons.1 hh with hh | hh
        · exact h hh.symm
        · exact ih w (by simp) hh
      · exact ih v (by simp [hv])

theorem elements_join {ws : List (List Char)} (hne : ws ≠ []) (h : ∀ w ∈ ws, '/' ∉ w) : elements (joinSlash ws) = ws := by
  induction ws with
  | nil => exact absurd rfl hne
  | cons w ws ih =>
    cases ws with
    | nil => exact elements_plain (h w (by simp))
    | cons v vs =>
      show elements (w ++ '/' :: joinSlash (v :: vs)) = _
      rw [elements_append, elements_plain (h w (by simp)), ih (by simp) fun u hu => h u (by simp [hu])]
      rfl

/-- the places that occur -/
structure Valid (p : Place) : Prop where
  names : ∀ w ∈ p.down, FileName w
  root : p.rooted = true → p.ups = 0

theorem valid_follow {p : Place} (h : Valid p) {w : List Char} (hw : '/' ∉ w) : Valid (p.follow w) := by
  unfold Place.follow
  split_ifs with h1 h2 h3 h4
  · exact h
  · exact ⟨fun v hv => h.names v (List.dropLast_subset _ hv), h.root⟩
  · exact h
  · exact ⟨h.names, fun hr => absurd hr h4⟩
  · refine ⟨?_, h.root⟩
    intro v hv
    rcases List.mem_append.1 hv with hv | hv
    · exact h.names v hv
    · rw [List.mem_singleton.1 hv]
      exact ⟨fun hh => h1 (Or.inl hh), hw, fun hh => h1 (Or.inr hh), h2⟩

theorem follow_rooted (p : Place) (w : List Char) : (p.follow w).rooted = p.rooted := by
  unfold Place.follow
  split_ifs <;> rfl

theorem foldl_rooted (ws : List (List Char)) (p : Place) : (ws.foldl Place.follow p).rooted = p.rooted := by
  induction ws generalizing p with
  | nil => rfl
  | cons w ws ih => rw [List.foldl_cons, ih, follow_rooted]

theorem valid_foldl (ws : List (List Char)) (hws : ∀ w ∈ ws, '/' ∉ w) (p : Place) (h : Valid p) : Valid (ws.foldl Place.follow p) := by
  induction ws generalizing p with
  | nil => exact h
  | cons w ws ih => exact ih (fun v hv => hws v (by simp [hv])) _ (valid_follow h (hws w (by simp)))

theorem valid_place (p : List Char) : Valid (place p) :=
  valid_foldl _ (elements_slashless p) _ ⟨by simp, fun _ => rfl⟩

/-- the elements of the cleaned path -/
def _root_.Verif.Spec.Paths.Place.words (p : Place) : List (List Char) := List.replicate p.ups ['.', '.'] ++ p.down

theorem words_follow {p : Place} (h : Valid p) (w : List Char) :
    cleanStep p.rooted p.words.reverse w = (p.follow w).words.reverse := by
  obtain ⟨rooted, ups, down⟩ := p
  unfold cleanStep Place.follow Place.words
  dsimp only
  by_cases h1 : w = [] ∨ w = ['.']
  · rw [if_pos h1, if_pos h1]
  · rw [if_neg h1, if_neg h1]
    by_cases h2 : w = ['.', '.']
    · rw [if_pos h2, if_pos h2]
      rcases List.eq_nil_or_concat down with rfl | ⟨l, x, rfl⟩
      · rw [if_neg (show ¬ (([] : List (List Char)) ≠ []) from fun hh => hh rfl), List.append_nil, List.reverse_replicate]
        cases rooted with
        | true =>
          have : ups = 0 := h.root rfl
          subst this
          rw [if_pos rfl]
          rfl
        | false =>
          show _ = (List.replicate (ups + 1) ['.', '.'] ++ []).reverse
          rw [List.append_nil, List.reverse_replicate]
          cases ups with
          | zero => rw [h2]; rfl
          | succ n =>
            subst h2
            rw [List.replicate_succ, List.replicate_succ, List.replicate_succ]
            exact if_pos rfl
      · have hx := (h.names x (by simp)).2.2.2
        rw [if_pos (show l.concat x ≠ [] by simp)]
        simp [hx]
    · rw [if_neg h2, if_neg h2]
      simp

theorem words_foldl (ws : List (List Char)) (hws : ∀ w ∈ ws, '/' ∉ w) (p : Place) (h : Valid p) :
    ws.foldl (cleanStep p.rooted) p.words.reverse = (ws.foldl Place.follow p).words.reverse := by
  induction ws generalizing p with
  | nil => rfl
  | cons w ws ih =>
    rw [List.foldl_cons, List.foldl_cons, words_follow h, ← follow_rooted p w]
    exact ih (fun v hv => hws v (by simp [hv])) _ (valid_follow h (hws w (by simp)))

/-- the cleaned path of a place -/
def render (p : Place) : List Char :=
  if p.rooted then '/' :: joinSlash p.words else if joinSlash p.words = [] then ['.'] else joinSlash p.words

theorem clean_eq (p : List Char) : clean p = render (place p) := by
  have h := words_foldl (elements p) (elements_slashless p) ⟨p.head? == some '/', 0, []⟩ ⟨by simp, fun _ => rfl⟩
  have hr : (place p).rooted = (p.head? == some '/') := foldl_rooted _ _
  unfold clean render
  rw [splitSlash_eq, hr]
  dsimp only
  have h' : (elements p).foldl (cleanStep (p.head? == some '/')) [] = (place p).words.reverse := h
  rw [h', List.reverse_reverse]

theorem joinSlash_head {w : List Char} {ws : List (List Char)} (hw : w ≠ []) : (joinSlash (w :: ws)).head? = w.head? := by
  cases ws with
  | nil => rfl
  | cons v vs =>
    show (w ++ '/' :: joinSlash (v :: vs)).head? = _
    cases w with
    | nil => exact absurd rfl hw
    | cons c cs => rfl

theorem words_mem {p : Place} (h : Valid p) : ∀ w ∈ p.words, w ≠ [] ∧ '/' ∉ w := by
  intro w hw
  rcases List.mem_append.1 hw with hw | hw
  · rw [(List.mem_replicate.1 hw).2]
    exact ⟨by simp, by decide⟩
  · exact ⟨(h.names w hw).1, (h.names w hw).2.1⟩

theorem foldl_down (ws : List (List Char)) (h : ∀ w ∈ ws, FileName w) (p : Place) :
    ws.foldl Place.follow p = { p with down := p.down ++ ws } := by
  induction ws generalizing p with
  | nil => simp
  | cons w ws ih =>
    obtain ⟨h1, h2, h3, h4⟩ := h w (by simp)
    rw [List.foldl_cons, ih fun v hv => h v (by simp [hv])]
    unfold Place.follow
    rw [if_neg (by simp [h1, h3]), if_neg h4]
    simp

theorem foldl_ups (n k : Nat) : (List.replicate n ['.', '.']).foldl Place.follow ⟨false, k, []⟩ = ⟨false, k + n, []⟩ := by
  induction n generalizing k with
  | zero => rfl
  | succ n ih =>
    rw [List.replicate_succ, List.foldl_cons]
    have : Place.follow ⟨false, k, []⟩ ['.', '.'] = ⟨false, k + 1, []⟩ := by simp [Place.follow]
    rw [this, ih]
    congr 1
    omega

theorem words_place {p : Place} (h : Valid p) : p.words.foldl Place.follow ⟨p.rooted, 0, []⟩ = p := by
  obtain ⟨rooted, ups, down⟩ := p
  unfold Place.words
  dsimp only
  rw [List.foldl_append]
  have hu : (List.replicate ups ['.', '.']).foldl Place.follow ⟨rooted, 0, []⟩ = ⟨rooted, ups, []⟩ := by
    cases rooted with
    | true =>
      have : ups = 0 := h.root rfl
      subst this
      rfl
    | false => rw [foldl_ups, Nat.zero_add]
  rw [hu, foldl_down _ h.names]
  rfl

theorem place_render {p : Place} (h : Valid p) : place (render p) = p := by
  have hw := words_mem h
  have key := words_place h
  cases hws : p.words with
  | nil =>
    rw [hws] at key
    unfold render
    rw [hws]
    cases hr : p.rooted with
    | true =>
      rw [hr] at key
      rw [if_pos rfl, ← key]
      decide
    | false =>
      rw [hr] at key
      rw [if_neg (by simp), if_pos (show joinSlash [] = [] from rfl), ← key]
      decide
  | cons w ws =>
    have hhead := joinSlash_head (ws := ws) (hw w (by rw [hws]; simp)).1
    have hel : elements (joinSlash (w :: ws)) = w :: ws :=
      elements_join (by simp) fun v hv => (hw v (by rw [hws]; exact hv)).2
    have hne : joinSlash (w :: ws) ≠ [] := by
      intro hh
      rw [hh] at hhead
      have := (hw w (by rw [hws]; simp)).1
      cases w with
      | nil => exact this rfl
      | cons c cs => simp at hhead
    have hslash : (joinSlash (w :: ws)).head? ≠ some '/' := by
      rw [hhead]
      intro hh
      have := (hw w (by rw [hws]; simp)).2
      cases w with
      | nil => simp at hh
      | cons c cs =>
        have : c = '/' := by simpa using hh
        subst this
        simp at *
    rw [hws] at key
    unfold render
    rw [hws]
    cases hr : p.rooted with
    | true =>
      rw [hr] at key
      rw [if_pos rfl]
      unfold place
      rw [elements, if_pos rfl, hel, List.foldl_cons]
      refine Eq.trans ?_ key
      rfl
    | false =>
      rw [hr] at key
      rw [if_neg (by simp), if_neg hne]
      unfold place
      rw [hel]
      have : ((joinSlash (w :: ws)).head? == some '/') = false := by
        rw [beq_eq_false_iff_ne]
        exact hslash
      rw [this]
      exact key

theorem place_clean (p : List Char) : place (clean p) = place p := by
  rw [clean_eq]
  exact place_render (valid_place p)

theorem clean_inj (p q : List Char) : clean p = clean q ↔ place p = place q := by
  constructor
  · intro h
    rw [← place_clean p, ← place_clean q, h]
  · intro h
    rw [clean_eq, clean_eq, h]

theorem join_two (d w : List Char) (hd : d ≠ []) : join [d, w] = clean (d ++ '/' :: w) := by
  unfold join
  rw [if_neg hd]
  rfl

theorem place_child (d w : List Char) (hd : d ≠ []) (hw : FileName w) :
    place (d ++ '/' :: w) = { place d with down := (place d).down ++ [w] } := by
  unfold place
  rw [elements_append, elements_plain hw.2.1, List.foldl_append, foldl_down [w] (by simpa using hw)]
  cases d with
  | nil => exact absurd rfl hd
  | cons c cs => rfl

theorem dirOf_append (d w : List Char) (hw : '/' ∉ w) : dirOf (d ++ '/' :: w) = clean (d ++ ['/']) := by
  unfold dirOf
  rw [List.reverse_append, List.reverse_cons, List.append_assoc, List.dropWhile_append_of_pos]
  · simp
  · intro c hc
    have : c ∈ w := List.mem_reverse.1 hc
    have : c ≠ '/' := fun hh => hw (hh ▸ this)
    simpa using this

theorem joinSlash_snoc (ws : List (List Char)) (w : List Char) : joinSlash (ws ++ [w]) = if ws = [] then w else joinSlash ws ++ '/' :: w := by
  induction ws with
  | nil => rfl
  | cons v vs ih =>
    rw [if_neg (by simp)]
    cases vs with
    | nil => rfl
    | cons u us =>
      show v ++ '/' :: joinSlash (u :: us ++ [w]) = (v ++ '/' :: joinSlash (u :: us)) ++ '/' :: w
      rw [ih, if_neg (by simp)]
      simp

theorem words_child (p : Place) (w : List Char) : Place.words ⟨p.rooted, p.ups, p.down ++ [w]⟩ = p.words ++ [w] := by
  unfold Place.words
  simp

theorem joinSlash_ne {ws : List (List Char)} (hne : ws ≠ []) (h : ∀ w ∈ ws, w ≠ []) : joinSlash ws ≠ [] := by
  cases ws with
  | nil => exact absurd rfl hne
  | cons v vs =>
    have hv := h v (by simp)
    cases vs with
    | nil => exact hv
    | cons u us =>
      intro hh
      have := congrArg List.length hh
      simp [joinSlash] at this

/-- the text before the name -/
def front (p : Place) : List Char :=
  if p.words = [] then (if p.rooted then ['/'] else []) else render p ++ ['/']

theorem render_child {p : Place} (h : Valid p) {w : List Char} (hw : w ≠ []) : render ⟨p.rooted, p.ups, p.down ++ [w]⟩ = front p ++ w := by
  unfold render front
  rw [words_child, joinSlash_snoc]
  by_cases h0 : p.words = []
  · rw [if_pos h0, if_pos h0]
    cases p.rooted
    · simp [hw]
    · simp
  · rw [if_neg h0, if_neg h0]
    have hj : joinSlash p.words ≠ [] := joinSlash_ne h0 fun w hw => (words_mem h w hw).1
    unfold render
    cases p.rooted
    · simp [hj]
    · simp

theorem clean_front {p : Place} (h : Valid p) : place (front p) = p := by
  unfold front
  by_cases h0 : p.words = []
  · rw [if_pos h0]
    have h1 : p.ups = 0 ∧ p.down = [] := by
      unfold Place.words at h0
      simpa using h0
    obtain ⟨r, u, dn⟩ := p
    obtain ⟨rfl, rfl⟩ := h1
    cases r <;> rfl
  · rw [if_neg h0]
    have h1 := place_render h
    have hne : render p ≠ [] := by
      have hj : joinSlash p.words ≠ [] := joinSlash_ne h0 fun w hw => (words_mem h w hw).1
      unfold render
      cases p.rooted
      · simp [hj]
      · simp
    unfold place at h1 ⊢
    rw [elements_append, List.foldl_append]
    have e : (render p ++ ['/']).head? = (render p).head? := by
      cases hr : render p with
      | nil => exact absurd hr hne
      | cons c cs => rfl
    rw [e, h1]
    rfl

theorem dirOf_child {p : Place} (h : Valid p) {w : List Char} (hw : '/' ∉ w) : dirOf (front p ++ w) = render p := by
  have key : ((front p ++ w).reverse.dropWhile (· ≠ '/')).reverse = front p := by
    rw [List.reverse_append, List.dropWhile_append_of_pos]
    · have : front p = [] ∨ ∃ b, front p = b ++ ['/'] := by
        unfold front
        by_cases h0 : p.words = []
        · rw [if_pos h0]
          cases p.rooted
          · exact Or.inl rfl
          · exact Or.inr ⟨[], rfl⟩
        · rw [if_neg h0]
          exact Or.inr ⟨_, rfl⟩
      rcases this with e | ⟨b, e⟩
      · rw [e]; rfl
      · rw [e]; simp
    · intro c hc
      have : c ∈ w := List.mem_reverse.1 hc
      have : c ≠ '/' := fun hh => hw (hh ▸ this)
      simpa using this
  unfold dirOf
  rw [key, clean_eq, clean_front h]

theorem natDigits_slash (n : Nat) : '/' ∉ (toString n).toList := by
  rw [show (toString n).toList = Nat.toDigits 10 n from by simp [ToString.toString, Nat.repr]]
  intro hh
  have := Nat.isDigit_of_mem_toDigits (b := 10) (by decide) (by decide) hh
  simp [Char.isDigit] at this

theorem natDigits_ne (n : Nat) : (toString n).toList ≠ [] := by
  rw [show (toString n).toList = Nat.toDigits 10 n from by simp [ToString.toString, Nat.repr]]
  exact Nat.toDigits_ne_nil

theorem intDigits_slash (n : Int) : '/' ∉ (toString n).toList := by
  cases n with
  | ofNat n => exact natDigits_slash n
  | negSucc n =>
    rw [show (toString (Int.negSucc n)).toList = '-' :: (toString (n + 1)).toList from by simp [ToString.toString, Int.repr]]
    intro hh
    rcases List.mem_cons.1 hh with hh | hh
    · exact absurd hh (by decide)
    · exact natDigits_slash _ hh

theorem fileName_temp {w : List Char} (hw : FileName w) (n : Nat) : FileName (Paths.tempPath w n) := by
  obtain ⟨h1, h2, h3, h4⟩ := hw
  have hp : 0 < (toString n).toList.length := List.length_pos_iff.2 (natDigits_ne n)
  have hl : (Paths.tempPath w n).length = w.length + ((toString n).toList.length + 1) := by simp [Paths.tempPath]
  have hw : 0 < w.length := List.length_pos_iff.2 h1
  refine ⟨?_, ?_, ?_, ?_⟩
  · intro hh; rw [hh] at hl; simp at hl
  · unfold Paths.tempPath
    intro hh
    rcases List.mem_append.1 hh with hh | hh
    · exact h2 hh
    · rcases List.mem_cons.1 hh with hh | hh
      · exact absurd hh (by decide)
      · exact natDigits_slash n hh
  · intro hh; rw [hh] at hl; simp at hl hp hw; omega
  · intro hh; rw [hh] at hl; simp at hl hp hw; omega

end Verif.Dag.Paths
