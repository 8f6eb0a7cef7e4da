import Verif.Model.InMem.Progpow
import Verif.Proof.InMem.Ethash

/-! # ProgPoW with memory -/

set_option autoImplicit false

namespace Verif.Progpow.InMem

open Go Crypto Convutil.InMem Ethash.InMem

/-! ## Slices of slices -/

/-- every slice has the elements of the list at its place -/
def HeldAll (h : Heap) (rows : List (Slice .word)) (mss : List (List U32)) : Prop :=
  rows.length = mss.length ∧ ∀ (j : Nat) (s : Slice .word) (xs : List U32), rows[j]? = some s → mss[j]? = some xs → Held h s xs

/-- the slices are in different arrays -/
def Apart (rows : List (Slice .word)) : Prop :=
  ∀ (i j : Nat) (s r : Slice .word), rows[i]? = some s → rows[j]? = some r → i ≠ j → s.arr ≠ r.arr

/-- the arrays of the slices -/
def within (rows : List (Slice .word)) : Ty → Nat → Prop := fun t i => t = .word ∧ ∃ s ∈ rows, s.arr = i

def WritesAll (m : Mem Unit) (h : Heap) (rows : List (Slice .word)) (g : Go (List (List U32))) : Prop :=
  Runs m h g fun _ b h' => Frame h h' (within rows) ∧ HeldAll h' rows b

theorem HeldAll.keep {h h' : Heap} {rows : List (Slice .word)} {mss : List (List U32)} (hk : HeldAll h rows mss) (hf : Frame h h' none) : HeldAll h' rows mss :=
  ⟨hk.1, fun j s xs h1 h2 => (hk.2 j s xs h1 h2).keep hf⟩

theorem HeldAll.other {h h' : Heap} {rows : List (Slice .word)} {mss : List (List U32)} (hk : HeldAll h rows mss) {r : Slice .word} (hf : Frame h h' (only r))
    (hn : ¬ within rows .word r.arr) : HeldAll h' rows mss :=
  ⟨hk.1, fun j s xs h1 h2 => (hk.2 j s xs h1 h2).other hf (Or.inr fun e => hn ⟨rfl, s, List.mem_of_getElem? h1, e⟩)⟩

theorem HeldAll.old {h : Heap} {rows : List (Slice .word)} {mss : List (List U32)} (hk : HeldAll h rows mss) {i : Nat} (hi : newer h .word i) :
    ¬ within rows .word i := by
  rintro ⟨_, s, hs, rfl⟩
  obtain ⟨j, hj⟩ := List.mem_iff_getElem?.1 hs
  have hlt := (List.getElem?_eq_some_iff.1 hj).1
  rw [hk.1] at hlt
  exact (hk.2 j s _ hj (List.getElem?_eq_getElem hlt)).old hi

theorem Held.beside {h h' : Heap} {t : Ty} {s : Slice t} {xs : List t.Val} {rows : List (Slice .word)} (hs : Held h s xs) (hf : Frame h h' (within rows))
    (hn : ¬ within rows t s.arr) : Held h' s xs := hs.frame hf hn

theorem frame_within {B h h' : Heap} {rows : List (Slice .word)} (F : Frame B h none) (G : Frame h h' (within rows)) (hn : ∀ s ∈ rows, newer B .word s.arr) :
    Frame B h' none := F.own G (by rintro _ _ ⟨rfl, s, hs, rfl⟩; exact hn s hs)

/-- a statement that writes to one row -/
theorem writesAll_row {h : Heap} {rows : List (Slice .word)} {mss : List (List U32)} (hk : HeldAll h rows mss) (ha : Apart rows) (l : Nat)
    {k : Slice .word → Mem Unit} {g : List U32 → Go (List U32)} (hw : ∀ s xs, Held h s xs → Writes (k s) h s (g xs)) :
    WritesAll (do let row ← Mem.lift (Go.idx rows l); k row) h rows (do let row ← Go.idx mss l; let row ← g row; Go.upd mss l row) := by
  intro b hb
  cases hx : mss[l]? with
  | none => rw [show Go.idx mss l = .error (.panic .index) by unfold Go.idx; rw [hx]] at hb; cases hb
  | some xs =>
    have hlm := (List.getElem?_eq_some_iff.1 hx).1
    have hlr : l < rows.length := by rw [hk.1]; exact hlm
    obtain ⟨s, hs⟩ : ∃ s, rows[l]? = some s := ⟨_, List.getElem?_eq_getElem hlr⟩
    rw [show Go.idx mss l = .ok xs by unfold Go.idx; rw [hx]] at hb
    replace hb : (g xs >>= fun row => Go.upd mss l row) = .ok b := hb
    cases hg : g xs with
    | error e => rw [hg] at hb; cases hb
    | ok ys =>
      rw [hg] at hb
      replace hb : Go.upd mss l ys = .ok b := hb
      unfold Go.upd at hb
      rw [if_pos hlm] at hb
      obtain rfl := Except.ok.inj hb
      obtain ⟨u, h', e, G, kk⟩ := hw s xs (hk.2 l s xs hs hx) ys hg
      refine ⟨u, h', ?_, G.mono ?_, ?_, ?_⟩
      · have e0 : Mem.lift (Go.idx rows l) h = .ok (s, h) := by unfold Mem.lift Go.idx; rw [hs]
        rw [Mem.bind_ok e0]; exact e
      · rintro _ _ ⟨rfl, rfl⟩
        exact ⟨rfl, s, List.mem_of_getElem? hs, rfl⟩
      · rw [List.length_set]; exact hk.1
      · intro j r zs hr hz
        by_cases hj : j = l
        · subst hj
          rw [hs] at hr
          obtain rfl := Option.some.inj hr
          rw [List.getElem?_set_self hlm] at hz
          obtain rfl := Option.some.inj hz
          exact kk
        · rw [List.getElem?_set_ne (Ne.symm hj)] at hz
          exact (hk.2 j r zs hr hz).other G (Or.inr (ha j l r s hr hs hj))

theorem writesAll_each {f : Nat → Mem Unit} {g : Nat → List (List U32) → Go (List (List U32))} {h : Heap} {rows : List (Slice .word)} {mss : List (List U32)}
    (lo hi : Nat) (hs : HeldAll h rows mss)
    (hb : ∀ j h1 ys, lo ≤ j → j < hi → Frame h h1 (within rows) → HeldAll h1 rows ys → WritesAll (f j) h1 rows (g j ys)) :
    WritesAll (Mem.each lo hi f) h rows (Go.forRange lo hi mss g) := by
  refine runs_forRange (fun (_ : Unit) b h' => Frame h h' (within rows) ∧ HeldAll h' rows b) lo hi () mss h ⟨Frame.refl _ _, hs⟩ ?_
  rintro j _ ys h1 hj hj' ⟨f1, k1⟩
  exact (hb j h1 ys hj hj' f1 k1).post fun _ _ _ _ q => ⟨f1.trans q.1, q.2⟩

/-- the row of a lane, for reading -/
theorem runs_row {γ δ : Type} {h : Heap} {rows : List (Slice .word)} {mss : List (List U32)} (hk : HeldAll h rows mss) (l : Nat) {k : Slice .word → Mem γ}
    {f : List U32 → Go δ} {Q : γ → δ → Heap → Prop} (hq : ∀ s xs, Held h s xs → Runs (k s) h (f xs) Q) :
    Runs (Mem.lift (Go.idx rows l) >>= k) h (Go.idx mss l >>= f) Q := by
  intro b hb
  cases hx : mss[l]? with
  | none => rw [show Go.idx mss l = .error (.panic .index) by unfold Go.idx; rw [hx]] at hb; cases hb
  | some xs =>
    have hlm := (List.getElem?_eq_some_iff.1 hx).1
    have hlr : l < rows.length := by rw [hk.1]; exact hlm
    obtain ⟨s, hs⟩ : ∃ s, rows[l]? = some s := ⟨_, List.getElem?_eq_getElem hlr⟩
    rw [show Go.idx mss l = .ok xs by unfold Go.idx; rw [hx]] at hb
    have e0 : Mem.lift (Go.idx rows l) h = .ok (s, h) := by unfold Mem.lift Go.idx; rw [hs]
    rw [Mem.bind_ok e0]
    exact hq s xs (hk.2 l s xs hs hx) b hb

theorem runs_mergeAt {h : Heap} {rows : List (Slice .word)} {mss : List (List U32)} (hk : HeldAll h rows mss) (ha : Apart rows) (l : Nat) (dst data sel : U32) :
    WritesAll (mergeAt rows l dst data sel) h rows (Progpow.mergeAt mss l dst data sel) := by
  have := writesAll_row (k := fun row => do
    let a ← Mem.idx row dst.toNat
    Mem.upd row dst.toNat (randomMerge a data sel)) (g := fun row => do
    let a ← Go.idx row dst.toNat
    Go.upd row dst.toNat (randomMerge a data sel)) hk ha l fun s xs ks => Runs.val (runs_idx ks _) fun a _ => runs_upd ks _ _
  unfold mergeAt Progpow.mergeAt
  simp only [bind_assoc] at this
  exact this

theorem runs_cacheLane {h : Heap} {rows : List (Slice .word)} {mss : List (List U32)} (hk : HeldAll h rows mss) (ha : Apart rows) (cfg : Config)
    {l1 : Slice .word} {cs : List U32} (hc : Held h l1 cs) (src dst sel : U32) (l : Nat) :
    WritesAll (cacheLane cfg l1 src dst sel rows l) h rows (Progpow.cacheLane cfg cs src dst sel l mss) := by
  unfold cacheLane Progpow.cacheLane
  refine runs_row hk l fun s xs ks => ?_
  refine Runs.val (runs_idx ks _) fun x _ => ?_
  refine Runs.val Runs.lift fun o _ => ?_
  refine Runs.val (runs_idx hc _) fun d _ => ?_
  exact runs_mergeAt hk ha l dst d sel

theorem runs_mathLane {h : Heap} {rows : List (Slice .word)} {mss : List (List U32)} (hk : HeldAll h rows mss) (ha : Apart rows) (src1 src2 sel1 dst sel2 : U32) (l : Nat) :
    WritesAll (mathLane src1 src2 sel1 dst sel2 rows l) h rows (Progpow.mathLane src1 src2 sel1 dst sel2 l mss) := by
  unfold mathLane Progpow.mathLane
  refine runs_row hk l fun s xs ks => ?_
  refine Runs.val (runs_idx ks _) fun x _ => ?_
  refine Runs.val (runs_idx ks _) fun y _ => ?_
  exact runs_mergeAt hk ha l dst _ sel2

/-- the relation of a step with the state of the generator and the rows -/
def Ops (h : Heap) (rows : List (Slice .word)) (a : MixRngState) (b : MixRngState × List (List U32)) (h' : Heap) : Prop :=
  a = b.1 ∧ Frame h h' (within rows) ∧ HeldAll h' rows b.2

theorem runs_cacheOp {h : Heap} {rows : List (Slice .word)} {mss : List (List U32)} (hk : HeldAll h rows mss) (ha : Apart rows) (cfg : Config)
    {l1 : Slice .word} {cs : List U32} (hc : Held h l1 cs) (hn : ¬ within rows .word l1.arr) (state : MixRngState) :
    Runs (cacheOp cfg l1 rows state) h (Progpow.cacheOp cfg cs (state, mss)) (Ops h rows) := by
  unfold cacheOp Progpow.cacheOp
  dsimp only
  refine Runs.val Runs.lift fun p _ => ?_
  refine Runs.val Runs.lift fun q _ => ?_
  refine Runs.last (writesAll_each 0 cfg.laneCount hk fun j h1 ys _ _ f1 k1 => ?_) fun _ b h' _ q => ⟨rfl, q.1, q.2⟩
  exact runs_cacheLane k1 ha cfg (Held.beside hc f1 hn) _ _ _ _

theorem runs_mathOp {h : Heap} {rows : List (Slice .word)} {mss : List (List U32)} (hk : HeldAll h rows mss) (ha : Apart rows) (cfg : Config) (state : MixRngState) :
    Runs (mathOp cfg rows state) h (Progpow.mathOp cfg (state, mss)) (Ops h rows) := by
  unfold mathOp Progpow.mathOp
  dsimp only
  refine Runs.val Runs.lift fun _ _ => ?_
  refine Runs.val Runs.lift fun _ _ => ?_
  refine Runs.val Runs.lift fun _ _ => ?_
  refine Runs.val Runs.lift fun q _ => ?_
  refine Runs.last (writesAll_each 0 cfg.laneCount hk fun j h1 ys _ _ f1 k1 => ?_) fun _ b h' _ q => ⟨rfl, q.1, q.2⟩
  exact runs_mathLane k1 ha _ _ _ _ _ _

theorem runs_opStep {h : Heap} {rows : List (Slice .word)} {mss : List (List U32)} (hk : HeldAll h rows mss) (ha : Apart rows) (cfg : Config)
    {l1 : Slice .word} {cs : List U32} (hc : Held h l1 cs) (hn : ¬ within rows .word l1.arr) (i : Nat) (state : MixRngState) :
    Runs (opStep cfg l1 rows i state) h (Progpow.opStep cfg cs i (state, mss)) (Ops h rows) := by
  have h2 : ∀ (a : MixRngState) (b : MixRngState × List (List U32)) (h' : Heap), Ops h rows a b h' →
      Runs (if i < cfg.roundMathOperations then mathOp cfg rows a else Pure.pure a) h'
        (if i < cfg.roundMathOperations then Progpow.mathOp cfg b else Pure.pure b) (Ops h rows) := by
    rintro _ ⟨s, mss⟩ h' ⟨rfl, f1, k1⟩
    by_cases hi : i < cfg.roundMathOperations
    · rw [if_pos hi, if_pos hi]
      exact Runs.post (runs_mathOp k1 ha cfg _) fun _ _ _ _ q => ⟨q.1, f1.trans q.2.1, q.2.2⟩
    · rw [if_neg hi, if_neg hi]; exact Runs.pure ⟨rfl, f1, k1⟩
  unfold opStep Progpow.opStep
  dsimp only
  by_cases hi : i < cfg.roundCacheAccesses
  · rw [if_pos hi, if_pos hi]
    exact Runs.bind (runs_cacheOp hk ha cfg hc hn state) fun a b h' _ q => h2 a b h' q
  · rw [if_neg hi, if_neg hi]
    exact Runs.bind (Q := Ops h rows) (Runs.pure ⟨rfl, Frame.refl _ _, hk⟩) fun a b h' _ q => h2 a b h' q

theorem runs_dagLane {h : Heap} {rows : List (Slice .word)} {mss : List (List U32)} (hk : HeldAll h rows mss) (ha : Apart rows) (cfg : Config) (r : U32) (n : Nat)
    {item dsts sels : Slice .word} {is ds ss : List U32} (ki : Held h item is) (kd : Held h dsts ds) (ks : Held h sels ss)
    (ni : ¬ within rows .word item.arr) (nd : ¬ within rows .word dsts.arr) (ns : ¬ within rows .word sels.arr) (l : Nat) :
    WritesAll (dagLane cfg r n item dsts sels rows l) h rows (Progpow.dagLane cfg r n is ds ss l mss) := by
  unfold dagLane Progpow.dagLane
  refine Runs.val Runs.lift fun q _ => ?_
  refine writesAll_each 0 n hk fun j h1 ys _ _ f1 k1 => ?_
  unfold dagWord Progpow.dagWord
  refine Runs.val (runs_idx (Held.beside ki f1 ni) _) fun _ _ => ?_
  refine Runs.val (runs_idx (Held.beside kd f1 nd) _) fun _ _ => ?_
  refine Runs.val (runs_idx (Held.beside ks f1 ns) _) fun _ _ => ?_
  exact runs_mergeAt k1 ha l _ _ _

theorem runs_dagDraw {h : Heap} (n : Nat) {dsts sels : Slice .word} {ds ss : List U32} (kd : Held h dsts ds) (ks : Held h sels ss) (hne : dsts.arr ≠ sels.arr)
    (state : MixRngState) :
    Runs (Mem.forRange 0 n state (dagDraw dsts sels)) h (Go.forRange 0 n (state, ds, ss) Progpow.dagDraw)
      fun _ b h' => Frame h h' (fun t i => only dsts t i ∨ only sels t i) ∧ Held h' dsts b.2.1 ∧ Held h' sels b.2.2 := by
  refine Runs.post (runs_forRange (fun (a : MixRngState) (b : MixRngState × List U32 × List U32) h' =>
    a = b.1 ∧ Frame h h' (fun t i => only dsts t i ∨ only sels t i) ∧ Held h' dsts b.2.1 ∧ Held h' sels b.2.2) 0 n state (state, ds, ss) h
    ⟨rfl, Frame.refl _ _, kd, ks⟩ ?_) fun _ _ _ _ q => q.2
  rintro j _ ⟨s, ds, ss⟩ h1 _ _ ⟨rfl, f1, k1, k2⟩
  dsimp only at k1 k2
  unfold dagDraw Progpow.dagDraw
  dsimp only
  refine Runs.val Runs.lift fun p _ => ?_
  refine (runs_upd k1 _ _).bind fun ds' h2 _ G k1 => ?_
  replace f1 := f1.trans (G.mono fun _ _ h => Or.inl h)
  replace k2 := k2.other G (Or.inr hne.symm)
  refine Runs.last (runs_upd k2 _ _) fun _ b h' _ q => ⟨rfl, f1.trans (q.1.mono fun _ _ h => Or.inr h), k1.other q.1 (Or.inr hne), q.2⟩

theorem runs_round {B h : Heap} {rows : List (Slice .word)} {mss : List (List U32)} (F : Frame B h none) (hk : HeldAll h rows mss) (ha : Apart rows)
    (hnew : ∀ s ∈ rows, newer B .word s.arr) (cfg : Config) (seed : U64) (r : U32) (size : U64) {L : Lookup} {l : Progpow.Lookup} (hL : Like B L l)
    {l1 : Slice .word} {cs : List U32} (hc : Held B l1 cs) :
    Runs (round cfg seed r rows size L l1) h (Progpow.round cfg seed r mss size l cs) fun _ b h' => Frame B h' none ∧ HeldAll h' rows b := by
  have hn1 : ¬ within rows .word l1.arr := by
    rintro ⟨_, s, hs, e⟩
    exact hc.old (e ▸ hnew s hs)
  unfold round Progpow.round
  refine Runs.val Runs.lift fun state _ => ?_
  refine Runs.val Runs.lift fun lane _ => ?_
  refine runs_row hk _ fun s xs ks => ?_
  refine Runs.val (runs_idx ks _) fun x _ => ?_
  refine Runs.val Runs.lift fun ii _ => ?_
  refine Runs.bind (hL h F ii) fun item is h1 _ q => ?_
  obtain ⟨G, ki, ni⟩ := q
  replace ni := hk.old ni
  replace hk := hk.keep G
  replace F := F.trans G
  by_cases hz : cfg.laneCount = 0
  · rw [if_pos hz, if_pos hz]
    intro b hb
    cases hb
  rw [if_neg hz, if_neg hz]
  refine Runs.heap (h' := h1) (a := ()) rfl ?_
  rw [show is.length = item.len from ki.len]
  have hops := runs_forRange (f := opStep cfg l1 rows) (g := Progpow.opStep cfg cs) (Ops h1 rows) 0 (max cfg.roundCacheAccesses cfg.roundMathOperations)
    state (state, mss) h1 ⟨rfl, Frame.refl _ _, hk⟩ (by
      rintro j _ ⟨rs, mss⟩ h2 _ _ ⟨rfl, f2, k2⟩
      exact Runs.post (runs_opStep k2 ha cfg (Held.beside (hc.keep F) f2 hn1) hn1 j _) fun _ _ _ _ q => ⟨q.1, f2.trans q.2.1, q.2.2⟩)
  refine Runs.bind hops fun state' st h2 _ q => ?_
  obtain ⟨rs, mss⟩ := st
  obtain ⟨rfl, G, hk⟩ := q
  dsimp only at hk ⊢
  replace ki := Held.beside ki G ni
  replace F := frame_within F G hnew
  refine (makes_make h2 .word _).bind fun dsts h3 G kd nd => ?_
  have nd' := newer.mono F nd
  have hnd : item.arr ≠ dsts.arr := ki.ne nd G
  replace nd := hk.old nd
  replace hk := hk.keep G
  replace ki := ki.keep G
  replace F := F.trans G
  refine (makes_make h3 .word _).bind fun sels h4 G ks ns => ?_
  have hne : dsts.arr ≠ sels.arr := kd.ne ns G
  have ns' := newer.mono F ns
  have hns : item.arr ≠ sels.arr := ki.ne ns G
  replace ns := hk.old ns
  replace hk := hk.keep G
  replace ki := ki.keep G
  replace kd := kd.keep G
  replace F := F.trans G
  refine Runs.bind (runs_dagDraw _ kd ks hne _) fun _ st h5 _ q => ?_
  obtain ⟨_, ds, ss⟩ := st
  obtain ⟨G, kd, ks⟩ := q
  dsimp only at kd ks ⊢
  replace hk : HeldAll h5 rows mss := ⟨hk.1, fun j s xs h1 h2 => (hk.2 j s xs h1 h2).frame G (by
    rintro (⟨_, e⟩ | ⟨_, e⟩)
    · exact nd ⟨rfl, s, List.mem_of_getElem? h1, e⟩
    · exact ns ⟨rfl, s, List.mem_of_getElem? h1, e⟩)⟩
  replace ki := ki.frame G (by
    rintro (⟨_, e⟩ | ⟨_, e⟩)
    · exact hnd e
    · exact hns e)
  replace F := F.own G (by
    rintro t i (⟨rfl, rfl⟩ | ⟨rfl, rfl⟩)
    · exact nd'
    · exact ns')
  refine Runs.post (writesAll_each 0 cfg.laneCount hk fun j h6 ys _ _ f6 k6 => ?_) fun _ b h' _ q => ⟨frame_within F q.1 hnew, q.2⟩
  exact runs_dagLane k6 ha cfg r _ (Held.beside ki f6 ni) (Held.beside kd f6 nd) (Held.beside ks f6 ns) ni nd ns j

theorem runs_rowFill {h : Heap} {row : Slice .word} {xs : List U32} (kr : Held h row xs) (n : Nat) (rng : Kiss99) :
    Runs (Mem.forRange 0 n rng fun reg rng => do
      let (v, rng) := rng.next
      Mem.upd row reg v
      pure rng) h (Go.forRange 0 n (rng, xs) regStep) fun _ b h' => Frame h h' (only row) ∧ Held h' row b.2 := by
  refine Runs.post (runs_forRange (fun (a : Kiss99) (b : Kiss99 × List U32) h' => a = b.1 ∧ Frame h h' (only row) ∧ Held h' row b.2) 0 n rng (rng, xs) h
    ⟨rfl, Frame.refl _ _, kr⟩ ?_) fun _ _ _ _ q => q.2
  rintro j _ ⟨rng, ys⟩ h1 _ _ ⟨rfl, f1, k1⟩
  dsimp only at k1
  unfold regStep
  dsimp only
  exact Runs.last (runs_upd k1 _ _) fun _ b h' _ q => ⟨rfl, f1.trans q.1, q.2⟩

theorem upd_replicate {α : Type} (d : List α) (x y : α) (n : Nat) (hn : 0 < n) :
    Go.upd (d ++ List.replicate n x) d.length y = .ok ((d ++ [y]) ++ List.replicate (n - 1) x) := by
  obtain ⟨m, rfl⟩ : ∃ m, n = m + 1 := ⟨n - 1, by omega⟩
  unfold Go.upd
  rw [if_pos (by rw [List.length_append, List.length_replicate]; omega), List.replicate_succ, List.set_append_right _ _ (Nat.le_refl _), Nat.sub_self,
    List.set_cons_zero, Nat.add_sub_cancel, List.append_assoc]
  rfl

/-- the rows made so far -/
def Made (B : Heap) (n i : Nat) (a : List (Slice .word)) (b : List (List U32)) (h : Heap) : Prop :=
  Frame B h none ∧ ∃ rows mss, a = rows ++ List.replicate (n - i) ⟨0, 0, 0, 0⟩ ∧ b = mss ++ List.replicate (n - i) [] ∧ rows.length = i ∧
    HeldAll h rows mss ∧ Apart rows ∧ ∀ s ∈ rows, newer B .word s.arr

theorem runs_initMix (B : Heap) (seed : U64) (numLanes numRegs : Nat) :
    Runs (initMix seed numLanes numRegs) B (Progpow.initMix seed numLanes numRegs)
      fun a b h' => Frame B h' none ∧ HeldAll h' a b ∧ Apart a ∧ ∀ s ∈ a, newer B .word s.arr := by
  unfold initMix Progpow.initMix
  dsimp only
  unfold Mem.forRange Go.forRange
  refine Runs.post (runs_loop (Made B numLanes) (numLanes - 0) 0 _ _ B ⟨Frame.refl _ _, [], [], rfl, rfl, rfl, ⟨rfl, by simp⟩, ?_, ?_⟩ ?_) ?_
  · intro i j s r h1; cases h1
  · intro s hs; cases hs
  · rintro j a b h _ hj ⟨F, rows, mss, rfl, rfl, hlen, hk, ha, hn⟩
    unfold laneInit Progpow.laneInit
    dsimp only
    refine (makes_make h .word numRegs).bind fun row h1 G kr nr => ?_
    have nB := newer.mono F nr
    have hout := hk.old nr
    refine Runs.bind (runs_rowFill kr numRegs _) fun _ st h2 _ q => ?_
    obtain ⟨_, xs⟩ := st
    obtain ⟨G2, kr⟩ := q
    dsimp only at kr ⊢
    have hml : mss.length = j := by rw [← hk.1, hlen]
    have e1 := upd_replicate rows (⟨0, 0, 0, 0⟩ : Slice .word) row (numLanes - j) (by omega)
    have e2 := upd_replicate mss [] xs (numLanes - j) (by omega)
    rw [hlen] at e1
    rw [hml] at e2
    rw [e1, e2]
    refine Runs.pure ⟨(F.trans G).write G2 nB, rows ++ [row], mss ++ [xs], rfl, rfl, by rw [List.length_append, hlen]; rfl, ⟨?_, ?_⟩, ?_, ?_⟩
    · rw [List.length_append, List.length_append, hk.1]; rfl
    · intro i s ys hs hy
      by_cases hi : i < j
      · rw [List.getElem?_append_left (by omega)] at hs hy
        exact ((hk.2 i s ys hs hy).keep G).other G2 (Or.inr fun e => hout ⟨rfl, s, List.mem_of_getElem? hs, e⟩)
      · rw [List.getElem?_append_right (by omega)] at hs hy
        have hij : i = j := by
          have := (List.getElem?_eq_some_iff.1 hs).1
          simp only [List.length_singleton] at this
          omega
        subst hij
        rw [hlen, Nat.sub_self] at hs
        rw [hml, Nat.sub_self] at hy
        obtain rfl := Option.some.inj hs
        obtain rfl := Option.some.inj hy
        exact kr
    · have aux : ∀ i s, (rows ++ [row])[i]? = some s → (i < j ∧ s ∈ rows ∧ rows[i]? = some s) ∨ (i = j ∧ s = row) := by
        intro i s hs
        by_cases hi : i < j
        · rw [List.getElem?_append_left (by omega)] at hs
          exact Or.inl ⟨hi, List.mem_of_getElem? hs, hs⟩
        · rw [List.getElem?_append_right (by omega)] at hs
          have hij : i = j := by
            have := (List.getElem?_eq_some_iff.1 hs).1
            simp only [List.length_singleton] at this
            omega
          subst hij
          rw [hlen, Nat.sub_self] at hs
          exact Or.inr ⟨rfl, (Option.some.inj hs).symm⟩
      intro i k s r hs hr hne
      rcases aux i s hs with ⟨_, m1, g1⟩ | ⟨rfl, rfl⟩ <;> rcases aux k r hr with ⟨_, m2, g2⟩ | ⟨rfl, rfl⟩
      · exact ha i k s r g1 g2 hne
      · exact fun e => hout ⟨rfl, s, m1, e⟩
      · exact fun e => hout ⟨rfl, r, m2, e.symm⟩
      · exact absurd rfl hne
    · intro s hs
      rcases List.mem_append.1 hs with hs | hs
      · exact hn s hs
      · rw [List.mem_singleton.1 hs]; exact nB
  · rintro a b h' _ ⟨F, rows, mss, rfl, rfl, hlen, hk, ha, hn⟩
    rw [show numLanes - (0 + (numLanes - 0)) = 0 by omega]
    simp only [List.replicate_zero, List.append_nil]
    exact ⟨F, hk, ha, hn⟩

theorem builds_hash {B : Heap} (cfg : Config) (height seed size : U64) {L : Lookup} {l : Progpow.Lookup} (hL : Like B L l) {l1 : Slice .word} {cs : List U32}
    (hc : Held B l1 cs) : Builds (hash cfg height seed size L l1) B (Progpow.hash cfg height seed size l cs) := by
  unfold hash Progpow.hash
  refine Runs.bind (runs_initMix B seed cfg.laneCount cfg.registerCount) fun rows mss h1 _ q => ?_
  obtain ⟨F, hk, ha, hn⟩ := q
  refine Runs.val Runs.lift fun number _ => ?_
  have hr := runs_forRange (f := fun i (_ : Unit) => round cfg number (BitVec.ofNat 32 i) rows size L l1) (g := Progpow.hashRound cfg number size l cs)
    (fun (_ : Unit) b h' => Frame B h' none ∧ HeldAll h' rows b) 0 cfg.roundCount () mss h1 ⟨F, hk⟩ (by
      rintro j _ ys h2 _ _ ⟨F2, k2⟩
      exact runs_round F2 k2 ha hn cfg number _ size hL hc)
  refine Runs.bind hr fun _ mss h2 _ q => ?_
  obtain ⟨F, hk⟩ := q
  refine (makes_make h2 .word cfg.laneCount).bind fun lh h3 G kl nl => ?_
  have hout := hk.old nl
  replace nl := newer.mono F nl
  replace F := F.trans G
  replace hk := hk.keep G
  have hlane : Writes _ h3 lh (Go.forRange 0 cfg.laneCount (List.replicate cfg.laneCount 0) (laneHashStep cfg mss)) :=
    runs_each (f := fun l => do
      let row ← Mem.lift (Go.idx rows l)
      let h ← Mem.forRange 0 cfg.registerCount fnvOffsetBasis fun i (h : U32) => do
        let x ← Mem.idx row i
        pure (fnv1a h x)
      Mem.upd lh l h) 0 cfg.laneCount kl fun j h4 ys _ _ f4 k4 => by
        unfold laneHashStep
        refine runs_row (hk.other f4 hout) j fun s xs ks => ?_
        refine Runs.val ?_ fun h _ => runs_upd k4 _ _
        refine runs_forRange (fun (x y : U32) h' => x = y ∧ h' = h4) 0 _ _ _ h4 ⟨rfl, rfl⟩ ?_
        rintro i x _ _ _ _ ⟨rfl, rfl⟩
        unfold laneHashReg
        exact Runs.last (runs_idx ks _) fun _ _ _ _ q => ⟨by rw [q.1], q.2⟩
  refine hlane.bind fun ls h4 _ G kl => ?_
  replace F := F.write G nl
  obtain ⟨mh, h5, e, G, km, nm⟩ := makes_lit h4 .word (List.replicate 8 fnvOffsetBasis)
  refine Runs.heap e ?_
  have hne : lh.arr ≠ mh.arr := kl.ne nm G
  replace nm := newer.mono F nm
  replace F := F.trans G
  replace kl := kl.keep G
  have hmix : Writes _ h5 mh (Go.forRange 0 cfg.laneCount (List.replicate 8 fnvOffsetBasis) (mixHashStep ls)) :=
    runs_each (f := fun l => do
      let h ← Mem.idx mh (l % 8)
      let x ← Mem.idx lh l
      Mem.upd mh (l % 8) (fnv1a h x)) 0 cfg.laneCount km fun j h6 ys _ _ f6 k6 => by
        unfold mixHashStep
        refine Runs.val (runs_idx k6 _) fun _ _ => ?_
        exact Runs.val (runs_idx (kl.other f6 (Or.inr hne)) _) fun _ _ => runs_upd k6 _ _
  refine hmix.bind fun ms h6 _ G km => ?_
  replace F := F.write G nm
  intro b hb
  obtain ⟨a, h', e, G, k, n⟩ := builds_uint32ArrayToBytes km .little b hb
  exact ⟨a, h', e, F.trans G, k, newer.mono F n⟩

theorem runs_hashWords {h : Heap} {hash : Slice .byte} {xs : List Byte} (hh : Held h hash xs) (n : Nat) (seed : List U32) :
    Runs (Mem.forRange 0 n seed (hashWordStep hash)) h (Go.forRange 0 n seed (Progpow.hashWordStep xs)) fun a b h' => a = b ∧ h' = h := by
  refine runs_forRange (fun (x y : List U32) h' => x = y ∧ h' = h) 0 _ _ _ h ⟨rfl, rfl⟩ ?_
  rintro i x _ _ _ _ ⟨rfl, rfl⟩
  unfold hashWordStep Progpow.hashWordStep
  exact runs_slc_bind hh _ _ fun r b _ _ kr => Runs.val (runs_getU32 kr _) fun w _ => Runs.lift

theorem runs_mixWords {h : Heap} {mix : Slice .byte} {xs : List Byte} (hh : Held h mix xs) (n : Nat) (seed state : List U32) :
    Runs (Mem.forRange 0 n state (mixWordStep seed mix)) h (Go.forRange 0 n state (Progpow.mixWordStep seed xs)) fun a b h' => a = b ∧ h' = h := by
  refine runs_forRange (fun (x y : List U32) h' => x = y ∧ h' = h) 0 _ _ _ h ⟨rfl, rfl⟩ ?_
  rintro i x _ _ _ _ ⟨rfl, rfl⟩
  unfold mixWordStep Progpow.mixWordStep
  refine Runs.val Runs.lift fun _ _ => ?_
  refine Runs.val Runs.lift fun _ _ => ?_
  exact runs_slc_bind hh _ _ fun r b _ _ kr => Runs.val (runs_getU32 kr _) fun w _ => Runs.lift

theorem builds_headBytes (h : Heap) (state : List U32) :
    Builds (headBytes state) h (do let head ← Go.slc state 0 8; Convutil.uint32ArrayToBytes head .little) := by
  unfold headBytes
  obtain ⟨arr, h1, e, F, ka, na⟩ := makes_lit h .word state
  refine Runs.heap e ?_
  refine runs_slc_bind ka _ _ fun r b _ _ kr => ?_
  intro b hb
  obtain ⟨a, h', e, G, k, n⟩ := builds_uint32ArrayToBytes kr .little b hb
  exact ⟨a, h', e, F.trans G, k, newer.mono F n⟩

theorem runs_kawpowInitialize {h : Heap} {hash : Slice .byte} {xs : List Byte} (hh : Held h hash xs) (nonce : U64) :
    Runs (kawpowInitialize hash nonce) h (Progpow.kawpowInitialize xs nonce) fun a b h' => a = b ∧ h' = h := by
  unfold kawpowInitialize Progpow.kawpowInitialize
  refine Runs.val (runs_hashWords hh 8 _) fun _ _ => ?_
  refine Runs.val Runs.lift fun _ _ => ?_
  refine Runs.val Runs.lift fun _ _ => ?_
  refine Runs.val Runs.lift fun _ _ => ?_
  refine Runs.val Runs.lift fun _ _ => ?_
  exact Runs.last Runs.lift fun _ _ _ _ q => ⟨by rw [q.1], q.2⟩

theorem runs_firopowInitialize {h : Heap} {hash : Slice .byte} {xs : List Byte} (hh : Held h hash xs) (nonce : U64) :
    Runs (firopowInitialize hash nonce) h (Progpow.firopowInitialize xs nonce) fun a b h' => a = b ∧ h' = h := by
  unfold firopowInitialize Progpow.firopowInitialize
  refine Runs.val (runs_hashWords hh 8 _) fun _ _ => ?_
  refine Runs.val Runs.lift fun _ _ => ?_
  refine Runs.val Runs.lift fun _ _ => ?_
  refine Runs.val Runs.lift fun _ _ => ?_
  refine Runs.val Runs.lift fun _ _ => ?_
  refine Runs.val Runs.lift fun _ _ => ?_
  exact Runs.last Runs.lift fun _ _ _ _ q => ⟨by rw [q.1], q.2⟩

theorem runs_progpow094Initialize {h : Heap} {hash : Slice .byte} {xs : List Byte} (hh : Held h hash xs) (nonce : U64) :
    Runs (progpow094Initialize hash nonce) h (Progpow.progpow094Initialize xs nonce) fun a b h' => a = b ∧ h' = h := by
  unfold progpow094Initialize Progpow.progpow094Initialize
  refine Runs.val (runs_hashWords hh 8 _) fun _ _ => ?_
  refine Runs.val Runs.lift fun _ _ => ?_
  refine Runs.val Runs.lift fun _ _ => ?_
  refine Runs.val Runs.lift fun _ _ => ?_
  exact Runs.last Runs.lift fun _ _ _ _ q => ⟨by rw [q.1], q.2⟩

theorem builds_kawpowFinalize {h : Heap} (seed : List U32) {mix : Slice .byte} {xs : List Byte} (hm : Held h mix xs) :
    Builds (kawpowFinalize seed mix) h (Progpow.kawpowFinalize seed xs) := by
  unfold kawpowFinalize Progpow.kawpowFinalize
  refine Runs.val (runs_mixWords hm 8 seed _) fun _ _ => ?_
  refine Runs.val Runs.lift fun _ _ => ?_
  refine Runs.val Runs.lift fun _ _ => ?_
  exact builds_headBytes h _

theorem builds_firopowFinalize {h : Heap} (seed : List U32) {mix : Slice .byte} {xs : List Byte} (hm : Held h mix xs) :
    Builds (firopowFinalize seed mix) h (Progpow.firopowFinalize seed xs) := by
  unfold firopowFinalize Progpow.firopowFinalize
  refine Runs.val (runs_mixWords hm 8 seed _) fun _ _ => ?_
  refine Runs.val Runs.lift fun _ _ => ?_
  refine Runs.val Runs.lift fun _ _ => ?_
  refine Runs.val Runs.lift fun _ _ => ?_
  exact builds_headBytes h _

theorem builds_progpow094Finalize {h : Heap} (seed : List U32) {mix : Slice .byte} {xs : List Byte} (hm : Held h mix xs) :
    Builds (progpow094Finalize seed mix) h (Progpow.progpow094Finalize seed xs) := by
  unfold progpow094Finalize Progpow.progpow094Finalize
  refine Runs.val (runs_mixWords hm 8 seed _) fun _ _ => ?_
  refine Runs.val Runs.lift fun _ _ => ?_
  exact builds_headBytes h _

/-- two new slices, in different arrays -/
def Pair (h : Heap) (a : Slice .byte × Slice .byte) (b : List Byte × List Byte) (h' : Heap) : Prop :=
  Frame h h' none ∧ Held h' a.1 b.1 ∧ newer h .byte a.1.arr ∧ Held h' a.2 b.2 ∧ newer h .byte a.2.arr ∧ a.1.arr ≠ a.2.arr

theorem runs_whole {H : Heap} {init : Mem (List U32 × U64)} {ginit : Go (List U32 × U64)} {fin : List U32 → Slice .byte → Mem (Slice .byte)}
    {gfin : List U32 → List Byte → Go (List Byte)} (hi : Runs init H ginit fun a b h' => a = b ∧ h' = H)
    (hf : ∀ seed h mix xs, Held h mix xs → Builds (fin seed mix) h (gfin seed xs)) (cfg : Config) (height size : U64) {L : Lookup} {l : Progpow.Lookup}
    (hL : Like H L l) {l1 : Slice .word} {cs : List U32} (hc : Held H l1 cs) :
    Runs (do
      let (seed, head) ← init
      let mixHash ← InMem.hash cfg height head size L l1
      let digest ← fin seed mixHash
      pure (mixHash, digest)) H (do
      let (seed, head) ← ginit
      let mixHash ← Progpow.hash cfg height head size l cs
      let digest ← gfin seed mixHash
      return (mixHash, digest)) (Pair H) := by
  refine Runs.val hi fun p _ => ?_
  obtain ⟨seed, head⟩ := p
  refine Runs.bind (builds_hash cfg height head size hL hc) fun mix xs h1 _ q => ?_
  obtain ⟨F, km, nm⟩ := q
  refine Runs.last (hf seed h1 mix xs km) fun d ds h2 _ q => ?_
  obtain ⟨G, kd, nd⟩ := q
  exact ⟨F.trans G, km.keep G, nm, kd, newer.mono F nd, km.ne nd G⟩

theorem runs_kawpow {H : Heap} {hash : Slice .byte} {xs : List Byte} (hh : Held H hash xs) (height nonce size : U64) {L : Lookup} {l : Progpow.Lookup}
    (hL : Like H L l) {l1 : Slice .word} {cs : List U32} (hc : Held H l1 cs) :
    Runs (kawpow hash height nonce size L l1) H (Progpow.kawpow xs height nonce size l cs) (Pair H) :=
  runs_whole (runs_kawpowInitialize hh nonce) (fun seed _ _ _ hm => builds_kawpowFinalize seed hm) kawpowCfg height size hL hc

theorem runs_firopow {H : Heap} {hash : Slice .byte} {xs : List Byte} (hh : Held H hash xs) (height nonce size : U64) {L : Lookup} {l : Progpow.Lookup}
    (hL : Like H L l) {l1 : Slice .word} {cs : List U32} (hc : Held H l1 cs) :
    Runs (firopow hash height nonce size L l1) H (Progpow.firopow xs height nonce size l cs) (Pair H) :=
  runs_whole (runs_firopowInitialize hh nonce) (fun seed _ _ _ hm => builds_firopowFinalize seed hm) firopowCfg height size hL hc

theorem runs_progpow094 {H : Heap} {hash : Slice .byte} {xs : List Byte} (hh : Held H hash xs) (height nonce size : U64) {L : Lookup} {l : Progpow.Lookup}
    (hL : Like H L l) {l1 : Slice .word} {cs : List U32} (hc : Held H l1 cs) :
    Runs (progpow094 hash height nonce size L l1) H (Progpow.progpow094 xs height nonce size l cs) (Pair H) :=
  runs_whole (runs_progpow094Initialize hh nonce) (fun seed _ _ _ hm => builds_progpow094Finalize seed hm) progpow094Cfg height size hL hc

end Verif.Progpow.InMem
