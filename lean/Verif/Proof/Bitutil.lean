import Verif.Go.Prelude
import Verif.Model.Bitutil

set_option autoImplicit false

namespace Verif.Bitutil

open Go

/-- an input of length `n` either is the destination itself or does not overlap it -/
def Clear (dst a n : Int) : Prop := a = dst ∨ a + n ≤ dst ∨ dst + n ≤ a

/-- the bytes `< p` and `≥ q` of the destination have been written -/
def Done (dst a b n : Int) (m0 : Mem) (p q : Int) (m : Mem) : Prop :=
  ∀ x, m x = if dst ≤ x ∧ x < dst + n ∧ (x - dst < p ∨ q ≤ x - dst) then m0 (a + (x - dst)) ^^^ m0 (b + (x - dst)) else m0 x

section
variable {dst a b n : Int} {m0 m : Mem} {p q : Int}

theorem done_start : Done dst a b n m0 0 n m0 := by
  intro x
  by_cases h : dst ≤ x ∧ x < dst + n ∧ (x - dst < 0 ∨ n ≤ x - dst)
  · omega
  · rw [if_neg h]

theorem done_read (ha : Clear dst a n) (h : Done dst a b n m0 p q m) {i : Int} (h0 : 0 ≤ i) (hn : i < n) (hp : p ≤ i) (hq : i < q) :
    m (a + i) = m0 (a + i) := by
  rw [h (a + i), if_neg]
  rintro ⟨h1, h2, h3⟩
  rcases ha with h | h | h <;> omega

theorem done_read' (hb : Clear dst b n) (h : Done dst a b n m0 p q m) {i : Int} (h0 : 0 ≤ i) (hn : i < n) (hp : p ≤ i) (hq : i < q) :
    m (b + i) = m0 (b + i) := by
  rw [h (b + i), if_neg]
  rintro ⟨h1, h2, h3⟩
  rcases hb with h | h | h <;> omega

theorem done_chunk (ha : Clear dst a n) (hb : Clear dst b n) (h : Done dst a b n m0 p q m) {o w p' q' : Int}
    (hp0 : 0 ≤ p) (hqn : q ≤ n) (ho : p ≤ o) (hoq : o + w ≤ q)
    (hcov : ∀ i, (i < p' ∨ q' ≤ i) ↔ ((i < p ∨ q ≤ i) ∨ (o ≤ i ∧ i < o + w))) :
    Done dst a b n m0 p' q' (xorChunk w (dst + o) (a + o) (b + o) m) := by
  intro x
  unfold xorChunk
  by_cases hx : dst + o ≤ x ∧ x < dst + o + w
  · rw [if_pos hx, if_pos ⟨by omega, by omega, (hcov _).2 (Or.inr ⟨by omega, by omega⟩)⟩]
    have e1 : a + o + (x - (dst + o)) = a + (x - dst) := by omega
    have e2 : b + o + (x - (dst + o)) = b + (x - dst) := by omega
    rw [e1, e2, done_read ha h (by omega) (by omega) (by omega) (by omega),
      done_read' hb h (by omega) (by omega) (by omega) (by omega)]
  · rw [if_neg hx, h x]
    by_cases hc : dst ≤ x ∧ x < dst + n ∧ (x - dst < p ∨ q ≤ x - dst)
    · rw [if_pos hc, if_pos ⟨hc.1, hc.2.1, (hcov _).2 (Or.inl hc.2.2)⟩]
    · rw [if_neg hc, if_neg]
      rintro ⟨h1, h2, h3⟩
      rcases (hcov _).1 h3 with h4 | h4
      · exact hc ⟨h1, h2, h4⟩
      · omega

theorem done_fwd (ha : Clear dst a n) (hb : Clear dst b n) (h : Done dst a b n m0 p q m) {w : Int}
    (hp0 : 0 ≤ p) (hqn : q ≤ n) (hw : 0 ≤ w) (hoq : p + w ≤ q) :
    Done dst a b n m0 (p + w) q (xorChunk w (dst + p) (a + p) (b + p) m) :=
  done_chunk ha hb h hp0 hqn (Int.le_refl _) hoq (fun i => by omega)

theorem done_bwd (ha : Clear dst a n) (hb : Clear dst b n) (h : Done dst a b n m0 p q m) {w : Int}
    (hp0 : 0 ≤ p) (hqn : q ≤ n) (hw : 0 ≤ w) (hoq : p ≤ q - w) :
    Done dst a b n m0 p (q - w) (xorChunk w (dst + (q - w)) (a + (q - w)) (b + (q - w)) m) :=
  done_chunk ha hb h hp0 hqn hoq (by omega) (fun i => by omega)

theorem done_full (h : Done dst a b n m0 p q m) (hpq : q ≤ p) : Done dst a b n m0 n n m := by
  intro x
  rw [h x]
  by_cases hc : dst ≤ x ∧ x < dst + n
  · rw [if_pos ⟨hc.1, hc.2, by omega⟩, if_pos ⟨hc.1, hc.2, by omega⟩]
  · rw [if_neg (by tauto), if_neg (by tauto)]

/-! ### amd64 -/

theorem amd_loop16 (ha : Clear dst a n) (hb : Clear dst b n) : ∀ (fuel : Nat) (s : Amd), 0 ≤ s.ax → s.ax < s.dx → s.dx ≤ n →
    (s.dx - s.ax) % 16 = 0 → Done dst a b n m0 s.ax s.dx s.mem → s.dx - s.ax ≤ fuel →
    ∃ m', amdRun dst a b fuel .loop16b s = .ok m' ∧ Done dst a b n m0 n n m' := by
  intro fuel
  induction fuel with
  | zero => intro s h0 h1 h2 h3 h4 h5; omega
  | succ fuel ih =>
    intro s h0 h1 h2 h3 h4 h5
    have hd := done_fwd ha hb h4 (w := 16) h0 h2 (by omega) (by omega)
    simp only [amdRun, amdBlock]
    by_cases hne : s.dx ≠ s.ax + 16
    · rw [if_pos hne]
      simp only
      exact ih _ (by simp; omega) (by simp; omega) h2 (by simp; omega) hd (by simp; push_cast at h5; omega)
    · rw [if_neg hne]
      refine ⟨_, by cases fuel <;> rfl, done_full hd (by omega)⟩

theorem amd_aligned (ha : Clear dst a n) (hb : Clear dst b n) (fuel : Nat) (s : Amd) (h1 : 0 < s.dx) (h2 : s.dx ≤ n)
    (h3 : s.dx % 16 = 0) (h4 : Done dst a b n m0 0 s.dx s.mem) (h5 : s.dx + 1 ≤ fuel) :
    ∃ m', amdRun dst a b fuel .aligned s = .ok m' ∧ Done dst a b n m0 n n m' := by
  obtain ⟨f, rfl⟩ : ∃ f, fuel = f + 1 := ⟨fuel - 1, by omega⟩
  simp only [amdRun, amdBlock]
  exact amd_loop16 ha hb f _ (by simp) (by simpa using h1) h2 (by simpa using h3) h4 (by simp; push_cast at h5; omega)

theorem amd_notAligned8 (ha : Clear dst a n) (hb : Clear dst b n) (fuel : Nat) (s : Amd) (h1 : 0 < s.dx) (h2 : s.dx ≤ n)
    (h3 : s.dx % 16 = 8) (h4 : Done dst a b n m0 0 s.dx s.mem) (h5 : s.dx + 2 ≤ fuel) :
    ∃ m', amdRun dst a b fuel .notAligned s = .ok m' ∧ Done dst a b n m0 n n m' := by
  obtain ⟨f, rfl⟩ : ∃ f, fuel = f + 1 := ⟨fuel - 1, by omega⟩
  have hd := done_bwd ha hb h4 (w := 8) (by omega) h2 (by omega) (by omega)
  simp only [amdRun, amdBlock]
  rw [if_neg (by omega)]
  by_cases hge : 16 ≤ s.dx - 8
  · rw [if_pos hge]
    exact amd_aligned ha hb f _ (by simp; omega) (by simp; omega) (by simp; omega) hd (by simp; push_cast at h5; omega)
  · rw [if_neg hge]
    exact ⟨_, by cases f <;> rfl, done_full hd (by omega)⟩

theorem amd_loop1 (ha : Clear dst a n) (hb : Clear dst b n) : ∀ (fuel : Nat) (s : Amd), 0 < s.dx → s.dx ≤ n →
    s.dx % 8 ≠ 0 → Done dst a b n m0 0 s.dx s.mem → s.dx + 2 ≤ fuel →
    ∃ m', amdRun dst a b fuel .loop1b s = .ok m' ∧ Done dst a b n m0 n n m' := by
  intro fuel
  induction fuel with
  | zero => intro s h0 h1 h2 h3 h4; omega
  | succ f ih =>
    intro s h1 h2 h3 h4 h5
    have hd := done_bwd ha hb h4 (w := 1) (by omega) h2 (by omega) (by omega)
    simp only [amdRun, amdBlock]
    by_cases h8 : (s.dx - 1) % 8 ≠ 0
    · rw [if_pos h8]
      exact ih _ (by simp; omega) (by simp; omega) h8 hd (by simp; push_cast at h5; omega)
    · rw [if_neg h8]
      by_cases h0 : s.dx - 1 = 0
      · rw [if_pos h0]
        exact ⟨_, by cases f <;> rfl, done_full hd (by omega)⟩
      · rw [if_neg h0]
        by_cases h16 : (s.dx - 1) % 16 = 0
        · rw [if_pos h16]
          exact amd_aligned ha hb f _ (by simp; omega) (by simp; omega) h16 hd (by simp; push_cast at h5; omega)
        · rw [if_neg h16]
          exact amd_notAligned8 ha hb f _ (by simp; omega) (by simp; omega) (by simp; omega) hd (by simp; push_cast at h5; omega)

theorem sse2_done (ha : Clear dst a n) (hb : Clear dst b n) (hn : 0 < n) (fuel : Nat) (hf : n + 4 ≤ fuel) (ax0 : Int) (m : Mem) :
    ∃ m', xorBytesSSE2 fuel ax0 dst a b n m = .ok m' ∧ Done dst a b n m n n m' := by
  obtain ⟨f, rfl⟩ : ∃ f, fuel = f + 1 := ⟨fuel - 1, by omega⟩
  push_cast at hf
  simp only [xorBytesSSE2, amdRun, amdBlock]
  by_cases h16 : n % 16 ≠ 0
  · rw [if_pos h16]
    by_cases h8 : n % 8 = 0
    · exact amd_notAligned8 ha hb f ⟨ax0, n, m⟩ hn (Int.le_refl _) (by simp; omega) done_start (by simp; omega)
    · obtain ⟨f, rfl⟩ : ∃ g, f = g + 1 := ⟨f - 1, by omega⟩
      push_cast at hf
      simp only [amdRun, amdBlock]
      rw [if_pos h8]
      exact amd_loop1 ha hb f ⟨ax0, n, m⟩ hn (Int.le_refl _) h8 done_start (by simp; omega)
  · rw [if_neg h16]
    exact amd_aligned ha hb f ⟨ax0, n, m⟩ hn (Int.le_refl _) (by simp; omega) done_start (by simp; omega)

/-! ### arm64 -/

/-- `p` bytes are done, the pointers are advanced by `p` -/
def ArmInv (dst a b n : Int) (m0 : Mem) (p : Int) (s : Arm) : Prop :=
  s.r0 = dst + p ∧ s.r1 = a + p ∧ s.r2 = b + p ∧ Done dst a b n m0 p n s.mem

theorem arm_chunk (ha : Clear dst a n) (hb : Clear dst b n) {s : Arm} (h : ArmInv dst a b n m0 p s) {w : Int} (hw : 0 ≤ w)
    (hp : 0 ≤ p) (hpn : p + w ≤ n) : ArmInv dst a b n m0 (p + w) (armChunk w s) := by
  obtain ⟨h0, h1, h2, h3⟩ := h
  refine ⟨by simp only [armChunk]; omega, by simp only [armChunk]; omega, by simp only [armChunk]; omega, ?_⟩
  simp only [armChunk, h0, h1, h2]
  exact done_fwd ha hb h3 hp (Int.le_refl _) hw hpn

theorem arm_bit (ha : Clear dst a n) (hb : Clear dst b n) {s : Arm} (h : ArmInv dst a b n m0 p s) {w : Int} (hw : 0 ≤ w)
    (hp : 0 ≤ p) (hpn : p + w * ((s.r3 / w) % 2) ≤ n) :
    ArmInv dst a b n m0 (p + w * ((s.r3 / w) % 2)) (armBit w s) ∧ (armBit w s).r3 = s.r3 := by
  unfold armBit
  by_cases hz : (s.r3 / w) % 2 = 0
  · rw [if_pos hz, hz]; simpa using h
  · have h1 : (s.r3 / w) % 2 = 1 := by omega
    rw [if_neg hz, h1]
    rw [h1] at hpn
    refine ⟨?_, rfl⟩
    have := arm_chunk ha hb h (w := w) hw hp (by omega)
    rwa [show p + w * 1 = p + w by omega]

theorem arm_tail (ha : Clear dst a n) (hb : Clear dst b n) {s : Arm} (h : ArmInv dst a b n m0 p s) (hp : 0 ≤ p)
    (h0 : 0 ≤ s.r3) (h64 : s.r3 < 64) (hpn : p + s.r3 = n) : Done dst a b n m0 n n (armTail s).mem := by
  unfold armTail
  by_cases hz : s.r3 = 0
  · rw [if_pos hz]; exact done_full h.2.2.2 (by omega)
  · rw [if_neg hz]
    simp only
    obtain ⟨r, hr⟩ : ∃ r, r = s.r3 := ⟨_, rfl⟩
    rw [← hr] at h0 h64 hpn hz
    obtain ⟨b5, hb5⟩ : ∃ x, x = r / 32 % 2 := ⟨_, rfl⟩
    obtain ⟨b4, hb4⟩ : ∃ x, x = r / 16 % 2 := ⟨_, rfl⟩
    obtain ⟨b3, hb3⟩ : ∃ x, x = r / 8 % 2 := ⟨_, rfl⟩
    obtain ⟨b2, hb2⟩ : ∃ x, x = r / 4 % 2 := ⟨_, rfl⟩
    obtain ⟨b1, hb1⟩ : ∃ x, x = r / 2 % 2 := ⟨_, rfl⟩
    obtain ⟨b0, hb0⟩ : ∃ x, x = r / 1 % 2 := ⟨_, rfl⟩
    have hsum : r = 32 * b5 + 16 * b4 + 8 * b3 + 4 * b2 + 2 * b1 + 1 * b0 ∧ 0 ≤ b5 ∧ 0 ≤ b4 ∧ 0 ≤ b3 ∧ 0 ≤ b2 ∧ 0 ≤ b1 ∧ 0 ≤ b0 := by
      omega
    obtain ⟨hsum, p5, p4, p3, p2, p1, p0⟩ := hsum
    have A := arm_bit ha hb h (w := 32) (by omega) hp (by rw [← hr, ← hb5]; clear hb5 hb4 hb3 hb2 hb1 hb0; omega)
    rw [← hr, ← hb5] at A
    obtain ⟨i1, e1⟩ := A
    have A := arm_bit ha hb i1 (w := 16) (by omega) (by omega) (by rw [e1, ← hb4]; clear hb5 hb4 hb3 hb2 hb1 hb0; omega)
    rw [e1, ← hb4] at A
    obtain ⟨i2, e2⟩ := A
    have A := arm_bit ha hb i2 (w := 8) (by omega) (by omega) (by rw [e2, ← hb3]; clear hb5 hb4 hb3 hb2 hb1 hb0; omega)
    rw [e2, ← hb3] at A
    obtain ⟨i3, e3⟩ := A
    have A := arm_bit ha hb i3 (w := 4) (by omega) (by omega) (by rw [e3, ← hb2]; clear hb5 hb4 hb3 hb2 hb1 hb0; omega)
    rw [e3, ← hb2] at A
    obtain ⟨i4, e4⟩ := A
    have A := arm_bit ha hb i4 (w := 2) (by omega) (by omega) (by rw [e4, ← hb1]; clear hb5 hb4 hb3 hb2 hb1 hb0; omega)
    rw [e4, ← hb1] at A
    obtain ⟨i5, e5⟩ := A
    have A := arm_bit ha hb i5 (w := 1) (by omega) (by omega) (by rw [e5, ← hb0]; clear hb5 hb4 hb3 hb2 hb1 hb0; omega)
    rw [e5, ← hb0] at A
    obtain ⟨i6, e6⟩ := A
    clear hb5 hb4 hb3 hb2 hb1 hb0
    exact done_full i6.2.2.2 (by omega)

theorem arm_loop (ha : Clear dst a n) (hb : Clear dst b n) : ∀ (fuel : Nat) (p : Int) (s : Arm), ArmInv dst a b n m0 p s →
    0 ≤ p → 64 ≤ s.r3 → p + s.r3 = n → s.r3 ≤ fuel →
    ∃ s' p', armLoop fuel s = .ok s' ∧ ArmInv dst a b n m0 p' s' ∧ 0 ≤ p' ∧ 0 ≤ s'.r3 ∧ s'.r3 < 64 ∧ p' + s'.r3 = n := by
  intro fuel
  induction fuel with
  | zero => intros; omega
  | succ f ih =>
    intro p s h hp h64 hpn hf
    have hc := arm_chunk ha hb h (w := 64) (by omega) hp (by omega)
    simp only [armLoop]
    have hr3 : (armChunk 64 s).r3 = s.r3 := rfl
    have hc' : ArmInv dst a b n m0 (p + 64) { armChunk 64 s with r3 := (armChunk 64 s).r3 - 64 } := hc
    by_cases hge : 64 ≤ s.r3 - 64
    · rw [hr3, if_pos hge]
      exact ih (p + 64) _ hc' (by omega) hge (by simp; omega) (by simp; push_cast at hf; omega)
    · rw [hr3, if_neg hge]
      exact ⟨_, p + 64, rfl, hc', by omega, by simp; omega, by simp; omega, by simp; omega⟩

theorem arm64_done (ha : Clear dst a n) (hb : Clear dst b n) (hn : 0 < n) (fuel : Nat) (hf : n ≤ fuel) (m : Mem) :
    ∃ m', xorBytesARM64 fuel dst a b n m = .ok m' ∧ Done dst a b n m n n m' := by
  have h0 : ArmInv dst a b n m 0 ⟨dst, a, b, n, m⟩ := ⟨by simp, by simp, by simp, done_start⟩
  simp only [xorBytesARM64]
  by_cases h : n < 64
  · rw [if_pos h]
    exact ⟨_, rfl, arm_tail ha hb h0 (by omega) (by simp; omega) (by simpa using h) (by simp)⟩
  · rw [if_neg h]
    obtain ⟨s', p', e, h1, h2, h3, h4, h5⟩ := arm_loop ha hb fuel 0 _ h0 (by omega) (by simp; omega) (by simp) (by simpa using hf)
    rw [e]
    exact ⟨_, rfl, arm_tail ha hb h1 h2 h3 h4 h5⟩

end

/-! ### generic -/

section
variable {dst a b : Int} {n : Nat} {m0 m : Mem}

theorem safe_done (ha : Clear dst a n) (hb : Clear dst b n) (m : Mem) :
    ∃ m', safeXORBytes dst a b n m = .ok m' ∧ Done dst a b n m n n m' := by
  obtain ⟨m', e, h⟩ := forRange_inv (f := genericStep 1 dst a b) (fun i m' => Done dst a b n m i n m') 0 n m (by omega)
    done_start (by
      intro i m1 _ hi h
      refine ⟨_, rfl, ?_⟩
      have := done_fwd ha hb h (w := 1) (by omega) (by omega) (by omega) (by omega)
      simpa using this)
  exact ⟨m', e, h⟩

theorem fast_done (ws : Nat) (hws : 0 < ws) (ha : Clear dst a n) (hb : Clear dst b n) (m : Mem) :
    ∃ m', fastXORBytes ws dst a b n m = .ok m' ∧ Done dst a b n m n n m' := by
  have hdm := Nat.div_add_mod n ws
  obtain ⟨m1, e1, h1⟩ := forRange_inv (f := genericStep ws dst a b) (fun i m' => Done dst a b n m (ws * i : Nat) n m') 0 (n / ws) m
    (Nat.zero_le _) (by simpa using done_start) (by
      intro i m1 _ hi h
      refine ⟨_, rfl, ?_⟩
      have hle : ws * i + ws ≤ n := by
        have : ws * (i + 1) ≤ ws * (n / ws) := Nat.mul_le_mul_left _ (by omega)
        rw [Nat.mul_succ] at this; omega
      have := done_fwd ha hb h (w := ws) (by omega) (by omega) (by omega) (by omega)
      rw [Nat.mul_succ]
      push_cast at this ⊢
      exact this)
  have hm := Nat.mod_lt n hws
  have hsub : n - n % ws = ws * (n / ws) := by omega
  obtain ⟨m2, e2, h2⟩ := forRange_inv (f := genericStep 1 dst a b) (fun i m' => Done dst a b n m i n m') (n - n % ws) n m1
    (by omega) (by rw [hsub]; exact h1) (by
      intro i m1 _ hi h
      refine ⟨_, rfl, ?_⟩
      have := done_fwd ha hb h (w := 1) (by omega) (by omega) (by omega) (by omega)
      simpa using this)
  refine ⟨m2, ?_, h2⟩
  simp only [fastXORBytes]
  rw [e1, ok_bind, e2]

end

end Verif.Bitutil
