import Verif.Go.Lemmas

/-! # Loops that fail -/

set_option autoImplicit false

namespace Verif.Go

/-- a loop that fails in its iteration `t` -/
theorem forRange_err_at {σ : Type} {f : Nat → σ → Go σ} (I : Nat → σ → Prop) (n t : Nat) (ht : t < n) (s : σ) (e : Stop) (h0 : I 0 s)
    (hs : ∀ i m, i < t → I i m → ∃ m', f i m = .ok m' ∧ I (i + 1) m') (he : ∀ m, I t m → f t m = .error e) :
    forRange 0 n s f = .error e := by
  obtain ⟨m, e1, hm⟩ := forRange_inv (f := f) I 0 t s (by omega) h0 (fun i m _ hi h => hs i m hi h)
  unfold forRange at *
  obtain ⟨d, hd⟩ : ∃ d, n - 0 = t + (d + 1) := ⟨n - t - 1, by omega⟩
  rw [Nat.sub_zero] at e1
  rw [hd, loop_add, e1, ok_bind, loop, Nat.zero_add, he m hm]
  rfl

end Verif.Go
