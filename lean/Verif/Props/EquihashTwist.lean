import Verif.Proof.InMem.EquihashWide
import Verif.Props.Equihash

/-! # Equihash with the twist and digests below 64 bytes: property C90

`generateHash` reads the sixteen words of a digest with `tmpHash[i*4:(i+1)*4]`, which goes by the capacity of the slice and not by its length. The
digest comes from `Sum(nil)` of a library, whose capacity is not specified. Here the heap chooses what lies behind every digest, and how much. -/

set_option autoImplicit false

namespace Verif.Props

open Go Equihash Equihash.InMem Spec Spec.Equihash Spec.Wagner

theorem isSolution_plain (P : Prims) {q : Params} (ht : q.twist = true) (hd : q.digest ≤ 64) (hp : 0 < q.per) (header : List Byte) (ixs : List Nat) :
    IsSolution (plainPrims P q header) (untwisted q) header ixs ↔ IsSolution P q header ixs := by
  have hc := chunk_plain P ht hd hp header
  constructor
  · intro s
    refine ⟨s.length, s.distinct, s.ordered, fun r hr w hw => ?_, ?_⟩
    · rw [← hc]; exact s.collide r hr w hw
    · rw [← hc]; exact s.zero
  · intro s
    refine ⟨s.length, s.distinct, s.ordered, fun r hr w hw => ?_, ?_⟩
    · rw [hc]; exact s.collide r hr w hw
    · rw [hc]; exact s.zero

/-- what `Verify` should report -/
def Judged (P : Prims) (q : Params) (header soln : List Byte) (r : Bool × Option Equihash.Err) : Prop :=
  (r = (true, Option.none) ∧ soln.length = q.solLen ∧ IsSolution P q header (indices q soln)) ∨
    (r.1 = false ∧ ¬ (soln.length = q.solLen ∧ IsSolution P q header (indices q soln)))

section
variable (P : Prims) (c : Client) (ht : c.twist = true) (hw : ({ eqParams c with twist := false } : Params).WF)
  {h : Heap} {personal header soln : Slice .byte} {hs ss : List Byte} (kp : Held h personal c.personal) (kh : Held h header hs) (ks : Held h soln ss)
include ht hw kp kh ks

/-- **C90.** Whatever lies behind the digests and however much of it there is: `Verify` judges the solution by the lane sums of the digests extended
with zeros, or panics with a slice out of range, and then some digest had a capacity below 64 bytes. Nothing that existed before is written. -/
theorem C90_judged (h32 : ss.length < 2 ^ 32) (fuel : Nat) (hf : 64 ≤ fuel) :
    (∃ r, Judged P (eqParams c) hs ss r ∧ Reports (clientVerify P fuel c.n c.k personal c.twist header soln) h r) ∨
      ((∃ h', clientVerify P fuel c.n c.k personal c.twist header soln h = .error (.panic .slice, h')) ∧
        ∃ i, (eqParams c).digest + (h.spare .byte i).length < 64) := by
  have hw' : (untwisted (eqParams c)).WF := hw
  have hdl : (eqParams c).digest ≤ 64 := hw.digest_le
  have hper : 0 < (eqParams c).per := per_pos (q := untwisted (eqParams c)) hw
  have key := maybe_verify (q := eqParams c) hw' P fuel (by omega) kp kh ks h32 ht
  have sol := isSolution_plain P (q := eqParams c) ht hdl hper hs (indices (eqParams c) ss)
  have out := verify_spec (plainPrims P (eqParams c) hs) hs hw' ss h32 fuel hf
  have done : ∀ r, Equihash.verify (plainPrims P (eqParams c) hs) fuel (eqParams c).n (eqParams c).k (eqParams c).personal hs ss false = .ok r →
      Judged P (eqParams c) hs ss r →
      (∃ r, Judged P (eqParams c) hs ss r ∧ Reports (clientVerify P fuel c.n c.k personal c.twist header soln) h r) ∨
      ((∃ h', clientVerify P fuel c.n c.k personal c.twist header soln h = .error (.panic .slice, h')) ∧
        ∃ i, (eqParams c).digest + (h.spare .byte i).length < 64) := by
    intro r e j
    unfold clientVerify
    rw [ht]
    rcases key r e with ⟨a, h', e1, rfl, F⟩ | ⟨h', e1, n⟩
    · exact Or.inl ⟨a, j, h', e1, untouched_iff.1 F⟩
    · refine Or.inr ⟨⟨h', e1⟩, ?_⟩
      by_contra hn
      refine n fun i => ?_
      by_contra hi
      exact hn ⟨i, by omega⟩
  rcases out with ⟨e, hl, s⟩ | ⟨e | ⟨er, e⟩, n⟩
  · exact done _ e (Or.inl ⟨rfl, hl, sol.1 s⟩)
  · exact done _ e (Or.inr ⟨rfl, fun q => n ⟨q.1, sol.2 q.2⟩⟩)
  · exact done _ e (Or.inr ⟨rfl, fun q => n ⟨q.1, sol.2 q.2⟩⟩)

/-- **C90.** Where every digest has a capacity of 64 bytes or more, it is judged. -/
theorem C90_capacity (h32 : ss.length < 2 ^ 32) (fuel : Nat) (hf : 64 ≤ fuel) (hc : ∀ i, 64 ≤ (eqParams c).digest + (h.spare .byte i).length) :
    ∃ r, Judged P (eqParams c) hs ss r ∧ Reports (clientVerify P fuel c.n c.k personal c.twist header soln) h r := by
  rcases C90_judged P c ht hw kp kh ks h32 fuel hf with r | ⟨_, i, hi⟩
  · exact r
  · have := hc i
    omega

/-- **C90.** Where the first digest has less, `Verify` panics on every solution of the right length. -/
theorem C90_panics (fuel : Nat) (hf : 1 ≤ fuel) (hl : ss.length = (eqParams c).solLen) (hc : (eqParams c).digest + (h.spare .byte 0).length < 64) :
    ∃ h', clientVerify P fuel c.n c.k personal c.twist header soln h = .error (.panic .slice, h') := by
  unfold clientVerify
  rw [ht]
  exact stops_verify (q := eqParams c) hw P fuel hf kp kh ks hl (by omega)

end

/-! ## Examples -/

/-- digests of 60 bytes: `n = 40`, `k = 3` -/
def shortEq : Client := ⟨40, 3, [], true⟩

theorem shortEq_wf : ({ eqParams shortEq with twist := false } : Params).WF :=
  ⟨by decide, by decide, by decide, by decide, by decide, by decide, by decide, by decide, by decide, by decide⟩

example : (eqParams shortEq).digest = 60 := by decide

/-- memory with the personalisation, the header and the solution, and `extra` behind every digest -/
def twistHeap (header soln extra : List Byte) : Heap where
  store := fun t => match t with
    | .byte => [[], header, soln]
    | .word => []
    | .dword => []
    | .big => []
  spare := fun t _ => match t with
    | .byte => extra
    | .word => []
    | .dword => []
    | .big => []

/-- the verdict of a run, without the memory -/
def verdict (r : Except (Stop × Heap) ((Bool × Option Equihash.Err) × Heap)) : Option (Bool × Option Equihash.Err) ⊕ Stop :=
  match r with
  | .ok (a, _) => .inl (some a)
  | .error (p, _) => .inr p

/-- the indices 0..7 in groups of eleven bits -/
def shortSol : List Byte := [0, 0, 4, 1, 0, 48, 8, 1, 64, 48, 7]

def runShort (extra : List Byte) : Option (Bool × Option Equihash.Err) ⊕ Stop :=
  verdict (clientVerify Prims.zero 64 shortEq.n shortEq.k ⟨0, 0, 0, 0⟩ shortEq.twist ⟨1, 0, 1, 1⟩ ⟨2, 0, 11, 11⟩ (twistHeap [5] shortSol extra))

-- four bytes behind the digests, whatever they are: accepted; three: a panic
example : runShort [1, 2, 3, 4] = .inl (some (true, Option.none)) := by decide +kernel
example : runShort [255, 255, 255, 255] = .inl (some (true, Option.none)) := by decide +kernel
example : runShort [1, 2, 3] = .inr (.panic .slice) := by decide +kernel

example : IsSolution Prims.zero (eqParams shortEq) [5] (indices (eqParams shortEq) shortSol) := by
  have k : ∀ (i : Nat) (xs : List Byte), ([[], [5], shortSol] : List (List Byte))[i]? = some xs →
      Held (twistHeap [5] shortSol [1, 2, 3, 4]) (⟨i, 0, xs.length, xs.length⟩ : Slice .byte) xs := fun i xs hx =>
    ⟨xs, hx, Nat.le_refl _, by simp, by simp⟩
  obtain ⟨r, j, h', e, _⟩ := C90_capacity Prims.zero shortEq rfl shortEq_wf (k 0 [] rfl) (k 1 [5] rfl) (k 2 shortSol rfl) (by decide) 64 (by decide)
    (fun i => by show 64 ≤ 60 + 4; omega)
  have hr : verdict (.ok (r, h')) = .inl (some (true, Option.none)) := by
    rw [← e]
    show runShort [1, 2, 3, 4] = _
    decide +kernel
  obtain rfl : r = (true, Option.none) := by simpa [verdict] using hr
  rcases j with j | j
  · exact j.2.2
  · exact absurd j.1 (by decide)

/-- the parameters of Bitcoin Gold, ZClassic and Zcash with the twist have digests of 54, 48 and 50 bytes -/
example : ([⟨144, 5, [], true⟩, ⟨192, 7, [], true⟩, ⟨200, 9, [], true⟩] : List Client).map (fun c => (eqParams c).digest) = [54, 48, 50] := by decide

end Verif.Props
