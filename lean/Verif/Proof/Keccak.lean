import Verif.Go.Prelude
import Verif.Model.Keccak
import Verif.Spec.Keccak
import Mathlib.Tactic.FinCases
import Mathlib.Data.Fintype.Basic

/-! # `KeccakF800` is the 22-round Keccak permutation -/

set_option autoImplicit false

namespace Verif.Crypto

open Go Spec.Keccak

/-- the variables as a list of words -/
def Lanes.words (s : Lanes) : List U32 :=
  [s.ba, s.be, s.bi, s.bo, s.bu, s.ga, s.ge, s.gi, s.go, s.gu, s.ka, s.ke, s.ki, s.ko, s.ku, s.ma, s.me, s.mi, s.mo, s.mu,
   s.sa, s.se, s.si, s.so, s.su]

/-- the rotation offsets modulo 32 -/
def off (x y : Fin 5) : Nat :=
  ([[0, 1, 30, 28, 27], [4, 12, 6, 23, 20], [3, 10, 11, 25, 7], [9, 13, 15, 21, 8], [18, 2, 29, 24, 14]].getD y.val []).getD x.val 0

theorem off_eq : ∀ x y : Fin 5, offset x y % 32 = off x y := by decide

theorem rotl_off (x : U32) (n m : Nat) (h : n % 32 = m) : x.rotateLeft n = rol x m := by
  subst h; rfl

/-- `rol`, reducing at zero -/
def rolz (x : U32) : Nat → U32
  | 0 => x
  | n + 1 => rol x (n + 1)

theorem rolz_eq (x : U32) (n : Nat) : rolz x n = rol x n := by
  cases n with
  | zero =>
    show x = (x <<< 0) ||| (x >>> 32)
    rw [BitVec.ushiftRight_eq_zero (by omega)]
    simp
  | succ n => rfl

theorem rho_eq (A : State) (x y : Fin 5) : rho A x y = rolz (A x y) (off x y) := by
  rw [rolz_eq]; exact rotl_off _ _ _ (off_eq x y)

theorem even_eq (i : Nat) (s : Lanes) : ofWords (evenRound s (roundConstant i)).words = round i (ofWords s.words) := by
  funext x y
  obtain ⟨Aba, Abe, Abi, Abo, Abu, Aga, Age, Agi, Ago, Agu, Aka, Ake, Aki, Ako, Aku, Ama, Ame, Ami, Amo, Amu, Asa, Ase, Asi, Aso, Asu⟩ := s
  simp only [round, iota, chi, pi, rho_eq, theta, parity]
  generalize roundConstant i = rc
  fin_cases x <;> fin_cases y <;> rfl

theorem odd_eq (i : Nat) (s : Lanes) : ofWords (oddRound s (roundConstant i)).words = round i (ofWords s.words) := by
  funext x y
  obtain ⟨Aba, Abe, Abi, Abo, Abu, Aga, Age, Agi, Ago, Agu, Aka, Ake, Aki, Ako, Aku, Ama, Ame, Ami, Amo, Amu, Asa, Ase, Asi, Aso, Asu⟩ := s
  simp only [round, iota, chi, pi, rho_eq, theta, parity]
  generalize roundConstant i = rc
  fin_cases x <;> fin_cases y <;> rfl

theorem rck8_eq : rck8 = (List.range 22).map roundConstant := by decide +kernel

theorem idx_rck8 (i : Nat) (h : i < 22) : idx rck8 i = .ok (roundConstant i) := by
  rw [rck8_eq, idx_ok _ _ (by simpa using h)]
  simp

theorem toWords_ofWords (s : Lanes) : toWords (ofWords s.words) = s.words := rfl

theorem keccakStep_eq (i : Nat) (h : i < 11) (s : Lanes) :
    ∃ s', keccakStep i s = .ok s' ∧ ofWords s'.words = round (2 * i + 1) (round (2 * i) (ofWords s.words)) := by
  refine ⟨oddRound (evenRound s (roundConstant (2 * i))) (roundConstant (2 * i + 1)), ?_, ?_⟩
  · unfold keccakStep
    rw [idx_rck8 _ (by omega), idx_rck8 _ (by omega)]
    rfl
  · rw [odd_eq, even_eq]

theorem steps_eq (s : Lanes) :
    ∃ s', forRange 0 11 s keccakStep = .ok s' ∧ ofWords s'.words = rounds 22 (ofWords s.words) := by
  have := forRange_inv (f := keccakStep) (fun i t => ofWords t.words = rounds (2 * i) (ofWords s.words)) 0 11 s (by omega) rfl
    (fun i t h0 h ht => by
      obtain ⟨s', h1, h2⟩ := keccakStep_eq i h t
      refine ⟨s', h1, ?_⟩
      rw [h2, ht]; rfl)
  exact this

theorem list25 (l : List U32) (h : l.length = 25) : ∃ s : Lanes, l = s.words := by
  match l, h with
  | [a1, a2, a3, a4, a5, a6, a7, a8, a9, a10, a11, a12, a13, a14, a15, a16, a17, a18, a19, a20, a21, a22, a23, a24, a25], _ =>
    exact ⟨⟨a1, a2, a3, a4, a5, a6, a7, a8, a9, a10, a11, a12, a13, a14, a15, a16, a17, a18, a19, a20, a21, a22, a23, a24, a25⟩, rfl⟩

theorem keccakF800_words (s : Lanes) : keccakF800 s.words = (do
    let s ← forRange 0 11 s keccakStep
    pure s.words) := rfl

theorem keccakF800_eq (l : List U32) (h : l.length = 25) : keccakF800 l = .ok (f800 l) := by
  obtain ⟨s, rfl⟩ := list25 l h
  obtain ⟨s', h1, h2⟩ := steps_eq s
  rw [keccakF800_words, h1, f800, ← h2]
  exact congrArg Except.ok (toWords_ofWords s').symm

theorem f800_length (l : List U32) : (f800 l).length = 25 := rfl

end Verif.Crypto
