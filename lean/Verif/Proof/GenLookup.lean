import Verif.Model.GenLookup
import Verif.Spec.GoLiteral
import Verif.Go.Update

/-! # The text that gen-lookup writes -/

set_option autoImplicit false

namespace Verif.GenLookup

open Go Dag Spec.GoLiteral

/-- `text` is a sequence of complete entries -/
def Encodes (text : List Char) (l : List Nat) : Prop := ∀ rest, entries none (text ++ rest) = (entries none rest).map (l ++ ·)

theorem Encodes.nil : Encodes [] [] := fun rest => by simp

theorem Encodes.append {t t' : List Char} {l l' : List Nat} (h : Encodes t l) (h' : Encodes t' l') : Encodes (t ++ t') (l ++ l') := by
  intro rest
  rw [List.append_assoc, h, h', Option.map_map]
  congr 1
  funext x
  simp

theorem encodes_space (c : Char) (hc : c = ' ' ∨ c = '\t' ∨ c = '\n') : Encodes [c] [] := by
  intro rest
  rcases hc with rfl | rfl | rfl <;> simp [entries]

theorem entries_digits (ds : List Char) (hd : ∀ c ∈ ds, c.isDigit = true) (rest : List Char) :
    ∀ cur : Nat, entries (some cur) (ds ++ rest) = entries (some (Nat.ofDigitChars 10 ds cur)) rest := by
  induction ds with
  | nil => intro cur; simp
  | cons c cs ih =>
    intro cur
    rw [List.cons_append, entries, if_pos (hd c (by simp)), Nat.ofDigitChars_cons]
    exact ih (fun x hx => hd x (by simp [hx])) _

theorem encodes_entry (x : U64) : Encodes (sprintEntry x) [x.toNat] := by
  intro rest
  have hd : ∀ c ∈ Nat.toDigits 10 x.toNat, c.isDigit = true := fun c hc => Nat.isDigit_of_mem_toDigits (by omega) (by omega) hc
  have hv := Nat.ofDigitChars_ten_toDigits (n := x.toNat)
  rw [sprintEntry, List.append_assoc]
  have hne : Nat.toDigits 10 x.toNat ≠ [] := Nat.toDigits_ne_nil
  obtain ⟨c, cs, e⟩ := List.exists_cons_of_ne_nil hne
  rw [e] at hd hv ⊢
  rw [List.cons_append, entries, if_pos (hd c (by simp)), entries_digits cs (fun x hx => hd x (by simp [hx]))]
  rw [Nat.ofDigitChars_cons] at hv
  have : Nat.ofDigitChars 10 cs (10 * (none : Option Nat).getD 0 + (c.toNat - '0'.toNat)) = x.toNat := hv
  rw [this]
  show entries (some x.toNat) (',' :: rest) = _
  rw [entries, if_neg (by decide), if_pos rfl]
  rfl

section
variable (table : List U64) (rowSize : Nat)

theorem row_ok (i : Nat) (hi : i < table.length / rowSize) :
    ∃ row, forRange 0 rowSize [] (rowStep table rowSize i) = .ok row ∧
      Encodes row (((table.drop (i * rowSize)).take rowSize).map BitVec.toNat) := by
  have hlen : i * rowSize + rowSize ≤ table.length := by
    have := Nat.div_mul_le_self table.length rowSize
    have h2 : (i + 1) * rowSize ≤ table.length / rowSize * rowSize := Nat.mul_le_mul_right _ hi
    rw [Nat.add_mul, Nat.one_mul] at h2
    omega
  refine forRange_inv (f := rowStep table rowSize i)
    (fun j row => Encodes row (((table.drop (i * rowSize)).take j).map BitVec.toNat)) 0 rowSize [] (Nat.zero_le _)
    (by simpa using Encodes.nil) ?_
  intro j row _ hj h
  have hidx : i * rowSize + j < table.length := by omega
  have hnext : ((table.drop (i * rowSize)).take (j + 1)).map BitVec.toNat =
      ((table.drop (i * rowSize)).take j).map BitVec.toNat ++ [(table[i * rowSize + j]).toNat] := by
    rw [List.take_succ_eq_append_getElem (by rw [List.length_drop]; omega), List.map_append]
    simp
  rw [hnext, rowStep]
  simp only [Int.toNat_natCast]
  rw [if_neg (by omega), idx_ok table _ hidx]
  by_cases hs : (j : Int) < (rowSize : Int) - 1
  · refine ⟨row ++ sprintEntry table[i * rowSize + j] ++ [' '], by simp only [ok_bind]; rw [if_pos hs]; rfl, ?_⟩
    have := (h.append (encodes_entry table[i * rowSize + j])).append (encodes_space ' ' (by simp))
    simpa using this
  · refine ⟨row ++ sprintEntry table[i * rowSize + j], by simp only [ok_bind]; rw [if_neg hs]; rfl, ?_⟩
    exact h.append (encodes_entry table[i * rowSize + j])

theorem lines_ok : ∃ text, forRange 0 (table.length / rowSize) [] (lineStep table rowSize) = .ok text ∧
    Encodes text ((table.take (table.length / rowSize * rowSize)).map BitVec.toNat) := by
  refine forRange_inv (f := lineStep table rowSize) (fun i text => Encodes text ((table.take (i * rowSize)).map BitVec.toNat)) 0
    (table.length / rowSize) [] (Nat.zero_le _) (by simpa using Encodes.nil) ?_
  intro i text _ hi h
  obtain ⟨row, e, hr⟩ := row_ok table rowSize i hi
  refine ⟨text ++ ('\t' :: row ++ ['\n']), by rw [lineStep, Int.toNat_natCast, e]; rfl, ?_⟩
  have := h.append (((encodes_space '\t' (by simp)).append hr).append (encodes_space '\n' (by simp)))
  rw [Nat.add_mul, Nat.one_mul, List.take_add, List.map_append]
  simpa using this

theorem format_ok (hr : 0 < rowSize) : ∃ text, formatLookupTable table rowSize = .ok text ∧
    readTable text = some ((table.take (table.length / rowSize * rowSize)).map BitVec.toNat) := by
  obtain ⟨text, e, h⟩ := lines_ok table rowSize
  refine ⟨"[]uint64{\n".toList ++ text ++ ['}'], ?_, ?_⟩
  · rw [formatLookupTable]
    simp only
    rw [if_neg (by omega)]
    have : ((table.length : Int).tdiv (rowSize : Int)).toNat = table.length / rowSize := by
      rw [← Int.ofNat_tdiv]; rfl
    rw [this, e]
    rfl
  · have h0 : "[]uint64{\n".toList = "[]uint64{".toList ++ ['\n'] := by decide
    rw [readTable, if_pos]
    · have h1 : List.drop 9 ("[]uint64{\n".toList ++ text ++ ['}']) = ['\n'] ++ (text ++ ['}']) := by
        rw [h0]; simp
      rw [h1, encodes_space '\n' (by simp), h]
      simp [entries]
    · rw [h0, List.append_assoc, List.append_assoc]
      simp
end

/-! ## The tables -/

/-- a loop that fills a table with the values of a function -/
theorem table_loop (g : Nat → Go U64) (f : Nat → List U64 → Go (List U64)) (hf : ∀ i t, f i t = g i >>= fun s => upd t i s) (n : Nat)
    (v : Nat → U64) (hv : ∀ i, i < n → g i = .ok (v i)) :
    forRange 0 n (List.replicate n 0) f = .ok ((List.range n).map v) := by
  exact forRange_fill v n (List.replicate n 0) (by simp) fun i l hi hl _ => by
    rw [hf, hv i hi, ok_bind, upd_ok l i _ (by omega)]

end Verif.GenLookup
