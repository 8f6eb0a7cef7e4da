import Mathlib.Tactic.Set
import Mathlib.Tactic.NormNum
import Mathlib.Tactic.Ring
import Mathlib.Tactic.Linarith
import Mathlib.Tactic.IntervalCases
import Mathlib.Tactic.Zify
import Mathlib.Tactic.Push
import Verif.Go.Basic
import Verif.Go.Lemmas
import Verif.Go.Bits
