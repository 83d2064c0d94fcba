import Mathlib.Data.Rat.Defs
import Mathlib.Algebra.BigOperators.Group.List.Basic
import Mathlib.Algebra.Field.Rat

/-! # Fingerprints of tables of numbers

The number of entries, their sum, and the sum weighted by position.  A change of one entry alters the second, an exchange of two
different entries the third.  The values used in `Verif.Props.Tables` and `Verif.Props.RealTables` were computed from the text of the C++ files, not from the
Lean tables. -/

set_option autoImplicit false

namespace Teqp.Spec

/-- The sum of the entries, each times its position counted from `k`. -/
def weighted {R : Type} [Semiring R] : ℕ → List R → R
  | _, [] => 0
  | k, v :: l => (k : R) * v + weighted (k + 1) l

/-- Count, sum and weighted sum (positions from one). -/
def fingerprint {R : Type} [Semiring R] (l : List R) : ℕ × R × R := (l.length, l.sum, weighted 1 l)

end Teqp.Spec
