import Verif.Basic
import Mathlib.Data.Real.Basic

/-! # JSON objects with numeric fields

The part of `nlohmann::json` used by the model factories: an object whose fields are numbers, arrays of
numbers or strings. -/

set_option autoImplicit false

namespace Teqp.Model

/-- A field value. -/
inductive JVal where
  | num (x : ℝ)
  | arr (xs : List ℝ)
  | str (s : String)

/-- A JSON object: its fields (the first entry of a name counts). -/
abbrev JObj := List (String × JVal)

/-- `j.at(key)`: throws `out_of_range` when the key is missing. -/
def JObj.at (o : JObj) (k : String) : Outcome JVal :=
  match o.lookup k with
  | some v => .ok v
  | none => .throws .jsonError

/-- Implicit conversion to `double`: throws `type_error` for another type. -/
def JVal.toNum : JVal → Outcome ℝ
  | .num x => .ok x
  | _ => .throws .jsonError

/-- Conversion to `std::valarray<double>`: throws `type_error` for another type. -/
def JVal.toArr : JVal → Outcome (List ℝ)
  | .arr xs => .ok xs
  | _ => .throws .jsonError

/-- `j.at(key)` converted to `double`. -/
def JObj.num (o : JObj) (k : String) : Outcome ℝ := (o.at k).bind JVal.toNum

/-- `j.at(key)` converted to `std::valarray<double>`. -/
def JObj.arr (o : JObj) (k : String) : Outcome (List ℝ) := (o.at k).bind JVal.toArr

end Teqp.Model
