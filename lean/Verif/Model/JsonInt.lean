import Verif.Model.Factory
import Mathlib.Data.Real.Archimedean

/-! # Conversion of JSON values to `int` -/

set_option autoImplicit false

namespace Teqp.Model

/-- Conversion of a JSON value to `int` (nlohmann/json, not in /repo; `association.hpp` line 43, `ancillary_builder.hpp` line 20):
truncation towards zero (the overflow of `int` is not modelled).  Unlike the conversions to `double` and to the widest integers,
that to `int` takes a boolean too. -/
noncomputable def JTree.toInt : JTree → Outcome ℤ
  | .num x => .ok (if 0 ≤ x then ⌊x⌋ else ⌈x⌉)
  | .bool b => .ok (if b then 1 else 0)
  | _ => .throws .jsonError

end Teqp.Model
