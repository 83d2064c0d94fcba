import Verif.Model.Factory
import Mathlib.Analysis.SpecialFunctions.Pow.Real

/-! # Saturation ancillaries

`/repo/include/teqp/models/multifluid_ancillaries.hpp`. -/

set_option autoImplicit false

namespace Teqp.Model
open scoped Classical

/-- `VLEAncillary`, `/repo/include/teqp/models/multifluid_ancillaries.hpp` lines 9-14 (the description is
left out). -/
structure VLEAncillary where
  T_r : ℝ
  Tmax : ℝ
  Tmin : ℝ
  type : String
  n : List ℝ
  t : List ℝ
  reducingValue : ℝ
  usingTauR : Bool
  noexp : Bool

/-- The constructor, lines 16-26. -/
def VLEAncillary.make (j : JTree) : Outcome VLEAncillary :=
  ((j.at "T_r").bind JTree.toDouble).bind fun T_r =>
  ((j.at "Tmax").bind JTree.toDouble).bind fun Tmax =>
  ((j.at "Tmin").bind JTree.toDouble).bind fun Tmin =>
  ((j.at "type").bind JTree.toStr).bind fun type =>
  ((j.at "description").bind JTree.toStr).bind fun _ =>
  ((j.at "n").bind JTree.toRow).bind fun n =>
  ((j.at "t").bind JTree.toRow).bind fun t =>
  ((j.at "reducing_value").bind JTree.toDouble).bind fun rv =>
  ((j.at "using_tau_r").bind JTree.toBool).bind fun tau =>
  .ok ⟨T_r, Tmax, Tmin, type, n, t, rv, tau, type == "rhoLnoexp"⟩

/-- `pow` of the C++ library for a base that is not negative.  A negative base (only for `T_r < 0`) is
simplified to a result that is not finite, also for integer exponents. -/
noncomputable def cpow (b e : ℝ) : Outcome ℝ :=
  if b < 0 then .nonFinite
  else if b = 0 ∧ e < 0 then .nonFinite
  else .ok (b ^ e)

/-- `(pow(Theta, t)*n).sum()`, line 33; sizes are compared by the caller. -/
noncomputable def ancSum (theta : ℝ) : List ℝ → List ℝ → Outcome ℝ
  | n :: ns, t :: ts => (cpow theta t).bind fun p => (ancSum theta ns ts).bind fun s => .ok (p * n + s)
  | _, _ => .ok 0

/-- `VLEAncillary::operator()`, lines 28-43.  The product of `std::valarray`s of different sizes and the sum
of an empty one are undefined. -/
noncomputable def VLEAncillary.eval (a : VLEAncillary) (T : ℝ) : Outcome ℝ :=
  if T > a.T_r then .throws .invalidArgument
  else if a.T_r = 0 then .nonFinite
  else if a.n.length ≠ a.t.length ∨ a.t = [] then .ub
  else (ancSum (1 - T / a.T_r) a.n a.t).bind fun rhs =>
    Outcome.bind (if a.usingTauR then (if T = 0 then .nonFinite else .ok (rhs * (a.T_r / T))) else .ok rhs) fun rhs =>
    .ok (if a.noexp then a.reducingValue * (1 + rhs) else Real.exp rhs * a.reducingValue)

/-- `MultiFluidVLEAncillaries`, lines 46-47. -/
structure MultiAncillaries where
  rhoL : VLEAncillary
  rhoV : VLEAncillary
  pL : VLEAncillary
  pV : VLEAncillary

/-- The constructor of `MultiFluidVLEAncillaries`, lines 48-52. -/
def MultiAncillaries.make (j : JTree) : Outcome MultiAncillaries :=
  ((j.at "rhoL").bind VLEAncillary.make).bind fun rhoL =>
  ((j.at "rhoV").bind VLEAncillary.make).bind fun rhoV =>
  (if j.contains "pS" then (j.at "pS").bind VLEAncillary.make else (j.at "pL").bind VLEAncillary.make).bind fun pL =>
  (if j.contains "pS" then (j.at "pS").bind VLEAncillary.make else (j.at "pV").bind VLEAncillary.make).bind fun pV =>
  .ok ⟨rhoL, rhoV, pL, pV⟩

end Teqp.Model
