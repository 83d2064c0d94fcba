import Verif.Model.Factory
import Mathlib.Analysis.SpecialFunctions.Log.Basic
import Mathlib.Algebra.BigOperators.Group.Finset.Basic

/-! # Activity-coefficient (excess Helmholtz) models

`/repo/include/teqp/models/activity/activity_models.hpp`.  Logarithms of values that are not positive and
divisions by zero are outcomes of their own. -/

set_option autoImplicit false

namespace Teqp.Model
open scoped Classical
open Finset

/-- `WilsonResidualHelmholtzOverRT`, `/repo/include/teqp/models/activity/activity_models.hpp` lines 41-46. -/
structure Wilson where
  b : List ℝ
  m : SqMat
  n : SqMat

/-- `get_Aij`, lines 74-77. -/
def Wilson.A (w : Wilson) (i j : ℕ) (T : ℝ) : ℝ := w.m.val i j * T + w.n.val i j

/-- Element `i` of a vector. -/
def el (x : List ℝ) (i : ℕ) : ℝ := x.getD i 0

/-- `combinatorial`, lines 48-72. -/
noncomputable def Wilson.combinatorial (w : Wilson) (x : List ℝ) : Outcome ℝ :=
  if w.b.length ≠ x.length then .throws .invalidArgument
  else
    let Vtot := ∑ i ∈ range x.length, el x i * el w.b i
    if Vtot = 0 ∨ ∃ i ∈ range x.length, el w.b i / Vtot ≤ 0 then .nonFinite
    else .ok (∑ i ∈ range x.length, el x i * Real.log (el w.b i / Vtot))

/-- The inner sum `summerj` of `total`, lines 86-92. -/
noncomputable def Wilson.inner (w : Wilson) (T : ℝ) (x : List ℝ) (i : ℕ) : ℝ :=
  ∑ j ∈ range x.length, el x j * (el w.b j / el w.b i * Real.exp (-w.A i j T / T))

/-- `total`, lines 79-96: there is no check of sizes, so a composition that is longer than one of the
parameter arrays reads outside of it. -/
noncomputable def Wilson.total (w : Wilson) (T : ℝ) (x : List ℝ) : Outcome ℝ :=
  if w.b.length < x.length ∨ w.m.n < x.length ∨ w.n.n < x.length then .ub
  else if x = [] then .ok 0
  else if T = 0 ∨ ∃ i ∈ range x.length, el w.b i = 0 ∨ w.inner T x i ≤ 0 then .nonFinite
  else .ok (-∑ i ∈ range x.length, el x i * Real.log (w.inner T x i))

/-- `operator()`, lines 99-102.  The order of the two calls is not fixed by the language; here the left one
comes first. -/
noncomputable def Wilson.eval (w : Wilson) (T : ℝ) (x : List ℝ) : Outcome ℝ :=
  match w.total T x with
  | .ub => .ub
  | .throws e => .throws e
  | .ok t => (w.combinatorial x).bind fun c => .ok (t - c)
  | .nonFinite => match w.combinatorial x with
    | .throws e => .throws e
    | .ub => .ub
    | _ => .nonFinite

/-- `BinaryInvariantResidualHelmholtzOverRT`, lines 126-142: the number of coefficients is not checked. -/
def binaryInvariant (c : List ℝ) (x : List ℝ) : Outcome ℝ :=
  match x with
  | [x0, x1] => match c with
    | c0 :: c1 :: c2 :: _ => .ok (c0 * x0 * x1 * (c1 + c2 * x1))
    | _ => .ub
  | _ => .throws .invalidArgument

/-- The variant of activity models, line 144; COSMO-SAC is opaque. -/
inductive ActivityModel where
  | null
  | wilson (w : Wilson)
  | binaryInvariant (c : List ℝ)
  | cosmosac (f : ℝ → List ℝ → Outcome ℝ)

/-- Evaluation by `std::visit`; `NullResidualHelmholtzOverRT` is lines 10-18. -/
noncomputable def ActivityModel.eval (a : ActivityModel) (T : ℝ) (x : List ℝ) : Outcome ℝ :=
  match a with
  | .null => .ok 0
  | .wilson w => w.eval T x
  | .binaryInvariant c => Teqp.Model.binaryInvariant c x
  | .cosmosac f => f T x

/-- `ares_model_factory`, lines 146-194; reading a COSMO-SAC model is a parameter. -/
noncomputable def aresFactory (cosmo : JTree → Outcome (ℝ → List ℝ → Outcome ℝ)) (j : JTree) : Outcome ActivityModel :=
  ((j.at "type").bind JTree.toStr).bind fun type =>
  if type = "Wilson" then
    ((j.at "b").bind JTree.toRow).bind fun b =>
    ((j.at "m").bind buildSquareMatrix).bind fun m =>
    ((j.at "n").bind buildSquareMatrix).bind fun n =>
    .ok (.wilson ⟨b, m, n⟩)
  else if type = "binaryInvariant" then
    ((j.at "c").bind JTree.toRow).bind fun c => .ok (.binaryInvariant c)
  else if type = "COSMO-SAC-2010" then
    (cosmo j).bind fun f => .ok (.cosmosac f)
  else .throws .invalidArgument

end Teqp.Model
