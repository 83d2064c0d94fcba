import Verif.Model.MultiFluid
import Verif.Model.Activity

/-! # Variants of the multi-fluid model

The ammonia-water mixture of Tillner-Roth (`/repo/include/teqp/models/ammonia_water.hpp`), multi-fluid models with an activity-coefficient
departure (`/repo/include/teqp/models/multifluid/multifluid_activity.hpp`) and the extended-corresponding-states mutant
(`/repo/include/teqp/models/multifluid_ecs_mutant.hpp`). -/

set_option autoImplicit false

namespace Teqp.Model
open Finset

/-! ## Ammonia and water -/

/-- The arrays `a`, `t`, `d`, `e`, `/repo/include/teqp/models/ammonia_water.hpp` lines 17-20. -/
noncomputable def awA : List ℝ := [0, -1.855822E-02, 5.258010E-02, 3.552874E-10, 5.451379E-06, -5.998546E-13, -3.687808E-06, 0.2586192,
  -1.368072E-08, 1.226146E-02, -7.181443E-02, 9.970849E-02, 1.0584086E-03, -0.1963687, -0.7777897]
/-- Line 18. -/
noncomputable def awT : List ℝ := [0, 1.5, 0.5, 6.5, 1.75, 15, 6, -1, 4, 3.5, 0, -1, 8, 7.5, 4]
/-- Line 19; all exponents are natural numbers. -/
def awD : List ℕ := [0, 4, 5, 15, 12, 12, 15, 4, 15, 4, 5, 6, 10, 6, 2]
/-- Line 20. -/
def awE : List ℕ := [0, 0, 1, 1, 1, 1, 2, 1, 1, 1, 1, 2, 2, 2, 2]

/-- One summand of the departure, lines 35-38. -/
noncomputable def awTerm (tau delta : ℝ) (i : ℕ) : ℝ := awA.getD i 0 * tau ^ awT.getD i 0 * delta ^ awD.getD i 0
/-- Lines 36-38: with the exponential. -/
noncomputable def awTermE (tau delta : ℝ) (i : ℕ) : ℝ := awTerm tau delta i * Real.exp (-delta ^ awE.getD i 0)

/-- `summer` of `alphar_departure`, lines 35-38. -/
noncomputable def awSum (tau delta x : ℝ) : ℝ :=
  awTerm tau delta 1 + ∑ i ∈ Icc 2 6, awTermE tau delta i + ∑ i ∈ Icc 7 13, x * awTermE tau delta i + x * x * awTermE tau delta 14

open Classical in
/-- `alphar_departure`, lines 32-45. -/
noncomputable def awDeparture (tau delta x : ℝ) : ℝ := if x = 0 then 0 else x * (1 - x ^ (0.5248379 : ℝ)) * awSum tau delta x

/-- `TcNH3` and `TcH2O`, line 24. -/
noncomputable def awTcNH3 : ℝ := 405.40
/-- Line 24. -/
noncomputable def awTcH2O : ℝ := 647.096
/-- `vcNH3` and `vcH2O`, line 25. -/
noncomputable def awVcNH3 : ℝ := 0.01703026 / 225
/-- Line 25. -/
noncomputable def awVcH2O : ℝ := 0.018015268 / 322

/-- The expression of line 57. -/
noncomputable def awTredVal (x : ℝ) : ℝ :=
  awTcNH3 * x * x + awTcH2O * (1 - x) * (1 - x) + 2 * x * (1 - x ^ (1.125455 : ℝ)) * 0.9648407 / 2 * (awTcNH3 + awTcH2O)
/-- The expression of line 71. -/
noncomputable def awVredVal (x : ℝ) : ℝ :=
  awVcNH3 * x * x + awVcH2O * (1 - x) * (1 - x) + 2 * x * (1 - x ^ (0.8978069 : ℝ)) * 1.2395117 / 2 * (awVcNH3 + awVcH2O)

open Classical in
/-- `get_Treducing`, lines 47-59. -/
noncomputable def awTred (x : List ℝ) : Outcome ℝ :=
  match x with
  | [x0, _] => if x0 = 0 then .throws .invalidArgument else if x0 < 0 then .nonFinite else .ok (awTredVal x0)
  | _ => .throws .invalidArgument

open Classical in
/-- `get_rhoreducing`, lines 61-73. -/
noncomputable def awRhored (x : List ℝ) : Outcome ℝ :=
  match x with
  | [x0, _] =>
    if x0 = 0 then .throws .invalidArgument
    else if x0 < 0 ∨ awVredVal x0 = 0 then .nonFinite
    else .ok (1 / awVredVal x0)
  | _ => .throws .invalidArgument

open Classical in
/-- `alphar`, lines 75-91; `p0` and `p1` are the residual Helmholtz energies of ammonia and water (lines 11-16 and 27). -/
noncomputable def awAlphar (p0 p1 : ℝ → ℝ → ℝ) (T rho : ℝ) (x : List ℝ) : Outcome ℝ :=
  match x with
  | [x0, x1] =>
    (awTred [x0, x1]).bind fun Tred =>
    (awRhored [x0, x1]).bind fun rhored =>
    if T = 0 ∨ rhored = 0 then .nonFinite
    else
      let delta := rho / rhored
      let tau := Tred / T
      .ok (p0 tau delta * x0 + p1 tau delta * (1 - x0) + awDeparture tau delta x0)
  | _ => .throws .invalidArgument

/-! ## A departure from an activity model -/

/-- `MultifluidPlusActivity`, `/repo/include/teqp/models/multifluid/multifluid_activity.hpp` lines 31-43; `Tc` and `vc` are members of the
reducing function. -/
structure PlusActivity (n : ℕ) where
  mf : MultiFluid n
  Tc : Fin n → ℝ
  vc : Fin n → ℝ
  act : ActivityModel
  b : List ℝ
  u : ℝ

namespace PlusActivity
variable {n : ℕ} (m : PlusActivity n)

/-- `bm`, line 84. -/
noncomputable def bm (x : List ℝ) : ℝ := ∑ i ∈ range x.length, el m.b i * el x i

/-- `summer`, lines 94-99, for a composition of `n` components; `alphar_taudeltai` is `multifluid.hpp` lines 193-197. -/
noncomputable def summer (T : ℝ) (x : List ℝ) : ℝ :=
  let z := fun i : Fin n => el x i
  let tau := m.mf.Tr z / T
  let dref := 1 / (m.u * m.bm x * m.mf.rhor z)
  ∑ i, z i * (containerAlphar (m.mf.eos i) tau dref - containerAlphar (m.mf.eos i) (m.Tc i / T) (1 / (m.u * el m.b i / m.vc i)))

/-- The divisors are not zero and the logarithms are of positive numbers. -/
structure Regular (T rho : ℝ) (x : List ℝ) : Prop where
  hT : T ≠ 0
  hu : m.u ≠ 0
  hu1 : 0 < 1 + 1 / m.u
  hb : ∀ i : Fin n, el m.b i ≠ 0
  hv : ∀ i, m.vc i ≠ 0
  hbm : m.bm x ≠ 0
  hr : m.mf.rhor (fun i => el x i) ≠ 0
  hrho : 0 < 1 + rho * m.bm x

open Classical in
/-- `alphar_activity`, lines 77-101.  The activity model runs before the number of mole fractions is compared, and then only with the
number of `b`; more fractions than components index past the arrays of the mixture, fewer give sums over the first ones. -/
noncomputable def alpharActivity (T rho : ℝ) (x : List ℝ) : Outcome ℝ :=
  (m.act.eval T x).bind fun g =>
  if m.b.length ≠ x.length then .throws .invalidArgument
  else if n < x.length then .ub
  else if ¬ m.Regular T rho x then .nonFinite
  else .ok (Real.log (1 + rho * m.bm x) / Real.log (1 + 1 / m.u) * (g - m.summer T x))

/-- `alphar`, lines 103-109; the order of the two calls is not fixed by the language, here the left one comes first. -/
noncomputable def alphar (T rho : ℝ) (x : List ℝ) : Outcome ℝ :=
  (m.mf.alpharV T rho x).bind fun a => (m.alpharActivity T rho x).bind fun b => .ok (a + b)

end PlusActivity

/-! ## The extended-corresponding-states mutant -/

/-- A matrix read by `Reducing_ECS` and one of the vectors of the pure fluids. -/
structure ECSMutant where
  tr : ℕ → ℕ → ℝ
  dr : ℕ → ℕ → ℝ
  Tc0 : ℝ
  Tc1 : ℝ
  vc0 : ℝ
  vc1 : ℝ

/-- A matrix of coefficients, `/repo/include/teqp/models/multifluid_ecs_mutant.hpp` lines 56-75: as many rows as the array has, as many columns
as its first row has.  Indexing past the end of this non-constant copy appends nulls: an empty array has a first row of size zero, and a
null in place of a number throws.  Columns after the first row's are not read.  A first row that is not an array is simplified to a failure. -/
noncomputable def ecsMatrix (j : JTree) : Outcome (ℕ × ℕ × (ℕ → ℕ → ℝ)) :=
  match j with
  | .null => .ok (0, 0, fun _ _ => 0)
  | .arr [] => .ok (0, 0, fun _ _ => 0)
  | .arr ((.arr r0) :: rows) =>
    (mapOutcome (fun r : JTree => match r with
      | .arr r => if r.length < r0.length then .throws .jsonError else mapOutcome JTree.toDouble (r.take r0.length)
      | _ => if r0.length = 0 then .ok [] else .throws .jsonError) ((.arr r0) :: rows)).bind fun M =>
    .ok (M.length, r0.length, fun i k => (M.getD i []).getD k 0)
  | _ => .throws .jsonError

/-- `Reducing_ECS`, lines 42-77, for a mixture of two components; reading the element `(5, 2)` of a smaller matrix is undefined. -/
noncomputable def ecsMake (Tc vc : Fin 2 → ℝ) (j : JTree) : Outcome (Option ECSMutant) :=
  if ¬ j.contains "tr_coeffs" then .throws .invalidArgument
  else if ¬ j.contains "dr_coeffs" then .throws .invalidArgument
  else
    (j.at "tr_coeffs").bind fun jt =>
    (j.at "dr_coeffs").bind fun jd =>
    (ecsMatrix jt).bind fun t =>
    (ecsMatrix jd).bind fun d =>
    if t.1 < 6 ∨ t.2.1 < 3 ∨ d.1 < 6 ∨ d.2.1 < 3 then .ok none
    else .ok (some ⟨t.2.2, d.2.2, Tc 0, Tc 1, vc 0, vc 1⟩)

namespace ECSMutant
variable (m : ECSMutant)

/-- The coefficients `p00` and so on, lines 85-90 and 108-113: row `r` of a matrix. -/
noncomputable def coef (c : ℕ → ℕ → ℝ) (r : ℕ) (x0 : ℝ) : ℝ := c r 0 + x0 * c r 1 + x0 * x0 * c r 2
/-- `1/dc_scale`, lines 91 and 114. -/
noncomputable def vScale : ℝ := 0.125 * (m.vc0 ^ (1 / 3 : ℝ) + m.vc1 ^ (1 / 3 : ℝ)) ^ (3 : ℝ)
/-- `tc_scale`, lines 92 and 116. -/
noncomputable def tScale : ℝ := Real.sqrt (m.Tc0 * m.Tc1)
/-- The polynomial, lines 96-97 and 120-121. -/
noncomputable def poly (c : ℕ → ℕ → ℝ) (x0 tau delta : ℝ) : ℝ :=
  coef c 0 x0 + coef c 1 x0 * delta + coef c 2 x0 * tau + coef c 3 x0 * delta * delta + coef c 5 x0 * tau * tau + coef c 4 x0 * delta * tau
/-- `get_tr`, lines 82-99. -/
noncomputable def getTr (T rho x0 x1 : ℝ) : ℝ :=
  x0 ^ (2 : ℝ) * m.Tc0 + x1 ^ (2 : ℝ) * m.Tc1 + 2 * x0 * x1 * poly m.tr x0 (m.tScale / T) (rho / (1 / m.vScale)) * m.tScale
/-- `vc_` in `get_dr`, lines 105-121. -/
noncomputable def getVr (T rho x0 x1 : ℝ) : ℝ :=
  x0 ^ (2 : ℝ) * m.vc0 + x1 ^ (2 : ℝ) * m.vc1 + 2 * x0 * x1 * poly m.dr x0 (m.tScale / T) (rho / (1 / m.vScale)) * (1 / (1 / m.vScale))

open Classical in
/-- `MultiFluidAdapter_Ecs::alphar`, lines 149-163. -/
noncomputable def alphar (m : Option ECSMutant) (base : MultiFluid 2) (T rho : ℝ) (x : List ℝ) : Outcome ℝ :=
  match x with
  | [x0, x1] =>
    match m with
    | none => .ub
    | some m =>
      if T = 0 ∨ m.getVr T rho x0 x1 = 0 ∨ m.vScale = 0 ∨ m.Tc0 * m.Tc1 < 0 then .nonFinite
      else .ok (base.corr (m.getTr T rho x0 x1 / T) (rho / (1 / m.getVr T rho x0 x1)) ![x0, x1])
  | _ => .throws .invalidArgument

end ECSMutant

end Teqp.Model
