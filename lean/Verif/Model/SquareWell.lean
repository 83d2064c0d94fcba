import Verif.Basic
import Mathlib.Analysis.SpecialFunctions.ExpDeriv
import Mathlib.Analysis.SpecialFunctions.Trigonometric.Basic

/-! # The square-well fluid of variable range

`/repo/include/teqp/models/model_potentials/squarewell.hpp`, class `EspindolaHeredia2009`.  The constant `m_pi` of line 34 is
replaced by `π`; all quotients are quotients of real numbers, so statements carry the condition that denominators are not zero. -/

set_option autoImplicit false

namespace Teqp.Model
open Finset

/-- `phivals`, lines 40-43. -/
noncomputable def swPhiVals : ℕ → List ℝ
  | 1 => [-1320.19, 5124.1, -8145.37, 6895.8, -3381.42, 968.739, -151.255, 9.98592]
  | 2 => [1049.76, -4023.29, 6305.95, -5265.42, 2553.84, -727.3, 113.631, -7.56266]
  | _ => []

/-- `thetavals`, lines 44-47. -/
noncomputable def swThetaVals : ℕ → List ℝ
  | 3 => [0, -945.597, 1326.61, -471.688, 0, 23.2271, -2.63477, 0]
  | 4 => [0, 4131.09, -10501.1, 8909.18, -2521.96, -16.7882, 19.5315, -1.27373]
  | _ => []

/-- `gammanvals`, lines 49-54. -/
noncomputable def swGammaVals : ℕ → List ℝ
  | 1 => [0, -59.0464, 26.098, 26.4454, 7.40136, 11.0743, -5.49152, 0.781823, -0.0319751, 0.827621, 0.605635, -0.254959, 0.0377111, -0.00210896, 0.0000452328]
  | 2 => [0, 214.316, -88.1394, 273.3, 95.9759, 71.1228, -40.2656, 5.94069, -0.23842, -2.17558, -1.29255, 0.554993, -0.0857543, 0.00492511, -0.000107067]
  | 3 => [0, -225.479, 88.8202, 250.472, 90.2606, 57.0274, -33.2376, 4.99527, -0.195714, 1.84677, 0.99813, -0.440314, 0.0708793, -0.00416274, 0.0000917291]
  | 4 => [0, 65.0504, -25.096, 74.3095, 26.2153, 18.4397, -10.0891, 1.50243, -0.057694, -1.87154, -1.01682, 0.445247, -0.0725107, 0.00427862, -0.0000949723]
  | _ => []

/-- `Rn`, lines 56-63. -/
noncomputable def swR (g : List ℝ) (l : ℝ) : ℝ := g.getD 3 0 + ∑ j ∈ Icc 4 8, g.getD j 0 * (l ^ 3 - 1) ^ (j - 2)
/-- `Qn`, lines 65-72. -/
noncomputable def swQ (g : List ℝ) (l : ℝ) : ℝ := g.getD 9 0 + ∑ j ∈ Icc 10 14, g.getD j 0 * (l ^ 3 - 1) ^ (j - 7)
/-- `gamman`, lines 74-77. -/
noncomputable def swGamma (n : ℕ) (l : ℝ) : ℝ :=
  (swGammaVals n).getD 1 0 * l + (swGammaVals n).getD 2 0 * l ^ 2 + swR (swGammaVals n) l / swQ (swGammaVals n) l
/-- `phii`, lines 79-86. -/
noncomputable def swPhi (i : ℕ) (l : ℝ) : ℝ := ∑ n ∈ range 8, (swPhiVals i).getD n 0 * l ^ n

/-- `P1` to `P5`, lines 88-92. -/
noncomputable def swP1 (l : ℝ) : ℝ := l ^ 6 - 18 * l ^ 4 + 32 * l ^ 3 - 15
/-- Line 89. -/
noncomputable def swP2 (l : ℝ) : ℝ := -2 * l ^ 6 + 36 * l ^ 4 - 32 * l ^ 3 - 18 * l ^ 2 + 16
/-- Line 90. -/
noncomputable def swP3 (l : ℝ) : ℝ := 6 * l ^ 6 - 18 * l ^ 4 + 18 * l ^ 2 - 6
/-- Line 91. -/
noncomputable def swP4 (l : ℝ) : ℝ := 32 * l ^ 3 - 18 * l ^ 2 - 48
/-- Line 92. -/
noncomputable def swP5 (l : ℝ) : ℝ := 5 * l ^ 6 - 32 * l ^ 3 + 18 * l ^ 2 + 26

/-- `a2i`, line 94; the factorial is computed by `tgamma` (line 36). -/
noncomputable def swA2 (i : ℕ) (l : ℝ) : ℝ := -2 * Real.pi / (3 * (i.factorial : ℝ)) * (l ^ 3 - 1)
/-- `a31`, line 96. -/
noncomputable def swA31 (l : ℝ) : ℝ := -(Real.pi / 6) ^ 2 * swP1 (min l 2)

/-- `a32`, lines 98-103.  The constant `-17/2` of line 102 is a division of integers, which truncates towards zero. -/
noncomputable def swA32 (l : ℝ) : ℝ :=
  if l ≤ 2 then (Real.pi / 6) ^ 2 * (swP2 l - swP1 l / 2)
  else (Real.pi / 6) ^ 2 * (((Int.tdiv (-17) 2 : ℤ) : ℝ) + swP4 l)

/-- `a33`, lines 105-110; `-17/6` in line 109 is a division of integers. -/
noncomputable def swA33 (l : ℝ) : ℝ :=
  if l ≤ 2 then (Real.pi / 6) ^ 2 * (swP2 l - swP1 l / 6 - swP3 l)
  else (Real.pi / 6) ^ 2 * (((Int.tdiv (-17) 6 : ℤ) : ℝ) + swP4 l - swP5 l)

/-- `a34`, lines 112-117; `-17/24` in line 116 is a division of integers. -/
noncomputable def swA34 (l : ℝ) : ℝ :=
  if l ≤ 2 then (Real.pi / 6) ^ 2 * (-swP1 l / 24 + 7 * swP2 l / 12 - 3 * swP3 l / 2)
  else (Real.pi / 6) ^ 2 * (((Int.tdiv (-17) 24 : ℤ) : ℝ) + 7 * swP4 l / 12 - 3 * swP5 l / 2)

/-- `xi2`, `xi3`, `xi4`, lines 119-121. -/
noncomputable def swXi2 (l : ℝ) : ℝ := swA32 l / swA2 2 l
/-- Line 120. -/
noncomputable def swXi3 (l : ℝ) : ℝ := swA33 l / swA2 3 l
/-- Line 121. -/
noncomputable def swXi4 (l : ℝ) : ℝ := swA34 l / swA2 4 l

/-- `Ki`, lines 123-137. -/
noncomputable def swK (i : ℕ) (rho l : ℝ) : ℝ :=
  (∑ n ∈ Icc 1 4, (swThetaVals i).getD n 0 * l ^ n) * rho ^ 2 / (1 + rho * ∑ n ∈ Icc 5 7, (swThetaVals i).getD n 0 * l ^ (n - 4))

/-- `Chi`, lines 139-140. -/
noncomputable def swChi (rho l : ℝ) : ℝ := swA2 2 l * rho * (1 - rho ^ 2 / 1.5129)

/-- `aHS`, lines 142-145. -/
noncomputable def swHS (rho : ℝ) : ℝ := -3 * Real.pi * rho * (Real.pi * rho - 8) / (Real.pi * rho - 6) ^ 2

/-- `get_a1`, lines 147-154. -/
noncomputable def swa1 (rho l : ℝ) : ℝ := swA2 1 l * rho + swA31 l * rho ^ 2 + ∑ i ∈ Icc 1 4, swGamma i l * rho ^ (i + 2)
/-- `get_a2`, lines 156-159. -/
noncomputable def swa2 (rho l : ℝ) : ℝ := swChi rho l * Real.exp (swXi2 l * rho + swPhi 1 l * rho ^ 3 + swPhi 2 l * rho ^ 4)
/-- `get_a3`, lines 161-164. -/
noncomputable def swa3 (rho l : ℝ) : ℝ := swA2 3 l * rho * Real.exp (swXi3 l * rho + swK 3 rho l)
/-- `get_a4`, lines 166-169. -/
noncomputable def swa4 (rho l : ℝ) : ℝ := swA2 4 l * rho * Real.exp (swXi4 l * rho + swK 4 rho l)

/-- `alphar`, lines 188-203. -/
noncomputable def swAlphar (l T rho : ℝ) : ℝ := swHS rho + swa1 rho l / T + swa2 rho l / T ^ 2 + swa3 rho l / T ^ 3 + swa4 rho l / T ^ 4

end Teqp.Model
