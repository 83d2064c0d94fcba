import Verif.Model.CPA
import Mathlib.Analysis.SpecialFunctions.Pow.Real
import Mathlib.Analysis.SpecialFunctions.ExpDeriv
import Mathlib.Analysis.SpecialFunctions.Trigonometric.Basic
import Mathlib.Analysis.Real.Sqrt

/-! # Lennard-Jones monomers and chains

`/repo/include/teqp/models/mie/lennardjones/johnson.hpp`, `/repo/include/teqp/models/model_potentials/LJChain.hpp` and
`/repo/include/teqp/models/saft/softsaft.hpp`.  `EIGEN_PI` is replaced by `π`. -/

set_option autoImplicit false

namespace Teqp.Model
open Finset

/-! ## Johnson, Zollweg and Gubbins -/

/-- `x`, `johnson.hpp` lines 159-195; the entry at zero is a placeholder. -/
noncomputable def johnsonX : List ℝ := [0, 0.8623085097507421, 2.976218765822098, -8.402230115796038, 0.1054136629203555, -0.8564583828174598,
  1.582759470107601, 0.7639421948305453, 1.753173414312048, 2.798291772190376e3, -4.8394220260857657e-2, 0.9963265197721935,
  -3.698000291272493e1, 2.084012299434647e1, 8.305402124717285e1, -9.574799715203068e2, -1.477746229234994e2, 6.398607852471505e1,
  1.603993673294834e1, 6.805916615864377e1, -2.791293578795945e3, -6.245128304568454, -8.116836104958410e3, 1.488735559561229e1,
  -1.059346754655084e4, -1.131607632802822e2, -8.867771540418822e3, -3.986982844450543e1, -4.689270299917261e3, 2.593535277438717e2,
  -2.694523589434903e3, -7.218487631550215e2, 1.721802063863269e2]

/-- An entry of `x`. -/
noncomputable def jx (k : ℕ) : ℝ := johnsonX.getD k 0

/-- `get_ai`, lines 198-220. -/
noncomputable def johnsonA (i : ℕ) (T : ℝ) : Outcome ℝ :=
  match i with
  | 1 => .ok (jx 1 * T + jx 2 * Real.sqrt T + jx 3 + jx 4 / T + jx 5 / T ^ 2)
  | 2 => .ok (jx 6 * T + jx 7 + jx 8 / T + jx 9 / T ^ 2)
  | 3 => .ok (jx 10 * T + jx 11 + jx 12 / T)
  | 4 => .ok (jx 13)
  | 5 => .ok (jx 14 / T + jx 15 / T ^ 2)
  | 6 => .ok (jx 16 / T)
  | 7 => .ok (jx 17 / T + jx 18 / T ^ 2)
  | 8 => .ok (jx 19 / T ^ 2)
  | _ => .throws .invalidArgument

/-- `get_bi`, lines 223-241. -/
noncomputable def johnsonB (i : ℕ) (T : ℝ) : Outcome ℝ :=
  match i with
  | 1 => .ok (jx 20 / T ^ 2 + jx 21 / T ^ 3)
  | 2 => .ok (jx 22 / T ^ 2 + jx 23 / T ^ 4)
  | 3 => .ok (jx 24 / T ^ 2 + jx 25 / T ^ 3)
  | 4 => .ok (jx 26 / T ^ 2 + jx 27 / T ^ 4)
  | 5 => .ok (jx 28 / T ^ 2 + jx 29 / T ^ 3)
  | 6 => .ok (jx 30 / T ^ 2 + jx 31 / T ^ 3 + jx 32 / T ^ 4)
  | _ => .throws .invalidArgument

/-- `gamma`, line 158. -/
noncomputable def johnsonGamma : ℝ := 3

/-- `get_Gi`, lines 244-253, for the argument `k + 1`; smaller arguments, for which the recursion would not end, do not occur. -/
noncomputable def johnsonG (F rho : ℝ) : ℕ → ℝ
  | 0 => (1 - F) / (2 * johnsonGamma)
  | k + 1 => -(F * rho ^ (2 * (k + 1)) - 2 * ((k : ℝ) + 1) * johnsonG F rho k) / (2 * johnsonGamma)

/-- The loops of `get_alphar`, lines 259-264: the terms `f i` for the indices in the list, in order. -/
noncomputable def addTerms (f : ℕ → Outcome ℝ) : List ℕ → ℝ → Outcome ℝ
  | [], s => .ok s
  | i :: l, s => (f i).bind fun t => addTerms f l (s + t)

/-- `get_alphar`, lines 255-266. -/
noncomputable def johnsonSum (T rho : ℝ) : Outcome ℝ :=
  let F := Real.exp (-johnsonGamma * rho ^ 2)
  (addTerms (fun i => (johnsonA i T).bind fun a => .ok (a * rho ^ i / (i : ℝ))) [1, 2, 3, 4, 5, 6, 7, 8] 0).bind fun s =>
  addTerms (fun i => (johnsonB i T).bind fun b => .ok (b * johnsonG F rho (i - 1))) [1, 2, 3, 4, 5, 6] s

open Classical in
/-- `alphar`, lines 274-277: not finite for a temperature that is not positive (root, quotients). -/
noncomputable def johnsonAlphar (T rho : ℝ) : Outcome ℝ :=
  if T ≤ 0 then .nonFinite else (johnsonSum T rho).bind fun s => .ok (s / T)

/-! ## Kolafa and Nezbeda -/

/-- `c_dhBH`, lines 16-21. -/
noncomputable def knD : List (ℤ × ℝ) := [(-2, 0.011117524), (-1, -0.076383859), (0, 1.080142248), (1, 0.000693129)]
/-- `c_ln_dhBH`, line 22. -/
noncomputable def knLn : ℝ := -0.063920968
/-- `c_Delta_B2_hBH`, lines 24-32. -/
noncomputable def knB : List (ℤ × ℝ) := [(-7, -0.58544978), (-6, 0.43102052), (-5, 0.87361369), (-4, -4.13749995), (-3, 2.90616279),
  (-2, -7.02181962), (0, 0.02459877)]
/-- `c_Cij`, lines 34-54. -/
noncomputable def knC : List (ℤ × ℕ × ℝ) := [(0, 2, 2.01546797), (0, 3, -28.17881636), (0, 4, 28.28313847), (0, 5, -10.42402873),
  (-1, 2, -19.58371655), (-1, 3, 75.62340289), (-1, 4, -120.70586598), (-1, 5, 93.92740328), (-1, 6, -27.37737354),
  (-2, 2, 29.34470520), (-2, 3, -112.3535693), (-2, 4, 170.64908980), (-2, 5, -123.06669187), (-2, 6, 34.42288969),
  (-4, 2, -13.37031968), (-4, 3, 65.38059570), (-4, 4, -115.09233113), (-4, 5, 88.91973082), (-4, 6, -25.62099890)]
/-- `gamma`, line 56. -/
noncomputable def knGamma : ℝ := 1.92907278

/-- The sums of powers of the root of the temperature in `get_dhBH` and `get_DeltaB2hBH`, lines 60-66 and 79-85. -/
noncomputable def knPow (l : List (ℤ × ℝ)) (T : ℝ) : ℝ := (l.map fun e => e.2 * T ^ ((e.1 : ℝ) / 2)).sum
/-- The sums with the exponents in front, lines 70-75 and 88-94. -/
noncomputable def knPowD (l : List (ℤ × ℝ)) (T : ℝ) : ℝ := (l.map fun e => (e.1 : ℝ) / 2 * e.2 * T ^ ((e.1 : ℝ) / 2)).sum

/-- `get_dhBH`, lines 60-66. -/
noncomputable def knDiam (T : ℝ) : ℝ := knLn * Real.log T + knPow knD T
/-- `get_d_dhBH_d1T`, lines 69-75. -/
noncomputable def knDiamD (T : ℝ) : ℝ := -T * (knLn + knPowD knD T)
/-- `get_DeltaB2hBH`, lines 79-85. -/
noncomputable def knDB2 (T : ℝ) : ℝ := knPow knB T
/-- `get_d_DeltaB2hBH_d1T`, lines 88-94. -/
noncomputable def knDB2D (T : ℝ) : ℝ := -T * knPowD knB T

/-- `zeta`, line 99. -/
noncomputable def knZeta (T rho : ℝ) : ℝ := Real.pi / 6 * rho * knDiam T ^ 3
/-- `get_ahs`, lines 97-101. -/
noncomputable def knAhs (T rho : ℝ) : ℝ :=
  let z := knZeta T rho
  T * (5 / 3 * Real.log (1 - z) + z * (34 - 33 * z + 4 * z ^ 2) / (6 * (1 - z) ^ 2))
/-- `get_a`, lines 112-118.  The function `get_zhs` (lines 104-108), which is never used, contains `zeta**zeta` and could not be
instantiated; it is not modelled. -/
noncomputable def knHelm (T rho : ℝ) : ℝ :=
  knAhs T rho + Real.exp (-knGamma * rho ^ 2) * rho * T * knDB2 T + (knC.map fun e => e.2.2 * T ^ ((e.1 : ℝ) / 2) * rho ^ e.2.1).sum

open Classical in
/-- `alphar`, lines 125-128: the temperature has to be positive and the packing below one. -/
noncomputable def knAlphar (T rho : ℝ) : Outcome ℝ :=
  if T ≤ 0 ∨ 1 ≤ knZeta T rho then .nonFinite else .ok (knHelm T rho / T)

/-! ## Chains -/

/-- `aij_Johnson`, `LJChain.hpp` lines 18-25 and `softsaft.hpp` lines 11-18 (the same), without the padding. -/
noncomputable def chainA : List (List ℝ) := [
  [0.49304346593882, 2.1528349894745, -15.955682329017, 24.035999666294, -8.6437958513990],
  [-0.47031983115362, 1.1471647487376, 37.889828024211, -84.667121491179, 39.643914108411],
  [5.0325486243620, -25.915399226419, -18.862251310090, 107.63707381726, -66.602649735720],
  [-7.3633150434385, 51.553565337453, -40.519369256098, -38.796692647218, 44.605139198378],
  [2.9043607296043, -24.478812869291, 31.500186765040, -5.3368920371407, -9.5183440180133]]

/-- `g_LJ`, `LJChain.hpp` lines 30-39 and `softsaft.hpp` lines 20-29: `powi` with a negative exponent is the power of the inverse. -/
noncomputable def gLJ (T rho : ℝ) : ℝ :=
  1 + ∑ i ∈ Icc 1 5, ∑ j ∈ Icc 1 5, (chainA.getD (i - 1) []).getD (j - 1) 0 * rho ^ i * (1 / T) ^ (j - 1)

open Classical in
/-- `LJChain::alphar`, `LJChain.hpp` lines 46-55. -/
noncomputable def ljChain (mono : ℝ → ℝ → Outcome ℝ) (m T rho : ℝ) : Outcome ℝ :=
  (mono T (rho * m)).bind fun a =>
  if T = 0 ∨ gLJ T (rho * m) ≤ 0 then .nonFinite else .ok ((1 - m) * Real.log (gLJ T (rho * m)) + m * a)

/-- `SoftSAFT`, `softsaft.hpp` lines 32-39. -/
structure SoftSAFT where
  m : List ℝ
  eps : List ℝ
  sigma : List ℝ

/-- The constructors, lines 36-41: the sizes are not compared; the address of the first element of an empty vector is taken. -/
noncomputable def SoftSAFT.make (j : JTree) : Outcome SoftSAFT :=
  ((j.at "m").bind JTree.toRow).bind fun m =>
  ((j.at "epsilon/kB / K").bind JTree.toRow).bind fun e =>
  ((j.at "sigma / m").bind JTree.toRow).bind fun s =>
  if m = [] ∨ e = [] ∨ s = [] then .ub else .ok ⟨m, e, s⟩

namespace SoftSAFT
variable (p : SoftSAFT)

/-- `m_mix`, line 66. -/
noncomputable def mMix (x : List ℝ) : ℝ := ∑ i ∈ range x.length, p.m.getD i 0 * x.getD i 0
/-- `denentry`, line 68. -/
noncomputable def den (x : List ℝ) (i j : ℕ) : ℝ := p.m.getD i 0 * p.m.getD j 0 * x.getD i 0 * x.getD j 0
/-- `get_sigma3`, lines 54-57. -/
noncomputable def sigma3 (i j : ℕ) : ℝ := ((p.sigma.getD i 0 + p.sigma.getD j 0) / 2) ^ 3
/-- `get_epsilon_over_k`, lines 58-60. -/
noncomputable def epsij (i j : ℕ) : ℝ := Real.sqrt (p.eps.getD i 0 * p.eps.getD j 0)
/-- `den`, line 73. -/
noncomputable def denSum (x : List ℝ) : ℝ := ∑ i ∈ range x.length, ∑ j ∈ range x.length, p.den x i j
/-- `num1`, line 71. -/
noncomputable def num1 (x : List ℝ) : ℝ := ∑ i ∈ range x.length, ∑ j ∈ range x.length, p.den x i j * p.sigma3 i j
/-- `num2`, line 72. -/
noncomputable def num2 (x : List ℝ) : ℝ := ∑ i ∈ range x.length, ∑ j ∈ range x.length, p.den x i j * p.sigma3 i j * p.epsij i j
/-- `sigmamix3`, line 76. -/
noncomputable def sig3 (x : List ℝ) : ℝ := p.num1 x / p.denSum x
/-- `epskmix`, line 77. -/
noncomputable def epsMix (x : List ℝ) : ℝ := p.num2 x / p.denSum x / p.sig3 x

open Classical in
/-- `alphar`, lines 49-99.  The arrays are indexed with the indices of the mole fractions. -/
noncomputable def alphar (NA T rho : ℝ) (x : List ℝ) : Outcome ℝ :=
  if p.m.length < x.length ∨ p.eps.length < x.length ∨ p.sigma.length < x.length then .ub
  else if p.denSum x = 0 ∨ p.sig3 x = 0 ∨ p.epsMix x = 0 ∨ (∃ i < x.length, ∃ j < x.length, p.eps.getD i 0 * p.eps.getD j 0 < 0) then .nonFinite
  else
    let Ts := T / p.epsMix x
    let rs := rho * p.mMix x * NA * p.sig3 x
    (johnsonAlphar Ts rs).bind fun a =>
    if gLJ Ts rs ≤ 0 then .nonFinite else .ok (p.mMix x * a + (1 - p.mMix x) * Real.log (gLJ Ts rs))

end SoftSAFT

end Teqp.Model
