import Verif.Model.PCSAFT
import Mathlib.Analysis.SpecialFunctions.Pow.Real

/-! # The polar contributions of Gross and Vrabec

`/repo/include/teqp/models/saft/polar_terms/GrossVrabec.hpp`. -/

set_option autoImplicit false

namespace Teqp.Model
open Finset

/-- Lines 20-21, 35, 55-56, 69, 90-91 and 104 of `GrossVrabec.hpp`: a coefficient as a function of the chain length.  For the
dipole-quadrupole integral of third order there is no third row (line 104), i.e. `c 2 = 0`. -/
noncomputable def gvCoeff (c : Fin 3 → Fin 5 → ℝ) (m : ℝ) (n : Fin 5) : ℝ :=
  c 0 n + (m - 1) / m * c 1 n + (m - 1) / m * (m - 2) / m * c 2 n

/-- The sums of lines 18-24, 50-56 and 87-93 (integrals of second order). -/
noncomputable def gvJ2 (a b : Fin 3 → Fin 5 → ℝ) (eta m Tstar : ℝ) : ℝ :=
  ∑ n : Fin 5, (gvCoeff a m n + gvCoeff b m n / Tstar) * eta ^ (n : ℕ)

/-- The sums of lines 33-38, 67-72 and 102-106 (integrals of third order). -/
noncomputable def gvJ3 (c : Fin 3 → Fin 5 → ℝ) (eta m : ℝ) : ℝ :=
  ∑ n : Fin 5, gvCoeff c m n * eta ^ (n : ℕ)

/-- A table written as rows of numbers. -/
noncomputable def gvTable (rows : List (List ℝ)) : Fin 3 → Fin 5 → ℝ := fun r c => (rows.getD r []).getD c 0

/-- Lines 10-12. -/
noncomputable def tabDDa : Fin 3 → Fin 5 → ℝ := gvTable [
  [0.3043504, -0.1358588, 1.4493329, 0.3556977, -2.0653308],
  [0.9534641, -1.8396383, 2.0131180, -7.3724958, 8.2374135],
  [-1.1610080, 4.5258607, 0.9751222, -12.281038, 5.9397575]]

/-- Lines 14-16. -/
noncomputable def tabDDb : Fin 3 → Fin 5 → ℝ := gvTable [
  [0.2187939, -1.1896431, 1.1626889, 0, 0],
  [-0.5873164, 1.2489132, -0.5085280, 0, 0],
  [3.4869576, -14.915974, 15.372022, 0, 0]]

/-- Lines 30-32. -/
noncomputable def tabDDc : Fin 3 → Fin 5 → ℝ := gvTable [
  [-0.0646774, 0.1975882, -0.8087562, 0.6902849, 0],
  [-0.9520876, 2.9924258, -2.3802636, -0.2701261, 0],
  [-0.6260979, 1.2924686, 1.6542783, -3.4396744, 0]]

/-- Lines 44-46. -/
noncomputable def tabQQa : Fin 3 → Fin 5 → ℝ := gvTable [
  [1.2378308, 2.4355031, 1.6330905, -1.6118152, 6.9771185],
  [1.2854109, -11.465615, 22.086893, 7.4691383, -17.197772],
  [1.7942954, 0.7695103, 7.2647923, 94.486699, -77.148458]]

/-- Lines 48-50. -/
noncomputable def tabQQb : Fin 3 → Fin 5 → ℝ := gvTable [
  [0.4542718, -4.5016264, 3.5858868, 0, 0],
  [-0.8137340, 10.064030, -10.876631, 0, 0],
  [6.8682675, -5.1732238, -17.240207, 0, 0]]

/-- Lines 64-66. -/
noncomputable def tabQQc : Fin 3 → Fin 5 → ℝ := gvTable [
  [0.5000437, 6.5318692, -16.014780, 14.425970, 0],
  [2.0002094, -6.7838658, 20.383246, -10.895984, 0],
  [3.1358271, 7.2475888, 3.0759478, 0, 0]]

/-- Lines 79-81; four coefficients. -/
noncomputable def tabDQa : Fin 3 → Fin 5 → ℝ := gvTable [
  [0.6970950, -0.6335541, 2.9455090, -1.4670273],
  [-0.6734593, -1.4258991, 4.1944139, 1.0266216],
  [0.6703408, -4.3384718, 7.2341684, 0]]

/-- Lines 83-85. -/
noncomputable def tabDQb : Fin 3 → Fin 5 → ℝ := gvTable [
  [-0.4840383, 1.9704055, -2.1185727, 0],
  [0.6765101, -3.0138675, 0.4674266, 0],
  [-1.1675601, 2.1348843, 0, 0]]

/-- Lines 100-101. -/
noncomputable def tabDQc : Fin 3 → Fin 5 → ℝ := gvTable [
  [7.846431, 33.42700, 4.689111, 0],
  [-20.72202, -58.63904, -1.764887, 0]]

/-- `get_JDD_2ij`, lines 8-25. -/
noncomputable def JDD2 (eta m Tstar : ℝ) : ℝ := gvJ2 tabDDa tabDDb eta m Tstar
/-- `get_JDD_3ijk`, lines 28-39. -/
noncomputable def JDD3 (eta m : ℝ) : ℝ := gvJ3 tabDDc eta m
/-- `get_JQQ_2ij`, lines 42-59. -/
noncomputable def JQQ2 (eta m Tstar : ℝ) : ℝ := gvJ2 tabQQa tabQQb eta m Tstar
/-- `get_JQQ_3ijk`, lines 62-73. -/
noncomputable def JQQ3 (eta m : ℝ) : ℝ := gvJ3 tabQQc eta m
/-- `get_JDQ_2ij`, lines 77-94. -/
noncomputable def JDQ2 (eta m Tstar : ℝ) : ℝ := gvJ2 tabDQa tabDQb eta m Tstar
/-- `get_JDQ_3ijk`, lines 98-108. -/
noncomputable def JDQ3 (eta m : ℝ) : ℝ := gvJ3 tabDQc eta m

/-- The data held by the contributions, lines 115, 205 and 299. -/
structure GVParams (ι : Type) where
  m : ι → ℝ
  sigma : ι → ℝ
  eps : ι → ℝ
  mustar2 : ι → ℝ
  nmu : ι → ℝ
  Qstar2 : ι → ℝ
  nQ : ι → ℝ

section
variable {ι : Type} [Fintype ι]

/-- Lorentz rule, lines 142, 163-165. -/
noncomputable def GVParams.sij (p : GVParams ι) (i j : ι) : ℝ := (p.sigma i + p.sigma j) / 2
/-- Lines 144-145: `T / sqrt (eps_i * eps_j)`.  If the root is zero the quotient is infinite in floating point and `b / Tstar` is
zero; with real numbers `b / (T / 0) = 0` as well. -/
noncomputable def GVParams.Tstar (p : GVParams ι) (T : ℝ) (i j : ι) : ℝ := T / Real.sqrt (p.eps i * p.eps j)
/-- Line 146. -/
noncomputable def GVParams.mij (p : GVParams ι) (i j : ι) : ℝ := min (Real.sqrt (p.m i * p.m j)) 2
/-- Line 167. -/
noncomputable def GVParams.mijk (p : GVParams ι) (i j k : ι) : ℝ := min ((p.m i * p.m j * p.m k) ^ (1 / 3 : ℝ)) 2

open Classical in
/-- `get_alpha2DD`, lines 128-150. -/
noncomputable def alpha2DD (p : GVParams ι) (T rho eta : ℝ) (x : ι → ℝ) : ℝ :=
  -Real.pi * rho * ∑ i, ∑ j, if p.nmu i * p.nmu j > 0 then
    x i * x j * p.eps i / T * p.eps j / T * (p.sigma i * p.sigma j / p.sij i j) ^ 3 * (p.nmu i * p.nmu j) * p.mustar2 i * p.mustar2 j *
      JDD2 eta (p.mij i j) (p.Tstar T i j) else 0

open Classical in
/-- `get_alpha3DD`, lines 152-176. -/
noncomputable def alpha3DD (p : GVParams ι) (T rho eta : ℝ) (x : ι → ℝ) : ℝ :=
  -4 * Real.pi ^ 2 / 3 * rho ^ 2 * ∑ i, ∑ j, ∑ k, if p.nmu i * p.nmu j * p.nmu k > 0 then
    x i * x j * x k * p.eps i / T * p.eps j / T * p.eps k / T * (p.sigma i * p.sigma j * p.sigma k) ^ 3 /
      (p.sij i j * p.sij i k * p.sij j k) * (p.nmu i * p.nmu j * p.nmu k) * p.mustar2 i * p.mustar2 j * p.mustar2 k *
      JDD3 eta (p.mijk i j k) else 0

open Classical in
/-- `get_alpha2QQ`, lines 220-242. -/
noncomputable def alpha2QQ (p : GVParams ι) (T rho eta : ℝ) (x : ι → ℝ) : ℝ :=
  -Real.pi * (3 / 4) ^ 2 * rho * ∑ i, ∑ j, if p.nQ i * p.nQ j > 0 then
    x i * x j * p.eps i / T * p.eps j / T * (p.sigma i * p.sigma j) ^ 5 / p.sij i j ^ 7 * (p.nQ i * p.nQ j) * p.Qstar2 i * p.Qstar2 j *
      JQQ2 eta (p.mij i j) (p.Tstar T i j) else 0

open Classical in
/-- `get_alpha3QQ`, lines 244-268.  The integral is the one of the dipolar term (line 262). -/
noncomputable def alpha3QQ (p : GVParams ι) (T rho eta : ℝ) (x : ι → ℝ) : ℝ :=
  -4 * Real.pi ^ 2 / 3 * (3 / 4) ^ 3 * rho ^ 2 * ∑ i, ∑ j, ∑ k, if p.nQ i * p.nQ j * p.nQ k > 0 then
    x i * x j * x k * p.eps i / T * p.eps j / T * p.eps k / T * (p.sigma i * p.sigma j * p.sigma k) ^ 5 /
      (p.sij i j * p.sij i k * p.sij j k) ^ 3 * (p.nQ i * p.nQ j * p.nQ k) * p.Qstar2 i * p.Qstar2 j * p.Qstar2 k *
      JDD3 eta (p.mijk i j k) else 0

open Classical in
/-- `get_alpha2DQ`, lines 331-352. -/
noncomputable def alpha2DQ (p : GVParams ι) (T rho eta : ℝ) (x : ι → ℝ) : ℝ :=
  -Real.pi * 9 / 4 * rho * ∑ i, ∑ j, if p.nmu i * p.nQ j > 0 then
    x i * x j * p.eps i / T * p.eps j / T * p.sigma i ^ 3 * p.sigma j ^ 5 / p.sij i j ^ 5 * (p.nmu i * p.nQ j) * p.mustar2 i * p.Qstar2 j *
      JDQ2 eta (p.mij i j) (p.Tstar T i j) else 0

open Classical in
/-- `get_alpha3DQ`, lines 355-381. -/
noncomputable def alpha3DQ (p : GVParams ι) (T rho eta : ℝ) (x : ι → ℝ) : ℝ :=
  -rho ^ 2 * ∑ i, ∑ j, ∑ k, if p.nmu i * p.nmu j * p.nQ k > 0 ∨ p.nmu i * p.nQ j * p.nQ k > 0 then
    x i * x j * x k * p.eps i / T * p.eps j / T * p.eps k / T * (p.sigma i * p.sigma j * p.sigma k) ^ 4 /
      (p.sij i j * p.sij i k * p.sij j k) ^ 2 *
      (p.nmu i * p.nmu j * p.nQ k * p.mustar2 i * p.mustar2 j * p.Qstar2 k +
        p.nmu i * p.nQ j * p.nQ k * 1.19374 * p.mustar2 i * p.Qstar2 j * p.Qstar2 k) *
      JDQ3 eta (p.mijk i j k) else 0

end

open Classical in
/-- The Padé approximant `alpha2/(1.0-alpha3/alpha2)` of lines 184, 276, 388, 446, 453 and 460.  With both terms zero the quotient
`0/0` is not a number; with only the second-order term zero `alpha3/alpha2` is infinite and the approximant is zero. -/
noncomputable def gvPade (a2 a3 : ℝ) : Outcome ℝ :=
  if a2 = 0 then (if a3 = 0 then .nonFinite else .ok 0)
  else if 1 - a3 / a2 = 0 then .nonFinite else .ok (a2 / (1 - a3 / a2))

/-- `DipolarContributionGrossVrabec::eval`, lines 181-197, for arguments for which the sums are finite. -/
noncomputable def dipEval {ι : Type} [Fintype ι] (p : GVParams ι) (T rho eta : ℝ) (x : ι → ℝ) : Outcome ℝ :=
  gvPade (alpha2DD p T rho eta x) (alpha3DD p T rho eta x)

/-- `QuadrupolarContributionGross::eval`, lines 273-289. -/
noncomputable def quadEval {ι : Type} [Fintype ι] (p : GVParams ι) (T rho eta : ℝ) (x : ι → ℝ) : Outcome ℝ :=
  gvPade (alpha2QQ p T rho eta x) (alpha3QQ p T rho eta x)

/-- `DipolarQuadrupolarContributionVrabecGross::eval`, lines 386-402. -/
noncomputable def diquadEval {ι : Type} [Fintype ι] (p : GVParams ι) (T rho eta : ℝ) (x : ι → ℝ) : Outcome ℝ :=
  gvPade (alpha2DQ p T rho eta x) (alpha3DQ p T rho eta x)

/-! ## The classes -/

/-- The arrays handed to the constructors; their sizes may differ. -/
structure GVArrays where
  m : List ℝ
  sigma : List ℝ
  eps : List ℝ
  mustar2 : List ℝ
  nmu : List ℝ
  Qstar2 : List ℝ
  nQ : List ℝ

/-- The arrays as functions of the component, for `n` components. -/
noncomputable def GVArrays.params (a : GVArrays) (n : ℕ) : GVParams (Fin n) :=
  { m := fun i => a.m.getD i 0, sigma := fun i => a.sigma.getD i 0, eps := fun i => a.eps.getD i 0
    mustar2 := fun i => a.mustar2.getD i 0, nmu := fun i => a.nmu.getD i 0
    Qstar2 := fun i => a.Qstar2.getD i 0, nQ := fun i => a.nQ.getD i 0 }

/-- The constructor of the dipolar contribution, lines 118-126: the sizes of `sigma` and `eps` are not compared. -/
def dipMake (a : GVArrays) : Outcome GVArrays :=
  if a.m.length ≠ a.mustar2.length then .throws .invalidArgument
  else if a.m.length ≠ a.nmu.length then .throws .invalidArgument
  else .ok a

/-- The constructor of the quadrupolar contribution, lines 209-217. -/
def quadMake (a : GVArrays) : Outcome GVArrays :=
  if a.m.length ≠ a.Qstar2.length then .throws .invalidArgument
  else if a.m.length ≠ a.nQ.length then .throws .invalidArgument
  else .ok a

open Classical in
/-- The constructor of the cross contribution, lines 302-327. -/
noncomputable def diquadMake (a : GVArrays) : Outcome GVArrays :=
  if a.m.length ≠ a.Qstar2.length then .throws .invalidArgument
  else if a.m.length ≠ a.nQ.length then .throws .invalidArgument
  else if a.m.length ≠ a.mustar2.length then .throws .invalidArgument
  else if a.m.length ≠ a.nmu.length then .throws .invalidArgument
  else if (a.Qstar2.map fun q => |q|).sum = 0 ∨ (a.mustar2.map fun q => |q|).sum = 0 then .throws .invalidArgument
  else .ok a

/-- `MultipolarContributionGrossVrabec`, lines 418-425. -/
structure GVMulti where
  di : Option GVArrays
  quad : Option GVArrays
  diquad : Option GVArrays

open Classical in
/-- The test `(n*q > 0).cast<int>().sum() > 0` of lines 434 and 435. -/
noncomputable def anyPositive (n q : List ℝ) : Bool := decide (∃ t ∈ List.zipWith (· * ·) n q, t > 0)

/-- The constructor, lines 426-437.  The product of arrays of different size violates an assertion of Eigen: undefined
behaviour in release builds. -/
noncomputable def GVMulti.make (a : GVArrays) : Outcome GVMulti :=
  if a.nmu.length ≠ a.mustar2.length then .ub
  else Outcome.bind (if anyPositive a.nmu a.mustar2 then (dipMake a).bind fun d => .ok (some d) else .ok none) fun di =>
  if a.nQ.length ≠ a.Qstar2.length then .ub
  else Outcome.bind (if anyPositive a.nQ a.Qstar2 then (quadMake a).bind fun d => .ok (some d) else .ok none) fun quad =>
  Outcome.bind (if di.isSome ∧ quad.isSome then (diquadMake a).bind fun d => .ok (some d) else .ok none) fun dq =>
  .ok ⟨di, quad, dq⟩

/-- `MultipolarContributionGrossVrabec::eval`, lines 439-466.  The flag `has_a_polar` is always true for a contribution that
exists (`anyPositive_ne`). -/
noncomputable def GVMulti.eval (c : GVMulti) (T rho eta : ℝ) (x : List ℝ) : Outcome ℝ :=
  Outcome.bind (match c.di with
    | some a => dipEval (a.params x.length) T rho eta fun i => x.getD i 0
    | none => .ok 0) fun dd =>
  Outcome.bind (match c.quad with
    | some a => quadEval (a.params x.length) T rho eta fun i => x.getD i 0
    | none => .ok 0) fun qq =>
  Outcome.bind (match c.diquad with
    | some a => diquadEval (a.params x.length) T rho eta fun i => x.getD i 0
    | none => .ok 0) fun dq =>
  .ok (dd + qq + dq)

/-- The data of the polar terms of PC-SAFT, `/repo/include/teqp/models/pcsaft.hpp` lines 362-389. -/
noncomputable def PCMixture.gv (m : PCMixture) : GVParams (Fin m.coeffs.length) :=
  { m := fun i => (m.coeffs.get i).m, sigma := fun i => (m.coeffs.get i).sigma, eps := fun i => (m.coeffs.get i).eps
    mustar2 := fun i => (m.coeffs.get i).mustar2, nmu := fun i => (m.coeffs.get i).nmu
    Qstar2 := fun i => (m.coeffs.get i).Qstar2, nQ := fun i => (m.coeffs.get i).nQ }

/-- `PCSAFTMixture::alphar` with its polar contributions, `pcsaft.hpp` lines 433-452. -/
noncomputable def PCMixture.alpharPolar (NA : ℝ) (m : PCMixture) (T rho : ℝ) (x : List ℝ) : Outcome ℝ :=
  m.alphar (fun T r eta x => dipEval m.gv T r eta fun i => x.getD i 0)
    (fun T r eta x => quadEval m.gv T r eta fun i => x.getD i 0) NA T rho x

end Teqp.Model
