import Verif.Basic
import Verif.Model.Factory
import Mathlib.Analysis.SpecialFunctions.Pow.Real
import Mathlib.Analysis.SpecialFunctions.Trigonometric.Basic
import Mathlib.Analysis.Real.Sqrt

/-! # The multipolar contributions of Gubbins and Twu and of Gray and Gubbins

`/repo/include/teqp/models/saft/polar_terms.hpp`.  The correlation integrals are parameters
(`/repo/include/teqp/models/saft/correlation_integrals.hpp` provides three families). -/

set_option autoImplicit false

namespace Teqp.Model
open Finset

/-- The integrals of lines 55-64 and 289-298, as functions of the reduced temperature and density.  `J n` is `J{n}`; the four
others are `K222_333`, `K233_344`, `K334_445`, `K444_555`. -/
structure MPIntegrals where
  J : ℕ → ℝ → ℝ → ℝ
  K222 : ℝ → ℝ → ℝ
  K233 : ℝ → ℝ → ℝ
  K334 : ℝ → ℝ → ℝ
  K444 : ℝ → ℝ → ℝ

/-- `get_Kijk`, lines 27-30.  The base is supposed to be non-negative (otherwise the result is not a number in the code). -/
noncomputable def getKijk (K : ℝ → ℝ → ℝ) (rs tij tik tjk : ℝ) : ℝ := (K tij rs * K tik rs * K tjk rs) ^ (1 / 3 : ℝ)

/-- `get_Kijk_334445`, lines 35-38. -/
noncomputable def getKijkNeg (K : ℝ → ℝ → ℝ) (rs tij tik tjk : ℝ) : ℝ := -((-(K tij rs * K tik rs * K tjk rs)) ^ (1 / 3 : ℝ))

/-! ## Gubbins and Twu -/

/-- The data of `MultipolarContributionGubbinsTwu`, line 51. -/
structure GTParams (ι : Type) where
  sigma : ι → ℝ
  eps : ι → ℝ
  mubar2 : ι → ℝ
  Qbar2 : ι → ℝ

section
variable {ι : Type} [Fintype ι]

/-- Line 86. -/
noncomputable def GTParams.sij (p : GTParams ι) (i j : ι) : ℝ := (p.sigma i + p.sigma j) / 2
/-- Line 85. -/
noncomputable def GTParams.eij (p : GTParams ι) (i j : ι) : ℝ := Real.sqrt (p.eps i * p.eps j)

/-- `get_alpha2`, lines 94-128. -/
noncomputable def gtAlpha2 (p : GTParams ι) (I : MPIntegrals) (T rhoN rs : ℝ) (x : ι → ℝ) : ℝ :=
  let lead := fun i j => x i * x j / (T / p.eij i i * (T / p.eij j j))
  let ts := fun i j => T / p.eij i j
  (-2 * Real.pi * rhoN / 3) * (∑ i, ∑ j, lead i j *
      (p.sigma i ^ 3 * p.sigma j ^ 3 / p.sij i j ^ 3 * p.mubar2 i * p.mubar2 j) * I.J 6 (ts i j) rs) +
  2 * (-Real.pi * rhoN) * (∑ i, ∑ j, lead i j *
      (p.sigma i ^ 3 * p.sigma j ^ 5 / p.sij i j ^ 5 * p.mubar2 i * p.Qbar2 j) * I.J 8 (ts i j) rs) +
  -14 * Real.pi * rhoN / 5 * (∑ i, ∑ j, lead i j *
      (p.sigma i ^ 5 * p.sigma j ^ 5 / p.sij i j ^ 7 * p.Qbar2 i * p.Qbar2 j) * I.J 10 (ts i j) rs)

/-- The terms with two indices of `get_alpha3`, lines 140-168 and 203-208. -/
noncomputable def gtAlpha3A (p : GTParams ι) (I : MPIntegrals) (T rhoN rs : ℝ) (x : ι → ℝ) : ℝ :=
  let lead := fun i j => x i * x j / (T / p.eij i i * (T / p.eij j j)) ^ (3 / 2 : ℝ)
  let ts := fun i j => T / p.eij i j
  3 * (8 * Real.pi * rhoN / 25 * ∑ i, ∑ j, lead i j * ((p.sigma i * p.sigma j) ^ (11 / 2 : ℝ) / p.sij i j ^ 8 * p.mubar2 i * p.mubar2 j *
      Real.sqrt (p.Qbar2 i * p.Qbar2 j)) * I.J 11 (ts i j) rs) +
  6 * (8 * Real.pi * rhoN / 75 * ∑ i, ∑ j, lead i j * ((p.sigma i * p.sigma j) ^ (11 / 2 : ℝ) / p.sij i j ^ 8 * p.mubar2 i * p.mubar2 j *
      Real.sqrt (p.Qbar2 i * p.Qbar2 j)) * I.J 11 (ts i j) rs) +
  6 * (8 * Real.pi * rhoN / 35 * ∑ i, ∑ j, lead i j * (p.sigma i ^ (11 / 2 : ℝ) * p.sigma j ^ (15 / 2 : ℝ) / p.sij i j ^ 10 * p.mubar2 i *
      Real.sqrt (p.Qbar2 i) * p.Qbar2 j ^ (3 / 2 : ℝ)) * I.J 13 (ts i j) rs) +
  144 * Real.pi * rhoN / 245 * ∑ i, ∑ j, lead i j * ((p.sigma i * p.sigma j) ^ (15 / 2 : ℝ) / p.sij i j ^ 12 *
      p.Qbar2 i ^ (3 / 2 : ℝ) * p.Qbar2 j ^ (3 / 2 : ℝ)) * I.J 15 (ts i j) rs

open Classical in
/-- The terms with three indices of `get_alpha3`, lines 170-199 and 210-217. -/
noncomputable def gtAlpha3B (p : GTParams ι) (I : MPIntegrals) (T rhoN rs : ℝ) (x : ι → ℝ) : ℝ :=
  let lead := fun i j k => x i * x j * x k / (T / p.eij i i * (T / p.eij j j) * (T / p.eij k k))
  let ts := fun i j => T / p.eij i j
  32 * Real.pi ^ 3 * (rhoN * rhoN) / 135 * Real.sqrt (14 * Real.pi / 5) * (∑ i, ∑ j, ∑ k,
    if |p.mubar2 i * p.mubar2 j * p.mubar2 k| > 0 then
      lead i j k * (p.sigma i ^ 3 * p.sigma j ^ 3 * p.sigma k ^ 3 / (p.sij i j * p.sij i k * p.sij j k) * p.mubar2 i * p.mubar2 j * p.mubar2 k) *
        getKijk I.K222 rs (ts i j) (ts i k) (ts j k) else 0) +
  3 * (64 * Real.pi ^ 3 * (rhoN * rhoN) / 315 * Real.sqrt (3 * Real.pi) * (∑ i, ∑ j, ∑ k,
    if |p.mubar2 i * p.mubar2 j * p.Qbar2 k| > 0 then
      lead i j k * (p.sigma i ^ 3 * p.sigma j ^ 3 * p.sigma k ^ 5 / (p.sij i j * (p.sij i k * p.sij j k) ^ 2) * p.mubar2 i * p.mubar2 j * p.Qbar2 k) *
        getKijk I.K233 rs (ts i j) (ts i k) (ts j k) else 0)) +
  3 * (-32 * Real.pi ^ 3 * (rhoN * rhoN) / 45 * Real.sqrt (22 * Real.pi / 63) * (∑ i, ∑ j, ∑ k,
    if |p.mubar2 i * p.Qbar2 j * p.Qbar2 k| > 0 then
      lead i j k * (p.sigma i ^ 3 * p.sigma j ^ 5 * p.sigma k ^ 5 / ((p.sij i j * p.sij i k) ^ 2 * p.sij j k ^ 3) * p.mubar2 i * p.Qbar2 j * p.Qbar2 k) *
        getKijkNeg I.K334 rs (ts i j) (ts i k) (ts j k) else 0)) +
  32 * Real.pi ^ 3 * (rhoN * rhoN) / 2025 * Real.sqrt (2002 * Real.pi) * (∑ i, ∑ j, ∑ k,
    if |p.Qbar2 i * p.Qbar2 j * p.Qbar2 k| > 0 then
      lead i j k * ((p.sigma i * p.sigma j * p.sigma k) ^ 5 / (p.sij i j * p.sij i k * p.sij j k) ^ 3 * p.Qbar2 i * p.Qbar2 j * p.Qbar2 k) *
        getKijk I.K444 rs (ts i j) (ts i k) (ts j k) else 0)

/-- `get_alpha3`, lines 131-220. -/
noncomputable def gtAlpha3 (p : GTParams ι) (I : MPIntegrals) (T rhoN rs : ℝ) (x : ι → ℝ) : ℝ :=
  gtAlpha3A p I T rhoN rs x + gtAlpha3B p I T rhoN rs x

open Classical in
/-- `eval`, lines 253-265; the flag `has_a_polar` is set in line 71.  With both terms zero the approximant is not a number, with only the
second-order term zero it is zero (`alpha3/alpha2` is infinite). -/
noncomputable def gtEval (p : GTParams ι) (I : MPIntegrals) (T rhoN rs : ℝ) (x : ι → ℝ) : Outcome ℝ :=
  if ∑ i, |p.mubar2 i| > 0 ∨ ∑ i, |p.Qbar2 i| > 0 then
    let a2 := gtAlpha2 p I T rhoN rs x
    let a3 := gtAlpha3 p I T rhoN rs x
    if a2 = 0 then (if a3 = 0 then .nonFinite else .ok 0)
    else if 1 - a3 / a2 = 0 then .nonFinite else .ok (a2 / (1 - a3 / a2))
  else .ok 0

end

/-! ## Gray and Gubbins -/

/-- The polarizabilities along and across the axis, lines 268-270 and 329-332 (already divided by `k_e`). -/
structure GGPol (ι : Type) where
  symm : ι → ℝ
  asymm : ι → ℝ

/-- The data of `MultipolarContributionGrayGubbins`, lines 283-311, with the physical constants `k_e` and `k_B`. -/
structure GGParams (ι : Type) where
  sij : ι → ι → ℝ
  eij : ι → ι → ℝ
  mu : ι → ℝ
  Q : ι → ℝ
  C3 : ℝ
  C3b : ℝ
  pol : Option (GGPol ι)
  ke : ℝ
  kB : ℝ

/-- The isotropic polarizability, line 333; zero without polarizability (lines 409-413). -/
noncomputable def GGParams.iso {ι : Type} (p : GGParams ι) (i : ι) : ℝ :=
  match p.pol with
  | none => 0
  | some a => 1 / 3 * (a.symm i + 2 * a.asymm i)

/-- `gamma`, lines 477-482: the anisotropy, zero without polarizability. -/
noncomputable def GGParams.gam {ι : Type} (p : GGParams ι) (i : ι) : ℝ :=
  match p.pol with
  | none => 0
  | some a => a.symm i - a.asymm i

/-- `beta`, lines 400, 437, 470 and 517. -/
noncomputable def GGParams.beta {ι : Type} (p : GGParams ι) (T : ℝ) : ℝ := 1 / (p.kB * T)

/-- `z1`, lines 408-413, 441-444, 475-482 and 522-527. -/
noncomputable def GGParams.z1 {ι : Type} (p : GGParams ι) (T : ℝ) (mup : ι → ℝ) (i : ι) : ℝ :=
  1 / 3 * (mup i ^ 2 * p.beta T) + p.iso i

/-- `get_In`, lines 360-363. -/
noncomputable def GGParams.In {ι : Type} (p : GGParams ι) (I : MPIntegrals) (n : ℕ) (T rs : ℝ) (i j : ι) : ℝ :=
  4 * Real.pi / p.sij i j ^ (n - 3) * I.J n (T / p.eij i j) rs

/-- `Immm`, lines 366-371. -/
noncomputable def GGParams.Immm {ι : Type} (p : GGParams ι) (I : MPIntegrals) (T rs : ℝ) (i j k : ι) : ℝ :=
  64 * Real.pi ^ 3 / 5 * Real.sqrt (14 * Real.pi / 5) / p.sij i j / p.sij i k / p.sij j k *
    getKijk I.K222 rs (T / p.eij i j) (T / p.eij i k) (T / p.eij j k)

/-- `ImmQ`, lines 372-377. -/
noncomputable def GGParams.ImmQ {ι : Type} (p : GGParams ι) (I : MPIntegrals) (T rs : ℝ) (i j k : ι) : ℝ :=
  2048 * Real.pi ^ 3 / 7 * Real.sqrt (3 * Real.pi) / p.sij i j / (p.sij i k * p.sij j k) ^ 2 *
    getKijk I.K233 rs (T / p.eij i j) (T / p.eij i k) (T / p.eij j k)

/-- `ImQQ`, lines 378-383. -/
noncomputable def GGParams.ImQQ {ι : Type} (p : GGParams ι) (I : MPIntegrals) (T rs : ℝ) (i j k : ι) : ℝ :=
  -4096 * Real.pi ^ 3 / 9 * Real.sqrt (22 * Real.pi / 7) / (p.sij i j * p.sij i k) ^ 2 / p.sij j k ^ 3 *
    getKijkNeg I.K334 rs (T / p.eij i j) (T / p.eij i k) (T / p.eij j k)

/-- `IQQQ`, lines 384-389. -/
noncomputable def GGParams.IQQQ {ι : Type} (p : GGParams ι) (I : MPIntegrals) (T rs : ℝ) (i j k : ι) : ℝ :=
  8192 * Real.pi ^ 3 / 81 * Real.sqrt (2002 * Real.pi) / (p.sij i j * p.sij i k * p.sij j k) ^ 3 *
    getKijk I.K444 rs (T / p.eij i j) (T / p.eij i k) (T / p.eij j k)

section
variable {ι : Type} [Fintype ι]

/-- `get_alpha2`, lines 392-427. -/
noncomputable def ggAlpha2 (p : GGParams ι) (I : MPIntegrals) (T rhoN rs : ℝ) (x mup : ι → ℝ) : ℝ :=
  let b := p.beta T
  let z := p.z1 T mup
  (-rhoN * p.ke * p.ke) * ∑ i, ∑ j, x i * x j *
    (3 / 2 * (z i * z j - p.iso i * p.iso j) * p.In I 6 T rs i j
      + 3 / 2 * z i * b * p.Q j ^ 2 * p.In I 8 T rs i j
      + 7 / 10 * b * b * p.Q i ^ 2 * p.Q j ^ 2 * p.In I 10 T rs i j)

/-- `get_alpha2_muprime_gradient`, lines 430-460. -/
noncomputable def ggGrad2 (p : GGParams ι) (I : MPIntegrals) (T rhoN rs : ℝ) (x mup : ι → ℝ) (i : ι) : ℝ :=
  let b := p.beta T
  let z := p.z1 T mup
  (-p.ke * p.ke) * (mup i * ∑ j, rhoN * x j * (2 * z i * p.In I 6 T rs i j + b * p.Q j ^ 2 * p.In I 8 T rs i j)) * x i * b

/-- `get_alpha3`, lines 463-508. -/
noncomputable def ggAlpha3 (p : GGParams ι) (I : MPIntegrals) (T rhoN rs : ℝ) (x mup : ι → ℝ) : ℝ :=
  let b := p.beta T
  let z := p.z1 T mup
  let g := p.gam
  let sa := ∑ i, ∑ j, x i * x j *
    ((2 / 5 * b * b * mup i ^ 2 * mup j ^ 2 + 4 / 5 * g i * b * mup j ^ 2 + 4 / 25 * g i * g j) * b * p.Q i * p.Q j * p.In I 11 T rs i j
      + 12 / 35 * (b * mup i ^ 2 + g i) * b * b * p.Q i * p.Q j ^ 3 * p.In I 13 T rs i j
      + 36 / 245 * b ^ 3 * p.Q i ^ 3 * p.Q j ^ 3 * p.In I 15 T rs i j)
  let sb := ∑ i, ∑ j, ∑ k, x i * x j * x k *
    (1 / 2 * (z i * z j * z k - p.iso i * p.iso j * p.iso k) * p.Immm I T rs i j k
      + p.C3b * (3 / 160 * z i * z j * b * p.Q k ^ 2 * p.ImmQ I T rs i j k + 3 / 640 * z i * b ^ 2 * p.Q j ^ 2 * p.Q k ^ 2 * p.ImQQ I T rs i j k)
      + 1 / 6400 * b ^ 3 * p.Q i ^ 2 * p.Q j ^ 2 * p.Q k ^ 2 * p.IQQQ I T rs i j k)
  p.C3 * (rhoN * sa + rhoN * rhoN * sb) * p.ke * p.ke * p.ke

/-- The terms added to `summer_ij` and `summer_ijk` in the pass for component `i` of `get_alpha3_muprime_gradient`, lines 533-548. -/
noncomputable def ggPass (p : GGParams ι) (I : MPIntegrals) (T rhoN rs : ℝ) (x mup : ι → ℝ) (i : ι) : ℝ :=
  let b := p.beta T
  let z := p.z1 T mup
  let g := p.gam
  ∑ j, rhoN * x j * (8 / 5 * (b * mup j ^ 2 + g j) * b * p.Q i * p.Q j * p.In I 11 T rs i j + 24 / 35 * b * b * p.Q i * p.Q j ^ 3 * p.In I 13 T rs i j) +
  ∑ j, ∑ k, rhoN ^ 2 * x j * x k * (z j * z k * p.Immm I T rs i j k + p.C3b * 1 / 40 * z j * b * p.Q k ^ 2 * p.ImmQ I T rs i j k
    + 1 / 320 * b ^ 2 * p.Q j ^ 2 * p.Q k ^ 2 * p.ImQQ I T rs i j k)

end

section
variable {n : ℕ}

/-- `get_alpha3_muprime_gradient`, lines 511-553.  The two sums are declared before the loop over the components (line 531) and are
not reset, so the entry of a component contains the passes of all components up to it. -/
noncomputable def ggGrad3 (p : GGParams (Fin n)) (I : MPIntegrals) (T rhoN rs : ℝ) (x mup : Fin n → ℝ) (i : Fin n) : ℝ :=
  -p.C3 * (-mup i * ∑ i' ∈ univ.filter (· ≤ i), ggPass p I T rhoN rs x mup i') * p.ke * p.ke * p.ke * x i * p.beta T

open Classical in
/-- `get_Eprime`, lines 584-628. -/
noncomputable def ggEprime (p : GGParams (Fin n)) (I : MPIntegrals) (T rhoN rs : ℝ) (x mup : Fin n → ℝ) : Outcome (Fin n → ℝ) :=
  if p.pol.isNone then .throws .invalidArgument
  else
    let a2 := ggAlpha2 p I T rhoN rs x mup
    let a3 := ggAlpha3 p I T rhoN rs x mup
    if a2 = 0 ∨ 1 - a3 / a2 = 0 then .nonFinite
    else .ok fun i => -p.kB * T * (((1 - 2 * a3 / a2) * ggGrad2 p I T rhoN rs x mup i + ggGrad3 p I T rhoN rs x mup i) / (1 - a3 / a2) ^ 2)

/-- The loop of `iterate_muprime_SS`, lines 638-642. -/
noncomputable def ggIterate (p : GGParams (Fin n)) (a : GGPol (Fin n)) (I : MPIntegrals) (T rhoN rs : ℝ) (x : Fin n → ℝ) :
    ℕ → (Fin n → ℝ) → Outcome (Fin n → ℝ)
  | 0, mup => .ok mup
  | k + 1, mup => (ggEprime p I T rhoN rs x mup).bind fun E => ggIterate p a I T rhoN rs x k fun i => p.mu i + a.symm i * E i

open Classical in
/-- `eval`, lines 649-683; the flag `has_a_polar` is set in line 343. -/
noncomputable def ggEval (p : GGParams (Fin n)) (I : MPIntegrals) (T rhoN rs : ℝ) (x : Fin n → ℝ) : Outcome ℝ :=
  match p.pol with
  | none =>
    if ∑ i, |p.Q i| > 0 ∨ ∑ i, |p.mu i| > 0 then
      let a2 := ggAlpha2 p I T rhoN rs x p.mu
      let a3 := ggAlpha3 p I T rhoN rs x p.mu
      if a2 = 0 then .ok 0 else if 1 - a3 / a2 = 0 then .nonFinite else .ok (a2 / (1 - a3 / a2))
    else .ok 0
  | some a =>
    (ggIterate p a I T rhoN rs x 10 p.mu).bind fun mup =>
    (ggEprime p I T rhoN rs x mup).bind fun E =>
    let a2 := ggAlpha2 p I T rhoN rs x mup
    let a3 := ggAlpha3 p I T rhoN rs x mup
    if a2 = 0 ∨ 1 - a3 / a2 = 0 then .nonFinite
    else .ok (a2 / (1 - a3 / a2) + 0.5 * (∑ i, x i * a.symm i * E i * E i) / (p.kB * T))

/-- The non-polarizable branch of `eval` with numbers that carry a derivative (value, derivative): lines 655-665.  The quotient has
the derivative of a quotient; if the value of `alpha2` is zero, `alpha` is assigned the constant zero (line 663). -/
noncomputable def ggEvalJet (a2 a3 : ℝ × ℝ) : Outcome (ℝ × ℝ) := by
  classical
  exact if a2.1 = 0 then .ok (0, 0)
  else if 1 - a3.1 / a2.1 = 0 then .nonFinite
  else .ok (a2.1 / (1 - a3.1 / a2.1),
    ((1 - 2 * a3.1 / a2.1) * a2.2 + a3.2) / (1 - a3.1 / a2.1) ^ 2)

end

/-! ## The reduced density -/

/-- `multipolar_rhostar_approach`, `/repo/include/teqp/models/saft/polar_terms/types.hpp` lines 10-14. -/
inductive RhostarApproach where
  | kInvalid
  | usePackingFraction
  | calculateGubbins
  deriving DecidableEq

/-- Reading the option, `types.hpp` lines 17-21 and `polar_terms.hpp` lines 321-324: without flags or without the entry (the flags are supposed to be an object) the
packing fraction is used, an unknown string gives the first value of the list. -/
def getApproach (flags : Option JTree) : RhostarApproach :=
  match flags with
  | none => .usePackingFraction
  | some f => match f.at "approach" with
    | .ok (.str "use_packing_fraction") => .usePackingFraction
    | .ok (.str "calculate_Gubbins_rhostar") => .calculateGubbins
    | .ok _ => .kInvalid
    | _ => .usePackingFraction

/-- `get_rhostar`, `polar_terms.hpp` lines 222-248 and 555-581. -/
noncomputable def getRhostar {ι : Type} [Fintype ι] (a : RhostarApproach) (sigma : ι → ℝ) (rhoN packing : ℝ) (x : ι → ℝ) : Outcome ℝ :=
  match a with
  | .calculateGubbins => .ok (rhoN * ∑ i, ∑ j, x i * x j * ((sigma i + sigma j) / 2) ^ 3)
  | .usePackingFraction => .ok (packing / (Real.pi / 6))
  | .kInvalid => .throws .invalidArgument

end Teqp.Model
