import Verif.Model.Assoc
import Verif.Model.CPA
import Mathlib.Analysis.SpecialFunctions.Trigonometric.Basic

/-! # PC-SAFT

`/repo/include/teqp/models/pcsaft.hpp` (mixtures), `/repo/include/teqp/models/saft/pcsaftpure.hpp` (pure fluids)
and the tables of `/repo/src/data/PCSAFT.cpp`. -/

set_option autoImplicit false

namespace Teqp.Model
open Finset

/-- `C1`, `/repo/include/teqp/models/pcsaft.hpp` lines 84-93. -/
noncomputable def pcC1 (eta mbar : ℝ) : ℝ :=
  let oneeta := 1 - eta
  1 / (1 + mbar * (8 * eta - 2 * eta * eta) / (oneeta * oneeta * oneeta * oneeta)
    + (1 - mbar) * (20 * eta - 27 * eta * eta + 12 * eta * eta * eta - 2 * eta * eta * eta * eta) /
      ((1 - eta) * (2 - eta) * (1 - eta) * (2 - eta)))

/-- `C2`, `pcsaft.hpp` lines 94-101. -/
noncomputable def pcC2 (eta mbar : ℝ) : ℝ :=
  -(pcC1 eta mbar) ^ 2 * (mbar * (-4 * eta * eta + 20 * eta + 8) / (1 - eta) ^ 5
    + (1 - mbar) * (2 * eta * eta * eta + 12 * eta * eta - 48 * eta + 40) / ((1 - eta) * (2 - eta)) ^ 3)

/-- The branch of `get_alphar_hs` for zero density, `pcsaft.hpp` lines 133-141. -/
noncomputable def hsZero (D0 D1 D2 D3 z2 z3 : ℝ) : ℝ :=
  let U := 1 - z3
  3 * D1 / D0 * z2 / U + D2 * D2 * z2 / (D3 * D0 * U * U) - Real.log U + (D2 * D2 * D2) / (D3 * D3 * D0) * Real.log U

/-- The ordinary branch of `get_alphar_hs`, `pcsaft.hpp` lines 143-146. -/
noncomputable def hsFull (z0 z1 z2 z3 : ℝ) : ℝ :=
  let U := 1 - z3
  1 / z0 * (3 * z1 * z2 / U + z2 * z2 * z2 / z3 / U / U + (z2 * z2 * z2 / (z3 * z3) - z0) * Real.log (1 - z3))

open Classical in
/-- `get_alphar_hs`, `pcsaft.hpp` lines 103-147. -/
noncomputable def pcHS (D z : ℕ → ℝ) : ℝ :=
  if z 3 = 0 then hsZero (D 0) (D 1) (D 2) (D 3) (z 2) (z 3) else hsFull (z 0) (z 1) (z 2) (z 3)

/-- `gij_HS`, `pcsaft.hpp` lines 149-162. -/
noncomputable def pcG (z : ℕ → ℝ) (di dj : ℝ) : ℝ :=
  let U := 1 - z 3
  1 / U + di * dj / (di + dj) * 3 * z 2 / U ^ 2 + (di * dj / (di + dj)) ^ 2 * 2 * z 2 * z 2 / U ^ 3

/-- Parameters of the hard-chain and dispersion contributions, `pcsaft.hpp` lines 187-202. -/
structure PCParams (ι : Type) where
  m : ι → ℝ
  sigma : ι → ℝ
  eps : ι → ℝ
  k : ι → ι → ℝ
  a : Fin 3 → Fin 7 → ℝ
  b : Fin 3 → Fin 7 → ℝ

section
variable {ι : Type} [Fintype ι]

/-- The segment diameter, `pcsaft.hpp` line 219. -/
noncomputable def pcDiam (sigma eps T : ℝ) : ℝ := sigma * (1 - 0.12 * Real.exp (-3 * eps / T))

/-- The sums `m2_epsilon_sigma3_bar` (`q = 1`) and `m2_epsilon2_sigma3_bar` (`q = 2`), `pcsaft.hpp` lines 216-229. -/
noncomputable def pcMix (p : PCParams ι) (T : ℝ) (x : ι → ℝ) (q : ℕ) : ℝ :=
  ∑ i, ∑ j, x i * x j * p.m i * p.m j * (Real.sqrt (p.eps i * p.eps j) * (1 - p.k i j) / T) ^ q *
    ((0.5 * p.sigma i + 0.5 * p.sigma j) * (0.5 * p.sigma i + 0.5 * p.sigma j) * (0.5 * p.sigma i + 0.5 * p.sigma j))

/-- `mbar`, `pcsaft.hpp` line 230. -/
noncomputable def pcMbar (p : PCParams ι) (x : ι → ℝ) : ℝ := ∑ i, x i * p.m i

/-- `D[n]`, `pcsaft.hpp` lines 238-247. -/
noncomputable def pcD (p : PCParams ι) (T : ℝ) (x : ι → ℝ) (n : ℕ) : ℝ :=
  Real.pi / 6 * ∑ i, x i * p.m i * pcDiam (p.sigma i) (p.eps i) T ^ n

/-- The polynomials `I1` and `I2`, `pcsaft.hpp` lines 252-257. -/
noncomputable def pcI (c : Fin 3 → Fin 7 → ℝ) (mbar eta : ℝ) : ℝ :=
  ∑ n : Fin 7, (c 0 n + (mbar - 1) / mbar * c 1 n + (mbar - 1) / mbar * ((mbar - 2) / mbar) * c 2 n) * eta ^ (n : ℕ)

/-- The result of `PCSAFTHardChainContribution::eval`, `pcsaft.hpp` lines 288-292. -/
structure PCTerms where
  eta : ℝ
  hc : ℝ
  disp : ℝ

/-- `PCSAFTHardChainContribution::eval`, `pcsaft.hpp` lines 205-294, for a composition of the right size; `rhoA3` is the
number density per cubic Angstrom. -/
noncomputable def pcEval (p : PCParams ι) (T rhoA3 : ℝ) (x : ι → ℝ) : PCTerms :=
  let mbar := pcMbar p x
  let D := pcD p T x
  let z := fun n => D n * rhoA3
  let eta := z 3
  { eta := eta
    hc := mbar * pcHS D z -
      ∑ i, x i * (p.m i - 1) * Real.log (pcG z (pcDiam (p.sigma i) (p.eps i) T) (pcDiam (p.sigma i) (p.eps i) T))
    disp := -2 * Real.pi * rhoA3 * pcI p.a mbar eta * pcMix p T x 1 -
      Real.pi * rhoA3 * mbar * pcC1 eta mbar * pcI p.b mbar eta * pcMix p T x 2 }

/-- Everything that is divided by in `eval` is not zero and the arguments of logarithms and roots are in range. -/
structure PCRegular (p : PCParams ι) (T rhoA3 : ℝ) (x : ι → ℝ) : Prop where
  hT : T ≠ 0
  heps : ∀ i j, 0 ≤ p.eps i * p.eps j
  hmbar : pcMbar p x ≠ 0
  hD0 : pcD p T x 0 ≠ 0
  hD3 : pcD p T x 3 ≠ 0
  hz0 : pcD p T x 3 * rhoA3 ≠ 0 → pcD p T x 0 * rhoA3 ≠ 0
  heta : 0 < 1 - pcD p T x 3 * rhoA3
  hd : ∀ i, pcDiam (p.sigma i) (p.eps i) T ≠ 0
  hg : ∀ i, 0 < pcG (fun n => pcD p T x n * rhoA3) (pcDiam (p.sigma i) (p.eps i) T) (pcDiam (p.sigma i) (p.eps i) T)
  hC1 : 1 + pcMbar p x * (8 * (pcD p T x 3 * rhoA3) - 2 * (pcD p T x 3 * rhoA3) * (pcD p T x 3 * rhoA3)) /
      ((1 - pcD p T x 3 * rhoA3) * (1 - pcD p T x 3 * rhoA3) * (1 - pcD p T x 3 * rhoA3) * (1 - pcD p T x 3 * rhoA3))
    + (1 - pcMbar p x) * (20 * (pcD p T x 3 * rhoA3) - 27 * (pcD p T x 3 * rhoA3) * (pcD p T x 3 * rhoA3)
        + 12 * (pcD p T x 3 * rhoA3) * (pcD p T x 3 * rhoA3) * (pcD p T x 3 * rhoA3)
        - 2 * (pcD p T x 3 * rhoA3) * (pcD p T x 3 * rhoA3) * (pcD p T x 3 * rhoA3) * (pcD p T x 3 * rhoA3)) /
      ((1 - pcD p T x 3 * rhoA3) * (2 - pcD p T x 3 * rhoA3) * (1 - pcD p T x 3 * rhoA3) * (2 - pcD p T x 3 * rhoA3)) ≠ 0

/-- `max_rhoN`, `pcsaft.hpp` lines 418-426. -/
noncomputable def pcMaxRhoN (p : PCParams ι) (T : ℝ) (x : ι → ℝ) : ℝ :=
  6 * 0.74 / Real.pi / (∑ i, x i * p.m i * pcDiam (p.sigma i) (p.eps i) T ^ 3) * 1e30

end

/-! ## Tables -/

/-- `GrossSadowski2001::a`, `/repo/src/data/PCSAFT.cpp` lines 8-11. -/
noncomputable def gsA : Fin 3 → Fin 7 → ℝ := fun r c => ([
  [0.9105631445, 0.6361281449, 2.6861347891, -26.547362491, 97.759208784, -159.59154087, 91.297774084],
  [-0.3084016918, 0.1860531159, -2.5030047259, 21.419793629, -65.255885330, 83.318680481, -33.746922930],
  [-0.0906148351, 0.4527842806, 0.5962700728, -1.7241829131, -4.1302112531, 13.776631870, -8.6728470368]].getD r []).getD c 0

/-- `GrossSadowski2001::b`, `PCSAFT.cpp` lines 13-16. -/
noncomputable def gsB : Fin 3 → Fin 7 → ℝ := fun r c => ([
  [0.7240946941, 2.2382791861, -4.0025849485, -21.003576815, 26.855641363, 206.55133841, -355.60235612],
  [-0.5755498075, 0.6995095521, 3.8925673390, -17.215471648, 192.67226447, -161.82646165, -165.20769346],
  [0.0976883116, -0.2557574982, -9.1558561530, 20.642075974, -38.804430052, 93.626774077, -29.666905585]].getD r []).getD c 0

/-- `LiangIECR2012::a`, `PCSAFT.cpp` lines 22-25. -/
noncomputable def liang12A : Fin 3 → Fin 7 → ℝ := fun r c => ([
  [0.836215101666, 2.201683842453, -11.25210310939, 37.841836899902, -68.035304263396, 69.952369867326, -42.828905226651],
  [-0.411727190935913, 2.37426400571265, -21.0620603419144, 105.65718855671,  -298.665894225644, 468.695983731173,
    -316.673589664169],
  [0.0319867672916212, -2.75137756155503, 25.7581175334397, -103.082737163044, 239.569856365622 , -320.622085430506,
    186.50494276364]].getD r []).getD c 0

/-- `LiangIECR2012::b`, `PCSAFT.cpp` lines 27-30. -/
noncomputable def liang12B : Fin 3 → Fin 7 → ℝ := fun r c => ([
  [0.627209841336118 , 4.02517816132384, -22.6660554011051, 70.0153445172765, -129.548046066679, 150.197401680241,
    -86.9664928046989],
  [-0.622507280536237, 1.86478114256654, -22.5660800172653, 153.069895818654, -321.710866534244, 453.083735030445,
    -233.232187026907],
  [-0.0303061275320169, 2.59554209415371, 11.5803588817289, -145.915305288352, 354.901071174401, -151.675970200232,
    -282.837925415568]].getD r []).getD c 0

/-- `LiangIECR2014::a`, `PCSAFT.cpp` lines 36-39. -/
noncomputable def liang14A : Fin 3 → Fin 7 → ℝ := fun r c => ([
  [0.961597, 0.414449, 0.689253, -7.43899, 31.8755, -54.8833, 27.3613],
  [-0.333416, 0.358440, -0.219088, 0.285586, 5.88256, -22.4931, 21.2109],
  [-0.0632483, 0.287134, -0.105309, 7.16607, -37.5008, 68.8002, -40.3177]].getD r []).getD c 0

/-- `LiangIECR2014::b`, `PCSAFT.cpp` lines 41-44. -/
noncomputable def liang14B : Fin 3 → Fin 7 → ℝ := fun r c => ([
  [0.548398, 2.07176, -1.84013, -29.9683, 160.445, -206.106, 51.6201],
  [-0.277226, 0.0621105, 4.29640, -39.9453, 214.911, -232.563, 60.9734],
  [-0.150684, -0.507877, 1.24227, -48.7052, 63.1155, 205.380, -262.437]].getD r []).getD c 0

/-! ## The pure-fluid class -/

/-- The array `coeff` of `PCSAFTPureGrossSadowski2001`, `/repo/include/teqp/models/saft/pcsaftpure.hpp` lines 16-22: one row
per power of the packing fraction. -/
noncomputable def pureCoeff : Fin 7 → Fin 6 → ℝ := fun r c => ([
  [0.9105631445,-0.3084016918,-0.0906148351,0.7240946941,-0.5755498075,0.0976883116],
  [0.6361281449,0.1860531159,0.4527842806,2.2382791861,0.6995095521,-0.2557574982],
  [2.6861347891,-2.5030047259,0.5962700728,-4.0025849485,3.8925673390,-9.1558561530],
  [-26.547362491,21.419793629,-1.7241829131,-21.003576815,-17.215471648,20.642075974],
  [97.759208784,-65.255885330,-4.1302112531,26.855641363,192.67226447,-38.804430052],
  [-159.59154087,83.318680481,13.776631870,206.55133841,-161.82646165,93.626774077],
  [91.297774084,-33.746922930,-8.6728470368,-355.60235612,-165.20769346,-29.666905585]].getD r []).getD c 0

/-- The members `aim` (`c = 0`) and `bim` (`c = 3`), `pcsaftpure.hpp` lines 24-27. -/
noncomputable def pureIm (m : ℝ) (c : Fin 6) (c1 c2 : Fin 6) (n : Fin 7) : ℝ :=
  let mfac1 := (m - 1) / m
  let mfac2 := (m - 2) / m * mfac1
  pureCoeff n c + pureCoeff n c1 * mfac1 + pureCoeff n c2 * mfac2

open Classical in
/-- `PCSAFTPureGrossSadowski2001::alphar`, `pcsaftpure.hpp` lines 37-87, split into the hard-chain and the dispersion
part.  The composition is not used. -/
noncomputable def pureEval (m sigma eps T rhoA3 : ℝ) : PCTerms :=
  let d := sigma * (1 - 0.12 * Real.exp (-3 * eps / T))
  let D := fun n : ℕ => Real.pi / 6 * m * d ^ n
  let z := fun n : ℕ => rhoA3 * D n
  let u := 1 - z 3
  let hs := if z 0 = 0 then hsZero (D 0) (D 1) (D 2) (D 3) (z 2) (z 3)
    else (3 * z 1 * z 2 / u + z 2 * z 2 * z 2 / (z 3 * (u * u)) +
      (z 2 * z 2 * z 2 / (z 3 * z 3) - z 0) * Real.log (1 - z 3)) / z 0
  let f := d / 2
  let g := 1 / u + f * 3 * z 2 / (u * u) + (f * f) * 2 * (z 2 * z 2) / (u * (u * u))
  let eta := z 3
  let eta2 := eta * eta
  let eta3 := eta2 * eta
  let eta4 := eta2 * eta2
  let C1 := 1 + m * (8 * eta - 2 * eta2) / (u * (u * (u * u))) +
    (1 - m) * (20 * eta - 27 * eta2 + 12 * eta3 - 2 * eta4) / (u * u) / ((2 - eta) * (2 - eta))
  let I1 := ∑ n : Fin 7, pureIm m 0 1 2 n * eta ^ (n : ℕ)
  let I2 := ∑ n : Fin 7, pureIm m 3 4 5 n * eta ^ (n : ℕ)
  let kappa1 := 2 * Real.pi * eps * m ^ 2 * sigma ^ 3
  let kappa2 := Real.pi * eps ^ 2 * m ^ 3 * sigma ^ 3
  { eta := eta
    hc := m * hs - (m - 1) * Real.log g
    disp := -kappa1 * rhoA3 * I1 / T - kappa2 * rhoA3 * I2 / C1 / (T * T) }

/-- The same with the branch for zero density, `pcsaftpure.hpp` lines 58-66: what automatic differentiation differentiates at density zero. -/
noncomputable def pureEvalZero (m sigma eps T rhoA3 : ℝ) : ℝ :=
  let d := sigma * (1 - 0.12 * Real.exp (-3 * eps / T))
  let D := fun n : ℕ => Real.pi / 6 * m * d ^ n
  let z := fun n : ℕ => rhoA3 * D n
  let u := 1 - z 3
  let hs := hsZero (D 0) (D 1) (D 2) (D 3) (z 2) (z 3)
  let f := d / 2
  let g := 1 / u + f * 3 * z 2 / (u * u) + (f * f) * 2 * (z 2 * z 2) / (u * (u * u))
  m * hs - (m - 1) * Real.log g + (pureEval m sigma eps T rhoA3).disp

/-! ## Building a model -/

/-- `SAFTCoeffs`, `pcsaft.hpp` lines 36-47. -/
structure SAFTCoeffs where
  name : String
  m : ℝ := -1
  sigma : ℝ := -1
  eps : ℝ := -1
  bibtex : String := ""
  mustar2 : ℝ := 0
  nmu : ℝ := 0
  Qstar2 : ℝ := 0
  nQ : ℝ := 0

/-- `PCSAFTLibrary::get_normal_fluid`, `pcsaft.hpp` lines 48-82. -/
noncomputable def pcLibrary (name : String) : Outcome SAFTCoeffs :=
  if name = "Methane" then .ok { name := name, m := 1, sigma := 3.7039, eps := 150.03, bibtex := "Gross-IECR-2001" }
  else if name = "Ethane" then .ok { name := name, m := 1.6069, sigma := 3.5206, eps := 191.42, bibtex := "Gross-IECR-2001" }
  else if name = "Propane" then .ok { name := name, m := 2.0020, sigma := 3.6184, eps := 208.11, bibtex := "Gross-IECR-2001" }
  else .throws .stdInvalidArgument

/-- `PCSAFTMixture`, `pcsaft.hpp` lines 303-317. -/
structure PCMixture where
  coeffs : List SAFTCoeffs
  kmat : SqMat
  a : Fin 3 → Fin 7 → ℝ
  b : Fin 3 → Fin 7 → ℝ

/-- `check_kmat`, `pcsaft.hpp` lines 319-329, for a matrix that is square by construction. -/
def pcCheckKmat (k : SqMat) (N : ℕ) : Outcome SqMat :=
  if k.n = 0 then .ok ⟨N, fun _ _ => 0⟩
  else if k.n ≠ N then .throws .invalidArgument
  else .ok k

/-- The constructor from coefficients, `pcsaft.hpp` lines 395-398. -/
def PCMixture.make (coeffs : List SAFTCoeffs) (a b : Fin 3 → Fin 7 → ℝ) (k : SqMat) : Outcome PCMixture :=
  (pcCheckKmat k coeffs.length).bind fun k => .ok ⟨coeffs, k, a, b⟩

/-- Whether there is a dipolar term, `pcsaft.hpp` lines 362-375. -/
def PCMixture.hasDipole (m : PCMixture) : Prop := (m.coeffs.map fun c => |c.mustar2 * c.nmu|).sum ≠ 0

/-- Whether there is a quadrupolar term, `pcsaft.hpp` lines 376-389. -/
def PCMixture.hasQuadrupole (m : PCMixture) : Prop := (m.coeffs.map fun c => |c.Qstar2 * c.nQ|).sum ≠ 0

/-- The parameters of the hard-chain contribution, `pcsaft.hpp` lines 334-354. -/
noncomputable def PCMixture.params (m : PCMixture) : PCParams (Fin m.coeffs.length) :=
  { m := fun i => (m.coeffs.get i).m, sigma := fun i => (m.coeffs.get i).sigma, eps := fun i => (m.coeffs.get i).eps
    k := fun i j => m.kmat.val i j, a := m.a, b := m.b }

open Classical in
/-- `PCSAFTMixture::alphar`, `pcsaft.hpp` lines 433-452, with the polar contributions as parameters. -/
noncomputable def PCMixture.alphar (dip quad : ℝ → ℝ → ℝ → List ℝ → Outcome ℝ) (NA : ℝ) (m : PCMixture) (T rho : ℝ) (x : List ℝ) :
    Outcome ℝ :=
  if x.length ≠ m.coeffs.length then .throws .stdInvalidArgument
  else
    let rhoA3 := rho * NA * 1e-30
    let y := fun i : Fin m.coeffs.length => x.getD i 0
    if ¬ PCRegular m.params T rhoA3 y then .nonFinite
    else
      let v := pcEval m.params T rhoA3 y
      Outcome.bind (if m.hasDipole then dip T rhoA3 v.eta x else .ok 0) fun d =>
      Outcome.bind (if m.hasQuadrupole then quad T rhoA3 v.eta x else .ok 0) fun q =>
      .ok (v.hc + v.disp + d + q)

/-- The interaction matrix of `PCSAFTfactory`, `pcsaft.hpp` lines 456-459. -/
def pcKmat (j : JTree) : Outcome (Option SqMat) :=
  match j.at "kmat" with
  | .ok (.arr (r :: rs)) => (buildSquareMatrix (.arr (r :: rs))).bind fun k => .ok (some k)
  | _ => .ok none

/-- The universal constants of `PCSAFTfactory`, `pcsaft.hpp` lines 460-477. -/
noncomputable def pcTables (j : JTree) : Outcome ((Fin 3 → Fin 7 → ℝ) × (Fin 3 → Fin 7 → ℝ)) :=
  if j.contains "ab" then
    ((j.at "ab").bind JTree.toStr).bind fun s =>
    if s = "Liang-IECR-2012" then .ok (liang12A, liang12B)
    else if s = "Liang-IECR-2014" then .ok (liang14A, liang14B)
    else .throws .invalidArgument
  else .ok (gsA, gsB)

/-- One entry of `coeffs`, `pcsaft.hpp` lines 488-504. -/
noncomputable def pcCoeffs (j : JTree) : Outcome SAFTCoeffs :=
  ((j.at "name").bind JTree.toStr).bind fun name =>
  ((j.at "m").bind JTree.toDouble).bind fun m =>
  ((j.at "sigma_Angstrom").bind JTree.toDouble).bind fun sigma =>
  ((j.at "epsilon_over_k").bind JTree.toDouble).bind fun eps =>
  ((j.at "BibTeXKey").bind JTree.toStr).bind fun bib =>
  Outcome.bind (if j.contains "(mu^*)^2" ∧ j.contains "nmu" then
    (numAt "(mu^*)^2" j).bind fun mu => (numAt "nmu" j).bind fun n => .ok (mu, n) else .ok (0, 0)) fun dip =>
  Outcome.bind (if j.contains "(Q^*)^2" ∧ j.contains "nQ" then
    (numAt "(Q^*)^2" j).bind fun Q => (numAt "nQ" j).bind fun n => .ok (Q, n) else .ok (0, 0)) fun quad =>
  .ok ⟨name, m, sigma, eps, bib, dip.1, dip.2, quad.1, quad.2⟩

/-- The comparison of the matrix with the number of components, `pcsaft.hpp` lines 481-483 and 505-507. -/
def pcKmatFits (k : Option SqMat) (N : ℕ) : Outcome Unit :=
  match k with
  | some k => if k.n ≠ N then .throws .invalidArgument else .ok ()
  | none => .ok ()

/-- `PCSAFTfactory`, `pcsaft.hpp` lines 455-513. -/
noncomputable def pcFactory (j : JTree) : Outcome PCMixture :=
  (pcKmat j).bind fun k =>
  (pcTables j).bind fun ab =>
  if j.contains "names" then
    ((j.at "names").bind JTree.toStrs).bind fun names =>
    (pcKmatFits k names.length).bind fun _ =>
    (mapOutcome pcLibrary names).bind fun cs => PCMixture.make cs ab.1 ab.2 (k.getD ⟨0, fun _ _ => 0⟩)
  else if j.contains "coeffs" then
    (j.at "coeffs").bind fun jc =>
    (mapOutcome pcCoeffs jc.items).bind fun cs =>
    (pcKmatFits k cs.length).bind fun _ => PCMixture.make cs ab.1 ab.2 (k.getD ⟨0, fun _ _ => 0⟩)
  else .throws .stdInvalidArgument

end Teqp.Model
