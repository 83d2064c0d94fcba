import Verif.Model.Numerics
import Verif.Model.Polar
import Verif.Model.GERG
import Mathlib.Analysis.SpecialFunctions.Trigonometric.DerivHyp

/-! # SAFT-VR-Mie (`/repo/include/teqp/models/saftvrmie.hpp`)

Line numbers refer to that file.  Lengths in Angstrom as in the code. -/

set_option autoImplicit false

namespace Teqp.Model
open Finset

/-! ## Tables -/

/-- The matrix `phi`, lines 89-96: seven rows, column `k-1` belongs to `f_k`. -/
noncomputable def svrPhi : List (List ℝ) := [
  [7.5365557, -359.44, 1550.9, -1.19932, -1911.28, 9236.9, 10],
  [-37.60463, 1825.6, -5070.1, 9.063632, 21390.175, -129430, 10],
  [71.745953, -3168, 6534.6, -17.9482, -51320.7, 357230, 0.57],
  [-46.83552, 1884.2, -3288.7, 11.34027, 37064.54, -315530, -6.7],
  [-2.467982, -0.82376, -2.7171, 20.52142, 1103.742, 1390.2, -8],
  [-0.50272, -3.1935, 2.0883, -56.6377, -3264.61, -4518.2, 0],
  [8.0956883, 3.7090, 0, 40.53683, 2556.181, 4241.6, 0]]

/-- An element of `phi`; rows and columns from zero. -/
noncomputable def svrPhiAt (n k : ℕ) : ℝ := (svrPhi.getD n []).getD k 0

/-- The matrix `A`, lines 99-103. -/
noncomputable def svrA : List (List ℝ) := [
  [0.81096, 1.7888, -37.578, 92.284],
  [1.0205, -19.341, 151.26, -463.50],
  [-1.9057, 22.845, -228.14, 973.92],
  [1.0885, -6.1962, 106.98, -677.64]]

/-- `get_cij`, lines 199-217: element `n` of `A*b` with `b = (1, 1/lambda, 1/lambda^2, 1/lambda^3)`. -/
noncomputable def svrCn (n : ℕ) (lam : ℝ) : ℝ :=
  let r := svrA.getD n []
  r.getD 0 0 + r.getD 1 0 * (1 / lam) + r.getD 2 0 * (1 / lam ^ 2) + r.getD 3 0 * (1 / lam ^ 3)

/-- `get_fkij`, lines 130-147, for `k = 1..7`. -/
noncomputable def svrF (k : ℕ) (alpha : ℝ) : ℝ :=
  (svrPhiAt 0 (k - 1) * alpha ^ 0 + svrPhiAt 1 (k - 1) * alpha ^ 1 + svrPhiAt 2 (k - 1) * alpha ^ 2 + svrPhiAt 3 (k - 1) * alpha ^ 3) /
    (1 + (svrPhiAt 4 (k - 1) * alpha ^ 1 + svrPhiAt 5 (k - 1) * alpha ^ 2 + svrPhiAt 6 (k - 1) * alpha ^ 3))

/-! ## Functions of the packing fraction -/

/-- `zeta_x_eff`, lines 492-493 and 509-511. -/
noncomputable def svrZeff (lam z : ℝ) : ℝ := svrCn 0 lam * z + svrCn 1 lam * z ^ 2 + svrCn 2 lam * z ^ 3 + svrCn 3 lam * z ^ 4

/-- `dzeta_x_eff_dzetax`, lines 494-495 and 512-514. -/
noncomputable def svrDZeff (lam z : ℝ) : ℝ := svrCn 0 lam + svrCn 1 lam * 2 * z + svrCn 2 lam * 3 * z ^ 2 + svrCn 3 lam * 4 * z ^ 3

/-- `I`, lines 472-474. -/
noncomputable def svrI (x0 lam : ℝ) : ℝ := -(x0 ^ (3 - lam) - 1) / (lam - 3)

/-- `J`, lines 475-477. -/
noncomputable def svrJ (x0 lam : ℝ) : ℝ :=
  -(x0 ^ (4 - lam) * (lam - 3) - x0 ^ (3 - lam) * (lam - 4) - 1) / ((lam - 3) * (lam - 4))

/-- `get_Bhatij`, lines 712-717. -/
noncomputable def svrBhat (z X I J : ℝ) : ℝ := (1 - z / 2) / X * I - 9 * z * (1 + z) / (2 * X) * J

/-- `get_rhodBijdrho`, lines 731-735. -/
noncomputable def svrRhoDB (z I J B : ℝ) : ℝ :=
  B + (-3 * I * (z - 2) - 27 * J * z * (z + 1) + (z - 1) * (I + 9 * J * z + 9 * J * (z + 1))) / (2 * (1 - z) ^ 4) * z

/-- `get_a1Shatij`, lines 748-753. -/
noncomputable def svrA1S (ze lam : ℝ) : ℝ := -1 / (lam - 3) * (1 - ze / 2) / (1 - ze) ^ 3

/-- `get_rhoda1Shatijdrho`, lines 766-770. -/
noncomputable def svrRhoDA1S (z ze dze lam : ℝ) : ℝ :=
  svrA1S ze lam + ((2 * ze - 5) * dze) / (2 * (lam - 3) * (ze - 1) ^ 4) * z

/-- `get_KHS`, lines 642-645. -/
noncomputable def svrK (z : ℝ) : ℝ := (1 - z) ^ 4 / (1 + 4 * z + 4 * z * z - 4 * z * z * z + z * z * z * z)

/-- `get_rhos_dK_HS_drhos`, lines 652-657. -/
noncomputable def svrRhoDK (z : ℝ) : ℝ :=
  -4 * (z - 1) ^ 3 * (z ^ 2 - 5 * z - 2) / (z ^ 4 - 4 * z ^ 3 + 4 * z ^ 2 + 4 * z + 1) ^ 2 * z

open Classical in
/-- `get_a_HS`, lines 659-702. -/
noncomputable def svrHS (rhos : ℝ) (D z : ℕ → ℝ) : ℝ :=
  if rhos = 0 then
    let U := 1 - z 3
    3 * D 1 / D 0 * z 2 / U + D 2 * D 2 * z 2 / (D 3 * D 0 * U * U) - Real.log U
      + (D 2 * D 2 * D 2) / (D 3 * D 3 * D 0) * Real.log U
  else
    6 / (Real.pi * rhos) * (3 * z 1 * z 2 / (1 - z 3) + z 2 ^ 3 / (z 3 * (1 - z 3) ^ 2)
      + (z 2 ^ 3 / z 3 ^ 2 - z 0) * Real.log (1 - z 3))

/-- `one_term`, lines 484-491. -/
noncomputable def svrOne (x0 z lam ze : ℝ) : ℝ :=
  x0 ^ lam * (svrBhat z ((1 - z) ^ 3) (svrI x0 lam) (svrJ x0 lam) + svrA1S ze lam)

/-- `rhosda1iidrhos_term`, lines 556-562, with the precomputed `Bhat` of lines 478-482. -/
noncomputable def svrRhoD (x0 z lam ze dze : ℝ) : ℝ :=
  x0 ^ lam * (svrRhoDA1S z ze dze lam + svrRhoDB z (svrI x0 lam) (svrJ x0 lam)
    (svrBhat z ((1 - z) ^ 3) (svrI x0 lam) (svrJ x0 lam)))

/-- Coefficients of `gdHSii`, lines 445-451 (line 448). -/
noncomputable def svrk0 (z : ℝ) : ℝ :=
  -Real.log (1 - z) + (42 * z - 39 * z ^ 2 + 9 * z ^ 3 - 2 * z ^ 4) / (6 * (1 - z) ^ 3)
/-- Line 449. -/
noncomputable def svrk1 (z : ℝ) : ℝ := (z ^ 4 + 6 * z ^ 2 - 12 * z) / (2 * (1 - z) ^ 3)
/-- Line 450. -/
noncomputable def svrk2 (z : ℝ) : ℝ := -3 * z ^ 2 / (8 * (1 - z) ^ 2)
/-- Line 451. -/
noncomputable def svrk3 (z : ℝ) : ℝ := (-z ^ 4 + 3 * z ^ 2 + 3 * z) / (6 * (1 - z) ^ 3)

/-- `gdHSii`, line 541. -/
noncomputable def svrGHS (z x0 : ℝ) : ℝ := Real.exp (svrk0 z + svrk1 z * x0 + svrk2 z * x0 ^ 2 + svrk3 z * x0 ^ 3)

/-! ## Pairs -/

/-- The parameters of a pair of segments. -/
structure SVRPair where
  lr : ℝ
  la : ℝ
  eps : ℝ
  sigma : ℝ

namespace SVRPair

/-- `get_C_ij`, lines 118-127. -/
noncomputable def C (p : SVRPair) : ℝ := p.lr / (p.lr - p.la) * (p.lr / p.la) ^ (p.la / (p.lr - p.la))

/-- `alpha_ij`, line 276. -/
noncomputable def alpha (p : SVRPair) : ℝ := p.C * (1 / (p.la - 3) - 1 / (p.lr - 3))

/-- `one_term` at one of the five exponents. -/
noncomputable def one (p : SVRPair) (d z lam : ℝ) : ℝ := svrOne (p.sigma / d) z lam (svrZeff lam z)

/-- `rhosda1iidrhos_term` at one of the five exponents. -/
noncomputable def rhoD (p : SVRPair) (d z lam : ℝ) : ℝ := svrRhoD (p.sigma / d) z lam (svrZeff lam z) (svrDZeff lam z)

/-- `a1ij`, lines 497-499. -/
noncomputable def a1 (p : SVRPair) (d z rhos : ℝ) : ℝ :=
  2 * Real.pi * rhos * d ^ 3 * p.eps * p.C * (p.one d z p.la - p.one d z p.lr)

/-- The bracket of `a2ij`, lines 518-520. -/
noncomputable def S2 (p : SVRPair) (d z : ℝ) : ℝ :=
  p.one d z (2 * p.la) - 2 * p.one d z (p.la + p.lr) + p.one d z (2 * p.lr)

/-- `chi_ij`, line 516. -/
noncomputable def chi (p : SVRPair) (zbar : ℝ) : ℝ :=
  svrF 1 p.alpha * zbar + svrF 2 p.alpha * zbar ^ 5 + svrF 3 p.alpha * zbar ^ 8

/-- `a2ij`, lines 517-521. -/
noncomputable def a2 (p : SVRPair) (d z zbar rhos : ℝ) : ℝ :=
  0.5 * svrK z * (1 + p.chi zbar) * p.eps * p.C ^ 2 * (2 * Real.pi * rhos * d ^ 3 * p.eps) * p.S2 d z

/-- `a3ij`, lines 529-531. -/
noncomputable def a3 (p : SVRPair) (zbar : ℝ) : ℝ :=
  -p.eps ^ 3 * svrF 4 p.alpha * zbar * Real.exp (svrF 5 p.alpha * zbar + svrF 6 p.alpha * zbar ^ 2)

/-- `g1ii`, lines 543-568. -/
noncomputable def g1 (p : SVRPair) (d z : ℝ) : ℝ :=
  3 * (p.C * (p.rhoD d z p.la - p.rhoD d z p.lr)) + -p.C * (p.la * p.one d z p.la - p.lr * p.one d z p.lr)

/-- `g2MCAij`, lines 573-592. -/
noncomputable def g2MCA (p : SVRPair) (d z : ℝ) : ℝ :=
  3 * (0.5 * p.C ^ 2 * (svrRhoDK z * p.S2 d z
      + svrK z * (p.rhoD d z (2 * p.la) - 2 * p.rhoD d z (p.la + p.lr) + p.rhoD d z (2 * p.lr))))
    + -p.C ^ 2 * svrK z * (p.la * p.one d z (2 * p.la) - (p.la + p.lr) * p.one d z (p.la + p.lr) + p.lr * p.one d z (2 * p.lr))

/-- `gamma_cij`, lines 594-597. -/
noncomputable def gammaC (p : SVRPair) (T zbar : ℝ) : ℝ :=
  svrPhiAt 0 6 * (-Real.tanh (svrPhiAt 1 6 * (svrPhiAt 2 6 - p.alpha)) + 1) * zbar * (Real.exp (p.eps / T) - 1)
    * Real.exp (svrPhiAt 3 6 * zbar + svrPhiAt 4 6 * zbar ^ 2)

/-- `giiMie`, lines 594-600. -/
noncomputable def g (p : SVRPair) (T d z zbar : ℝ) : ℝ :=
  svrGHS z (p.sigma / d) * Real.exp ((p.eps / T * p.g1 d z + (p.eps / T) ^ 2 * ((1 + p.gammaC T zbar) * p.g2MCA d z))
    / svrGHS z (p.sigma / d))

/-- The five exponents at which the integrals are taken. -/
def exponents (p : SVRPair) : List ℝ := [p.la, p.lr, 2 * p.la, p.la + p.lr, 2 * p.lr]

/-- No division by zero and no root or logarithm outside of its domain in the calculations of a pair. -/
def Fine (p : SVRPair) (d z : ℝ) : Prop :=
  0 < p.la ∧ 0 < p.lr ∧ p.la ≠ p.lr ∧ 0 < p.sigma / d ∧ z < 1 ∧ svrK z ≠ 0 ∧
    (∀ l ∈ p.exponents, l ≠ 3 ∧ l ≠ 4 ∧ svrZeff l z ≠ 1) ∧
    ∀ k ∈ [1, 2, 3, 4, 5, 6], 1 + (svrPhiAt 4 (k - 1) * p.alpha ^ 1 + svrPhiAt 5 (k - 1) * p.alpha ^ 2 + svrPhiAt 6 (k - 1) * p.alpha ^ 3) ≠ 0

end SVRPair

/-! ## Mixtures -/

/-- `EpsilonijFlags`, lines 37-44. -/
inductive SVRRule where
  | invalid
  | lorentzBerthelot
  | lafitte
  deriving DecidableEq

/-- The data of `SAFTVRMieChainContributionTerms`, lines 251-262; diameters in Angstrom. -/
structure SVR (n : ℕ) where
  m : Fin n → ℝ
  eps : Fin n → ℝ
  sigma : Fin n → ℝ
  lr : Fin n → ℝ
  la : Fin n → ℝ
  k : Fin n → Fin n → ℝ
  lb : Bool

/-- `get_lambda_k_ij`, lines 106-115. -/
noncomputable def svrLam (a b : ℝ) : ℝ := 3 + Real.sqrt ((a - 3) * (b - 3))

namespace SVR
variable {n : ℕ}

/-- `get_sigma_ij`, lines 150-159. -/
noncomputable def sigmaIJ (p : SVR n) (i j : Fin n) : ℝ := (p.sigma i + p.sigma j) / 2

/-- `get_epsilon_ij`, lines 164-189: only the entries of the interaction matrix on and above the diagonal are read. -/
noncomputable def epsIJ (p : SVR n) (i j : Fin n) : ℝ :=
  let a := min i j
  let b := max i j
  if p.lb then (1 - p.k a b) * Real.sqrt (p.eps a * p.eps b)
  else (1 - p.k a b) * Real.sqrt (p.sigmaIJ a a ^ 3 * p.sigmaIJ b b ^ 3 * p.eps a * p.eps b) / p.sigmaIJ a b ^ 3

/-- The pair `i`, `j`. -/
noncomputable def pair (p : SVR n) (i j : Fin n) : SVRPair :=
  ⟨svrLam (p.lr i) (p.lr j), svrLam (p.la i) (p.la j), p.epsIJ i j, p.sigmaIJ i j⟩

/-- `get_dmat`, lines 378-393: the linear rule for unlike pairs. -/
noncomputable def dIJ (d : Fin n → ℝ) (i j : Fin n) : ℝ := if i = j then d i else (d (min i j) + d (max i j)) / 2

/-- `mbar`, line 410. -/
noncomputable def mbar (p : SVR n) (x : Fin n → ℝ) : ℝ := ∑ i, x i * p.m i

/-- `xs`, line 412. -/
noncomputable def xs (p : SVR n) (x : Fin n → ℝ) (i : Fin n) : ℝ := p.m i * x i / p.mbar x

/-- `rhos`, lines 409-411. -/
noncomputable def rhos (p : SVR n) (NA rho : ℝ) (x : Fin n → ℝ) : ℝ := rho * NA * p.mbar x / 1e30

/-- `D`, lines 414-428. -/
noncomputable def D (p : SVR n) (d x : Fin n → ℝ) (l : ℕ) : ℝ := Real.pi / 6 * ∑ i, p.xs x i * d i ^ l

/-- `zeta_x`, lines 430-439. -/
noncomputable def zetaX (p : SVR n) (d x : Fin n → ℝ) (rhos : ℝ) : ℝ :=
  Real.pi / 6 * ∑ i, ∑ j, p.xs x i * p.xs x j * dIJ d i j ^ 3 * rhos

/-- `zeta_x_bar`, lines 431-440. -/
noncomputable def zetaBar (p : SVR n) (x : Fin n → ℝ) (rhos : ℝ) : ℝ :=
  Real.pi / 6 * rhos * ∑ i, ∑ j, p.xs x i * p.xs x j * p.sigmaIJ i j ^ 3

/-- The double loop over `j >= i` with its factor for unlike pairs, lines 464-533. -/
noncomputable def pairSum (p : SVR n) (x : Fin n → ℝ) (f : Fin n → Fin n → ℝ) : ℝ :=
  ∑ i, ∑ j ∈ univ.filter (i ≤ ·), p.xs x i * p.xs x j * f i j * (if i = j then 1 else 2)

/-- `alphar_mono`, lines 606-608. -/
noncomputable def mono (p : SVR n) (d : Fin n → ℝ) (T rhos : ℝ) (x : Fin n → ℝ) : ℝ :=
  let z := p.zetaX d x rhos
  let zb := p.zetaBar x rhos
  p.mbar x * (svrHS rhos (p.D d x) (fun l => p.D d x l * rhos)
    + p.pairSum x (fun i j => (p.pair i j).a1 (dIJ d i j) z rhos) / T
    + p.pairSum x (fun i j => (p.pair i j).a2 (dIJ d i j) z zb rhos) / (T * T)
    + p.pairSum x (fun i j => (p.pair i j).a3 zb) / (T * T * T))

/-- `alphar_chain`, lines 535-602. -/
noncomputable def chain (p : SVR n) (d : Fin n → ℝ) (T rhos : ℝ) (x : Fin n → ℝ) : ℝ :=
  -∑ i, x i * (p.m i - 1) * Real.log ((p.pair i i).g T (d i) (p.zetaX d x rhos) (p.zetaBar x rhos))

/-- No division by zero and no root or logarithm outside of its domain. -/
def Fine (p : SVR n) (d : Fin n → ℝ) (T rhos : ℝ) (x : Fin n → ℝ) : Prop :=
  T ≠ 0 ∧ p.mbar x ≠ 0 ∧ p.D d x 3 * rhos < 1 ∧ p.D d x 3 ≠ 0 ∧ p.D d x 0 ≠ 0 ∧
    ∀ i j, 0 ≤ (p.la i - 3) * (p.la j - 3) ∧ 0 ≤ (p.lr i - 3) * (p.lr j - 3) ∧ 0 ≤ p.eps i * p.eps j ∧ 0 < p.sigma i ∧
      (p.pair i j).Fine (dIJ d i j) (p.zetaX d x rhos)

/-! ## The diameter -/

/-- `get_uii_over_kB`, lines 288-293. -/
noncomputable def u (p : SVR n) (i : Fin n) (r : ℝ) : ℝ :=
  (p.pair i i).C * p.eps i * ((p.sigma i / r) ^ p.lr i - (p.sigma i / r) ^ p.la i)

end SVR

/-- The residual of the cutoff and its two derivatives, lines 304-311; `le` stands for `log(EPS)`. -/
noncomputable def svrFgh (kappa lr la T le j : ℝ) : ℝ × ℝ × ℝ :=
  let jlr := j ^ lr
  let jla := j ^ la
  let u := kappa * (jlr - jla)
  let u1 := kappa * (lr * jlr - la * jla) / j
  let u2 := kappa * (lr * (lr - 1) * jlr - la * (la - 1) * jla) / (j * j)
  (-u / T - le, -u1 / T, -u2 / T)

open Classical in
/-- The loop of Halley steps, lines 312-320, for `n` remaining passes.  A step to a negative value, which makes the powers NaN in the code, is not
told apart here; `svr_halley_between` shows that it does not occur from a start inside of the minimum of the potential. -/
noncomputable def svrHalley (kappa lr la T EPS : ℝ) : ℕ → ℝ → ℝ
  | 0, j => j
  | n + 1, j =>
    let f := svrFgh kappa lr la T (Real.log EPS) j
    let den := 2 * f.2.1 * f.2.1 - f.1 * f.2.2
    if den < EPS then j else svrHalley kappa lr la T EPS n (j - 2 * f.1 * f.2.1 / den)

open Classical in
/-- `get_j_cutoff_dii`, lines 295-326.  The first logarithm needs a positive argument. -/
noncomputable def svrCutoff (C epsii lr la EPS T : ℝ) : Outcome ℝ :=
  let a := -Real.log EPS * T / (C * epsii)
  if a ≤ 0 then .nonFinite
  else
    let j := svrHalley (C * epsii) lr la T EPS 4 (Real.exp (Real.log a / lr))
    if j < 1 then .throws .iterationFailure else .ok j

open Classical in
/-- `get_dii`, lines 361-376. -/
noncomputable def SVR.dii {n : ℕ} (p : SVR n) (EPS : ℝ) (i : Fin n) (T : ℝ) : Outcome ℝ :=
  (svrCutoff (p.pair i i).C (p.epsIJ i i) (p.lr i) (p.la i) EPS T).bind fun j =>
  let rcut := p.sigma i / j
  (quad 10 (fun r => 1 - Real.exp (-(p.u i r) / T)) rcut (p.sigma i)).bind fun q =>
  let d := rcut + q
  if d > p.sigma i then .throws .iterationFailure else .ok d

open Classical in
/-- `get_core_calcs` and `SAFTVRMieNonpolarMixture::alphar`, lines 395-440, 606-638 and 907-915: the packing fraction `zeta[3]`
and the sum of the two contributions.  The diameters are calculated in the order of the components. -/
noncomputable def SVR.core {n : ℕ} (p : SVR n) (NA EPS T rho : ℝ) (x : List ℝ) : Outcome (ℝ × ℝ) :=
  if h : x.length = n then
    (finLoop fun i => p.dii EPS i T).bind fun d =>
    let xv : Fin n → ℝ := fun i => x.get (i.cast h.symm)
    let r := p.rhos NA rho xv
    if p.Fine d T r xv then .ok (p.D d xv 3 * r, p.mono d T r xv + p.chain d T r xv) else .nonFinite
  else .throws .invalidArgument

/-- `SAFTVRMieNonpolarMixture::alphar`, lines 906-915. -/
noncomputable def SVR.alphar {n : ℕ} (p : SVR n) (NA EPS T rho : ℝ) (x : List ℝ) : Outcome ℝ :=
  (p.core NA EPS T rho x).bind fun v => .ok v.2

end Teqp.Model
