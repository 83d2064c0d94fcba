import Verif.Model.Isochoric
import Mathlib.Data.Matrix.Mul
import Mathlib.Data.Fin.VecNotation
import Mathlib.Analysis.SpecialFunctions.Sqrt

/-! # Phase equilibrium of binary mixtures

Models `/repo/include/teqp/algorithms/VLE.hpp` lines 76-870 and 1050-1110.  Automatic differentiation is replaced by
the derivative.  The linear solves (`colPivHouseholderQr().solve`, `linsolve`) are parameters: `none` stands for a
result all of whose entries are not finite. -/

set_option autoImplicit false

open Classical

namespace Teqp.Model

/-- `VLE_return_code`, `/repo/include/teqp/algorithms/VLE_types.hpp` line 40. -/
inductive VLECode
  | unset | xtolSatisfied | functolSatisfied | maxfevMet | maxiterMet | notfiniteStep
  deriving DecidableEq

/-- The four tolerances `atol, reltol, axtol, relxtol` (`VLE.hpp` line 76). -/
structure VLETol where
  atol : ℝ
  reltol : ℝ
  axtol : ℝ
  relxtol : ℝ

/-- `std::numeric_limits<double>::min()`. -/
noncomputable def dblMin : ℝ := (2 ^ 1022 : ℝ)⁻¹

/-- The three stopping tests in order (`VLE.hpp` lines 168-186; the same text at lines 500-517).  `x` is the updated
vector, `dx` the step just made and `r` the residual evaluated before the step. -/
noncomputable def vleTests {κ κ' : Type} (tol : VLETol) (x dx : κ → ℝ) (r : κ' → ℝ) : Option VLECode :=
  if ∀ i, |dx i| < tol.axtol + tol.relxtol * |x i| then some .xtolSatisfied
  else if ∀ i, |r i| < tol.atol + tol.reltol * |r i| then some .functolSatisfied
  else if ∀ i, |x i - dx i| < dblMin then some .xtolSatisfied
  else none

/-- The ratios `dx / dxmax` with `dxmax = -x` (`VLE.hpp` lines 150-155).  An entry with `x = 0` and `dx < 0` has ratio
`+inf` and cannot be the smallest; it is left out. -/
noncomputable def stepRatios {n : ℕ} (x dx : Fin n → ℝ) : List ℝ :=
  (List.finRange n).filterMap fun i => if x i = 0 then none else some (dx i / -x i)

/-- The step limiter (`VLE.hpp` lines 149-157 and 345-352).  With `x = 0` and `dx ≥ 0` the ratio is `-inf` or NaN. -/
noncomputable def limitStep {n : ℕ} (x dx : Fin n → ℝ) : Outcome (Fin n → ℝ) :=
  if ∃ i, x i + dx i < 0 then
    if ∃ i, x i = 0 ∧ 0 ≤ dx i then .nonFinite
    else match (stepRatios x dx).min? with
      | none => .nonFinite
      | some f => .ok fun i => dx i * (f / 2)
  else .ok dx

/-- No change of components with zero specified mole fraction (`VLE.hpp` lines 160-165). -/
noncomputable def zeroStep (xspec : Fin 2 → ℝ) (dx : Fin 4 → ℝ) : Fin 4 → ℝ :=
  ![if xspec 0 = 0 then 0 else dx 0, if xspec 1 = 0 then 0 else dx 1,
    if xspec 0 = 0 then 0 else dx 2, if xspec 1 = 0 then 0 else dx 3]

/-- The liquid half of the state vector (`VLE.hpp` line 88). -/
def liq (x : Fin 4 → ℝ) : Fin 2 → ℝ := ![x 0, x 1]

/-- The vapor half of the state vector (`VLE.hpp` line 89). -/
def vap (x : Fin 4 → ℝ) : Fin 2 → ℝ := ![x 2, x 3]

/-- Both phases have a density (otherwise mole fractions are `0/0`). -/
def bothPhases (x : Fin 4 → ℝ) : Prop := rhotot (liq x) ≠ 0 ∧ rhotot (vap x) ≠ 0

/-- The pressure as the solvers form it: `rho*RT - Psir + rhovec . Psirgrad` (`VLE.hpp` lines 100-101). -/
noncomputable def solverP {ι : Type} [Fintype ι] [DecidableEq ι] (m : EOS ι) (RT T : ℝ) (ρ : ι → ℝ) : ℝ :=
  rhotot ρ * RT - Psir m T ρ + ∑ i, ρ i * gradPsir m T ρ i

/-- `dpdrhovec = RT + hessian * rhovec` (`VLE.hpp` lines 102-103). -/
noncomputable def solverDp {ι : Type} [Fintype ι] [DecidableEq ι] (m : EOS ι) (RT T : ℝ) (ρ : ι → ℝ) (i : ι) : ℝ :=
  RT + ∑ j, hessPsir m T ρ i j * ρ j

/-- `index_i_nonzero` (`VLE.hpp` lines 105-106, 216-217). -/
def idxNonzero (L V : Fin 2 → ℝ) (i : Fin 2) : Prop := 0 < L i ∧ 0 < V i

/-- The chemical-potential residuals (`VLE.hpp` lines 108-117, 219-230). -/
noncomputable def muResid (m : EOS (Fin 2)) (RT T : ℝ) (L V : Fin 2 → ℝ) (i : Fin 2) : ℝ :=
  if idxNonzero L V i then
    gradPsir m T L i + RT * Real.log (L i) - (gradPsir m T V i + RT * Real.log (V i))
  else gradPsir m T L i - gradPsir m T V i

/-- The residual of `mix_VLE_Tx` (`VLE.hpp` lines 90, 108-119). -/
noncomputable def txResid (m : EOS (Fin 2)) (T : ℝ) (xspec : Fin 2 → ℝ) (x : Fin 4 → ℝ) : Fin 4 → ℝ :=
  let RT := m.R xspec * T
  ![muResid m RT T (liq x) (vap x) 0, muResid m RT T (liq x) (vap x) 1,
    solverP m RT T (liq x) - solverP m RT T (vap x),
    liq x 0 / rhotot (liq x) - xspec 0]

/-- `index_i_nonzero ? RT/rho(i) : 0` (`VLE.hpp` lines 122-129). -/
noncomputable def idealDiag (RT : ℝ) (L V ρ : Fin 2 → ℝ) (i : Fin 2) : ℝ :=
  if idxNonzero L V i then RT / ρ i else 0

/-- The Jacobian of `mix_VLE_Tx` (`VLE.hpp` lines 121-138). -/
noncomputable def txJac (m : EOS (Fin 2)) (T : ℝ) (xspec : Fin 2 → ℝ) (x : Fin 4 → ℝ) : Matrix (Fin 4) (Fin 4) ℝ :=
  let RT := m.R xspec * T
  let L := liq x
  let V := vap x
  let rhoL := rhotot L
  ![![hessPsir m T L 0 0 + idealDiag RT L V L 0, hessPsir m T L 0 1,
      -(hessPsir m T V 0 0 + idealDiag RT L V V 0), -hessPsir m T V 0 1],
    ![hessPsir m T L 1 0, hessPsir m T L 1 1 + idealDiag RT L V L 1,
      -hessPsir m T V 1 0, -(hessPsir m T V 1 1 + idealDiag RT L V V 1)],
    ![solverDp m RT T L 0, solverDp m RT T L 1, -solverDp m RT T V 0, -solverDp m RT T V 1],
    ![(rhoL - L 0) / (rhoL * rhoL), -L 0 / (rhoL * rhoL), 0, 0]]

/-- The loop of `mix_VLE_Tx` (`VLE.hpp` lines 94-190) for any residual, Jacobian and linear solve; the argument counts
the iterations left. -/
noncomputable def txLoop (resid : (Fin 4 → ℝ) → Fin 4 → ℝ) (jac : (Fin 4 → ℝ) → Matrix (Fin 4) (Fin 4) ℝ)
    (solve : Matrix (Fin 4) (Fin 4) ℝ → (Fin 4 → ℝ) → Option (Fin 4 → ℝ)) (tol : VLETol) (xspec : Fin 2 → ℝ) :
    ℕ → (Fin 4 → ℝ) → Outcome (VLECode × (Fin 4 → ℝ))
  | 0, x => .ok (.unset, x)
  | k + 1, x =>
    if bothPhases x then
      match solve (jac x) (fun i => -resid x i) with
      | none => .ok (.notfiniteStep, x)
      | some dx0 => (limitStep x dx0).bind fun dx1 =>
        let dx := zeroStep xspec dx1
        let x' := fun i => x i + dx i
        match vleTests tol x' dx (resid x) with
        | some c => .ok (c, x')
        | none => if k = 0 then .ok (.maxiterMet, x') else txLoop resid jac solve tol xspec k x'
    else .nonFinite

/-- `mix_VLE_Tx` (`VLE.hpp` lines 76-193).  Lists are the Eigen arrays.  One component reads entry 1 of a length-1 array;
three or more leave rows of `J` and `r` uninitialised; both are undefined behaviour, unless no iteration is made. -/
noncomputable def mixVLETx (m : EOS (Fin 2)) (solve : Matrix (Fin 4) (Fin 4) ℝ → (Fin 4 → ℝ) → Option (Fin 4 → ℝ))
    (T : ℝ) (rhoL0 rhoV0 xspec : List ℝ) (tol : VLETol) (maxiter : ℤ) : Outcome (VLECode × List ℝ × List ℝ) :=
  if rhoL0.length = rhoV0.length ∧ rhoV0.length = xspec.length then
    match rhoL0, rhoV0, xspec with
    | [l0, l1], [v0, v1], [z0, z1] =>
      (txLoop (txResid m T ![z0, z1]) (txJac m T ![z0, z1]) solve tol ![z0, z1] maxiter.toNat ![l0, l1, v0, v1]).bind
        fun r => .ok (r.1, [r.2 0, r.2 1], [r.2 2, r.2 3])
    | L, V, _ => if maxiter ≤ 0 then .ok (.unset, L, V) else .ub
  else .throws .invalidArgument

/-- The residual of `hybrj_functor__mix_VLE_Tp` (`VLE.hpp` lines 203-234). -/
noncomputable def tpResid (m : EOS (Fin 2)) (T p : ℝ) (x : Fin 4 → ℝ) : Fin 4 → ℝ :=
  let RT := m.R (molefrac (liq x)) * T
  ![muResid m RT T (liq x) (vap x) 0, muResid m RT T (liq x) (vap x) 1,
    (solverP m RT T (vap x) - p) / p, (solverP m RT T (liq x) - p) / p]

/-- Its Jacobian `df` (`VLE.hpp` lines 235-271). -/
noncomputable def tpJac (m : EOS (Fin 2)) (T p : ℝ) (x : Fin 4 → ℝ) : Matrix (Fin 4) (Fin 4) ℝ :=
  let L := liq x
  let V := vap x
  let RT := m.R (molefrac L) * T
  ![![hessPsir m T L 0 0 + idealDiag RT L V L 0, hessPsir m T L 0 1,
      -(hessPsir m T V 0 0 + idealDiag RT L V V 0), -hessPsir m T V 0 1],
    ![hessPsir m T L 1 0, hessPsir m T L 1 1 + idealDiag RT L V L 1,
      -hessPsir m T V 1 0, -(hessPsir m T V 1 1 + idealDiag RT L V V 1)],
    ![0, 0, solverDp m RT T V 0 / p, solverDp m RT T V 1 / p],
    ![solverDp m RT T L 0 / p, solverDp m RT T L 1 / p, 0, 0]]

/-- `MixVLEReturn` (`VLE_types.hpp`), the fields `mix_VLE_Tp` fills. -/
structure MixVLEReturn where
  success : Bool
  code : VLECode
  numIter : ℕ
  rhovecL : List ℝ
  rhovecV : List ℝ
  r : Fin 4 → ℝ
  initialR : Fin 4 → ℝ
  T : ℝ

/-- The Newton branch of `mix_VLE_Tp` (`VLE.hpp` lines 339-357); there is no stopping test. -/
noncomputable def tpLoop (resid : (Fin 4 → ℝ) → Fin 4 → ℝ) (jac : (Fin 4 → ℝ) → Matrix (Fin 4) (Fin 4) ℝ)
    (solve : Matrix (Fin 4) (Fin 4) ℝ → (Fin 4 → ℝ) → Option (Fin 4 → ℝ)) : ℕ → (Fin 4 → ℝ) → Outcome (Fin 4 → ℝ)
  | 0, x => .ok x
  | k + 1, x =>
    if bothPhases x then
      match solve (jac x) (fun i => -resid x i) with
      | none => .nonFinite
      | some dx => (limitStep x dx).bind fun d => tpLoop resid jac solve k fun i => x i + d i
    else .nonFinite

/-- `mix_VLE_Tp` (`VLE.hpp` lines 287-386) for two components: `powell` is the constant `false`, so `success` and
`return_code` keep their initial values. -/
noncomputable def mixVLETp (m : EOS (Fin 2)) (solve : Matrix (Fin 4) (Fin 4) ℝ → (Fin 4 → ℝ) → Option (Fin 4 → ℝ))
    (T p : ℝ) (rhoL0 rhoV0 : List ℝ) (maxiter : ℤ) : Outcome MixVLEReturn :=
  if rhoL0.length = rhoV0.length then
    match rhoL0, rhoV0 with
    | [l0, l1], [v0, v1] =>
      (tpLoop (tpResid m T p) (tpJac m T p) solve maxiter.toNat ![l0, l1, v0, v1]).bind fun x =>
        .ok { success := false, code := .unset, numIter := maxiter.toNat - 1, rhovecL := [x 0, x 1],
              rhovecV := [x 2, x 3], r := tpResid m T p x, initialR := tpResid m T p ![l0, l1, v0, v1], T := T }
    | _, _ => .ub
  else .throws .invalidArgument

/-! ## Pressure and composition specified, any number of components -/

/-- Unknowns of `mixture_VLE_px`: temperature, liquid and vapor concentrations (`VLE.hpp` lines 416-419). -/
abbrev PxVar (N : ℕ) := Unit ⊕ (Fin N ⊕ Fin N)

/-- Equations of `mixture_VLE_px`: chemical potentials, the two pressures, mole fractions (`VLE.hpp` lines 460-468). -/
abbrev PxEq (N : ℕ) := Fin N ⊕ (Fin 2 ⊕ Fin (N - 1))

/-- The embedding of `head(N-1)`. -/
def headIdx {N : ℕ} (i : Fin (N - 1)) : Fin N := ⟨i.1, by have := i.2; omega⟩

/-- The residual (`VLE.hpp` lines 432-468) at temperature `T`. -/
noncomputable def pxResid {N : ℕ} (m : EOS (Fin N)) (p : ℝ) (z : Fin N → ℝ) (T : ℝ) (L V : Fin N → ℝ) :
    PxEq N → ℝ
  | .inl i => gradPsir m T L i + m.R z * T * Real.log (L i) - (gradPsir m T V i + m.R z * T * Real.log (V i))
  | .inr (.inl 0) => solverP m (m.R z * T) T L / p - 1
  | .inr (.inl 1) => solverP m (m.R z * T) T V / p - 1
  | .inr (.inr i) => L (headIdx i) / rhotot L - z (headIdx i)

/-- The Jacobian (`VLE.hpp` lines 441-488); blocks not assigned stay zero. -/
noncomputable def pxJac {N : ℕ} (m : EOS (Fin N)) (p : ℝ) (z : Fin N → ℝ) (T : ℝ) (L V : Fin N → ℝ) :
    PxEq N → PxVar N → ℝ
  | .inl i, .inl _ => d2PsirdTdrhoi m T L i - d2PsirdTdrhoi m T V i + m.R z * Real.log (L i / V i)
  | .inl i, .inr (.inl j) => hessPsir m T L i j + if i = j then m.R z * T / L i else 0
  | .inl i, .inr (.inr j) => -(hessPsir m T V i j + if i = j then m.R z * T / V i else 0)
  | .inr (.inl 0), .inl _ => dpdT m T L / p
  | .inr (.inl 0), .inr (.inl j) => solverDp m (m.R z * T) T L j / p
  | .inr (.inl 0), .inr (.inr _) => 0
  | .inr (.inl 1), .inl _ => dpdT m T V / p
  | .inr (.inl 1), .inr (.inl _) => 0
  | .inr (.inl 1), .inr (.inr j) => solverDp m (m.R z * T) T V j / p
  | .inr (.inr _), .inl _ => 0
  | .inr (.inr i), .inr (.inl j) =>
    (rhotot L * (if headIdx i = j then 1 else 0) - L (headIdx i)) / (rhotot L * rhotot L)
  | .inr (.inr _), .inr (.inr _) => 0

/-- The state of the loop of `mixture_VLE_px`: the running temperature and the vector `x`, whose entry 0 is never
updated (`VLE.hpp` lines 497-498). -/
structure PxState (N : ℕ) where
  T : ℝ
  L : Fin N → ℝ
  V : Fin N → ℝ

/-- The vector `x` of `mixture_VLE_px`, with the starting temperature in its first entry. -/
def pxVec {N : ℕ} (T0 : ℝ) (L V : Fin N → ℝ) : PxVar N → ℝ
  | .inl _ => T0
  | .inr (.inl i) => L i
  | .inr (.inr i) => V i

/-- The loop of `mixture_VLE_px` (`VLE.hpp` lines 428-520).  A concentration that is not positive makes `log` or a
quotient non-finite. -/
noncomputable def pxLoop {N : ℕ} (resid : ℝ → (Fin N → ℝ) → (Fin N → ℝ) → PxEq N → ℝ)
    (jac : ℝ → (Fin N → ℝ) → (Fin N → ℝ) → PxEq N → PxVar N → ℝ)
    (solve : (PxEq N → PxVar N → ℝ) → (PxEq N → ℝ) → Option (PxVar N → ℝ)) (tol : VLETol) (T0 : ℝ) :
    ℕ → PxState N → Outcome (VLECode × PxState N)
  | 0, s => .ok (.unset, s)
  | k + 1, s =>
    if (∀ i, 0 < s.L i) ∧ (∀ i, 0 < s.V i) then
      match solve (jac s.T s.L s.V) (fun e => -resid s.T s.L s.V e) with
      | none => .ok (.notfiniteStep, s)
      | some dx =>
        let s' : PxState N := ⟨s.T + dx (.inl ()), fun i => s.L i + dx (.inr (.inl i)),
          fun i => s.V i + dx (.inr (.inr i))⟩
        match vleTests tol (pxVec T0 s'.L s'.V) dx (resid s.T s.L s.V) with
        | some c => .ok (c, s')
        | none => if k = 0 then .ok (.maxiterMet, s') else pxLoop resid jac solve tol T0 k s'
    else .nonFinite

/-- `mixture_VLE_px` (`VLE.hpp` lines 399-522).  The lengths come first, then zero vapor, then zero liquid entries. -/
noncomputable def mixVLEpx {N : ℕ} (m : EOS (Fin N))
    (solve : (PxEq N → PxVar N → ℝ) → (PxEq N → ℝ) → Option (PxVar N → ℝ)) (p T0 : ℝ) (z L0 V0 : List ℝ)
    (tol : VLETol) (maxiter : ℤ) : Outcome (VLECode × PxState N) :=
  if L0.length = V0.length ∧ V0.length = z.length then
    if ∃ v ∈ V0, v = 0 then .throws .invalidArgument
    else if ∃ v ∈ L0, v = 0 then .throws .invalidArgument
    else if h : L0.length = N then
      pxLoop (pxResid m p fun i => z[i]?.getD 0) (pxJac m p fun i => z[i]?.getD 0) solve tol T0 maxiter.toNat
        ⟨T0, fun i => L0[i], fun i => V0[i]?.getD 0⟩
    else .ub
  else .throws .invalidArgument

/-! ## Derivatives along the phase envelope -/

/-- The Hessian as a matrix (`build_Psi_Hessian_autodiff`, `VLE.hpp` lines 530-531, 605-606, 718-719). -/
noncomputable def psiHess {N : ℕ} (m : EOS (Fin N)) (T : ℝ) (ρ : Fin N → ℝ) : Matrix (Fin N) (Fin N) ℝ := fun i j =>
  hessPsi m T ρ i j

theorem psiHess_apply {N : ℕ} (m : EOS (Fin N)) (T : ℝ) (ρ : Fin N → ℝ) (i j : Fin N) :
    psiHess m T ρ i j = hessPsi m T ρ i j := rfl

/-- `linsolve` (`VLE.hpp` lines 54-57). -/
abbrev Solver (N : ℕ) := Matrix (Fin N) (Fin N) ℝ → (Fin N → ℝ) → (Fin N → ℝ)

/-- The matrix `A` of the normal branch (`VLE.hpp` lines 533, 539-542, 608, 615-618): only the first two rows are
assigned, the others stay zero. -/
noncomputable def satA {N : ℕ} (H : Matrix (Fin N) (Fin N) ℝ) (L V : Fin N → ℝ) : Matrix (Fin N) (Fin N) ℝ := fun i j =>
  if j.1 < 2 then
    if i.1 = 0 then ∑ k, H j k * V k else if i.1 = 1 then ∑ k, H j k * L k else 0
  else 0

/-- Matrix times vector, `Hliq * v`. -/
def mv {N : ℕ} (H : Matrix (Fin N) (Fin N) ℝ) (v : Fin N → ℝ) : Fin N → ℝ := fun i => ∑ k, H i k * v k

/-- No concentration vanishes (`VLE.hpp` lines 537, 613, 726). -/
def noneZero {N : ℕ} (L V : Fin N → ℝ) : Prop := (∀ i, L i ≠ 0) ∧ ∀ i, V i ≠ 0

/-- The matrix `A` of the infinite-dilution branch of `get_drhovecdp_Tsat` (`VLE.hpp` lines 554-576). -/
noncomputable def dilA {N : ℕ} (m : EOS (Fin N)) (T : ℝ) (L V : Fin N → ℝ) : Matrix (Fin N) (Fin N) ℝ := fun i j =>
  let RL := m.R (molefrac L)
  let ρ := if i.1 = 0 then V else L
  if L j = 0 then
    ∑ k, if k = j then
        (if i.1 = 1 then RL * T else RL * T * Real.exp (-(gradPsir m T V j - gradPsir m T L j) / (RL * T)))
      else hessPsi m T L j k * ρ k
  else ∑ k, hessPsi m T L j k * ρ k

/-- `PSILstar` (`VLE.hpp` lines 581-589). -/
noncomputable def dilHL {N : ℕ} (m : EOS (Fin N)) (T : ℝ) (L : Fin N → ℝ) : Matrix (Fin N) (Fin N) ℝ := fun i j =>
  if i = j ∧ L j = 0 then m.R (molefrac L) * T else L i * hessPsi m T L i j

/-- `PSIVstar` (`VLE.hpp` lines 581-589). -/
noncomputable def dilHV {N : ℕ} (m : EOS (Fin N)) (T : ℝ) (L V : Fin N → ℝ) : Matrix (Fin N) (Fin N) ℝ := fun i j =>
  let RV := m.R (molefrac V)
  if i = j ∧ L j = 0 then RV * T / Real.exp (-(gradPsir m T V j - gradPsir m T L j) / (RV * T))
  else L i * hessPsi m T V i j

/-- The formulas of `get_drhovecdp_Tsat` (`VLE.hpp` lines 537-591). -/
noncomputable def drhodpTsatVec {N : ℕ} (m : EOS (Fin N)) (solve : Solver N) (T : ℝ) (L V : Fin N → ℝ) :
    (Fin N → ℝ) × (Fin N → ℝ) :=
  if noneZero L V then
    let dL := solve (satA (psiHess m T L) L V) (fun _ => 1)
    (dL, solve (psiHess m T V) (mv (psiHess m T L) dL))
  else
    let dL := solve (dilA m T L V) (fun _ => 1)
    (dL, solve (dilHV m T L V) (mv (dilHL m T L) dL))

/-- The concentrations at which the numbers of `get_drhovecdp_Tsat` are finite (`VLE.hpp` lines 524-593).  A phase
without substance has no mole fractions (lines 551-552).  A component absent from the vapor alone leaves the infinite
entry of `Hvap` in `PSIVstar` (line 582: it is replaced only when the liquid concentration vanishes), and the QR
decomposition of lines 55-57 then has no finite result. -/
def tsatFinite {N : ℕ} (L V : Fin N → ℝ) : Prop := rhotot L ≠ 0 ∧ rhotot V ≠ 0 ∧ ∀ j, V j = 0 → L j = 0

/-- `get_drhovecdp_Tsat` (`VLE.hpp` lines 524-593).  The number of components is not tested (the `assert` at line 536 is
absent in release builds): with one component the normal branch writes outside the `1 × 1` matrix, with three or more it
solves a system whose remaining rows are zero. -/
noncomputable def drhodpTsat {N : ℕ} (m : EOS (Fin N)) (solve : Solver N) (T : ℝ) (L V : List ℝ) :
    Outcome ((Fin N → ℝ) × (Fin N → ℝ)) :=
  if L.length = N ∧ V.length = N then
    if N < 2 then .ub
    else if tsatFinite (fun i : Fin N => L[i]?.getD 0) (fun i : Fin N => V[i]?.getD 0) then
      .ok (drhodpTsatVec m solve T (fun i => L[i]?.getD 0) (fun i => V[i]?.getD 0))
    else .nonFinite
  else .ub

/-- `DELTAdmu_dT` (`VLE.hpp` line 620; `deltas`, line 719). -/
noncomputable def deltaS (m : EOS (Fin 2)) (T : ℝ) (L V : Fin 2 → ℝ) : Fin 2 → ℝ := fun i =>
  dchempotdT m T V i - dchempotdT m T L i

/-- The normal branch of `get_drhovecdT_psat` (`VLE.hpp` lines 613-628). -/
noncomputable def drhodTpsatNormal (m : EOS (Fin 2)) (solve : Solver 2) (T : ℝ) (L V : Fin 2 → ℝ) :
    (Fin 2 → ℝ) × (Fin 2 → ℝ) :=
  let Δ := deltaS m T L V
  let b : Fin 2 → ℝ := ![(∑ i, Δ i * V i) - dpdT m T V, -dpdT m T L]
  let dL := solve (satA (psiHess m T L) L V) b
  (dL, solve (psiHess m T V) (fun i => mv (psiHess m T L) dL i - Δ i))

/-- The matrix `A` of the infinite-dilution branch of `get_drhovecdT_psat` (`VLE.hpp` lines 656-678): a row of `Hliq`
is not finite exactly when its liquid concentration vanishes. -/
noncomputable def dilAT (m : EOS (Fin 2)) (T : ℝ) (L V : Fin 2 → ℝ) : Matrix (Fin 2) (Fin 2) ℝ := fun i j =>
  let RL := m.R (molefrac L)
  let ρ := if i = 1 then L else V
  if L j = 0 ∧ ρ j = 0 then
    ∑ k, if k = j then (if i = 1 then RL * T else RL * T * Real.exp (-(gradPsir m T V j - gradPsir m T L j) / (RL * T)))
      else hessPsi m T L j k * ρ k
  else ∑ k, hessPsi m T L j k * ρ k

/-- `DELTAdmu_dT_ideal` (`VLE.hpp` lines 642-650). -/
noncomputable def dilIdeal (m : EOS (Fin 2)) (L V : Fin 2 → ℝ) : Fin 2 → ℝ := fun i =>
  if V i = 0 then 0 else m.R (molefrac V) * Real.log (V i / L i)

/-- `DELTAdmu_dT_rhoV_ideal` (`VLE.hpp` lines 641-650). -/
noncomputable def dilRhoVIdeal (m : EOS (Fin 2)) (L V : Fin 2 → ℝ) : Fin 2 → ℝ := fun i =>
  if V i = 0 then 0 else V i * (m.R (molefrac V) * Real.log (V i / L i))

/-- The infinite-dilution branch of `get_drhovecdT_psat` (`VLE.hpp` lines 629-694). -/
noncomputable def drhodTpsatDilute (m : EOS (Fin 2)) (solve : Solver 2) (T : ℝ) (L V : Fin 2 → ℝ) :
    (Fin 2 → ℝ) × (Fin 2 → ℝ) :=
  let res : Fin 2 → ℝ := fun i => d2PsirdTdrhoi m T V i - d2PsirdTdrhoi m T L i
  let b : Fin 2 → ℝ := ![(∑ i, V i * res i) + (∑ i, dilRhoVIdeal m L V i) - dpdT m T V, -dpdT m T L]
  let dL := solve (dilAT m T L V) b
  (dL, solve (dilHV m T L V) fun i => mv (dilHL m T L) dL i - L i * (res i + dilIdeal m L V i))

/-- A list of two numbers as a vector. -/
def vec2 (a b : ℝ) : Fin 2 → ℝ := ![a, b]

/-- The two branches of `get_drhovecdT_psat` (`VLE.hpp` lines 612-694). -/
noncomputable def drhodTpsatVec (m : EOS (Fin 2)) (solve : Solver 2) (T : ℝ) (L V : Fin 2 → ℝ) :
    (Fin 2 → ℝ) × (Fin 2 → ℝ) :=
  if noneZero L V then drhodTpsatNormal m solve T L V else drhodTpsatDilute m solve T L V

/-- The concentrations at which the numbers of `get_drhovecdT_psat` are finite (`VLE.hpp` lines 598-696).  The normal
branch takes the logarithm of every concentration (`derivs.hpp` line 1415).  The infinite-dilution branch takes the
logarithm of the ratios (line 642) and leaves the infinite entries of a component absent from one phase alone: of `Hliq`
in `A` (line 669), of `Hvap` in `Hvapstar` (line 683). -/
def psatFinite (L V : Fin 2 → ℝ) : Prop :=
  rhotot L ≠ 0 ∧ rhotot V ≠ 0 ∧
    if noneZero L V then ∀ j, 0 < L j ∧ 0 < V j else ∀ j, (L j = 0 ∧ V j = 0) ∨ 0 < V j / L j

/-- `get_drhovecdT_psat` (`VLE.hpp` lines 598-696).  Only the length of the liquid vector is tested; the `assert` on the
vapor length is absent in release builds. -/
noncomputable def drhodTpsat (m : EOS (Fin 2)) (solve : Solver 2) (T : ℝ) (L V : List ℝ) :
    Outcome ((Fin 2 → ℝ) × (Fin 2 → ℝ)) :=
  if L.length ≠ 2 then .throws .stdInvalidArgument
  else match L, V with
    | [l0, l1], [v0, v1] =>
      if psatFinite (vec2 l0 l1) (vec2 v0 v1) then .ok (drhodTpsatVec m solve T (vec2 l0 l1) (vec2 v0 v1))
      else .nonFinite
    | _, _ => .ub

/-- The formulas of `get_drhovecdT_xsat` (`VLE.hpp` lines 717-731). -/
noncomputable def drhodTxsatNormal (m : EOS (Fin 2)) (solve : Solver 2) (T : ℝ) (L V : Fin 2 → ℝ) :
    (Fin 2 → ℝ) × (Fin 2 → ℝ) :=
  let xL := molefrac L
  let Δ := deltaS m T L V
  let deltabeta := dpdT m T V - dpdT m T L
  let num := (∑ i, Δ i * V i) - deltabeta
  let den := ∑ i, mv (psiHess m T L) (fun k => V k - L k) i * xL i
  let dL : Fin 2 → ℝ := fun i => num / den * xL i
  (dL, solve (psiHess m T V) (fun i => mv (psiHess m T L) dL i - Δ i))

/-- The concentrations at which the numbers of `get_drhovecdT_xsat` are finite (`VLE.hpp` lines 712-736): the logarithms
of line 719 and the quotient of lines 721-726. -/
noncomputable def xsatFinite (m : EOS (Fin 2)) (T : ℝ) (L V : Fin 2 → ℝ) : Prop :=
  (∀ j, 0 < L j ∧ 0 < V j) ∧ ∑ i, mv (psiHess m T L) (fun k => V k - L k) i * molefrac L i ≠ 0

/-- `get_drhovecdT_xsat` (`VLE.hpp` lines 712-736). -/
noncomputable def drhodTxsat (m : EOS (Fin 2)) (solve : Solver 2) (T : ℝ) (L V : List ℝ) :
    Outcome ((Fin 2 → ℝ) × (Fin 2 → ℝ)) :=
  if L.length ≠ 2 then .throws .stdInvalidArgument
  else match L, V with
    | [l0, l1], [v0, v1] =>
      if noneZero (vec2 l0 l1) (vec2 v0 v1) then
        if xsatFinite m T (vec2 l0 l1) (vec2 v0 v1) then .ok (drhodTxsatNormal m solve T (vec2 l0 l1) (vec2 v0 v1))
        else .nonFinite
      else .throws .stdInvalidArgument
    | _, _ => .ub

/-- `get_dpsat_dTsat_isopleth` (`VLE.hpp` lines 764-778). -/
noncomputable def dpsatdTisopleth (m : EOS (Fin 2)) (solve : Solver 2) (T : ℝ) (L V : List ℝ) : Outcome ℝ :=
  (drhodTxsat m solve T L V).bind fun d =>
    let Lv : Fin 2 → ℝ := fun i => L[i]?.getD 0
    let rhoL := rhotot Lv
    let x := molefrac Lv
    let RT := m.R x * T
    let dpdrho := RT * (1 + 2 * tdxAr m 0 1 T rhoL x + tdxAr m 0 2 T rhoL x)
    let dpdT := m.R x * rhoL * (1 + tdxAr m 0 1 T rhoL x - tdxAr m 1 1 T rhoL x)
    .ok (dpdT + dpdrho * (d.1 0 + d.1 1))

/-! ## Right-hand sides of the tracing equations -/

/-- `norm(v) = (v*v).sum()` (`VLE.hpp` line 804). -/
def sqNorm (v : Fin 2 → ℝ) : ℝ := ∑ i, v i * v i

/-- `xprime` of `trace_VLE_isotherm_binary` (`VLE.hpp` lines 836-864): direction `c`, the derivatives with respect to
pressure and the liquid part of the previous derivative. -/
noncomputable def xprimeIsotherm (c : ℝ) (dL dV : Fin 2 → ℝ) (prev : Fin 4 → ℝ) : Fin 4 → ℝ :=
  let dpdt := 1 / Real.sqrt (sqNorm dL + sqNorm dV)
  let X : Fin 4 → ℝ := ![c * dL 0 * dpdt, c * dL 1 * dpdt, c * dV 0 * dpdt, c * dV 1 * dpdt]
  if X 0 * prev 0 + X 1 * prev 1 < 0 then fun i => X i * -1 else X

/-- `xprime` of `trace_VLE_isobar_binary` (`VLE.hpp` lines 1092-1121): the first entry is `dT/dt`, which is not
multiplied by `c`; a flip changes the sign of the first `2N = 4` of the 5 entries and is decided by the first two. -/
noncomputable def xprimeIsobar (c : ℝ) (dL dV : Fin 2 → ℝ) (prev : Fin 5 → ℝ) : Fin 5 → ℝ :=
  let dTdt := 1 / Real.sqrt (sqNorm dL + sqNorm dV)
  let X : Fin 5 → ℝ := ![dTdt, c * dL 0 * dTdt, c * dL 1 * dTdt, c * dV 0 * dTdt, c * dV 1 * dTdt]
  if X 0 * prev 0 + X 1 * prev 1 < 0 then ![X 0 * -1, X 1 * -1, X 2 * -1, X 3 * -1, X 4] else X

/-- The choice of the initial direction (`VLE.hpp` lines 865-879, 1123-1137). -/
noncomputable def initialC {n : ℕ} (c dt : ℝ) (x dx : Fin n → ℝ) : ℝ :=
  if ∃ i, x i + dx i * dt < 0 then c * -1 else c

end Teqp.Model
