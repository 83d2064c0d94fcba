import Verif.Basic
import Verif.Model.Lambda
import Verif.Lemmas.Calc
import Mathlib.Analysis.SpecialFunctions.Log.Basic

/-!
# The isochoric formalism

Models `IsochoricDerivatives`, `/repo/include/teqp/derivs.hpp` lines 955-1510. The number of
components is arbitrary (`ι` is any finite index type). Automatic differentiation is replaced by the
derivative (trusted base).
-/

set_option autoImplicit false

open Teqp.Calc

namespace Teqp.Model

/-- A residual model: `alphar(T, rho, molefrac)` and `R(molefrac)`, the interface every model in
`/repo/include/teqp/models` offers. -/
structure EOS (ι : Type) where
  alphar : ℝ → ℝ → (ι → ℝ) → ℝ
  R : (ι → ℝ) → ℝ

section
variable {ι : Type} [Fintype ι] [DecidableEq ι]

/-- `rhovec.sum()`. -/
noncomputable def rhotot (rho : ι → ℝ) : ℝ := ∑ i, rho i

/-- `rhovec / rhotot`. -/
noncomputable def molefrac (rho : ι → ℝ) : ι → ℝ := fun i => rho i / rhotot rho

/-- `get_Psir`, `/repo/include/teqp/derivs.hpp` lines 1009-1013; the lambdas at lines 1038-1042,
1058-1062, 1115-1119, 1268-1274 and 1499-1504 are the same expression. -/
noncomputable def Psir (m : EOS ι) (T : ℝ) (rho : ι → ℝ) : ℝ :=
  m.alphar T (rhotot rho) (molefrac rho) * m.R (molefrac rho) * T * rhotot rho

/-- `get_pr`, `/repo/include/teqp/derivs.hpp` lines 971-978 (complex-step derivative in density). -/
noncomputable def pr (m : EOS ι) (T : ℝ) (rho : ι → ℝ) : ℝ :=
  let Ar01 := deriv (fun r => m.alphar T r (molefrac rho)) (rhotot rho) * rhotot rho
  Ar01 * rhotot rho * m.R (molefrac rho) * T

/-- `get_Ar00`, `/repo/include/teqp/derivs.hpp` lines 980-984. -/
noncomputable def isoAr00 (m : EOS ι) (T : ℝ) (rho : ι → ℝ) : ℝ :=
  m.alphar T (rhotot rho) (molefrac rho)

/-- `get_Ar10`, `/repo/include/teqp/derivs.hpp` lines 986-990. -/
noncomputable def isoAr10 (m : EOS ι) (T : ℝ) (rho : ι → ℝ) : ℝ :=
  -T * deriv (fun T' => m.alphar T' (rhotot rho) (molefrac rho)) T

/-- `get_Ar01`, `/repo/include/teqp/derivs.hpp` lines 992-1004. -/
noncomputable def isoAr01 (m : EOS ι) (T : ℝ) (rho : ι → ℝ) : ℝ :=
  ∑ i, rho i * partialD (fun r => m.alphar T (rhotot r) (molefrac r)) i rho

/-- `get_splus`, `/repo/include/teqp/derivs.hpp` lines 962-966. -/
noncomputable def splus (m : EOS ι) (T : ℝ) (rho : ι → ℝ) : ℝ :=
  m.alphar T (rhotot rho) (molefrac rho) - isoAr10 m T rho

/-- `get_dPsirdT_constrhovec`, `/repo/include/teqp/derivs.hpp` lines 1018-1024. -/
noncomputable def dPsirdT (m : EOS ι) (T : ℝ) (rho : ι → ℝ) : ℝ :=
  deriv (fun T' => rhotot rho * m.R (molefrac rho) * T' * m.alphar T' (rhotot rho) (molefrac rho)) T

/-- `build_Psir_gradient_autodiff`, `/repo/include/teqp/derivs.hpp` lines 1113-1122. -/
noncomputable def gradPsir (m : EOS ι) (T : ℝ) (rho : ι → ℝ) (i : ι) : ℝ :=
  partialD (Psir m T) i rho

/-- `build_Psir_Hessian_autodiff` and the Hessian of `build_Psir_fgradHessian_autodiff`,
`/repo/include/teqp/derivs.hpp` lines 1031-1044, 1051-1070. -/
noncomputable def hessPsir (m : EOS ι) (T : ℝ) (rho : ι → ℝ) (i j : ι) : ℝ :=
  partialD2 (Psir m T) i j rho

/-- `build_Psi_Hessian_autodiff`, `/repo/include/teqp/derivs.hpp` lines 1077-1085. -/
noncomputable def hessPsi (m : EOS ι) (T : ℝ) (rho : ι → ℝ) (i j : ι) : ℝ :=
  hessPsir m T rho i j + if i = j then m.R (molefrac rho) * T / rho i else 0

/-- `get_chempotVLE_autodiff`, `/repo/include/teqp/derivs.hpp` lines 1196-1201. -/
noncomputable def chempotVLE (m : EOS ι) (T : ℝ) (rho : ι → ℝ) (i : ι) : ℝ :=
  let rhorefideal : ℝ := 1
  gradPsir m T rho i + m.R (molefrac rho) * T * (rhorefideal + Real.log (rho i / rhorefideal))

/-- `get_Ar01` of `TDXDerivatives` at a mole-fraction vector: `Λ_01`. -/
noncomputable def tdxAr (m : EOS ι) (a b : ℕ) (T r : ℝ) (x : ι → ℝ) : ℝ :=
  Agenxy (fun T' r' => m.alphar T' r' x) a b T r

/-- `get_ln_fugacity_coefficients`, `/repo/include/teqp/derivs.hpp` lines 1220-1230. -/
noncomputable def lnphi (m : EOS ι) (T : ℝ) (rho : ι → ℝ) (i : ι) : ℝ :=
  let x := molefrac rho
  let Z := 1 + tdxAr m 0 1 T (rhotot rho) x
  gradPsir m T rho i / (m.R x * T) - Real.log Z

/-- `get_fugacity_coefficients`, `/repo/include/teqp/derivs.hpp` lines 1208-1212. -/
noncomputable def fugacityCoefficient (m : EOS ι) (T : ℝ) (rho : ι → ℝ) (i : ι) : ℝ :=
  Real.exp (lnphi m T rho i)

/-- `get_ln_fugacity_coefficients_Trhomolefracs`, `/repo/include/teqp/derivs.hpp` lines 1232-1242. -/
noncomputable def lnphiTrhox (m : EOS ι) (T r : ℝ) (x : ι → ℝ) (i : ι) : ℝ :=
  let Z := 1 + tdxAr m 0 1 T r x
  gradPsir m T (fun k => r * x k) i / (m.R x * T) - Real.log Z

/-- `get_ln_fugacity_coefficients1`, `/repo/include/teqp/derivs.hpp` lines 1244-1253. -/
noncomputable def lnphi1 (m : EOS ι) (T : ℝ) (rho : ι → ℝ) (i : ι) : ℝ :=
  gradPsir m T rho i / (m.R (molefrac rho) * T)

/-- `get_ln_fugacity_coefficients2`, `/repo/include/teqp/derivs.hpp` lines 1255-1262. -/
noncomputable def lnphi2 (m : EOS ι) (T : ℝ) (rho : ι → ℝ) : ℝ :=
  -Real.log (1 + tdxAr m 0 1 T (rhotot rho) (molefrac rho))

/-- `build_d2PsirdTdrhoi_autodiff`, `/repo/include/teqp/derivs.hpp` lines 1264-1280. -/
noncomputable def d2PsirdTdrhoi (m : EOS ι) (T : ℝ) (rho : ι → ℝ) (i : ι) : ℝ :=
  deriv (fun T' => deriv (fun ri => Psir m T' (Function.update rho i ri)) (rho i)) T

/-- `build_d2alphardrhodxi_constT`, `/repo/include/teqp/derivs.hpp` lines 1282-1296. -/
noncomputable def d2alphardrhodxi (m : EOS ι) (T r : ℝ) (x : ι → ℝ) (i : ι) : ℝ :=
  deriv (fun r' => deriv (fun xi => m.alphar T r' (Function.update x i xi)) (x i)) r

/-- `get_d_ln_fugacity_coefficients_dT_constrhovec`, `/repo/include/teqp/derivs.hpp` lines
1306-1317. -/
noncomputable def dlnphidT (m : EOS ι) (T : ℝ) (rho : ι → ℝ) (i : ι) : ℝ :=
  let x := molefrac rho
  let R := m.R x
  let Z := 1 + tdxAr m 0 1 T (rhotot rho) x
  let dZdT_Z := tdxAr m 1 1 T (rhotot rho) x / (-T) / Z
  1 / (R * T) * (d2PsirdTdrhoi m T rho i - 1 / T * gradPsir m T rho i) - dZdT_Z

/-- `get_lnZ_Z_dZdrho`, `/repo/include/teqp/derivs.hpp` lines 1324-1334. -/
noncomputable def lnZ_Z_dZdrho (m : EOS ι) (T : ℝ) (rho : ι → ℝ) : ℝ × ℝ × ℝ :=
  let Ar01 := tdxAr m 0 1 T (rhotot rho) (molefrac rho)
  let Ar02 := tdxAr m 0 2 T (rhotot rho) (molefrac rho)
  let Z := 1 + Ar01
  (Real.log Z, Z, (Ar01 + Ar02) / rhotot rho)

/-- `get_d_ln_fugacity_coefficients_drho_constTmolefracs`, `/repo/include/teqp/derivs.hpp` lines
1343-1351. -/
noncomputable def dlnphidrho (m : EOS ι) (T : ℝ) (rho : ι → ℝ) (i : ι) : ℝ :=
  let x := molefrac rho
  let t := lnZ_Z_dZdrho m T rho
  1 / (m.R x * T) * (∑ j, hessPsir m T rho i j * x j) - t.2.2 / t.2.1

/-- `get_d_ln_fugacity_coefficients_dv_constTmolefracs`, `/repo/include/teqp/derivs.hpp` lines
1360-1365. -/
noncomputable def dlnphidv (m : EOS ι) (T : ℝ) (rho : ι → ℝ) (i : ι) : ℝ :=
  let drhodv := -rhotot rho * rhotot rho
  dlnphidrho m T rho i * drhodv

/-- `get_d_ln_fugacity_coefficients_dmolefracs_constTrho`, `/repo/include/teqp/derivs.hpp` lines
1374-1393. -/
noncomputable def dlnphidx (m : EOS ι) (T : ℝ) (rho : ι → ℝ) (i j : ι) : ℝ :=
  let x := molefrac rho
  let Z := 1 + tdxAr m 0 1 T (rhotot rho) x
  let dZdx_Z := rhotot rho * d2alphardrhodxi m T (rhotot rho) x j / Z
  rhotot rho / (m.R x * T) * hessPsir m T rho i j - dZdx_Z

/-- `get_d_ln_fugacity_coefficients_dmolefracs_constTrho1`, `/repo/include/teqp/derivs.hpp` lines 1395-1405. -/
noncomputable def dlnphidx1 (m : EOS ι) (T : ℝ) (rho : ι → ℝ) (i j : ι) : ℝ :=
  1 / (m.R (molefrac rho) * T) * rhotot rho * hessPsir m T rho i j

/-- `get_dchempotdT_autodiff`, `/repo/include/teqp/derivs.hpp` lines 1411-1416. -/
noncomputable def dchempotdT (m : EOS ι) (T : ℝ) (rho : ι → ℝ) (i : ι) : ℝ :=
  let rhorefideal : ℝ := 1
  d2PsirdTdrhoi m T rho i + m.R (molefrac rho) * (rhorefideal + Real.log (rho i / rhorefideal))

/-- `get_dpdT_constrhovec`, `/repo/include/teqp/derivs.hpp` lines 1421-1426. -/
noncomputable def dpdT (m : EOS ι) (T : ℝ) (rho : ι → ℝ) : ℝ :=
  rhotot rho * m.R (molefrac rho) - dPsirdT m T rho + ∑ i, rho i * d2PsirdTdrhoi m T rho i

/-- `get_dpdrhovec_constT`, `/repo/include/teqp/derivs.hpp` lines 1431-1437. -/
noncomputable def dpdrhovec (m : EOS ι) (T : ℝ) (rho : ι → ℝ) (i : ι) : ℝ :=
  m.R (molefrac rho) * T + ∑ j, hessPsir m T rho i j * rho j

/-- `get_partial_molar_volumes`, `/repo/include/teqp/derivs.hpp` lines 1482-1494. -/
noncomputable def partialMolarVolume (m : EOS ι) (T : ℝ) (rho : ι → ℝ) (i : ι) : ℝ :=
  let x := molefrac rho
  let RT := m.R x * T
  let numerator := -rhotot rho * dpdrhovec m T rho i
  let ders1 := (Agen0n (fun T' r' => m.alphar T' r' x) 2 T (rhotot rho))[1]?.getD 0
  let ders2 := (Agen0n (fun T' r' => m.alphar T' r' x) 2 T (rhotot rho))[2]?.getD 0
  let denominator := -(rhotot rho ^ 2) * RT * (1 + 2 * ders1 + ders2)
  numerator / denominator

/-- `get_Psir_sigma_derivs`, `/repo/include/teqp/derivs.hpp` lines 1496-1509: entry `k` (0 to 4). -/
noncomputable def PsirSigmaDeriv (m : EOS ι) (T : ℝ) (rho v : ι → ℝ) (k : ℕ) : ℝ :=
  iteratedDeriv k (fun σ => Psir m T (fun i => rho i + σ * v i)) 0

/-- Total pressure as every caller forms it: `rhotot*R*T + pr`
(e.g. `/repo/include/teqp/algorithms/VLE.hpp` line 892). -/
noncomputable def ptot (m : EOS ι) (T : ℝ) (rho : ι → ℝ) : ℝ :=
  rhotot rho * m.R (molefrac rho) * T + pr m T rho

end
end Teqp.Model
