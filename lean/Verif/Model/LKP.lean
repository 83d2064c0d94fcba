import Verif.Model.Factory
import Verif.Model.Reducing
import Mathlib.Analysis.SpecialFunctions.Pow.Real
import Mathlib.Analysis.SpecialFunctions.ExpDeriv
import Mathlib.Analysis.SpecialFunctions.Log.Basic
import Mathlib.Analysis.Real.Sqrt

/-! # Corresponding-states models: Lee-Kesler-Plöcker and Huber-Ely

`/repo/include/teqp/models/LKP.hpp` and `/repo/include/teqp/models/ECSHuberEly.hpp`. -/

set_option autoImplicit false

namespace Teqp.Model
open Finset

/-- `LKPFluidParameters`, `/repo/include/teqp/models/LKP.hpp` lines 14-17, without the padding at index zero. -/
structure LKPFluid where
  b1 : ℝ
  b2 : ℝ
  b3 : ℝ
  b4 : ℝ
  c1 : ℝ
  c2 : ℝ
  c3 : ℝ
  c4 : ℝ
  d1 : ℝ
  d2 : ℝ
  beta : ℝ
  gamma : ℝ
  omega : ℝ

/-- `simple`, lines 21-24. -/
noncomputable def lkpSimple : LKPFluid where
  b1 := 0.1181193
  b2 := 0.265728
  b3 := 0.154790
  b4 := 0.303230e-1
  c1 := 0.236744e-1
  c2 := 0.186984e-1
  c3 := 0
  c4 := 0.427240e-1
  d1 := 0.155428e-4
  d2 := 0.623689e-4
  beta := 0.653920
  gamma := 0.601670e-1
  omega := 0

/-- `ref`, lines 25-28. -/
noncomputable def lkpRef : LKPFluid where
  b1 := 0.2026579
  b2 := 0.331511
  b3 := 0.276550e-1
  b4 := 0.203488
  c1 := 0.313385e-1
  c2 := 0.503618e-1
  c3 := 0.169010e-1
  c4 := 0.41577e-1
  d1 := 0.487360e-4
  d2 := 0.740336e-5
  beta := 1.226
  gamma := 0.03754
  omega := 0.3978

/-- `alphar_func`, lines 54-62. -/
noncomputable def lkpFunc (tau delta Zc : ℝ) (p : LKPFluid) : ℝ :=
  let B := p.b1 - p.b2 * tau - p.b3 * tau ^ 2 - p.b4 * tau ^ 3
  let C := p.c1 - p.c2 * tau + p.c3 * tau ^ 3
  let D := p.d1 + p.d2 * tau
  let y := delta / Zc
  B / Zc * delta + 1 / 2 * C * y ^ 2 + 1 / 5 * D * y ^ 5
    - p.c4 * tau ^ 3 / (2 * p.gamma) * (p.gamma * y ^ 2 + p.beta + 1) * Real.exp (-p.gamma * y ^ 2)
    + p.c4 * tau ^ 3 / (2 * p.gamma) * (p.beta + 1)

/-- `LKPMix`, lines 29-31. -/
structure LKPMix where
  Tcrit : List ℝ
  pcrit : List ℝ
  acentric : List ℝ
  R : ℝ
  kmat : List (List ℝ)

/-- The constructor, lines 33-49. -/
def LKPMix.make (Tcrit pcrit acentric : List ℝ) (R : ℝ) (kmat : List (List ℝ)) : Outcome LKPMix :=
  if Tcrit.length ≠ pcrit.length ∨ Tcrit.length ≠ acentric.length then .throws .invalidArgument
  else if kmat.length ≠ Tcrit.length then .throws .invalidArgument
  else if ∃ r ∈ kmat, r.length ≠ Tcrit.length then .throws .invalidArgument
  else .ok ⟨Tcrit, pcrit, acentric, R, kmat⟩

/-- `make_LKPMix`, lines 99-102.  The order in which the arguments are read is not fixed by the language; every order fails in the
same way. -/
noncomputable def lkpFactory (j : JTree) : Outcome LKPMix :=
  ((j.at "Tcrit / K").bind JTree.toRow).bind fun Tc =>
  ((j.at "pcrit / Pa").bind JTree.toRow).bind fun pc =>
  ((j.at "acentric").bind JTree.toRow).bind fun om =>
  ((j.at "R / J/mol/K").bind JTree.toDouble).bind fun R =>
  ((j.at "kmat").bind JTree.toRows).bind fun k => LKPMix.make Tc pc om R k

namespace LKPMix
variable (m : LKPMix)

/-- The number of components. -/
def N : ℕ := m.acentric.length
/-- `v_ci`, line 77. -/
noncomputable def vc (i : ℕ) : ℝ := (0.2905 - 0.085 * m.acentric.getD i 0) * m.R * m.Tcrit.getD i 0 / m.pcrit.getD i 0
/-- `v_c_ij`, line 80. -/
noncomputable def vcij (i j : ℕ) : ℝ := 1 / 8 * (cbrt (m.vc i) + cbrt (m.vc j)) ^ 3
/-- `T_c_ij`, line 81. -/
noncomputable def Tcij (i j : ℕ) : ℝ := (m.kmat.getD i []).getD j 0 * Real.sqrt (m.Tcrit.getD i 0 * m.Tcrit.getD j 0)
/-- `omega_mix`, lines 76 and 86. -/
noncomputable def omegaMix (x : List ℝ) : ℝ := ∑ i ∈ range m.N, x.getD i 0 * m.acentric.getD i 0
/-- `vc_mix`, lines 82 and 87. -/
noncomputable def vcMix (x : List ℝ) : ℝ := ∑ i ∈ range m.N, ∑ j ∈ range m.N, x.getD i 0 * x.getD j 0 * m.vcij i j
/-- `summer_Tcmix`, line 83. -/
noncomputable def tcSum (x : List ℝ) : ℝ :=
  ∑ i ∈ range m.N, ∑ j ∈ range m.N, x.getD i 0 * x.getD j 0 * m.vcij i j ^ (0.25 : ℝ) * m.Tcij i j
/-- `Tc_mix`, line 88. -/
noncomputable def TcMix (x : List ℝ) : ℝ := 1 / m.vcMix x ^ (0.25 : ℝ) * m.tcSum x

/-- Divisors are not zero, and roots and fractional powers are taken of admissible numbers. -/
structure Regular (T : ℝ) (x : List ℝ) : Prop where
  hT : T ≠ 0
  hp : ∀ i < m.N, m.pcrit.getD i 0 ≠ 0
  hTT : ∀ i < m.N, ∀ j < m.N, 0 ≤ m.Tcrit.getD i 0 * m.Tcrit.getD j 0
  hv : ∀ i < m.N, ∀ j < m.N, 0 ≤ m.vcij i j
  hvm : 0 < m.vcMix x
  hZ : 0.2905 - 0.085 * m.omegaMix x ≠ 0

open Classical in
/-- `alphar`, lines 64-96. -/
noncomputable def alphar (T rho : ℝ) (x : List ℝ) : Outcome ℝ :=
  if x.length ≠ m.N then .throws .invalidArgument
  else if ¬ m.Regular T x then .nonFinite
  else
    let Zc := 0.2905 - 0.085 * m.omegaMix x
    let tau := m.TcMix x / T
    let delta := m.vcMix x * rho
    .ok ((1 - m.omegaMix x / lkpRef.omega) * lkpFunc tau delta Zc lkpSimple + m.omegaMix x / lkpRef.omega * lkpFunc tau delta Zc lkpRef)

end LKPMix

/-! ## Huber and Ely -/

/-- The members of `ECSHuberEly1994`, `/repo/include/teqp/models/ECSHuberEly.hpp` lines 17-20, with the reference model as a function of
temperature, density and composition. -/
structure HuberEly where
  omega0 : ℝ
  Z0 : ℝ
  T0 : ℝ
  rho0 : ℝ
  omega : ℝ
  Z : ℝ
  Tc : ℝ
  rhoc : ℝ
  f : List ℝ
  h : List ℝ
  ref : ℝ → ℝ → List ℝ → Outcome ℝ

/-- The constructor, `ECSHuberEly.hpp` lines 23-37; building the reference model is a parameter. -/
noncomputable def HuberEly.make (build : String → Outcome (ℝ → ℝ → List ℝ → Outcome ℝ)) (j : JTree) : Outcome HuberEly :=
  (j.at "reference_fluid").bind fun r =>
  ((r.at "name").bind JTree.toStr).bind fun name =>
  (build name).bind fun ref =>
  ((r.at "acentric").bind JTree.toDouble).bind fun omega0 =>
  ((r.at "Z_crit").bind JTree.toDouble).bind fun Z0 =>
  ((r.at "T_crit / K").bind JTree.toDouble).bind fun T0 =>
  ((r.at "rhomolar_crit / mol/m^3").bind JTree.toDouble).bind fun rho0 =>
  (j.at "fluid").bind fun fl =>
  ((fl.at "acentric").bind JTree.toDouble).bind fun omega =>
  ((fl.at "Z_crit").bind JTree.toDouble).bind fun Z =>
  ((fl.at "T_crit / K").bind JTree.toDouble).bind fun Tc =>
  ((fl.at "rhomolar_crit / mol/m^3").bind JTree.toDouble).bind fun rhoc =>
  ((fl.at "f_T_coeffs").bind JTree.toRow).bind fun f =>
  ((fl.at "h_T_coeffs").bind JTree.toRow).bind fun h =>
  .ok ⟨omega0, Z0, T0, rho0, omega, Z, Tc, rhoc, f, h, ref⟩

namespace HuberEly
variable (m : HuberEly)

/-- `theta`, line 50. -/
noncomputable def theta (T : ℝ) : ℝ := 1 + (m.omega - m.omega0) * (m.f.getD 0 0 + m.f.getD 1 0 * Real.log (T / m.Tc))
/-- `phi`, line 51. -/
noncomputable def phi (T : ℝ) : ℝ := m.Z0 / m.Z * (1 + (m.omega - m.omega0) * (m.h.getD 0 0 + m.h.getD 1 0 * Real.log (T / m.Tc)))
/-- `f`, line 53. -/
noncomputable def fT (T : ℝ) : ℝ := m.Tc / m.T0 * m.theta T
/-- `h`, line 54. -/
noncomputable def hT (T : ℝ) : ℝ := m.rho0 / m.rhoc * m.phi T

open Classical in
/-- `alphar`, lines 44-61.  The two coefficients are read with `operator[]`; their number is never checked. -/
noncomputable def alphar (T rho : ℝ) (x : List ℝ) : Outcome ℝ :=
  if m.f.length < 2 ∨ m.h.length < 2 then .ub
  else if m.Tc = 0 ∨ m.T0 = 0 ∨ m.Z = 0 ∨ m.rhoc = 0 ∨ T / m.Tc ≤ 0 ∨ m.fT T = 0 then .nonFinite
  else m.ref (T / m.fT T) (rho * m.hT T) x

end HuberEly

end Teqp.Model
