import Verif.Basic
import Mathlib.Analysis.SpecialFunctions.Log.Basic
import Mathlib.Analysis.SpecialFunctions.Pow.Real
import Mathlib.Data.Fintype.BigOperators

/-! # The van der Waals models (`/repo/include/teqp/models/vdW.hpp`) -/

set_option autoImplicit false

namespace Teqp.Model
open Finset

/-- The gas constant used by both van der Waals models: `k_B N_A` as an exact product
(`vdW.hpp` line 22; `/repo/include/teqp/constants.hpp` `get_R_gas`). -/
noncomputable def RuvdW : ℝ := 1.380649e-23 * 6.02214076e23

/-- `vdWEOS1::alphar` (`vdW.hpp` lines 33-36). -/
noncomputable def vdW1_alphar (a b : ℝ) (T rho : ℝ) : ℝ :=
  -Real.log (1 - b * rho) - a / (RuvdW * T) * rho

/-- `vdWEOS1::p` (`vdW.hpp` lines 39-41). -/
noncomputable def vdW1_p (a b : ℝ) (T v : ℝ) : ℝ := RuvdW * T / (v - b) - a / (v * v)

/-- The data members of `vdWEOS` (`vdW.hpp` lines 46-49), for `n` components. -/
structure VdWMix (ι : Type) where
  ai : ι → ℝ
  bi : ι → ℝ
  k : ι → ι → ℝ

/-- Body of the constructor of `vdWEOS` after the size check (`vdW.hpp` lines 68-74): the interaction
parameters are all zero. -/
noncomputable def VdWMix.ofCritical {ι : Type} (Tc pc : ι → ℝ) : VdWMix ι where
  ai i := 27 / 64 * (RuvdW * Tc i) ^ 2 / pc i
  bi i := 1 / 8 * RuvdW * Tc i / pc i
  k _ _ := 0

namespace VdWMix
variable {ι : Type} [Fintype ι]

/-- `vdWEOS::a` (`vdW.hpp` lines 79-89). -/
noncomputable def a (m : VdWMix ι) (x : ι → ℝ) : ℝ :=
  ∑ i, ∑ j, x i * x j * ((1 - m.k i j) * Real.sqrt (m.ai i * m.ai j))

/-- `vdWEOS::b` (`vdW.hpp` lines 93-100). -/
noncomputable def b (m : VdWMix ι) (x : ι → ℝ) : ℝ := ∑ i, x i * m.bi i

/-- The arithmetic of `vdWEOS::alphar` (`vdW.hpp` lines 122-127). -/
noncomputable def alphar (m : VdWMix ι) (T rho : ℝ) (x : ι → ℝ) : ℝ :=
  -Real.log (1 - m.b x * rho) - m.a x / (RuvdW * T) * rho
end VdWMix

/-- A sized `VdWMix`, as built at run time. -/
structure VdWAny where
  n : ℕ
  m : VdWMix (Fin n)

/-- `vdWEOS::vdWEOS` (`vdW.hpp` lines 62-75) on run-time arrays. -/
noncomputable def vdWCtor (Tc pc : List ℝ) : Outcome VdWAny :=
  if h : Tc.length ≠ pc.length then .throws .invalidArgument
  else .ok ⟨Tc.length, VdWMix.ofCritical (fun i => Tc[i]) (fun i => pc[i]'(by
    have := i.isLt; have := not_not.mp h; omega))⟩

/-- `vdWEOS::alphar` on a run-time composition (`vdW.hpp` lines 115-127). -/
noncomputable def VdWAny.alphar (M : VdWAny) (T rho : ℝ) (x : List ℝ) : Outcome ℝ :=
  if h : x.length ≠ M.n then .throws .invalidArgument
  else .ok (M.m.alphar T rho (fun i => x[i]'(by have := i.isLt; have := not_not.mp h; omega)))

end Teqp.Model
