import Verif.Model.PhaseEquil

/-! # The numerical Jacobian of the phase-equilibrium system

`GeneralizedPhaseEquilibrium::num_Jacobian` (`/repo/include/teqp/algorithms/phase_equil.hpp` lines 568-583).  It calls `call`, which writes
into the buffers `res.r` and `res.J` of the object. -/

set_option autoImplicit false

namespace Teqp.Model

/-- The matrix that is returned (row, column) and the buffers afterwards. -/
structure PENum where
  J : ℕ → ℕ → ℝ
  buf : List PERow

open Classical in
/-- `dx_`, `phase_equil.hpp` line 573. -/
noncomputable def peStep (d : ℝ) : ℝ := if d ≠ 0 then d else 1e-6

/-- The loop over the unknowns, `phase_equil.hpp` lines 572-581.  The size of `dx` is not checked.  A state that is not finite makes the
whole result not finite here; in the code only one column. -/
noncomputable def peNumLoop (call : List ℝ → Outcome (List PERow)) (x dx : List ℝ) : List ℕ → PENum → Outcome PENum
  | [], s => .ok s
  | i :: is, s =>
    if dx.length ≤ i then .ub
    else
      let h := peStep (dx.getD i 0)
      (call (x.set i (x.getD i 0 + h))).bind fun rp =>
      (call (x.set i (x.getD i 0 - h))).bind fun rm =>
      peNumLoop call x dx is
        ⟨fun r c => if c = i then ((rp.getD r (0, fun _ => 0)).1 - (rm.getD r (0, fun _ => 0)).1) / (2 * h) else s.J r c, rm⟩

/-- `num_Jacobian`, `phase_equil.hpp` lines 568-583. -/
noncomputable def peNumJac {n q : ℕ} (m : EOS (Fin (n + 1))) (R : ℝ) (z : List ℝ) (ig : Option (EOS (Fin (n + 1)))) (specs : List PESpec)
    (x dx : List ℝ) : Outcome PENum :=
  (peCall (q := q) m R z ig specs x).bind fun r0 =>
  peNumLoop (peCall (q := q) m R z ig specs) x dx (List.range (peSize n q)) ⟨fun _ _ => 0, r0⟩

end Teqp.Model
