import Verif.Props.PhaseEquilSys
import Mathlib.Analysis.Complex.ExponentialBounds

/-! # C46: an ideal-gas model with a gas constant of its own

`call` (`/repo/include/teqp/algorithms/phase_equil.hpp` lines 396-567) takes one gas constant, the one of the residual model, but the
gradient of the ideal-gas part (lines 546-547) is evaluated with the gas constant of the ideal-gas model.  The models differ: GERG
has 8.314472 (`/repo/include/teqp/models/GERG/GERG.hpp` lines 910-912), `IdealHelmholtz` 8.31446261815324
(`/repo/include/teqp/ideal_eosterms.hpp` lines 352-355). -/

set_option autoImplicit false

namespace Teqp.Props
open Teqp.Calc Teqp.Model Teqp.Lemmas Teqp.PhaseEquil Teqp.MixVLE Teqp.Spec

section
variable {n q : ℕ} {g : EOS (Fin (n + 1))} {R R' : ℝ}

/-- The same ideal-gas energies with another gas constant. -/
def withR (g : EOS (Fin (n + 1))) (R : ℝ) : EOS (Fin (n + 1)) := ⟨g.alphar, fun _ => R⟩

theorem Psir_withR (hg : ∀ x, g.R x = R') (hR : R ≠ 0) (T : ℝ) (ρ : Fin (n + 1) → ℝ) :
    Psir g T ρ = R' / R * Psir (withR g R) T ρ := by
  unfold Psir withR
  rw [hg]
  field_simp

theorem grad_withR (hg : ∀ x, g.R x = R') (hR : R ≠ 0) (T : ℝ) (ρ : Fin (n + 1) → ℝ) (j : Fin (n + 1)) :
    gradPsir g T ρ j = R' / R * gradPsir (withR g R) T ρ j := by
  unfold gradPsir partialD
  simp only [Psir_withR hg hR]
  exact deriv_const_mul_field _

theorem mixed_withR (hg : ∀ x, g.R x = R') (hR : R ≠ 0) (T : ℝ) (ρ : Fin (n + 1) → ℝ) (j : Fin (n + 1)) :
    d2PsirdTdrhoi g T ρ j = R' / R * d2PsirdTdrhoi (withR g R) T ρ j := by
  unfold d2PsirdTdrhoi
  simp only [Psir_withR hg hR, deriv_const_mul_field]

/-- Entropy, energy and enthalpy of a phase do not depend on the gas constant of the ideal-gas model, but their derivatives with
respect to the concentrations do: they are off by the relative difference of the gas constants times the ideal-gas part. -/
theorem caloric_own_constant (m : EOS (Fin (n + 1))) (hg : ∀ x, g.R x = R') (hR : R ≠ 0) (T : ℝ) (ρ : Fin (n + 1) → ℝ) :
    peS m R T ρ g = peS m R T ρ (withR g R) ∧ peU m R T ρ g = peU m R T ρ (withR g R) ∧ peH m R T ρ g = peH m R T ρ (withR g R) ∧
    ∀ j, peDsdrho m R T ρ g j = peDsdrho m R T ρ (withR g R) j + (R - R') / R / rhotot ρ * d2PsirdTdrhoi (withR g R) T ρ j ∧
      peDudrho m R T ρ g j = peDudrho m R T ρ (withR g R) j +
        (R - R') / R / rhotot ρ * (T * d2PsirdTdrhoi (withR g R) T ρ j - gradPsir (withR g R) T ρ j) ∧
      peDhdrho m R T ρ g j = peDhdrho m R T ρ (withR g R) j +
        (R - R') / R / rhotot ρ * (T * d2PsirdTdrhoi (withR g R) T ρ j - gradPsir (withR g R) T ρ j) := by
  have e1 : peDPsiigDT R T ρ g = peDPsiigDT R T ρ (withR g R) := rfl
  have e2 : pePsiig R T ρ g = pePsiig R T ρ (withR g R) := rfl
  have hs : ∀ j, peDsdrho m R T ρ g j = peDsdrho m R T ρ (withR g R) j + (R - R') / R / rhotot ρ * d2PsirdTdrhoi (withR g R) T ρ j := by
    intro j
    unfold peDsdrho
    rw [mixed_withR hg hR, e1, sub_div, div_self hR]
    ring
  have ha : ∀ j, peDadrho m R T ρ g j = peDadrho m R T ρ (withR g R) j - (R - R') / R / rhotot ρ * gradPsir (withR g R) T ρ j := by
    intro j
    unfold peDadrho
    rw [grad_withR hg hR, e2, sub_div, div_self hR]
    ring
  refine ⟨rfl, rfl, rfl, fun j => ⟨hs j, ?_, ?_⟩⟩
  · unfold peDudrho
    rw [hs, ha]
    ring
  · unfold peDhdrho peDudrho
    rw [hs, ha]
    ring

/-- With a gas constant that depends on composition (multi-fluid mixtures) the gas constant of the bulk replaces that of the phase in the
ideal part only: the pressures compared by the system differ from the pressures of the phases. -/
theorem pe_pressure_bulk_constant {m : EOS (Fin (n + 1))} {T : ℝ} {ρ : Fin (n + 1) → ℝ} (h : SmoothAt m T ρ) (R : ℝ) :
    peP m R T ρ = mixP m.alphar (m.R (molefrac ρ)) T ρ + (R - m.R (molefrac ρ)) * ((∑ j, ρ j) * T) := by
  have h1 := pr_is_pressure m T ρ h
  have h2 := pr_euler h
  have e : Spec.pressure (fun T' r => m.alphar T' r fun i => ρ i / ∑ k, ρ k) (m.R (molefrac ρ)) T (∑ i, ρ i) = pr m T ρ := h1.symm
  unfold peP mixP totalPressure
  rw [e, h2]
  unfold rhotot
  ring

/-- So phases of equal pressure solve the equation of the system only if the differences of the gas constants balance. -/
theorem pe_pressure_row_meaning {m : EOS (Fin (n + 1))} {w : PhaseVars n q} (h : ∀ k, SmoothAt m w.T (w.rho k)) (R : ℝ) (k : Fin (q + 1))
    (hT : w.T ≠ 0) (he : mixP m.alphar (m.R (molefrac (w.rho 0))) w.T (w.rho 0) = mixP m.alphar (m.R (molefrac (w.rho k))) w.T (w.rho k)) :
    (pePresRow m R w k).1 = 0 ↔
      (R - m.R (molefrac (w.rho 0))) * (∑ j, w.rho 0 j) = (R - m.R (molefrac (w.rho k))) * ∑ j, w.rho k j := by
  unfold pePresRow
  simp only
  rw [pe_pressure_bulk_constant (h 0), pe_pressure_bulk_constant (h k), he]
  constructor
  · intro h0
    refine mul_right_cancel₀ hT ?_
    linarith
  · intro h0
    have : (R - m.R (molefrac (w.rho 0))) * ((∑ j, w.rho 0 j) * w.T) = (R - m.R (molefrac (w.rho k))) * ((∑ j, w.rho k j) * w.T) := by
      rw [← mul_assoc, h0, mul_assoc]
    linarith

/-- Two ideal gases at equal pressure whose gas constant is 1 and 2 for the pure components: the equation of the system is not
satisfied with the gas constant 3/2 of the equimolar bulk. -/
example : ∃ (m : EOS (Fin 2)) (w : PhaseVars 1 1), (∀ k, SmoothAt m w.T (w.rho k)) ∧ w.T ≠ 0 ∧
    mixP m.alphar (m.R (molefrac (w.rho 0))) w.T (w.rho 0) = mixP m.alphar (m.R (molefrac (w.rho 1))) w.T (w.rho 1) ∧
    (pePresRow m (m.R ![1 / 2, 1 / 2]) w 1).1 ≠ 0 := by
  have hsm : ∀ k, SmoothAt (⟨fun _ _ _ => 0, fun x => x 0 + 2 * x 1⟩ : EOS (Fin 2)) 1 ((![![2, 0], ![0, 1]] : Fin 2 → Fin 2 → ℝ) k) := by
    intro k
    refine ⟨?_, contDiffAt_const, ?_⟩
    · fin_cases k <;> simp [rhotot, Fin.sum_univ_two]
    · exact ((contDiff_apply ℝ ℝ (0 : Fin 2)).add (contDiff_const.mul (contDiff_apply ℝ ℝ (1 : Fin 2)))).contDiffAt
  have he : mixP (fun _ _ _ => 0 : ℝ → ℝ → (Fin 2 → ℝ) → ℝ) 1 1 ![2, 0] = mixP (fun _ _ _ => 0 : ℝ → ℝ → (Fin 2 → ℝ) → ℝ) 2 1 ![0, 1] := by
    simp [mixP, totalPressure, Spec.pressure, Fin.sum_univ_two, Spec.helmholtz]
  refine ⟨⟨fun _ _ _ => 0, fun x => x 0 + 2 * x 1⟩, ⟨1, ![![2, 0], ![0, 1]], ![1 / 2, 1 / 2]⟩, hsm, one_ne_zero, ?_, ?_⟩
  · simpa [molefrac, rhotot, Fin.sum_univ_two] using he
  · rw [Ne, pe_pressure_row_meaning hsm _ 1 one_ne_zero (by simpa [molefrac, rhotot, Fin.sum_univ_two] using he)]
    simp [molefrac, rhotot, Fin.sum_univ_two]
    norm_num

/-- Two rows with the same residual cannot both be exact unless their Jacobians agree. -/
theorem rows_agree {f1 f2 : PhaseVars n q → PERow} {w0 : PhaseVars n q} (h1 : RowExact f1 w0)
    (h2 : RowExact f2 w0) (h : ∀ w, (f1 w).1 = (f2 w).1) (k : Fin (q + 1)) (j : Fin (n + 1)) :
    (f1 w0).2 (1 + k * (n + 1) + j) = (f2 w0).2 (1 + k * (n + 1) + j) := by
  have a1 := h1 _ _ 0 (moves_bump w0 k j) (bump_zero _ _ _)
  have a2 := h2 _ _ 0 (moves_bump w0 k j) (bump_zero _ _ _)
  simp only [h] at a1
  have := a1.unique a2
  rwa [rowDot_one, rowDot_one] at this

theorem peCaloric_entry (w : PhaseVars n q) (v : ℝ) (f fT : Fin (q + 1) → ℝ) (fρ : Fin (q + 1) → Fin (n + 1) → ℝ) (k : Fin (q + 1))
    (j : Fin (n + 1)) : (peCaloric w v f fT fρ).2 (1 + k * (n + 1) + j) = w.beta k * fρ k j := by
  unfold peCaloric
  simp only
  rw [setBlocks_in _ k.isLt]
  simp only [phaseAt_val]

variable {m : EOS (Fin (n + 1))} {w0 : PhaseVars n q}

/-- **C46** is false of the code also for one phase: when the gas constants of the residual and of the ideal-gas model differ, the
Jacobian of the entropy row is not the derivative of its residual unless the ideal-gas part of the phases with a non-zero fraction
has no partial molar entropy; likewise for energy and enthalpy and the partial molar energy. -/
theorem caloric_row_wrong (hr : PERegular m (some (withR g R)) R w0) (hg : ∀ x, g.R x = R') (hne : R' ≠ R) (k : Fin (q + 1))
    (j : Fin (n + 1)) (hb : w0.beta k ≠ 0) (v : ℝ) :
    (d2PsirdTdrhoi (withR g R) w0.T (w0.rho k) j ≠ 0 →
      ∃ f, (∀ w, peSpecRow m R w (some g) (.s v) = .ok (f w)) ∧ ¬ RowExact f w0) ∧
    (w0.T * d2PsirdTdrhoi (withR g R) w0.T (w0.rho k) j - gradPsir (withR g R) w0.T (w0.rho k) j ≠ 0 →
      (∃ f, (∀ w, peSpecRow m R w (some g) (.u v) = .ok (f w)) ∧ ¬ RowExact f w0) ∧
      ∃ f, (∀ w, peSpecRow m R w (some g) (.h v) = .ok (f w)) ∧ ¬ RowExact f w0) := by
  have hR := hr.R_pos.ne'
  have ht : rhotot (w0.rho k) ≠ 0 := (hr.smooth k).tot
  have hc : (R - R') / R / rhotot (w0.rho k) ≠ 0 := div_ne_zero (div_ne_zero (sub_ne_zero.mpr (Ne.symm hne)) hR) ht
  have key := fun w k => caloric_own_constant m hg hR (T := (w : PhaseVars n q).T) (ρ := w.rho k)
  refine ⟨fun hd => ⟨fun w => _, fun w => rfl, fun h => ?_⟩, fun hd => ⟨⟨fun w => _, fun w => rfl, fun h => ?_⟩,
    fun w => _, fun w => rfl, fun h => ?_⟩⟩
  · obtain ⟨f2, h2, h3⟩ := peSpecRow_exact hr (.s v) rfl
    have e2 : f2 = fun w => peCaloric w v (fun k => peS m R w.T (w.rho k) (withR g R)) (fun k => peDsdT m R w.T (w.rho k) (withR g R))
        fun k => peDsdrho m R w.T (w.rho k) (withR g R) := by
      funext w
      have := h2 w
      simp only [peSpecRow, Outcome.ok.injEq] at this
      exact this.symm
    rw [e2] at h3
    have := rows_agree h h3 (fun _ => rfl) k j
    simp only [peCaloric_entry] at this
    have := mul_left_cancel₀ hb this
    rw [((key w0 k).2.2.2 j).1] at this
    exact mul_ne_zero hc hd (by linarith)
  · obtain ⟨f2, h2, h3⟩ := peSpecRow_exact hr (.u v) rfl
    have e2 : f2 = fun w => peCaloric w v (fun k => peU m R w.T (w.rho k) (withR g R)) (fun k => peDudT m R w.T (w.rho k) (withR g R))
        fun k => peDudrho m R w.T (w.rho k) (withR g R) := by
      funext w
      have := h2 w
      simp only [peSpecRow, Outcome.ok.injEq] at this
      exact this.symm
    rw [e2] at h3
    have := rows_agree h h3 (fun _ => rfl) k j
    simp only [peCaloric_entry] at this
    have := mul_left_cancel₀ hb this
    rw [((key w0 k).2.2.2 j).2.1] at this
    exact mul_ne_zero hc hd (by linarith)
  · obtain ⟨f2, h2, h3⟩ := peSpecRow_exact hr (.h v) rfl
    have e2 : f2 = fun w => peCaloric w v (fun k => peH m R w.T (w.rho k) (withR g R)) (fun k => peDhdT m R w.T (w.rho k) (withR g R))
        fun k => peDhdrho m R w.T (w.rho k) (withR g R) := by
      funext w
      have := h2 w
      simp only [peSpecRow, Outcome.ok.injEq] at this
      exact this.symm
    rw [e2] at h3
    have := rows_agree h h3 (fun _ => rfl) k j
    simp only [peCaloric_entry] at this
    have := mul_left_cancel₀ hb this
    rw [((key w0 k).2.2.2 j).2.2] at this
    exact mul_ne_zero hc hd (by linarith)

end

theorem sampleIdeal_grad {n : ℕ} (T : ℝ) (hT : 0 < T) (ρ : Fin (n + 1) → ℝ) (hρ : ∀ i, 0 < ρ i) (j : Fin (n + 1)) :
    gradPsir (sampleIdeal n) T ρ j = T * (Real.log (∑ i, ρ i) - 3 / 2 * Real.log T + 1) ∧
    d2PsirdTdrhoi (sampleIdeal n) T ρ j = Real.log (∑ i, ρ i) - 3 / 2 * Real.log T - 1 / 2 := by
  have hs : 0 < ∑ i, ρ i := Finset.sum_pos (fun i _ => hρ i) ⟨0, Finset.mem_univ _⟩
  have hsum : ∀ ri, ∑ i, Function.update ρ j ri i = ri + (∑ i, ρ i - ρ j) := by
    intro ri
    rw [Finset.sum_update_of_mem (Finset.mem_univ j), ← Finset.sum_sdiff (Finset.subset_univ {j})]
    simp
  have hd : ∀ T' : ℝ, deriv (fun ri => Psir (sampleIdeal n) T' (Function.update ρ j ri)) (ρ j) =
      T' * (Real.log (∑ i, ρ i) - 3 / 2 * Real.log T' + 1) := by
    intro T'
    have e : (fun ri => Psir (sampleIdeal n) T' (Function.update ρ j ri)) =
        fun ri => (Real.log (ri + (∑ i, ρ i - ρ j)) - 3 / 2 * Real.log T') * T' * (ri + (∑ i, ρ i - ρ j)) := by
      funext ri
      simp only [Psir, sampleIdeal, rhotot, hsum, mul_one]
    rw [e]
    have h1 : HasDerivAt (fun ri : ℝ => ri + (∑ i, ρ i - ρ j)) 1 (ρ j) := (hasDerivAt_id _).add_const _
    have h0 : ρ j + (∑ i, ρ i - ρ j) = ∑ i, ρ i := by ring
    have h2 := (((h1.log (by rw [h0]; exact hs.ne')).sub_const (3 / 2 * Real.log T')).mul_const T').mul h1
    rw [h0] at h2
    refine h2.deriv.trans ?_
    field_simp
    ring
  refine ⟨hd T, ?_⟩
  unfold d2PsirdTdrhoi
  simp only [hd]
  have h3 := (hasDerivAt_id T).mul ((((Real.hasDerivAt_log hT.ne').const_mul (3 / 2)).const_sub (Real.log (∑ i, ρ i))).add_const 1)
  refine h3.deriv.trans ?_
  simp only [id]
  field_simp
  ring

/-- A gas with the gas constant 1 and an ideal-gas model with the gas constant 2: all three rows are wrong. -/
example (v : ℝ) : ∃ g : EOS (Fin 2), (∀ x, g.R x = 2) ∧
    (∃ f, (∀ w, peSpecRow (q := 1) (idealEOS 1) 1 w (some g) (.s v) = .ok (f w)) ∧ ¬ RowExact f samplePhases) ∧
    (∃ f, (∀ w, peSpecRow (q := 1) (idealEOS 1) 1 w (some g) (.u v) = .ok (f w)) ∧ ¬ RowExact f samplePhases) ∧
    ∃ f, (∀ w, peSpecRow (q := 1) (idealEOS 1) 1 w (some g) (.h v) = .ok (f w)) ∧ ¬ RowExact f samplePhases := by
  refine ⟨⟨(sampleIdeal 1).alphar, fun _ => 2⟩, fun _ => rfl, ?_⟩
  have h := caloric_row_wrong (g := ⟨(sampleIdeal 1).alphar, fun _ => 2⟩) (R := 1) (R' := 2) samplePhases_regular (fun _ => rfl)
    (by norm_num) 0 0 (by norm_num [samplePhases]) v
  have hs := sampleIdeal_grad (n := 1) 2 two_pos ![1, 3] (by intro i; fin_cases i <;> norm_num) 0
  have e : Real.log (∑ i, (![1, 3] : Fin 2 → ℝ) i) = 2 * Real.log 2 := by
    rw [Fin.sum_univ_two, show (![1, 3] : Fin 2 → ℝ) 0 + (![1, 3] : Fin 2 → ℝ) 1 = 2 ^ 2 by norm_num [Matrix.cons_val_zero], Real.log_pow]
    norm_num
  rw [e] at hs
  refine ⟨h.1 ?_, (h.2 ?_).1, (h.2 ?_).2⟩
  · change d2PsirdTdrhoi (sampleIdeal 1) 2 ![1, 3] 0 ≠ 0
    rw [hs.2]
    have := Real.log_two_lt_d9
    intro h0
    linarith
  all_goals
    change 2 * d2PsirdTdrhoi (sampleIdeal 1) 2 ![1, 3] 0 - gradPsir (sampleIdeal 1) 2 ![1, 3] 0 ≠ 0
    rw [hs.1, hs.2]
    intro h0
    linarith

end Teqp.Props
