import Verif.Props.QCRK
import Verif.Props.QCVirial

/-! # Saturated densities of the quantum-corrected Peng-Robinson model: C152 -/

set_option autoImplicit false

namespace Teqp.Props
open Teqp.Model Teqp.Spec Teqp.Lemmas

/-- C152. A mixture is refused whatever component is asked for: the code that takes the parameters of the chosen component is never reached. -/
theorem qcpr_superanc_mixture (m : QCPRrt) (t : SuperTables) (T : ℝ) (ifluid : Option ℕ) (h : 1 < m.Tc.length) :
    m.superanc t T ifluid = .throws .stdInvalidArgument := by
  unfold QCPRrt.superanc
  rw [if_pos (by omega)]

/-- A single component with the Twu alpha function. -/
noncomputable def onePure (Tc pc L M N A B c k l R : ℝ) : QCPRrt :=
  ⟨[Tc], [pc], [.twu Tc L M N], [A], [B], [c], ⟨1, fun _ _ => k⟩, ⟨1, fun _ _ => l⟩, R⟩

theorem onePure_a (Tc pc L M N A B c l R T : ℝ) (h : 0 ≤ (onePure Tc pc L M N A B c 0 l R).toFin.get_ai ⟨0, by simp [onePure]⟩ T) :
    (onePure Tc pc L M N A B c 0 l R).toFin.get_a T (fun _ => 1) = OmegaA_PR * (Tc * R) ^ 2 / pc * (AlphaFn.twu Tc L M N).eval T := by
  have e : (onePure Tc pc L M N A B c 0 l R).toFin.get_a T (fun _ => 1) = ∑ i : Fin 1, ∑ j : Fin 1, (1 : ℝ) * 1 *
      Real.sqrt ((onePure Tc pc L M N A B c 0 l R).toFin.get_ai i T * (onePure Tc pc L M N A B c 0 l R).toFin.get_ai j T) * (1 - 0) := rfl
  rw [e]
  simp only [Fin.sum_univ_one, one_mul, sub_zero, mul_one]
  have := Real.sqrt_mul_self h
  exact this

theorem onePure_b (Tc pc L M N A B c k R T : ℝ) : (onePure Tc pc L M N A B c k 0 R).toFin.get_b T (fun _ => 1)
    = 0.07780 * Tc * R / pc * ((1 + A / (T + B)) ^ 3 / (1 + A / (Tc + B)) ^ 3) := by
  have e : (onePure Tc pc L M N A B c k 0 R).toFin.get_b T (fun _ => 1) = ∑ i : Fin 1, ∑ j : Fin 1, (1 : ℝ) * 1 *
      ((onePure Tc pc L M N A B c k 0 R).toFin.get_bi i T + (onePure Tc pc L M N A B c k 0 R).toFin.get_bi j T) / 2 * (1 - 0) := rfl
  rw [e]
  simp only [Fin.sum_univ_one, one_mul, sub_zero, mul_one]
  rw [add_self_div_two]
  rfl

/-- C152. The densities of a pure fluid are those of the superancillary of Peng-Robinson at the reduced temperature `RTb/a`, with the covolume at that temperature. -/
theorem qcpr_superanc_pure (Tc pc L M N A B c R T : ℝ) (hTc : 0 < Tc) (hpc : 0 < pc) (hR : 0 < R) (hT : 0 < T) (hA : 0 ≤ A) (hB : 0 ≤ B) (t : SuperTables) (ifluid : Option ℕ)
    (a b : ℝ) (ha : a = OmegaA_PR * (Tc * R) ^ 2 / pc * (AlphaFn.twu Tc L M N).eval T)
    (hb : b = 0.07780 * Tc * R / pc * ((1 + A / (T + B)) ^ 3 / (1 + A / (Tc + B)) ^ 3)) :
    (onePure Tc pc L M N A B c 0 0 R).superanc t T ifluid = (superancY t.PR.2.1 (R * T * b / a)).bind fun l =>
      (superancY t.PR.2.2 (R * T * b / a)).bind fun v => .ok (l / b, v / b) := by
  have hal : 0 < (AlphaFn.twu Tc L M N).eval T := by
    unfold AlphaFn.eval
    positivity
  have ha0 : 0 < a := by
    rw [ha]
    have : 0 < OmegaA_PR := by norm_num [OmegaA_PR]
    positivity
  have hb0 : 0 < b := by rw [hb]; positivity
  have hai : (onePure Tc pc L M N A B c 0 0 R).toFin.get_ai ⟨0, by simp [onePure]⟩ T = a := ha.symm ▸ rfl
  have hga := onePure_a Tc pc L M N A B c 0 R T (hai ▸ ha0.le)
  have hgb := onePure_b Tc pc L M N A B c 0 R T
  rw [← ha] at hga
  rw [← hb] at hgb
  unfold QCPRrt.superanc
  simp only [hga, hgb]
  rw [if_neg (by simp [onePure]), if_neg (by simp [onePure, QCPRrt.abInside]), if_neg ha0.ne']
  simp only [if_neg hb0.ne']
  have hRu : (onePure Tc pc L M N A B c 0 0 R).Ru = R := rfl
  rw [hRu]
  rfl

/-- C152. The volume translation has no influence on them. -/
theorem qcpr_superanc_translation (Tc pc L M N A B c c' k l R T : ℝ) (t : SuperTables) (ifluid : Option ℕ) :
    (onePure Tc pc L M N A B c k l R).superanc t T ifluid = (onePure Tc pc L M N A B c' k l R).superanc t T ifluid := rfl

/-- C152 is false of the code: at the critical temperature the superancillary refuses, since the rounded constant 0.0778 puts the reduced temperature above its
range; the tables are those shipped, whatever their coefficients. -/
theorem qcpr_superanc_critical (Tc pc L M N A B c R : ℝ) (hTc : 0 < Tc) (hpc : 0 < pc) (hR : 0 < R) (hA : 0 ≤ A) (hB : 0 ≤ B) (t : SuperTables)
    (ht : HasEnds t.PR.2.1 ends_PR_rhoL) (ifluid : Option ℕ) :
    (onePure Tc pc L M N A B c 0 0 R).superanc t Tc ifluid = .throws .stdInvalidArgument := by
  rw [qcpr_superanc_pure Tc pc L M N A B c R Tc hTc hpc hR hTc hA hB t ifluid _ _ rfl rfl]
  have hal : (AlphaFn.twu Tc L M N).eval Tc = 1 := by
    simp [AlphaFn.eval, div_self hTc.ne']
  have hx : R * Tc * (0.07780 * Tc * R / pc * ((1 + A / (Tc + B)) ^ 3 / (1 + A / (Tc + B)) ^ 3)) / (OmegaA_PR * (Tc * R) ^ 2 / pc * (AlphaFn.twu Tc L M N).eval Tc)
      = 0.0778 / OmegaA_PR := by
    have : (1 + A / (Tc + B)) ^ 3 ≠ 0 := by positivity
    have h' : OmegaA_PR ≠ 0 := by norm_num [OmegaA_PR]
    rw [hal, div_self this]
    field_simp
    norm_num
  rw [hx]
  obtain ⟨hok, -⟩ := shipped_tables_lookup ends_PR_rhoL (by simp [shippedEnds]) _ ht
  have hlast : (t.PR.2.1.getLast hok.1).xmax = 0.1701444200703503 := by
    have hl : t.PR.2.1.length = ends_PR_rhoL.length := ht.length_eq
    have hl' : ends_PR_rhoL.length = 20 := by decide +kernel
    have := ht.get (i := 19) (by omega) (by omega)
    rw [List.getLast_eq_getElem]
    have hi : t.PR.2.1.length - 1 = 19 := by omega
    simp only [hi]
    have h2 := this.2.1
    simp only [List.get_eq_getElem] at h2
    rw [h2]
    norm_num [ends_PR_rhoL]
  have := (superancY_spec _ hok (0.0778 / OmegaA_PR)).1 (Or.inr (by rw [hlast]; norm_num [OmegaA_PR]))
  rw [this]
  rfl

example (t : SuperTables) (ht : HasEnds t.PR.2.1 ends_PR_rhoL) :
    (onePure 33.19 1.2964e6 156.21 (-0.0062072) 5.047 3.0696 12.682 (-3.8139e-6) 0 0 8.314).superanc t 33.19 none = .throws .stdInvalidArgument :=
  qcpr_superanc_critical _ _ _ _ _ _ _ _ _ (by norm_num) (by norm_num) (by norm_num) (by norm_num) (by norm_num) t ht none

end Teqp.Props
