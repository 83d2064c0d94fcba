import Verif.Props.AlphaDocs

/-! # Parameters of cubic models at run time -/

set_option autoImplicit false

namespace Teqp.Props
open Teqp.Model Teqp.Spec Finset

/-- C122. Arrays of one length give the parameters of Peng and Robinson, component by component, with the gas constant of the options; they are those of the plain
Peng-Robinson equation. -/
theorem adv_make (Tc pc w : List ℝ) (al : List AlphaFn) (ares : ActivityModel) (l : Mat) (o : AdvOptions) (m : AdvPR) (g : CubicRT)
    (h : AdvPR.make Tc pc al ares l o = .ok m) (hg : canonicalPR_RT Tc pc w none o.R = .ok g) (hp : pc.length = Tc.length) :
    (∀ i < Tc.length, el pc i ≠ 0 → el m.ai i * el pc i = 0.45723552892138218938 * (o.R * el Tc i) ^ 2 ∧
      el m.bi i * el pc i = 0.077796073903888455972 * o.R * el Tc i) ∧ m.ai = g.ai ∧ m.bi = g.bi ∧ m.alphas = al ∧ m.ares = ares ∧ m.o = o := by
  unfold AdvPR.make at h
  rw [if_neg (by omega)] at h
  obtain ⟨k, -, h⟩ := Outcome.bind_eq_ok.1 h
  injection h with h
  subst h
  unfold canonicalPR_RT cubicCtor at hg
  by_cases hw : w.length < Tc.length
  · rw [if_pos hw] at hg; cases hg
  rw [if_neg hw, if_neg (by omega)] at hg
  obtain ⟨k', -, hg⟩ := Outcome.bind_eq_ok.1 hg
  injection hg with hg
  subst hg
  refine ⟨fun i hi h0 => ?_, rfl, rfl, rfl, rfl, rfl⟩
  have e : ∀ f : ℝ → ℝ → ℝ, el (List.zipWith f Tc pc) i = f (el Tc i) (el pc i) := by
    intro f
    unfold el
    rw [List.getD_eq_getElem _ _ (by simp; omega), List.getD_eq_getElem _ _ hi, List.getD_eq_getElem _ _ (by omega), List.getElem_zipWith]
  simp only [e, OmegaA_PR, OmegaB_PR]
  constructor <;> rw [div_mul_cancel₀ _ h0]

example : ∃ m, AdvPR.make [190] [4.6e6] [.basic 190 0.4] (.wilson ⟨[3e-5], ⟨1, fun _ _ => 0⟩, ⟨1, fun _ _ => 0⟩⟩) (Mat.zero 1) {} = .ok m ∧
    el m.ai 0 * 4.6e6 = 0.45723552892138218938 * (8.31446261815324 * 190) ^ 2 := by
  have h1 : AdvPR.make [190] [4.6e6] [.basic 190 0.4] (.wilson ⟨[3e-5], ⟨1, fun _ _ => 0⟩, ⟨1, fun _ _ => 0⟩⟩) (Mat.zero 1) {} = .ok _ := rfl
  have h2 : canonicalPR_RT [190] [4.6e6] [0.01] none ({} : AdvOptions).R = .ok _ := rfl
  refine ⟨_, h1, ?_⟩
  exact ((adv_make _ _ [0.01] _ _ _ _ _ _ h1 h2 rfl).1 0 (by simp) (by norm_num [el])).1

/-- C122. At and above close packing the energy is not finite. -/
theorem adv_packed (m : AdvPR) (T rho b ab : ℝ) (x : List ℝ) (hx : x.length = m.alphas.length) (hb : m.getB x = .ok b) (ha : m.amOverBm T x = .ok ab) (h : 1 ≤ b * rho) :
    m.alphar T rho x = .nonFinite := by
  unfold AdvPR.alphar
  rw [if_neg (not_not.2 hx), hb, ha, Outcome.bind_ok, Outcome.bind_ok, if_pos (.inr (.inr (.inl (by linarith))))]

/-- C122. The energy of a cubic model is that of its attraction parameter and covolume. -/
theorem cubicRT_value (m : CubicRT) (T rho a b : ℝ) (x : List ℝ) (hx : x.length = m.alphas.length) (ha : m.getA T x = .ok a) (hb : m.getB x = .ok b) :
    m.alphar T rho x = .ok (cubicAlphar m.R a b m.Delta1 m.Delta2 T rho) := by
  unfold CubicRT.getA at ha
  unfold CubicRT.getB at hb
  split_ifs at ha hb with h1 h2
  push Not at h1 h2
  injection ha with ha
  injection hb with hb
  unfold CubicRT.alphar
  rw [if_neg (not_not.2 hx), dif_pos ⟨by omega, by omega, by omega, by omega, hx⟩]
  have hel : ∀ (l : List ℝ) i (h : i < l.length), l[i] = el l i := fun l i h => (List.getD_eq_getElem _ _ h).symm
  have e : ∀ f : ℕ → ℝ, ∑ i ∈ range x.length, f i = ∑ i : Fin m.alphas.length, f i := fun f => by rw [hx, Finset.sum_range]
  have hal : ∀ i : Fin m.alphas.length, m.alphas.getD i.1 (.basic 1 0) = m.alphas[i] := fun i => by rw [List.getD_eq_getElem _ _ i.2]; rfl
  unfold Cubic.alphar Cubic.get_a Cubic.get_b
  simp only [hel]
  rw [← ha, ← hb]
  simp only [e, hal]

/-- Two components with an interaction. -/
noncomputable def demoPair : CubicRT := ⟨[4, 9], [1, 2], 1, 0, [.basic 300 0, .basic 400 0], ⟨2, 2, fun i j => if i = j then 0 else 1 / 2⟩, 8⟩

example : demoPair.alphar 300 0.1 [1 / 2, 1 / 2] = .ok (cubicAlphar 8 (19 / 4) (3 / 2) 1 0 300 0.1) := by
  have s4 : Real.sqrt (4 * 4) = 4 := Real.sqrt_mul_self (by norm_num)
  have s9 : Real.sqrt (9 * 9) = 9 := Real.sqrt_mul_self (by norm_num)
  have s6 : Real.sqrt (4 * 9) = 6 := by rw [show (4 : ℝ) * 9 = 6 * 6 by norm_num]; exact Real.sqrt_mul_self (by norm_num)
  have s6' : Real.sqrt (9 * 4) = 6 := by rw [show (9 : ℝ) * 4 = 6 * 6 by norm_num]; exact Real.sqrt_mul_self (by norm_num)
  refine cubicRT_value demoPair 300 0.1 (19 / 4) (3 / 2) [1 / 2, 1 / 2] rfl ?_ ?_
  · unfold CubicRT.getA
    rw [if_neg (by simp [demoPair])]
    congr 1
    simp only [List.length_cons, List.length_nil, Finset.sum_range_succ, Finset.sum_range_zero, demoPair, el, List.getD_cons_zero, List.getD_cons_succ, AlphaFn.eval]
    norm_num [s4, s9, s6, s6']
  · unfold CubicRT.getB
    rw [if_neg (by simp [demoPair])]
    congr 1
    simp only [List.length_cons, List.length_nil, Finset.sum_range_succ, Finset.sum_range_zero, demoPair, el, List.getD_cons_zero, List.getD_cons_succ]
    norm_num

example : advDemo.alphar 350 25000 [1, 0] = .nonFinite := by
  have hx : ∀ i < ([1, 0] : List ℝ).length, el [1, 0] i = if i = 0 then 1 else 0 := fun i hi => by
    have : i = 0 ∨ i = 1 := by simp at hi; omega
    rcases this with rfl | rfl <;> simp [el]
  have hb : advDemo.getB [1, 0] = .ok 4e-5 := by
    rw [(adv_b advDemo [1, 0] advDemo_fits).1 rfl, adv_b_pure _ _ advDemo_fits.s _ _ _ 0 (by simp) rfl (by simp [el, advDemo]; norm_num) hx]
    simp [el, advDemo]
  have hw := wilson_pure ⟨[4e-5, 9e-5], ⟨2, fun _ _ => 0⟩, ⟨2, fun i j => if i = j then 0 else 100⟩⟩ 350 [1, 0] 0 (by simp)
    ⟨rfl, rfl, rfl, advDemo_fits.pos⟩ hx (by norm_num)
  obtain ⟨ab, hab⟩ : ∃ ab, advDemo.amOverBm 350 [1, 0] = .ok ab := by
    unfold AdvPR.amOverBm
    rw [show advDemo.ares.eval 350 [1, 0] = .ok _ from hw, Outcome.bind_ok, if_neg (by simp [advDemo]),
      if_neg (by rintro (h1 | ⟨i, hi, h1⟩); exacts [advDemo_fits.C h1, (advDemo_fits.pos i hi).ne' h1])]
    exact ⟨_, rfl⟩
  exact adv_packed advDemo 350 25000 4e-5 ab [1, 0] rfl hb hab (by norm_num)

end Teqp.Props
