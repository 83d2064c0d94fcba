import Verif.Props.MultipolarGrad
import Verif.Props.MultipolarZero
import Verif.Lemmas.Outcome
import Mathlib.Topology.Order.IntermediateValue

/-! # Effective dipole moments of polarizable fluids: C153 -/

set_option autoImplicit false

namespace Teqp.Spec
open Teqp.Model

/-- The Padé approximant of the perturbation as a function of the effective moment of the only component. -/
noncomputable def padeOf (p : GGParams (Fin 1)) (I : MPIntegrals) (T rhoN rs m : ℝ) : ℝ :=
  let a2 := ggAlpha2 p I T rhoN rs (fun _ => 1) fun _ => m
  a2 / (1 - ggAlpha3 p I T rhoN rs (fun _ => 1) (fun _ => m) / a2)

/-- A self-consistent effective moment of a pure fluid: the permanent moment plus the polarizability times the field `-kT ∂α/∂μ'`. -/
def SelfConsistent (p : GGParams (Fin 1)) (a : GGPol (Fin 1)) (I : MPIntegrals) (T rhoN rs m : ℝ) : Prop :=
  m = p.mu 0 + a.symm 0 * (-p.kB * T * deriv (padeOf p I T rhoN rs) m)

end Teqp.Spec

namespace Teqp.Props
open Finset Teqp.Model Teqp.Spec Teqp.Lemmas

section
variable {n : ℕ}

/-- Without polarizability in the numbers: if the polarizabilities are zero, the loop returns the permanent moments. -/
theorem ggIterate_zero (p : GGParams (Fin n)) (I : MPIntegrals) (T rhoN rs : ℝ) (x : Fin n → ℝ) (hp : p.pol = some ⟨fun _ => 0, fun _ => 0⟩)
    (h2 : ggAlpha2 p I T rhoN rs x p.mu ≠ 0) (h3 : 1 - ggAlpha3 p I T rhoN rs x p.mu / ggAlpha2 p I T rhoN rs x p.mu ≠ 0) (k : ℕ) :
    ggIterate p ⟨fun _ => 0, fun _ => 0⟩ I T rhoN rs x k p.mu = .ok p.mu := by
  induction k with
  | zero => rfl
  | succ k ih =>
    unfold ggIterate ggEprime
    rw [hp, if_neg (by simp)]
    dsimp only
    rw [if_neg (by push Not; exact ⟨h2, h3⟩)]
    simp only [Outcome.bind, zero_mul, add_zero]
    exact ih

/-- C153, first part. A model whose polarizabilities are zero is the model without polarizability, wherever the second-order term does not vanish. -/
theorem polarizable_zero (p : GGParams (Fin n)) (I : MPIntegrals) (T rhoN rs : ℝ) (x : Fin n → ℝ) (hp : p.pol = some ⟨fun _ => 0, fun _ => 0⟩)
    (h2 : ggAlpha2 p I T rhoN rs x p.mu ≠ 0) : ggEval p I T rhoN rs x = ggEval { p with pol := none } I T rhoN rs x := by
  set p' : GGParams (Fin n) := { p with pol := none } with hp'
  have hiso : ∀ i, p.iso i = 0 := by intro i; simp [GGParams.iso, hp]
  have hiso' : ∀ i, p'.iso i = 0 := by intro i; simp [GGParams.iso, hp']
  have hgam : ∀ i, p.gam i = 0 := by intro i; simp [GGParams.gam, hp]
  have hgam' : ∀ i, p'.gam i = 0 := by intro i; simp [GGParams.gam, hp']
  have hz : ∀ m i, p'.z1 T m i = p.z1 T m i := by
    intro m i
    unfold GGParams.z1
    rw [hiso, hiso']
    rfl
  have e2 : ggAlpha2 p' I T rhoN rs x p.mu = ggAlpha2 p I T rhoN rs x p.mu := by
    unfold ggAlpha2
    simp only [hiso, hiso', hz]
    rfl
  have e3 : ggAlpha3 p' I T rhoN rs x p.mu = ggAlpha3 p I T rhoN rs x p.mu := by
    unfold ggAlpha3
    simp only [hiso, hiso', hgam, hgam', hz]
    rfl
  have hpolar : ∑ i, |p.Q i| > 0 ∨ ∑ i, |p.mu i| > 0 := by
    by_contra hc
    push Not at hc
    have hQ : ∀ i, p.Q i = 0 := fun i => abs_eq_zero.mp
      ((Finset.sum_eq_zero_iff_of_nonneg fun _ _ => abs_nonneg _).mp (le_antisymm hc.1 (Finset.sum_nonneg fun _ _ => abs_nonneg _)) i (mem_univ i))
    have hmu : ∀ i, p.mu i = 0 := fun i => abs_eq_zero.mp
      ((Finset.sum_eq_zero_iff_of_nonneg fun _ _ => abs_nonneg _).mp (le_antisymm hc.2 (Finset.sum_nonneg fun _ _ => abs_nonneg _)) i (mem_univ i))
    apply h2
    unfold ggAlpha2 GGParams.z1
    simp [hQ, hmu, hiso]
  unfold ggEval
  rw [hp]
  dsimp only
  rw [show p'.pol = none from rfl]
  dsimp only
  rw [if_pos (show ∑ i, |p'.Q i| > 0 ∨ ∑ i, |p'.mu i| > 0 from hpolar)]
  rw [show p'.mu = p.mu from rfl, e2, e3, if_neg h2]
  by_cases h3 : 1 - ggAlpha3 p I T rhoN rs x p.mu / ggAlpha2 p I T rhoN rs x p.mu = 0
  · rw [if_pos h3]
    unfold ggIterate ggEprime
    rw [hp, if_neg (by simp)]
    dsimp only
    rw [if_pos (Or.inr h3)]
    rfl
  · rw [ggIterate_zero p I T rhoN rs x hp h2 h3, if_neg h3]
    simp only [Outcome.bind]
    unfold ggEprime
    rw [hp, if_neg (by simp)]
    dsimp only
    rw [if_neg (by push Not; exact ⟨h2, h3⟩)]
    simp only [mul_zero, zero_mul, Finset.sum_const_zero, zero_div, add_zero]
    rw [if_neg (by push Not; exact ⟨h2, h3⟩)]

/-- C153 is false of the code for fluids without permanent moments: with polarizabilities given, the contribution is not a number at any density, while without them
it is zero. -/
theorem polarizable_nonpolar (p : GGParams (Fin n)) (I : MPIntegrals) (T rhoN rs : ℝ) (x : Fin n → ℝ) (hmu : ∀ i, p.mu i = 0) (hQ : ∀ i, p.Q i = 0) :
    (p.pol.isSome → ggEval p I T rhoN rs x = .nonFinite) ∧ (p.pol = none → ggEval p I T rhoN rs x = .ok 0) := by
  refine ⟨fun h => ?_, fun h => ?_⟩
  · obtain ⟨a, ha⟩ := Option.isSome_iff_exists.mp h
    have h2 : ggAlpha2 p I T rhoN rs x p.mu = 0 := by
      unfold ggAlpha2 GGParams.z1
      simp [hQ, hmu]
    unfold ggEval
    rw [ha]
    dsimp only
    unfold ggIterate ggEprime
    rw [ha, if_neg (by simp)]
    dsimp only
    rw [if_pos (Or.inl h2)]
    rfl
  · unfold ggEval
    rw [h]
    dsimp only
    rw [if_neg (by simp [hmu, hQ])]

end

/-! ## Pure fluids -/

/-- A pure dipolar polarizable fluid. -/
structure PureDipole (p : GGParams (Fin 1)) (a : GGPol (Fin 1)) (I : MPIntegrals) (T rhoN rs : ℝ) : Prop where
  pol : p.pol = some a
  Q : p.Q 0 = 0
  ke : 0 < p.ke
  kB : 0 < p.kB
  temp : 0 < T
  rho : 0 < rhoN
  symm : 0 < a.symm 0
  asymm : 0 ≤ a.asymm 0
  C3 : 0 ≤ p.C3
  In : 0 < p.In I 6 T rs 0 0
  Immm : 0 ≤ p.Immm I T rs 0 0 0

section
variable {p : GGParams (Fin 1)} {a : GGPol (Fin 1)} {I : MPIntegrals} {T rhoN rs : ℝ}

theorem PureDipole.iso_pos (h : PureDipole p a I T rhoN rs) : 0 < p.iso 0 := by
  have := h.symm
  have := h.asymm
  unfold GGParams.iso
  rw [h.pol]
  positivity

theorem PureDipole.z_gt (h : PureDipole p a I T rhoN rs) {m : ℝ} (hm : m ≠ 0) : p.iso 0 < p.z1 T (fun _ => m) 0 := by
  have := h.kB
  have := h.temp
  have hm2 : 0 < m ^ 2 := by positivity
  have : 0 < 1 / 3 * (m ^ 2 * p.beta T) := by unfold GGParams.beta; positivity
  unfold GGParams.z1
  linarith

theorem PureDipole.alpha2 (h : PureDipole p a I T rhoN rs) (m : ℝ) : ggAlpha2 p I T rhoN rs (fun _ => 1) (fun _ => m) =
    -(rhoN * p.ke ^ 2 * (3 / 2) * (p.z1 T (fun _ => m) 0 ^ 2 - p.iso 0 ^ 2) * p.In I 6 T rs 0 0) := by
  unfold ggAlpha2
  simp only [Fin.sum_univ_one, Fin.isValue, h.Q]
  ring

theorem PureDipole.alpha3 (h : PureDipole p a I T rhoN rs) (m : ℝ) : ggAlpha3 p I T rhoN rs (fun _ => 1) (fun _ => m) =
    p.C3 * rhoN ^ 2 * p.ke ^ 3 * (1 / 2) * (p.z1 T (fun _ => m) 0 ^ 3 - p.iso 0 ^ 3) * p.Immm I T rs 0 0 0 := by
  unfold ggAlpha3
  simp only [Fin.sum_univ_one, Fin.isValue, h.Q]
  ring

theorem PureDipole.grad2 (h : PureDipole p a I T rhoN rs) (m : ℝ) : ggGrad2 p I T rhoN rs (fun _ => 1) (fun _ => m) 0 =
    -(p.ke ^ 2 * m * rhoN * (2 * p.z1 T (fun _ => m) 0 * p.In I 6 T rs 0 0) * p.beta T) := by
  unfold ggGrad2
  simp only [Fin.sum_univ_one, Fin.isValue, h.Q]
  ring

theorem PureDipole.grad3 (h : PureDipole p a I T rhoN rs) (m : ℝ) : ggGrad3 p I T rhoN rs (fun _ => 1) (fun _ => m) 0 =
    p.C3 * m * rhoN ^ 2 * (p.z1 T (fun _ => m) 0 ^ 2 * p.Immm I T rs 0 0 0) * p.ke ^ 3 * p.beta T := by
  have hf : (univ.filter (· ≤ (0 : Fin 1))) = {0} := by decide
  unfold ggGrad3 ggPass
  rw [hf, Finset.sum_singleton]
  simp only [Fin.sum_univ_one, Fin.isValue, h.Q]
  ring

theorem PureDipole.alpha2_neg (h : PureDipole p a I T rhoN rs) {m : ℝ} (hm : m ≠ 0) : ggAlpha2 p I T rhoN rs (fun _ => 1) (fun _ => m) < 0 := by
  have hz := h.z_gt hm
  have ha := h.iso_pos
  have h2 : 0 < p.z1 T (fun _ => m) 0 ^ 2 - p.iso 0 ^ 2 := by nlinarith
  have := h.rho
  have := h.ke
  have := h.In
  rw [h.alpha2]
  have : 0 < rhoN * p.ke ^ 2 * (3 / 2) * (p.z1 T (fun _ => m) 0 ^ 2 - p.iso 0 ^ 2) * p.In I 6 T rs 0 0 := by positivity
  linarith

theorem PureDipole.alpha3_nonneg (h : PureDipole p a I T rhoN rs) {m : ℝ} (hm : m ≠ 0) : 0 ≤ ggAlpha3 p I T rhoN rs (fun _ => 1) (fun _ => m) := by
  have hz := h.z_gt hm
  have ha := h.iso_pos
  have h3 : p.iso 0 ^ 3 ≤ p.z1 T (fun _ => m) 0 ^ 3 := pow_le_pow_left₀ ha.le hz.le 3
  have := h.rho
  have := h.ke
  have := h.C3
  have := h.Immm
  rw [h.alpha3]
  have : 0 ≤ p.z1 T (fun _ => m) 0 ^ 3 - p.iso 0 ^ 3 := by linarith
  positivity

theorem PureDipole.denominator (h : PureDipole p a I T rhoN rs) {m : ℝ} (hm : m ≠ 0) :
    1 ≤ 1 - ggAlpha3 p I T rhoN rs (fun _ => 1) (fun _ => m) / ggAlpha2 p I T rhoN rs (fun _ => 1) (fun _ => m) := by
  have := div_nonpos_of_nonneg_of_nonpos (h.alpha3_nonneg hm) (h.alpha2_neg hm).le
  linarith

/-- **The field of a pure dipolar fluid exists and points along the moment.** -/
theorem PureDipole.field (h : PureDipole p a I T rhoN rs) {m : ℝ} (hm : 0 < m) :
    ∃ E, ggEprime p I T rhoN rs (fun _ => 1) (fun _ => m) = .ok E ∧ 0 < E 0 := by
  have hd := h.denominator hm.ne'
  have h2 := h.alpha2_neg hm.ne'
  unfold ggEprime
  rw [h.pol, if_neg (by simp)]
  dsimp only
  rw [if_neg (by push Not; exact ⟨h2.ne, by linarith⟩)]
  refine ⟨_, rfl, ?_⟩
  have hk := h.kB
  have hT := h.temp
  have hpos : 0 < (1 - ggAlpha3 p I T rhoN rs (fun _ => 1) (fun _ => m) / ggAlpha2 p I T rhoN rs (fun _ => 1) (fun _ => m)) ^ 2 := by
    have : 0 < 1 - ggAlpha3 p I T rhoN rs (fun _ => 1) (fun _ => m) / ggAlpha2 p I T rhoN rs (fun _ => 1) (fun _ => m) := by linarith
    positivity
  have hnum : (1 - 2 * ggAlpha3 p I T rhoN rs (fun _ => 1) (fun _ => m) / ggAlpha2 p I T rhoN rs (fun _ => 1) (fun _ => m)) *
      ggGrad2 p I T rhoN rs (fun _ => 1) (fun _ => m) 0 + ggGrad3 p I T rhoN rs (fun _ => 1) (fun _ => m) 0 < 0 := by
    rw [h.grad2, h.grad3, h.alpha2, h.alpha3]
    have hz := h.z_gt hm.ne'
    have ha := h.iso_pos
    have hke := h.ke
    have hrho := h.rho
    have hIn := h.In
    have hIm := h.Immm
    have hC := h.C3
    have hb : 0 < p.beta T := by unfold GGParams.beta; positivity
    generalize p.z1 T (fun _ => m) 0 = z at *
    generalize p.iso 0 = c at *
    generalize p.In I 6 T rs 0 0 = J at *
    generalize p.Immm I T rs 0 0 0 = K at *
    generalize p.beta T = b at *
    generalize p.ke = e at *
    generalize p.C3 = C at *
    have hz0 : 0 < z := ha.trans hz
    have hzc : 0 < z - c := by linarith
    have hsum : 0 < z + c := by linarith
    have e1 : (1 - 2 * (C * rhoN ^ 2 * e ^ 3 * (1 / 2) * (z ^ 3 - c ^ 3) * K) / -(rhoN * e ^ 2 * (3 / 2) * (z ^ 2 - c ^ 2) * J)) *
        -(e ^ 2 * m * rhoN * (2 * z * J) * b) + C * m * rhoN ^ 2 * (z ^ 2 * K) * e ^ 3 * b =
        -(e ^ 2 * m * rhoN * z * b) * (2 * J + C * rhoN * e * K * (z ^ 2 + z * c + 4 * c ^ 2) / (3 * (z + c))) := by
      have : z ^ 2 - c ^ 2 = (z - c) * (z + c) := by ring
      rw [this]
      field_simp
      ring
    rw [e1]
    have : 0 < (e ^ 2 * m * rhoN * z * b) * (2 * J + C * rhoN * e * K * (z ^ 2 + z * c + 4 * c ^ 2) / (3 * (z + c))) := by positivity
    linarith
  have := div_neg_of_neg_of_pos hnum hpos
  nlinarith [mul_pos hk hT]

/-- One step of the substitution. -/
noncomputable def polStep (p : GGParams (Fin 1)) (a : GGPol (Fin 1)) (I : MPIntegrals) (T rhoN rs m : ℝ) : ℝ :=
  match ggEprime p I T rhoN rs (fun _ => 1) (fun _ => m) with
  | .ok E => p.mu 0 + a.symm 0 * E 0
  | _ => 0

/-- **The effective moment exceeds the permanent one.** -/
theorem PureDipole.step_gt (h : PureDipole p a I T rhoN rs) {m : ℝ} (hm : 0 < m) : p.mu 0 < polStep p a I T rhoN rs m := by
  obtain ⟨E, hE, hpos⟩ := h.field hm
  unfold polStep
  rw [hE]
  have := mul_pos h.symm hpos
  dsimp only
  linarith

theorem PureDipole.iterate (h : PureDipole p a I T rhoN rs) (hmu : 0 < p.mu 0) (k : ℕ) {m : ℝ} (hm : 0 < m) :
    ggIterate p a I T rhoN rs (fun _ => 1) k (fun _ => m) = .ok fun _ => (polStep p a I T rhoN rs)^[k] m := by
  induction k generalizing m with
  | zero => rfl
  | succ k ih =>
    have hgt := h.step_gt hm
    obtain ⟨E, hE, hpos⟩ := h.field hm
    unfold ggIterate
    rw [hE]
    simp only [Outcome.bind]
    have hs : polStep p a I T rhoN rs m = p.mu 0 + a.symm 0 * E 0 := by
      unfold polStep
      rw [hE]
    have : (fun i : Fin 1 => p.mu i + a.symm i * E i) = fun _ => polStep p a I T rhoN rs m := by
      funext i
      rw [Subsingleton.elim i 0, hs]
    rw [this, ih (hmu.trans hgt), Function.iterate_succ_apply]

/-- Fixed points of the substitution are the self-consistent moments. -/
theorem PureDipole.fixed_iff (h : PureDipole p a I T rhoN rs) (hb : p.C3b = 1) {m : ℝ} (hm : 0 < m) :
    SelfConsistent p a I T rhoN rs m ↔ polStep p a I T rhoN rs m = m := by
  obtain ⟨E, hE, -⟩ := h.field hm
  have := gg_field_partial p hb I T rhoN rs (fun _ => 1) (fun _ => m) E hE
  have hu : ∀ t : ℝ, Function.update (fun _ : Fin 1 => m) 0 t = fun _ => t := by
    intro t
    funext i
    rw [Subsingleton.elim i 0, Function.update_self]
  simp only [hu] at this
  unfold SelfConsistent polStep
  rw [hE]
  dsimp only
  rw [this]
  exact eq_comm

/-- C153, second part. If the substitution is a contraction of an interval containing the permanent moment, there is exactly one self-consistent moment there and the moment
used after ten steps is within `q^10` times the length of the interval from it. -/
theorem polarizable_partial (h : PureDipole p a I T rhoN rs) (hb : p.C3b = 1) {M q : ℝ} (hmu : 0 < p.mu 0) (hM : p.mu 0 ≤ M) (hq0 : 0 ≤ q) (hq : q < 1)
    (hmap : ∀ m ∈ Set.Icc (p.mu 0) M, polStep p a I T rhoN rs m ≤ M)
    (hlip : ∀ m ∈ Set.Icc (p.mu 0) M, ∀ m' ∈ Set.Icc (p.mu 0) M, |polStep p a I T rhoN rs m - polStep p a I T rhoN rs m'| ≤ q * |m - m'|) :
    ∃ m ∈ Set.Icc (p.mu 0) M, SelfConsistent p a I T rhoN rs m ∧ (∀ m' ∈ Set.Icc (p.mu 0) M, SelfConsistent p a I T rhoN rs m' → m' = m) ∧
      ∃ mup, ggIterate p a I T rhoN rs (fun _ => 1) 10 p.mu = .ok mup ∧ |mup 0 - m| ≤ q ^ 10 * (M - p.mu 0) := by
  set F := polStep p a I T rhoN rs with hF
  have hcont : ContinuousOn F (Set.Icc (p.mu 0) M) := by
    have : LipschitzOnWith ⟨q, hq0⟩ F (Set.Icc (p.mu 0) M) := LipschitzOnWith.of_dist_le_mul fun x hx y hy => by
      rw [Real.dist_eq, Real.dist_eq]
      exact hlip x hx y hy
    exact this.continuousOn
  have hpos : ∀ m ∈ Set.Icc (p.mu 0) M, 0 < m := fun m hm => hmu.trans_le hm.1
  have hin : ∀ m ∈ Set.Icc (p.mu 0) M, F m ∈ Set.Icc (p.mu 0) M := fun m hm => ⟨(h.step_gt (hpos m hm)).le, hmap m hm⟩
  have hl : p.mu 0 ∈ Set.Icc (p.mu 0) M := ⟨le_rfl, hM⟩
  have hr : M ∈ Set.Icc (p.mu 0) M := ⟨hM, le_rfl⟩
  obtain ⟨m, hm, hfix⟩ : ∃ m ∈ Set.Icc (p.mu 0) M, F m - m = 0 := by
    have := intermediate_value_Icc' hM (hcont.sub continuousOn_id)
    exact this ⟨by simpa using sub_nonpos.mpr (hin M hr).2, by simpa using sub_nonneg.mpr (hin _ hl).1⟩
  have hfix' : F m = m := sub_eq_zero.mp hfix
  refine ⟨m, hm, (h.fixed_iff hb (hpos m hm)).mpr hfix', fun m' hm' hs => ?_, ?_⟩
  · have h' := (h.fixed_iff hb (hpos m' hm')).mp hs
    have := hlip m' hm' m hm
    rw [← hF] at h'
    rw [h', hfix'] at this
    by_contra hne
    have : 0 < |m' - m| := abs_pos.mpr (sub_ne_zero.mpr hne)
    nlinarith
  · have hmuF : p.mu = fun _ => p.mu 0 := by
      funext i
      rw [Subsingleton.elim i 0]
    refine ⟨_, by rw [hmuF]; exact h.iterate hmu 10 hmu, ?_⟩
    have key : ∀ k : ℕ, F^[k] (p.mu 0) ∈ Set.Icc (p.mu 0) M ∧ |F^[k] (p.mu 0) - m| ≤ q ^ k * (M - p.mu 0) := by
      intro k
      induction k with
      | zero =>
        refine ⟨hl, ?_⟩
        simp only [Function.iterate_zero, id_eq, pow_zero, one_mul]
        rw [abs_le]
        constructor <;> linarith [hm.1, hm.2]
      | succ k ih =>
        rw [Function.iterate_succ_apply']
        refine ⟨hin _ ih.1, ?_⟩
        have := hlip _ ih.1 m hm
        rw [hfix'] at this
        calc _ ≤ q * |F^[k] (p.mu 0) - m| := this
          _ ≤ q * (q ^ k * (M - p.mu 0)) := mul_le_mul_of_nonneg_left ih.2 hq0
          _ = _ := by ring
    exact (key 10).2

/-- With the flag `C3` set to zero the step is a cubic polynomial of the moment. -/
theorem PureDipole.step_second_order (h : PureDipole p a I T rhoN rs) (hC : p.C3 = 0) {m : ℝ} (hm : 0 < m) :
    polStep p a I T rhoN rs m = p.mu 0 + a.symm 0 * (2 * p.ke ^ 2 * rhoN * p.In I 6 T rs 0 0) * m * (p.beta T / 3 * m ^ 2 + p.iso 0) := by
  obtain ⟨E, hE, -⟩ := h.field hm
  have h2 := h.alpha2_neg hm.ne'
  have h3 : ggAlpha3 p I T rhoN rs (fun _ => 1) (fun _ => m) = 0 := by rw [h.alpha3, hC]; ring
  have hg3 : ggGrad3 p I T rhoN rs (fun _ => 1) (fun _ => m) 0 = 0 := by rw [h.grad3, hC]; ring
  unfold polStep
  rw [hE]
  unfold ggEprime at hE
  rw [h.pol, if_neg (by simp)] at hE
  dsimp only at hE
  rw [if_neg (by push Not; exact ⟨h2.ne, by rw [h3]; simp⟩)] at hE
  injection hE with hE
  have hE0 := congrFun hE 0
  rw [h3, hg3, h.grad2] at hE0
  dsimp only
  rw [← hE0]
  have hk := h.kB.ne'
  have hT := h.temp.ne'
  unfold GGParams.z1 GGParams.beta
  simp only [mul_zero, zero_div, sub_zero, one_mul, add_zero, one_pow, div_one]
  field_simp

/-- C153 is false of the code: above the density where the product of polarizability and linear field reaches one no self-consistent moment exists, and the contribution is
computed nevertheless from whatever ten substitutions give. -/
theorem polarizable_catastrophe (h : PureDipole p a I T rhoN rs) (hb : p.C3b = 1) (hC : p.C3 = 0) (hmu : 0 < p.mu 0)
    (hA : 1 ≤ a.symm 0 * (2 * p.ke ^ 2 * rhoN * p.In I 6 T rs 0 0) * p.iso 0) :
    (∀ m, 0 < m → ¬ SelfConsistent p a I T rhoN rs m) ∧ ∃ v, ggEval p I T rhoN rs (fun _ => 1) = .ok v := by
  constructor
  · intro m hm hs
    rw [h.fixed_iff hb hm, h.step_second_order hC hm] at hs
    have hbeta : 0 < p.beta T := by
      have := h.kB
      have := h.temp
      unfold GGParams.beta
      positivity
    have h1 : 0 < a.symm 0 * (2 * p.ke ^ 2 * rhoN * p.In I 6 T rs 0 0) := by
      have := h.symm
      have := h.ke
      have := h.rho
      have := h.In
      positivity
    have h2 : 0 < a.symm 0 * (2 * p.ke ^ 2 * rhoN * p.In I 6 T rs 0 0) * (p.beta T / 3 * m ^ 2) * m := by positivity
    nlinarith
  · have hmuF : p.mu = fun _ => p.mu 0 := by
      funext i
      rw [Subsingleton.elim i 0]
    have hpos : ∀ k, 0 < (polStep p a I T rhoN rs)^[k] (p.mu 0) := by
      intro k
      induction k with
      | zero => exact hmu
      | succ k ih =>
        rw [Function.iterate_succ_apply']
        exact hmu.trans (h.step_gt ih)
    obtain ⟨E, hE, -⟩ := h.field (hpos 10)
    unfold ggEval
    rw [h.pol]
    dsimp only
    rw [hmuF, h.iterate hmu 10 hmu]
    simp only [Outcome.bind]
    rw [hE]
    have h2 := h.alpha2_neg (hpos 10).ne'
    have h3 := h.denominator (hpos 10).ne'
    simp only
    rw [if_neg (by push Not; exact ⟨h2.ne, by linarith⟩)]
    exact ⟨_, rfl⟩

end

/-! ## Concrete fluids -/

/-- A pure dipolar polarizable fluid in reduced units. -/
noncomputable def demoPol (alpha C3 : ℝ) : GGParams (Fin 1) :=
  { sij := fun _ _ => 1, eij := fun _ _ => 1, mu := fun _ => 1, Q := fun _ => 0, C3 := C3, C3b := 1, pol := some ⟨fun _ => alpha, fun _ => alpha⟩, ke := 1, kB := 1 }

theorem demoPol_pure {alpha C3 rho : ℝ} (h : 0 < alpha) (hC : 0 ≤ C3) (hr : 0 < rho) :
    PureDipole (demoPol alpha C3) ⟨fun _ => alpha, fun _ => alpha⟩ unitIntegrals 1 rho 1 where
  pol := rfl
  Q := rfl
  ke := by norm_num [demoPol]
  kB := by norm_num [demoPol]
  temp := by norm_num
  rho := hr
  symm := h
  asymm := h.le
  C3 := hC
  In := by
    have := Real.pi_pos
    simp only [GGParams.In, demoPol, unitIntegrals]
    norm_num
    exact this
  Immm := by
    have := Real.pi_pos
    simp only [GGParams.Immm, demoPol, unitIntegrals, getKijk]
    norm_num
    positivity

/-- The effective moment of a fluid with all terms exceeds the permanent one. -/
example : (1 : ℝ) < polStep (demoPol 0.05 1) ⟨fun _ => 0.05, fun _ => 0.05⟩ unitIntegrals 1 0.8 1 1 :=
  (demoPol_pure (by norm_num) (by norm_num) (by norm_num)).step_gt (by norm_num)

/-- Above the limit: no self-consistent moment, yet a contribution. -/
example : (∀ m, 0 < m → ¬ SelfConsistent (demoPol 1 0) ⟨fun _ => 1, fun _ => 1⟩ unitIntegrals 1 1 1 m) ∧
    ∃ v, ggEval (demoPol 1 0) unitIntegrals 1 1 1 (fun _ => 1) = .ok v := by
  refine polarizable_catastrophe (demoPol_pure (by norm_num) (by norm_num) (by norm_num)) rfl rfl (by norm_num [demoPol]) ?_
  have := Real.two_le_pi
  simp only [GGParams.In, GGParams.iso, demoPol, unitIntegrals]
  norm_num
  linarith

/-- A weakly polarizable fluid meets the hypotheses of the convergence statement. -/
example : ∃ m ∈ Set.Icc (1 : ℝ) 2, SelfConsistent (demoPol 0.01 0) ⟨fun _ => 0.01, fun _ => 0.01⟩ unitIntegrals 1 0.1 1 m := by
  have h := demoPol_pure (alpha := 0.01) (C3 := 0) (rho := 0.1) (by norm_num) (by norm_num) (by norm_num)
  have hIn : (demoPol 0.01 0).In unitIntegrals 6 1 1 0 0 = 4 * Real.pi := by simp [GGParams.In, demoPol, unitIntegrals]
  have hiso : (demoPol 0.01 0).iso 0 = 0.01 := by norm_num [GGParams.iso, demoPol]
  have hbeta : (demoPol 0.01 0).beta 1 = 1 := by norm_num [GGParams.beta, demoPol]
  have hs : ∀ m : ℝ, 0 < m → polStep (demoPol 0.01 0) ⟨fun _ => 0.01, fun _ => 0.01⟩ unitIntegrals 1 0.1 1 m =
      1 + 0.008 * Real.pi * m * (1 / 3 * m ^ 2 + 0.01) := by
    intro m hm
    rw [h.step_second_order rfl hm, hIn, hiso, hbeta]
    simp only [demoPol]
    ring
  have p0 := Real.pi_pos
  have p4 := Real.pi_le_four
  obtain ⟨m, hm, hsc, -⟩ := polarizable_partial h rfl (M := 2) (q := 0.2) (by norm_num [demoPol]) (by norm_num [demoPol]) (by norm_num) (by norm_num) (by
      intro m hm
      have h1 : (1 : ℝ) ≤ m := hm.1
      have h2 := hm.2
      rw [hs m (by linarith)]
      have : m * (1 / 3 * m ^ 2 + 0.01) ≤ 3 := by nlinarith [mul_nonneg (by linarith : (0 : ℝ) ≤ m) (by linarith : 0 ≤ 2 - m), sq_nonneg m]
      have h0 : 0 ≤ m * (1 / 3 * m ^ 2 + 0.01) := by positivity
      nlinarith) (by
      intro m hm m' hm'
      have h1 : (1 : ℝ) ≤ m := hm.1
      have h1' : (1 : ℝ) ≤ m' := hm'.1
      rw [hs m (by linarith), hs m' (by linarith)]
      have e : 1 + 0.008 * Real.pi * m * (1 / 3 * m ^ 2 + 0.01) - (1 + 0.008 * Real.pi * m' * (1 / 3 * m' ^ 2 + 0.01)) =
          (0.008 * Real.pi * (1 / 3 * (m ^ 2 + m * m' + m' ^ 2) + 0.01)) * (m - m') := by ring
      rw [e, abs_mul]
      refine mul_le_mul_of_nonneg_right ?_ (abs_nonneg _)
      have hmm : 1 / 3 * (m ^ 2 + m * m' + m' ^ 2) + 0.01 ≤ 4.01 := by nlinarith [hm.2, hm'.2]
      have hm0 : 0 ≤ 1 / 3 * (m ^ 2 + m * m' + m' ^ 2) + 0.01 := by positivity
      rw [abs_of_nonneg (by positivity)]
      nlinarith)
  exact ⟨m, hm, hsc⟩

/-- Zero polarizability: a fluid meeting the hypotheses. -/
example : ggEval (demoPol 0 1) unitIntegrals 1 1 1 (fun _ => 1) = ggEval { demoPol 0 1 with pol := none } unitIntegrals 1 1 1 (fun _ => 1) := by
  refine polarizable_zero _ _ _ _ _ _ rfl ?_
  have := Real.pi_pos
  simp only [ggAlpha2, GGParams.z1, GGParams.iso, GGParams.beta, GGParams.In, Fin.sum_univ_one, demoPol, unitIntegrals]
  norm_num

/-- A non-polar polarizable fluid (argon). -/
example : ggEval (⟨fun _ _ => 3.4e-10, fun _ _ => 120, fun _ => 0, fun _ => 0, 1, 1, some ⟨fun _ => 1.6e-40, fun _ => 1.6e-40⟩, 9e9, 1.38e-23⟩ : GGParams (Fin 1))
    unitIntegrals 300 1e25 0.4 (fun _ => 1) = .nonFinite :=
  (polarizable_nonpolar _ _ _ _ _ _ (fun _ => rfl) (fun _ => rfl)).1 rfl

end Teqp.Props
