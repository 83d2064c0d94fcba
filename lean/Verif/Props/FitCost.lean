import Verif.Model.ParamOpt
import Verif.Spec.Sound
import Verif.Props.Lambda
import Verif.Lemmas.PureVLE
import Verif.Lemmas.Outcome
import Mathlib.Tactic

/-! # C124, C125, C127, C128: the contributions and the two cost functions of the parameter optimizer -/

set_option autoImplicit false

namespace Teqp.Props
open Teqp.Model Teqp.Spec Teqp.Calc Teqp.PureVLE

/-! ## Acceptance of contributions -/

/-- A value or something that is not finite: no exception and no undefined behaviour. -/
def NoRaise (o : Outcome ℝ) : Prop := (∃ x, o = .ok x) ∨ o = .nonFinite

theorem NoRaise.bind {α : Type} {o : Outcome α} {f : α → Outcome ℝ} (h : (∃ x, o = .ok x) ∨ o = .nonFinite)
    (hf : ∀ x, NoRaise (f x)) : NoRaise (o.bind f) := by
  rcases h with ⟨x, rfl⟩ | rfl
  · exact hf x
  · exact Or.inr rfl

theorem divO_noRaise (a b : ℝ) : NoRaise (divO a b) := by
  unfold divO; split_ifs
  · exact Or.inr rfl
  · exact Or.inl ⟨_, rfl⟩

theorem sqrtO_noRaise (a : ℝ) : NoRaise (sqrtO a) := by
  unfold sqrtO; split_ifs
  · exact Or.inr rfl
  · exact Or.inl ⟨_, rfl⟩

theorem soundSpeed_noRaise (m : FitModel) (Ao20 M R T rho : ℝ) : NoRaise (soundSpeed m Ao20 M R T rho) := by
  unfold soundSpeed; split_ifs
  · exact Or.inr rfl
  · exact NoRaise.bind (divO_noRaise _ _) fun x => sqrtO_noRaise x

theorem weighted_noRaise (w : ℝ) (t : Outcome ℝ) (h : NoRaise t) : NoRaise (weighted w t) := by
  unfold weighted; split_ifs
  · exact NoRaise.bind h fun x => Or.inl ⟨_, rfl⟩
  · exact Or.inl ⟨_, rfl⟩

theorem sosLoop_noRaise (m : FitModel) (R T pexp : ℝ) (k : ℕ) (rho : ℝ) : NoRaise (sosLoop m R T pexp k rho) := by
  induction k generalizing rho with
  | zero => exact Or.inl ⟨_, rfl⟩
  | succ k ih =>
    simp only [sosLoop]
    split_ifs
    · exact Or.inr rfl
    · exact Or.inl ⟨_, rfl⟩
    · exact Or.inr rfl
    · exact Or.inl ⟨_, rfl⟩
    · exact ih _

theorem lpwTerms_noRaise (m : FitModel) (q : SatRhoLPW) (T pexp rexp wexp Ao20 M R : ℝ) (r : Option ℝ) :
    NoRaise (lpwTerms m q T pexp rexp wexp Ao20 M R r) := by
  unfold lpwTerms
  cases r with
  | none =>
    exact NoRaise.bind (weighted_noRaise _ _ (Or.inr rfl)) fun a => NoRaise.bind (weighted_noRaise _ _ (Or.inr rfl)) fun b =>
      NoRaise.bind (weighted_noRaise _ _ (Or.inr rfl)) fun c => Or.inl ⟨_, rfl⟩
  | some r =>
    exact NoRaise.bind (weighted_noRaise _ _ (divO_noRaise _ _)) fun a =>
      NoRaise.bind (weighted_noRaise _ _ (divO_noRaise _ _)) fun b =>
        NoRaise.bind (weighted_noRaise _ _ (NoRaise.bind (soundSpeed_noRaise ..) fun w => divO_noRaise _ _)) fun c =>
          Or.inl ⟨_, rfl⟩

/-- The saturation solver of the model raises no exception for the arguments it is given. -/
def VleTotal (m : FitModel) : Prop := ∀ T a b, (∃ r, m.vle T a b = .ok r) ∨ m.vle T a b = .nonFinite

/-- A point all of whose optional fields are set never raises an exception when it is evaluated, for any model whose
saturation solver raises none. -/
theorem fit_cost_noRaise (m : FitModel) (hm : VleTotal m) (c : FitPoint) (h : ∀ f ∈ c.fields, f.isSome) :
    NoRaise (c.cost m) := by
  cases c with
  | satRhoL p => exact NoRaise.bind (hm _ _ _) fun r => Or.inl ⟨_, rfl⟩
  | satRhoLP p =>
    simp only [FitPoint.fields, List.mem_cons, List.not_mem_nil, or_false, forall_eq_or_imp, forall_eq, Option.isSome_iff_exists] at h
    obtain ⟨⟨T, hT⟩, ⟨pe, hp⟩, ⟨re, hr⟩, ⟨gL, hL⟩, ⟨gV, hV⟩⟩ := h
    simp only [FitPoint.cost, satRhoLPCost, hT, hp, hr, hL, hV, optValue, Outcome.bind_ok]
    exact NoRaise.bind (hm _ _ _) fun r => NoRaise.bind (divO_noRaise _ _) fun a => NoRaise.bind (divO_noRaise _ _) fun b =>
      Or.inl ⟨_, rfl⟩
  | satRhoLPW p =>
    simp only [FitPoint.fields, List.mem_cons, List.not_mem_nil, or_false, forall_eq_or_imp, forall_eq, Option.isSome_iff_exists] at h
    obtain ⟨⟨T, hT⟩, ⟨pe, hp⟩, ⟨re, hr⟩, ⟨we, hw⟩, ⟨gL, hL⟩, ⟨gV, hV⟩, ⟨Ao, hA⟩, ⟨M, hM⟩, ⟨R, hR⟩⟩ := h
    simp only [FitPoint.cost, satRhoLPWCost, hT, hp, hr, hw, hL, hV, hA, hM, hR, optValue, Outcome.bind_ok]
    rcases hm T gL gV with ⟨r, hr'⟩ | hr'
    · rw [hr']; exact lpwTerms_noRaise ..
    · rw [hr']; exact lpwTerms_noRaise ..
  | sos p =>
    simp only [FitPoint.fields, List.mem_cons, List.not_mem_nil, or_false, forall_eq_or_imp, forall_eq, Option.isSome_iff_exists] at h
    obtain ⟨⟨T, hT⟩, ⟨pe, hp⟩, ⟨g, hg⟩, ⟨we, hw⟩, ⟨Ao, hA⟩, ⟨M, hM⟩, ⟨R, hR⟩⟩ := h
    simp only [FitPoint.cost, sosCost, hT, hp, hg, hw, hA, hM, hR, optValue, Outcome.bind_ok]
    exact NoRaise.bind (sosLoop_noRaise ..) fun r => NoRaise.bind (soundSpeed_noRaise ..) fun w =>
      NoRaise.bind (divO_noRaise _ _) fun c => Or.inl ⟨_, rfl⟩
  | pvt p =>
    simp only [FitPoint.fields, List.mem_cons, List.not_mem_nil, or_false, forall_eq_or_imp, forall_eq, Option.isSome_iff_exists] at h
    obtain ⟨⟨T, hT⟩, ⟨re, hr⟩, ⟨pe, hp⟩⟩ := h
    simp only [FitPoint.cost, pvtCost, hT, hp, hr, optValue, Outcome.bind_ok]
    exact NoRaise.bind (divO_noRaise _ _) fun a => NoRaise.bind (divO_noRaise _ _) fun b => Or.inl ⟨_, rfl⟩

/-- Adding points one after the other, as a caller does; a refused point ends the sequence. -/
def addAll : List FitPoint → FitOptimizer → Outcome FitOptimizer
  | [], o => .ok o
  | c :: cs, o => (o.add c).bind (addAll cs)

/-- C124. A point is accepted exactly when all its optional fields are set, and is then appended; a refused point raises
`InvalidArgument`. -/
theorem fit_add (o : FitOptimizer) (c : FitPoint) :
    ((∀ f ∈ c.fields, f.isSome) → o.add c = .ok { o with contributions := o.contributions ++ [c] }) ∧
    ((∃ f ∈ c.fields, f = none) → o.add c = .throws .invalidArgument) := by
  constructor
  · intro h
    have : c.fields.all Option.isSome = true := by rw [List.all_eq_true]; exact h
    simp [FitOptimizer.add, FitPoint.check, this, Outcome.bind_ok]
  · rintro ⟨f, hf, rfl⟩
    have : c.fields.all Option.isSome = false := by
      rw [Bool.eq_false_iff]
      intro h
      rw [List.all_eq_true] at h
      simpa using h none hf
    simp [FitOptimizer.add, FitPoint.check, this]

/-- C124. The optimizer never meets a missing field: whatever points were added, if all were accepted then evaluating any
of them raises no exception (`bad_optional_access` included), for any model whose saturation solver raises none. -/
theorem fit_accepted_points (o o' : FitOptimizer) (h0 : o.contributions = []) (cs : List FitPoint) (h : addAll cs o = .ok o') :
    o'.contributions = cs ∧ ∀ m, VleTotal m → ∀ c ∈ o'.contributions, NoRaise (c.cost m) := by
  have key : ∀ (cs : List FitPoint) (o : FitOptimizer), addAll cs o = .ok o' →
      o'.contributions = o.contributions ++ cs ∧ ∀ c ∈ cs, ∀ f ∈ c.fields, f.isSome := by
    intro cs
    induction cs with
    | nil =>
      intro o h
      simp only [addAll, Outcome.ok.injEq] at h
      subst h
      simp
    | cons c cs ih =>
      intro o h
      simp only [addAll] at h
      obtain ⟨o1, h1, h2⟩ := Outcome.bind_eq_ok.1 h
      by_cases hc : ∀ f ∈ c.fields, f.isSome
      · rw [(fit_add o c).1 hc] at h1
        simp only [Outcome.ok.injEq] at h1
        obtain ⟨ha, hb⟩ := ih o1 h2
        rw [← h1] at ha
        refine ⟨by rw [ha]; simp, ?_⟩
        intro c' hc'
        rcases List.mem_cons.1 hc' with rfl | hc'
        · exact hc
        · exact hb c' hc'
      · push Not at hc
        obtain ⟨f, hf, hn⟩ := hc
        rw [(fit_add o c).2 ⟨f, hf, by simpa using hn⟩] at h1
        simp at h1
  obtain ⟨ha, hb⟩ := key cs o h
  rw [h0, List.nil_append] at ha
  refine ⟨ha, fun m hm c hc => fit_cost_noRaise m hm c ?_⟩
  rw [ha] at hc
  exact hb c hc

/-! ## What the contributions measure -/

theorem fit_A01 (α : ℝ → ℝ → ℝ) (vle : ℝ → ℝ → ℝ → Outcome (ℝ × ℝ)) (R T rho : ℝ) :
    rho * R * T * (1 + (FitModel.ofAlpha α vle).A 0 1 T rho) = totalPressure α R T rho := by
  simp only [FitModel.ofAlpha]
  rw [Ar0, pressure_eq]; ring

theorem fit_A02 {α : ℝ → ℝ → ℝ} (vle : ℝ → ℝ → ℝ → Outcome (ℝ × ℝ)) {R T rho : ℝ} (h : ContDiffAt ℝ 2 (α T) rho) :
    R * T * (1 + 2 * (FitModel.ofAlpha α vle).A 0 1 T rho + (FitModel.ofAlpha α vle).A 0 2 T rho)
      = deriv (totalPressure α R T) rho := by
  rw [(pressure_drho h).deriv]
  simp only [FitModel.ofAlpha]
  rw [Ar0, Ar0]; ring

/-- C125. The non-iterative PVT contribution is the relative size of one Newton step in density, times the weight:
for a fluid with smooth residual Helmholtz energy and non-zero pressure slope it is a number, it is non-negative for a
non-negative weight, and for a non-zero weight it is zero exactly when the model reproduces the pressure. -/
theorem fit_pvt {α : ℝ → ℝ → ℝ} (vle : ℝ → ℝ → ℝ → Outcome (ℝ × ℝ)) {R T rho pexp w : ℝ} (hrho : rho ≠ 0)
    (h : ContDiffAt ℝ 2 (α T) rho) (hs : deriv (totalPressure α R T) rho ≠ 0) :
    ∃ c, FitPoint.cost (FitModel.ofAlpha α vle) (.pvt ⟨some T, some rho, some pexp, w, R⟩) = .ok c ∧
      c = |(totalPressure α R T rho - pexp) / deriv (totalPressure α R T) rho / rho| * w ∧
      (0 ≤ w → 0 ≤ c) ∧ (w ≠ 0 → (c = 0 ↔ totalPressure α R T rho = pexp)) := by
  have e : FitPoint.cost (FitModel.ofAlpha α vle) (.pvt ⟨some T, some rho, some pexp, w, R⟩)
      = .ok (|(totalPressure α R T rho - pexp) / rho / deriv (totalPressure α R T) rho| * w) := by
    simp only [FitPoint.cost, pvtCost, optValue, Outcome.bind_ok]
    rw [fit_A01, fit_A02 vle h]
    simp [divO, hrho, hs, Outcome.bind_ok]
  refine ⟨_, e, ?_, fun hw => by positivity, fun hw => ?_⟩
  · rw [div_right_comm]
  · constructor
    · intro h0
      rcases mul_eq_zero.1 h0 with h0 | h0
      · rw [abs_eq_zero] at h0
        rcases div_eq_zero_iff.1 h0 with h0 | h0
        · rcases div_eq_zero_iff.1 h0 with h0 | h0
          · exact sub_eq_zero.1 h0
          · exact absurd h0 hrho
        · exact absurd h0 hs
      · exact absurd h0 hw
    · intro h0
      rw [h0]; simp

/-- A fluid with pressure `2 (ρ + ρ²)`: at density 1 and measured pressure 10 the contribution is one Newton step. -/
example (vle : ℝ → ℝ → ℝ → Outcome (ℝ × ℝ)) :
    ∃ c, FitPoint.cost (FitModel.ofAlpha (fun _ ρ => ρ) vle) (.pvt ⟨some 1, some 1, some 10, 1, 2⟩) = .ok c ∧ c ≠ 0 := by
  have hp : ∀ r, totalPressure (fun _ ρ => ρ) 2 1 r = 2 * (r + r ^ 2) := by
    intro r
    rw [pressure_eq, drn_eq, iteratedDeriv_one]
    simp
  have hd : deriv (totalPressure (fun _ ρ => ρ) 2 1) 1 = 6 := by
    have : totalPressure (fun _ ρ => ρ) 2 1 = fun r => 2 * (r + r ^ 2) := funext hp
    rw [this]
    have h3 : HasDerivAt (fun r : ℝ => r + r ^ 2) (1 + 2 * 1) 1 := by
      have := (hasDerivAt_id (1 : ℝ)).add (hasDerivAt_pow 2 (1 : ℝ))
      refine this.congr_deriv ?_
      norm_num
    rw [(h3.const_mul 2).deriv]; norm_num
  obtain ⟨c, hc, _, _, h0⟩ := fit_pvt (α := fun _ ρ => ρ) vle (R := 2) (T := 1) (rho := 1) (pexp := 10) (w := 1) (by norm_num)
    contDiffAt_id (by rw [hd]; norm_num)
  refine ⟨c, hc, fun hz => ?_⟩
  have := (h0 one_ne_zero).1 hz
  rw [hp] at this
  norm_num at this

theorem rel_zero {a b w : ℝ} (hb : 0 < b) (hw : 0 < w) : 0 ≤ |a - b| / b * w ∧ (|a - b| / b * w = 0 ↔ a = b) := by
  refine ⟨by positivity, ?_⟩
  constructor
  · intro h
    have h1 : |a - b| / b = 0 := (mul_eq_zero.1 h).resolve_right hw.ne'
    have h2 := (div_eq_zero_iff.1 h1).resolve_right hb.ne'
    rw [abs_eq_zero, sub_eq_zero] at h2
    exact h2
  · rintro rfl; simp

/-- C125. The contributions of a saturation point, for positive measured values and weights, when the solver returns
`rL`: they vanish exactly when the liquid density (and, for the extended points, the pressure and the speed of sound
computed at the returned density) equal the measured values; otherwise they are positive. -/
theorem fit_saturation (α : ℝ → ℝ → ℝ) (vle : ℝ → ℝ → ℝ → Outcome (ℝ × ℝ)) {T gL gV rL rV rexp pexp wexp Ao20 M R w1 w2 w3 : ℝ}
    (hv : vle T gL gV = .ok (rL, rV)) (hr : 0 < rexp) (hp : 0 < pexp) (hw : 0 < wexp) (h1 : 0 < w1) (h2 : 0 < w2) (h3 : 0 < w3) :
    (∃ c, FitPoint.cost (FitModel.ofAlpha α vle) (.satRhoL ⟨T, rexp, gL, gV, w1⟩) = .ok c ∧ 0 ≤ c ∧ (c = 0 ↔ rL = rexp)) ∧
    (∃ c, FitPoint.cost (FitModel.ofAlpha α vle) (.satRhoLP ⟨some T, some pexp, some rexp, some gL, some gV, w1, w2, R⟩) = .ok c ∧
      0 ≤ c ∧ (c = 0 ↔ rL = rexp ∧ totalPressure α R T rL = pexp)) ∧
    ∀ sp, soundSpeed (FitModel.ofAlpha α vle) Ao20 M R T rL = .ok sp →
      ∃ c, FitPoint.cost (FitModel.ofAlpha α vle) (.satRhoLPW ⟨some T, some pexp, some rexp, some wexp, some gL, some gV,
          some Ao20, some M, some R, w1, w2, w3⟩) = .ok c ∧
        0 ≤ c ∧ (c = 0 ↔ rL = rexp ∧ totalPressure α R T rL = pexp ∧ sp = wexp) := by
  obtain ⟨a0, a1⟩ := rel_zero (a := rL) hr h1
  obtain ⟨b0, b1⟩ := rel_zero (a := totalPressure α R T rL) hp h2
  refine ⟨⟨|rL - rexp| * w1, ?_, by positivity, ?_⟩, ⟨|rL - rexp| / rexp * w1 + |totalPressure α R T rL - pexp| / pexp * w2, ?_,
    add_nonneg a0 b0, ?_⟩, fun sp hsp => ?_⟩
  · simp only [FitPoint.cost, satRhoLCost, FitModel.ofAlpha, hv, Outcome.bind_ok]
  · rw [mul_eq_zero, or_iff_left h1.ne', abs_eq_zero, sub_eq_zero]
  · simp only [FitPoint.cost, satRhoLPCost, optValue, Outcome.bind_ok]
    rw [show (FitModel.ofAlpha α vle).vle T gL gV = .ok (rL, rV) from hv, Outcome.bind_ok, fit_A01]
    simp [divO, hr.ne', hp.ne', Outcome.bind_ok]
  · rw [add_eq_zero_iff_of_nonneg a0 b0, a1, b1]
  · obtain ⟨c0, c1⟩ := rel_zero (a := sp) hw h3
    refine ⟨|rL - rexp| / rexp * w1 + |totalPressure α R T rL - pexp| / pexp * w2 + |sp - wexp| / wexp * w3, ?_,
      add_nonneg (add_nonneg a0 b0) c0, ?_⟩
    · simp only [FitPoint.cost, satRhoLPWCost, optValue, Outcome.bind_ok]
      rw [show (FitModel.ofAlpha α vle).vle T gL gV = .ok (rL, rV) from hv]
      simp only [lpwTerms]
      rw [fit_A01, hsp]
      simp [divO, weighted, hr.ne', hp.ne', hw.ne', h1.ne', h2.ne', h3.ne', Outcome.bind_ok]
    · rw [add_eq_zero_iff_of_nonneg (add_nonneg a0 b0) c0, add_eq_zero_iff_of_nonneg a0 b0, a1, b1, c1, and_assoc]

/-- An ideal gas whose solver returns the liquid density 3: the two-term contribution of a point that fits vanishes. -/
example : ∃ c, FitPoint.cost (FitModel.ofAlpha (fun _ _ => 0) fun _ _ _ => .ok (3, 1))
    (.satRhoLP ⟨some 2, some 24, some 3, some 1, some 1, 1, 1, 4⟩) = .ok c ∧ c = 0 := by
  obtain ⟨c, hc, _, h0⟩ := (fit_saturation (fun _ _ => 0) (fun _ _ _ => .ok (3, 1)) (T := 2) (gL := 1) (gV := 1) (rL := 3) (rV := 1)
    (rexp := 3) (pexp := 24) (wexp := 1) (Ao20 := 0) (M := 0) (R := 4) (w1 := 1) (w2 := 1) (w3 := 1) rfl
    (by norm_num) (by norm_num) (by norm_num) (by norm_num) (by norm_num) (by norm_num)).2.1
  refine ⟨c, hc, h0.2 ⟨rfl, ?_⟩⟩
  rw [pressure_eq, drn_eq, iteratedDeriv_one]
  norm_num

/-- C125. A term whose weight is zero is dropped even when it is not finite: with only the density weighted, a failing
speed of sound does not matter; but in the two-term point a zero weight does not protect from a zero measured value. -/
theorem fit_zero_weight (m : FitModel) {T gL gV rL rV rexp pexp wexp Ao20 M R w1 : ℝ} (hv : m.vle T gL gV = .ok (rL, rV))
    (hr : rexp ≠ 0) (h1 : w1 ≠ 0) :
    FitPoint.cost m (.satRhoLPW ⟨some T, some pexp, some rexp, some wexp, some gL, some gV, some Ao20, some M, some R, w1, 0, 0⟩)
        = .ok (|rL - rexp| / rexp * w1) ∧
      FitPoint.cost m (.satRhoLP ⟨some T, some 0, some rexp, some gL, some gV, w1, 0, R⟩) = .nonFinite := by
  constructor
  · simp only [FitPoint.cost, satRhoLPWCost, optValue, Outcome.bind_ok, hv, lpwTerms]
    simp [divO, weighted, hr, h1, Outcome.bind_ok]
  · simp only [FitPoint.cost, satRhoLPCost, optValue, Outcome.bind_ok, hv]
    simp [divO, hr, Outcome.bind_ok]

example : FitPoint.cost ⟨fun _ _ _ _ => 0, fun _ _ _ => .ok (3, 1)⟩
    (.satRhoLPW ⟨some 1, some 0, some 2, some 0, some 1, some 1, some 0, some 0, some 0, 1, 0, 0⟩) = .ok (|3 - 2| / 2 * 1) :=
  (fit_zero_weight ⟨fun _ _ _ _ => 0, fun _ _ _ => .ok (3, 1)⟩ (T := 1) (gL := 1) (gV := 1) (rL := 3) (rV := 1) (rexp := 2)
    (R := 0) rfl (by norm_num) (by norm_num)).1

/-! ## The density iteration of the speed-of-sound point -/

/-- C127. What the density iteration guarantees: the density it returns reproduces the measured pressure to one part in
10¹², or is one for which Newton's correction equals the density itself (to one part in 10¹⁰), or is the result of ten
steps of Newton's method without any test. -/
theorem sos_density_partial (m : FitModel) (R T pexp : ℝ) (k : ℕ) (g rho : ℝ) (h : sosLoop m R T pexp k g = .ok rho) :
    |(rho * R * T * (1 + m.A 0 1 T rho) - pexp) / pexp| < 1e-12 ∨
    (∃ d, d * (R * T * (1 + 2 * m.A 0 1 T rho + m.A 0 2 T rho)) = pexp - rho * R * T * (1 + m.A 0 1 T rho) ∧ |d / rho - 1| < 1e-10) ∨
    rho = (fun x => x - (x * R * T * (1 + m.A 0 1 T x) - pexp) / (R * T * (1 + 2 * m.A 0 1 T x + m.A 0 2 T x)))^[k] g := by
  induction k generalizing g with
  | zero =>
    right; right
    simp only [sosLoop, Outcome.ok.injEq] at h
    rw [← h]; rfl
  | succ k ih =>
    simp only [sosLoop] at h
    split_ifs at h with hp hd hres htest
    · simp only [Outcome.ok.injEq] at h
      subst h; left; exact hres
    · simp only [Outcome.ok.injEq] at h
      subst h
      rcases htest with ⟨_, ht⟩ | ht
      · right; left
        refine ⟨_, ?_, ht⟩
        have e : ∀ X D : ℝ, D ≠ 0 → -(X / pexp) / (D / pexp) * D = -X := by
          intro X D hD; field_simp
        rw [e _ _ hd]; ring
      · left; exact ht
    · rcases ih _ h with h' | h' | h'
      · left; exact h'
      · right; left; exact h'
      · right; right
        rw [h', Function.iterate_succ, Function.comp]
        have e : ∀ X D : ℝ, D ≠ 0 → -(X / pexp) / (D / pexp) = -(X / D) := by
          intro X D hD; field_simp
        refine congrArg _ ?_
        rw [e _ _ hd]
        exact (sub_eq_add_neg _ _).symm

/-- C127. The stopping test compares Newton's correction with the density instead of with zero: for the fluid
`p = RT(ρ + Bρ²)` and a measured pressure at which the correction at the guess equals the guess, the iteration stops at the
guess at once, although the pressure there is not the measured one and the next step would continue towards it. -/
theorem sos_density_wrong (vle : ℝ → ℝ → ℝ → Outcome (ℝ × ℝ)) {B R T g : ℝ} (hR : 0 < R) (hT : 0 < T) (hB : 0 ≤ B) (hg : 0 < g) :
    sosLoop (FitModel.ofAlpha (fun _ ρ => B * ρ) vle) R T (R * T * (2 * g + 3 * B * g ^ 2)) 10 g = .ok g ∧
      totalPressure (fun _ ρ => B * ρ) R T g < R * T * (2 * g + 3 * B * g ^ 2) := by
  have hA1 : ∀ r, (FitModel.ofAlpha (fun _ ρ => B * ρ) vle).A 0 1 T r = B * r := by
    intro r
    simp only [FitModel.ofAlpha]
    rw [Ar0, drn_eq, iteratedDeriv_one]
    simp; ring
  have hA2 : ∀ r, (FitModel.ofAlpha (fun _ ρ => B * ρ) vle).A 0 2 T r = 0 := by
    intro r
    simp only [FitModel.ofAlpha]
    rw [Ar0, drn_eq, iteratedDeriv_succ, iteratedDeriv_one]
    have : deriv (fun ρ => B * ρ) = fun _ => B := by funext x; simp
    rw [this]; simp
  have hRT : 0 < R * T := mul_pos hR hT
  have hpe : R * T * (2 * g + 3 * B * g ^ 2) ≠ 0 := by positivity
  have hD : R * T * (1 + 2 * (B * g)) ≠ 0 := by positivity
  constructor
  · simp only [sosLoop, hA1, hA2, add_zero, if_neg hpe, if_neg hD]
    rw [if_pos]
    left
    refine ⟨hg.ne', ?_⟩
    have e : -((g * R * T * (1 + B * g) - R * T * (2 * g + 3 * B * g ^ 2)) / (R * T * (2 * g + 3 * B * g ^ 2))) /
        (R * T * (1 + 2 * (B * g)) / (R * T * (2 * g + 3 * B * g ^ 2))) = g := by
      have hne : (1 + 2 * (B * g)) ≠ 0 := by positivity
      rw [neg_div, div_div_div_cancel_right₀ hpe, ← neg_div, div_eq_iff hD]
      ring
    rw [e, div_self hg.ne', sub_self, abs_zero]
    norm_num
  · rw [← fit_A01 _ vle, hA1]
    have : 0 < R * T * (g + 2 * B * g ^ 2) := by positivity
    nlinarith

example (vle : ℝ → ℝ → ℝ → Outcome (ℝ × ℝ)) :=
  sos_density_partial _ _ _ _ 10 2 2 (sos_density_wrong vle (B := 1 / 4) (R := 8) (T := 300) (g := 2) (by norm_num) (by norm_num)
    (by norm_num) (by norm_num)).1

/-- C127. The consequence for a user: a model that reproduces the measurement exactly is charged a cost.  The fluid
`p = ρ + (5/6)ρ²` (`R = T = 1`) at the measured state `ρ = 9/5` has the pressure `9/2`; with the guess 1 the contribution is
not zero although the speed of sound of the model at that state is the measured one. -/
theorem sos_exact_model_charged (vle : ℝ → ℝ → ℝ → Outcome (ℝ × ℝ)) :
    totalPressure (fun _ ρ => 5 / 6 * ρ) 1 1 (9 / 5) = 9 / 2 ∧
    soundSpeed (FitModel.ofAlpha (fun _ ρ => 5 / 6 * ρ) vle) (-1) 1 1 1 (9 / 5) = .ok (Real.sqrt (41 / 4)) ∧
    ∃ c, FitPoint.cost (FitModel.ofAlpha (fun _ ρ => 5 / 6 * ρ) vle)
        (.sos ⟨some 1, some (9 / 2), some 1, some (Real.sqrt (41 / 4)), some (-1), some 1, some 1, 1⟩) = .ok c ∧ c ≠ 0 := by
  have hA1 : ∀ r, (FitModel.ofAlpha (fun _ ρ => 5 / 6 * ρ) vle).A 0 1 1 r = 5 / 6 * r := by
    intro r
    simp only [FitModel.ofAlpha]
    rw [Ar0, drn_eq, iteratedDeriv_one]
    simp; ring
  have hA2 : ∀ r, (FitModel.ofAlpha (fun _ ρ => 5 / 6 * ρ) vle).A 0 2 1 r = 0 := by
    intro r
    simp only [FitModel.ofAlpha]
    rw [Ar0, drn_eq, iteratedDeriv_succ, iteratedDeriv_one]
    have : deriv (fun ρ : ℝ => 5 / 6 * ρ) = fun _ => 5 / 6 := by funext x; simp
    rw [this]; simp
  have hA11 : ∀ r, (FitModel.ofAlpha (fun _ ρ => 5 / 6 * ρ) vle).A 1 1 1 r = 0 := by
    intro r
    simp only [FitModel.ofAlpha, Agenxy_is_Lambda, Lambda]
    rw [iteratedDeriv_one (f := fun t : ℝ => _)]
    simp
  have hA20 : ∀ r, (FitModel.ofAlpha (fun _ ρ => 5 / 6 * ρ) vle).A 2 0 1 r = 0 := by
    intro r
    simp only [FitModel.ofAlpha, Agenxy_is_Lambda, Lambda]
    rw [iteratedDeriv_succ, iteratedDeriv_one]
    simp
  have hs : ∀ r, 0 < r → soundSpeed (FitModel.ofAlpha (fun _ ρ => 5 / 6 * ρ) vle) (-1) 1 1 1 r
      = .ok (Real.sqrt (1 + 2 * (5 / 6 * r) + (1 + 5 / 6 * r) ^ 2)) := by
    intro r hr
    unfold soundSpeed mw2RT
    rw [hA1, hA2, hA11, hA20, if_neg (by norm_num)]
    have e : (1 + 2 * (5 / 6 * r) + 0 - (1 + 5 / 6 * r - 0) ^ 2 / (-1 + 0)) * 1 * 1 / 1
        = 1 + 2 * (5 / 6 * r) + (1 + 5 / 6 * r) ^ 2 := by ring
    unfold divO
    rw [if_neg one_ne_zero, Outcome.bind_ok, e]
    unfold sqrtO
    rw [if_neg (not_lt.2 (by positivity))]
  have h1 := (sos_density_wrong vle (B := 5 / 6) (R := 1) (T := 1) (g := 1) (by norm_num) (by norm_num) (by norm_num) (by norm_num)).1
  rw [show (1 : ℝ) * 1 * (2 * 1 + 3 * (5 / 6) * 1 ^ 2) = 9 / 2 by norm_num] at h1
  refine ⟨?_, ?_, ?_⟩
  · rw [← fit_A01 _ vle, hA1]; norm_num
  · rw [hs _ (by norm_num)]; norm_num
  · have hpos : (0 : ℝ) < Real.sqrt (41 / 4) := Real.sqrt_pos.2 (by norm_num)
    refine ⟨|Real.sqrt (1 + 2 * (5 / 6 * 1) + (1 + 5 / 6 * 1) ^ 2) - Real.sqrt (41 / 4)| / Real.sqrt (41 / 4) * 1, ?_, ?_⟩
    · simp only [FitPoint.cost, sosCost, optValue, Outcome.bind_ok]
      rw [h1, Outcome.bind_ok, hs _ (by norm_num), Outcome.bind_ok]
      unfold divO
      rw [if_neg hpos.ne', Outcome.bind_ok]
    · intro h0
      have := (rel_zero (a := Real.sqrt (1 + 2 * (5 / 6 * 1) + (1 + 5 / 6 * 1) ^ 2)) hpos one_pos).2.1 h0
      have h2 := (Real.sqrt_inj (by norm_num) (by norm_num)).1 this
      norm_num at h2

/-! ## The sequential and the threaded cost function -/

/-- The sum of the contributions as numbers, those that are not finite counting `1e30`. -/
noncomputable def penalised (o : Outcome ℝ) : ℝ :=
  match o with
  | .ok x => x
  | _ => 1e30

theorem costSum_noRaise (cs : List (Outcome ℝ)) (h : ∀ c ∈ cs, NoRaise c) :
    costSum cs = if ∀ c ∈ cs, c ≠ .nonFinite then .ok ((cs.map penalised).sum) else .nonFinite := by
  induction cs with
  | nil => simp [costSum]
  | cons c cs ih =>
    have ih' := ih fun c hc => h c (List.mem_cons_of_mem _ hc)
    rcases h c (List.mem_cons_self ..) with ⟨x, rfl⟩ | rfl
    · simp only [costSum, ih']
      by_cases hh : ∀ c ∈ cs, c ≠ .nonFinite
      · rw [if_pos hh, if_pos (by
          intro c hc
          rcases List.mem_cons.1 hc with rfl | hc
          · simp
          · exact hh c hc), Outcome.bind_ok]
        simp [penalised]
      · rw [if_neg hh, if_neg (fun h' => hh fun c hc => h' c (List.mem_cons_of_mem _ hc))]
        rfl
    · rw [if_neg (fun h' => h' _ (List.mem_cons_self ..) rfl)]
      simp only [costSum, ih']
      split_ifs <;> rfl

theorem runTask_ok (costs : List (Outcome ℝ)) (h : ∀ c ∈ costs, NoRaise c) (b : ℕ → ℝ) (i : ℕ) (hi : i < costs.length) :
    runTask costs (.ok b) i = .ok (Function.update b i (penalised costs[i])) := by
  have hc := h costs[i] (List.getElem_mem hi)
  simp only [runTask, Outcome.bind_ok]
  have e : costs.getD i (.ok 0) = costs[i] := by simp [List.getD, hi]
  rw [e]
  rcases hc with ⟨x, hx⟩ | hx
  · rw [hx]; rfl
  · rw [hx]; rfl

theorem runTasks_ok (costs : List (Outcome ℝ)) (h : ∀ c ∈ costs, NoRaise c) (order : List ℕ) (ho : ∀ i ∈ order, i < costs.length)
    (b : ℕ → ℝ) : ∃ b', order.foldl (runTask costs) (.ok b) = .ok b' ∧
      ∀ i, b' i = if i ∈ order then penalised (costs.getD i (.ok 0)) else b i := by
  induction order generalizing b with
  | nil => exact ⟨b, rfl, fun i => by simp⟩
  | cons k order ih =>
    have hk := ho k (List.mem_cons_self ..)
    rw [List.foldl_cons, runTask_ok costs h b k hk]
    obtain ⟨b', hb', hv⟩ := ih (fun i hi => ho i (List.mem_cons_of_mem _ hi)) (Function.update b k (penalised costs[k]))
    refine ⟨b', hb', fun i => ?_⟩
    rw [hv i]
    by_cases hi : i ∈ order
    · rw [if_pos hi, if_pos (List.mem_cons_of_mem _ hi)]
    · rw [if_neg hi]
      by_cases hik : i = k
      · subst hik
        rw [if_pos (List.mem_cons_self ..), Function.update_self]
        simp [List.getD, hk]
      · rw [if_neg (fun hh => (List.mem_cons.1 hh).elim hik hi), Function.update_of_ne hik]

theorem threaded_value (o : FitOptimizer) (mk : JTree → Outcome FitModel) (x : List ℝ) {j : JTree} {m : FitModel}
    (hj : buildJSON o.jbase o.pointers x = .ok j) (hm : mk j = .ok m)
    (h : ∀ c ∈ o.contributions, NoRaise (c.cost m)) (order : List ℕ) (ho : order.Perm (List.range o.contributions.length)) :
    o.costThreaded mk order x = .ok ((o.contributions.map fun c => penalised (c.cost m)).sum) := by
  have hc : ∀ c ∈ o.contributions.map (FitPoint.cost m), NoRaise c := by
    intro c hc
    obtain ⟨c', hc', rfl⟩ := List.mem_map.1 hc
    exact h c' hc'
  obtain ⟨b, hb, hv⟩ := runTasks_ok (o.contributions.map (FitPoint.cost m)) hc order
    (fun i hi => by have := ho.mem_iff.1 hi; simpa using this) fun _ => 0
  unfold FitOptimizer.costThreaded
  rw [hj, Outcome.bind_ok, hm, Outcome.bind_ok, hb, Outcome.bind_ok]
  congr 2
  apply List.ext_getElem (by simp)
  intro i h1 h2
  simp only [List.length_map, List.length_range] at h1
  simp only [List.getElem_map, List.getElem_range]
  rw [hv i, if_pos (ho.mem_iff.2 (List.mem_range.2 h1))]
  simp [List.getD, h1]

/-- C128. When every contribution is a number, the sequential and the threaded cost function return the same value, the
sum of the contributions, whatever the order in which the tasks finish. -/
theorem fit_threaded_same (o : FitOptimizer) (mk : JTree → Outcome FitModel) (x : List ℝ) {j : JTree} {m : FitModel}
    (hj : buildJSON o.jbase o.pointers x = .ok j) (hm : mk j = .ok m) (vals : List ℝ)
    (h : o.contributions.map (FitPoint.cost m) = vals.map Outcome.ok) (order : List ℕ)
    (ho : order.Perm (List.range o.contributions.length)) :
    o.costFn mk x = .ok vals.sum ∧ o.costThreaded mk order x = .ok vals.sum := by
  have hn : ∀ c ∈ o.contributions.map (FitPoint.cost m), NoRaise c := by
    intro c hc
    rw [h] at hc
    obtain ⟨v, _, rfl⟩ := List.mem_map.1 hc
    exact Or.inl ⟨v, rfl⟩
  have hpen : (vals.map Outcome.ok).map penalised = vals := by
    rw [List.map_map]
    conv_rhs => rw [← List.map_id vals]
    rfl
  constructor
  · unfold FitOptimizer.costFn
    rw [hj, Outcome.bind_ok, hm, Outcome.bind_ok, costSum_noRaise _ hn, if_pos (by
      intro c hc
      rw [h] at hc
      obtain ⟨v, _, rfl⟩ := List.mem_map.1 hc
      simp), h, hpen]
    rfl
  · rw [threaded_value o mk x hj hm (fun c hc => hn _ (List.mem_map_of_mem hc)) order ho]
    have e : (o.contributions.map fun c => penalised (c.cost m)) = vals := by
      have : (o.contributions.map fun c => penalised (c.cost m)) = (o.contributions.map (FitPoint.cost m)).map penalised := by
        rw [List.map_map]; rfl
      rw [this, h, hpen]
    rw [e]

/-- C128. With contributions that are not finite the two differ: the sequential function returns `1e30`, the threaded one
the sum in which each of them counts `1e30` (so two failing points give `2e30` plus the rest). -/
theorem fit_threaded_differs_partial (o : FitOptimizer) (mk : JTree → Outcome FitModel) (x : List ℝ) {j : JTree} {m : FitModel}
    (hj : buildJSON o.jbase o.pointers x = .ok j) (hm : mk j = .ok m)
    (h : ∀ c ∈ o.contributions, NoRaise (c.cost m)) (hbad : ∃ c ∈ o.contributions, c.cost m = .nonFinite) (order : List ℕ)
    (ho : order.Perm (List.range o.contributions.length)) :
    o.costFn mk x = .ok 1e30 ∧
      o.costThreaded mk order x = .ok ((o.contributions.map fun c => penalised (c.cost m)).sum) := by
  refine ⟨?_, threaded_value o mk x hj hm h order ho⟩
  unfold FitOptimizer.costFn
  rw [hj, Outcome.bind_ok, hm, Outcome.bind_ok, costSum_noRaise _ (by
    intro c hc
    obtain ⟨c', hc', rfl⟩ := List.mem_map.1 hc
    exact h c' hc'), if_neg]
  · rfl
  · obtain ⟨c, hc, hn⟩ := hbad
    intro h'
    exact h' _ (List.mem_map_of_mem hc) hn

/-- A saturation point for a model whose solver returns the liquid density 3. -/
def exSat (rexp : ℝ) : FitPoint := .satRhoL ⟨300, rexp, 1, 1, 1⟩

/-- A point measured at zero density: its contribution is not finite. -/
def exZero : FitPoint := .pvt ⟨some 300, some 0, some 1, 1, 8⟩

/-- Two failing points. -/
theorem fit_threaded_witness :
    (⟨.null, [], [exZero, exZero]⟩ : FitOptimizer).costFn (fun _ => .ok ⟨fun _ _ _ _ => 0, fun _ _ _ => .ok (3, 1)⟩) [] = .ok 1e30 ∧
    (⟨.null, [], [exZero, exZero]⟩ : FitOptimizer).costThreaded (fun _ => .ok ⟨fun _ _ _ _ => 0, fun _ _ _ => .ok (3, 1)⟩) [1, 0] []
      = .ok 2e30 := by
  have hz : exZero.cost ⟨fun _ _ _ _ => 0, fun _ _ _ => .ok (3, 1)⟩ = .nonFinite := by
    simp [exZero, FitPoint.cost, pvtCost, optValue, divO, Outcome.bind_ok]
  have hall : ∀ c ∈ [exZero, exZero], NoRaise (c.cost ⟨fun _ _ _ _ => 0, fun _ _ _ => .ok (3, 1)⟩) := by
    intro c hc
    simp only [List.mem_cons, List.not_mem_nil, or_false, or_self] at hc
    subst hc
    exact Or.inr hz
  obtain ⟨h1, h2⟩ := fit_threaded_differs_partial (⟨.null, [], [exZero, exZero]⟩ : FitOptimizer)
    (fun _ => .ok ⟨fun _ _ _ _ => 0, fun _ _ _ => .ok (3, 1)⟩) [] (j := .null)
    (m := ⟨fun _ _ _ _ => 0, fun _ _ _ => .ok (3, 1)⟩) rfl rfl hall ⟨exZero, by simp, hz⟩ [1, 0] (by decide)
  refine ⟨h1, h2.trans ?_⟩
  simp only [List.map_cons, List.map_nil, hz, penalised]
  norm_num

example : (⟨.null, [], [exSat 2, exSat 5]⟩ : FitOptimizer).costThreaded
    (fun _ => .ok ⟨fun _ _ _ _ => 0, fun _ _ _ => .ok (3, 1)⟩) [1, 0] [] = .ok 3 := by
  have := (fit_threaded_same (⟨.null, [], [exSat 2, exSat 5]⟩ : FitOptimizer)
    (fun _ => .ok ⟨fun _ _ _ _ => 0, fun _ _ _ => .ok (3, 1)⟩) [] (j := .null)
    (m := ⟨fun _ _ _ _ => 0, fun _ _ _ => .ok (3, 1)⟩) rfl rfl [|3 - 2| * 1, |3 - 5| * 1] rfl [1, 0] (by decide)).2
  rw [this]
  norm_num

/-- C128. An exception of one contribution reaches the caller of the sequential function, but ends the program when it is
raised in a task of the pool. -/
theorem fit_exception (o : FitOptimizer) (mk : JTree → Outcome FitModel) (x : List ℝ) {j : JTree} {m : FitModel} {e : Err}
    (hj : buildJSON o.jbase o.pointers x = .ok j) (hm : mk j = .ok m) (c : FitPoint) (hc : o.contributions = [c])
    (he : c.cost m = .throws e) :
    o.costFn mk x = .throws e ∧ o.costThreaded mk [0] x = .ub := by
  unfold FitOptimizer.costFn FitOptimizer.costThreaded
  rw [hj, Outcome.bind_ok, hm, Outcome.bind_ok, hc, Outcome.bind_ok, hm, Outcome.bind_ok]
  constructor
  · simp [costSum, he, finiteOr]
  · simp [runTask, he, finiteOr]

example : (⟨.null, [], [exSat 2]⟩ : FitOptimizer).costThreaded
    (fun _ => .ok ⟨fun _ _ _ _ => 0, fun _ _ _ => .throws .iterationFailure⟩) [0] [] = .ub :=
  (fit_exception ⟨.null, [], [exSat 2]⟩ (fun _ => .ok ⟨fun _ _ _ _ => 0, fun _ _ _ => .throws .iterationFailure⟩) []
    (j := .null) rfl rfl (exSat 2) rfl rfl).2

/-- C124, C128. With accepted points and a saturation solver that raises nothing, both functions return a value whenever
the document and the model can be built: the sequential sum never ends in an exception and no task ends the program. -/
theorem fit_cost_total (o o' : FitOptimizer) (h0 : o.contributions = []) (cs : List FitPoint) (h : addAll cs o = .ok o')
    (mk : JTree → Outcome FitModel) (x : List ℝ) {j : JTree} {m : FitModel}
    (hj : buildJSON o'.jbase o'.pointers x = .ok j) (hm : mk j = .ok m) (hv : VleTotal m) (order : List ℕ)
    (ho : order.Perm (List.range cs.length)) :
    (∃ v, o'.costFn mk x = .ok v) ∧ ∃ v, o'.costThreaded mk order x = .ok v := by
  obtain ⟨h1, h2⟩ := fit_accepted_points o o' h0 cs h
  have hn := h2 m hv
  rw [← h1] at ho
  refine ⟨?_, _, threaded_value o' mk x hj hm hn order ho⟩
  unfold FitOptimizer.costFn
  rw [hj, Outcome.bind_ok, hm, Outcome.bind_ok, costSum_noRaise _ (by
    intro c hc
    obtain ⟨c', hc', rfl⟩ := List.mem_map.1 hc
    exact hn c' hc')]
  split_ifs
  · exact ⟨_, rfl⟩
  · exact ⟨_, rfl⟩

example : ∃ o', addAll [exSat 2, exZero] ⟨.null, [], []⟩ = .ok o' ∧ o'.contributions = [exSat 2, exZero] := by
  refine ⟨⟨.null, [], [exSat 2, exZero]⟩, ?_, rfl⟩
  simp only [addAll]
  rw [(fit_add _ (exSat 2)).1 (by simp [exSat, FitPoint.fields]), Outcome.bind_ok,
    (fit_add _ exZero).1 (by simp [exZero, FitPoint.fields]), Outcome.bind_ok]
  rfl

example (o : FitOptimizer) : o.add (.pvt ⟨some 300, none, some 1, 1, 8⟩) = .throws .invalidArgument :=
  (fit_add o _).2 ⟨none, by simp [FitPoint.fields], rfl⟩

end Teqp.Props
