import Verif.Model.Ancillary
import Verif.Lemmas.Outcome
import Mathlib.Analysis.SpecialFunctions.Pow.Continuity
import Mathlib.Analysis.SpecialFunctions.Exponential
import Mathlib.Tactic.Linarith
import Mathlib.Tactic.NormNum
import Mathlib.Tactic.FieldSimp

/-! # C62: saturation ancillaries -/

set_option autoImplicit false

namespace Teqp.Spec

/-- The sum of a saturation ancillary: coefficients times powers of the distance from the reducing
temperature. -/
noncomputable def ancSeries (theta : ℝ) (nt : List (ℝ × ℝ)) : ℝ := (nt.map fun p => p.1 * theta ^ p.2).sum

/-- The published form of an ancillary. -/
noncomputable def ancForm (Tr rv : ℝ) (tau noexp : Bool) (nt : List (ℝ × ℝ)) (T : ℝ) : ℝ :=
  let s := (if tau then Tr / T else 1) * ancSeries (1 - T / Tr) nt
  if noexp then rv * (1 + s) else rv * Real.exp s

end Teqp.Spec

namespace Teqp.Props
open Teqp.Model Teqp.Spec Filter
open scoped Topology

theorem ancSum_ok (theta : ℝ) (h0 : 0 ≤ theta) (ns ts : List ℝ) (hl : ns.length = ts.length)
    (h : 0 < theta ∨ ∀ t ∈ ts, 0 ≤ t) : ancSum theta ns ts = .ok (ancSeries theta (ns.zip ts)) := by
  induction ns generalizing ts with
  | nil => cases ts <;> simp [ancSum, ancSeries]
  | cons a ns ih =>
    cases ts with
    | nil => simp at hl
    | cons b ts =>
      have hc : cpow theta b = .ok (theta ^ b) := by
        unfold cpow
        rw [if_neg (not_lt.mpr h0), if_neg]
        rintro ⟨h1, h2⟩
        rcases h with h | h
        · exact h.ne' h1
        · exact absurd h2 (not_lt.mpr (h b (by simp)))
      rw [ancSum, hc, Outcome.bind_ok, ih ts (by simpa using hl)
        (h.imp id fun h t ht => h t (List.mem_cons_of_mem _ ht)), Outcome.bind_ok]
      simp [ancSeries, mul_comm]

/-- Below the reducing temperature every ancillary has its published value, whatever the signs of
the exponents; at the reducing temperature this needs exponents that are not negative. -/
theorem ancillary_value (a : VLEAncillary) (T : ℝ) (hT : 0 < T) (hle : T ≤ a.T_r)
    (hlen : a.n.length = a.t.length) (hne : a.t ≠ []) (h : T < a.T_r ∨ ∀ t ∈ a.t, 0 ≤ t) :
    a.eval T = .ok (ancForm a.T_r a.reducingValue a.usingTauR a.noexp (a.n.zip a.t) T) := by
  have hr : 0 < a.T_r := lt_of_lt_of_le hT hle
  have h0 : 0 ≤ 1 - T / a.T_r := by
    rw [sub_nonneg, div_le_one hr]; exact hle
  unfold VLEAncillary.eval
  rw [if_neg (not_lt.mpr hle), if_neg hr.ne', if_neg (by simp [hlen, hne]),
    ancSum_ok _ h0 _ _ hlen (h.imp (fun h => by rw [sub_pos, div_lt_one hr]; exact h) id), Outcome.bind_ok]
  unfold ancForm
  cases a.usingTauR <;> cases a.noexp <;> simp [hT.ne', mul_comm]

/-- Any temperature above the reducing temperature is refused. -/
theorem ancillary_refuses (a : VLEAncillary) (T : ℝ) : a.eval T = .throws .invalidArgument ↔ a.T_r < T := by
  constructor
  · intro h
    by_contra hn
    unfold VLEAncillary.eval at h
    rw [if_neg hn] at h
    split at h
    · cases h
    split at h
    · cases h
    have hs : ∀ th ns ts e, ancSum th ns ts ≠ .throws e := by
      intro th ns
      induction ns with
      | nil => intro ts e; cases ts <;> simp [ancSum]
      | cons b ns ih =>
        intro ts e
        cases ts with
        | nil => simp [ancSum]
        | cons c ts =>
          rw [ancSum]
          unfold cpow
          split
          · simp
          split
          · simp
          rw [Outcome.bind_ok]
          have := ih ts
          cases hx : ancSum th ns ts with
          | ok _ => simp
          | throws e' => exact absurd hx (this e')
          | ub => simp
          | nonFinite => simp
    cases hx : ancSum (1 - T / a.T_r) a.n a.t with
    | ok s =>
      rw [hx, Outcome.bind_ok] at h
      split at h
      · split at h
        · cases h
        · cases h
      · cases h
    | throws e => exact hs _ _ _ _ hx
    | ub => rw [hx] at h; cases h
    | nonFinite => rw [hx] at h; cases h
  · intro h
    unfold VLEAncillary.eval
    rw [if_pos h]

theorem ancSeries_zero (nt : List (ℝ × ℝ)) (h : ∀ p ∈ nt, 0 < p.2) : ancSeries 0 nt = 0 := by
  unfold ancSeries
  apply List.sum_eq_zero
  intro x hx
  obtain ⟨p, hp, rfl⟩ := List.mem_map.mp hx
  simp [Real.zero_rpow (h p hp).ne']

/-- With positive exponents every ancillary has its reducing value at its reducing temperature. -/
theorem ancillary_at_reducing (a : VLEAncillary) (hT : 0 < a.T_r) (hlen : a.n.length = a.t.length)
    (hne : a.t ≠ []) (h : ∀ t ∈ a.t, 0 < t) : a.eval a.T_r = .ok a.reducingValue := by
  rw [ancillary_value a a.T_r hT le_rfl hlen hne (Or.inr fun t ht => (h t ht).le)]
  congr 1
  unfold ancForm
  have : ancSeries (1 - a.T_r / a.T_r) (a.n.zip a.t) = 0 := by
    rw [div_self hT.ne', sub_self]
    exact ancSeries_zero _ fun p hp => h p.2 (List.of_mem_zip hp).2
  simp only [this]
  cases a.noexp <;> simp

/-- ... and reaches it continuously: the value tends to the reducing value from below. -/
theorem ancillary_continuous_at_reducing (a : VLEAncillary) (hT : 0 < a.T_r) (hlen : a.n.length = a.t.length)
    (hne : a.t ≠ []) (h : ∀ t ∈ a.t, 0 < t) :
    ∃ v : ℝ → ℝ, (∀ T, 0 < T → T ≤ a.T_r → a.eval T = .ok (v T)) ∧
      Tendsto v (𝓝 a.T_r) (𝓝 a.reducingValue) := by
  refine ⟨ancForm a.T_r a.reducingValue a.usingTauR a.noexp (a.n.zip a.t),
    fun T h1 h2 => ancillary_value a T h1 h2 hlen hne (Or.inr fun t ht => (h t ht).le), ?_⟩
  have hs : Tendsto (fun T => ancSeries (1 - T / a.T_r) (a.n.zip a.t)) (𝓝 a.T_r) (𝓝 0) := by
    have hz : ∀ p ∈ a.n.zip a.t, 0 < p.2 := fun p hp => h p.2 (List.of_mem_zip hp).2
    rw [← ancSeries_zero _ hz]
    have hth : Tendsto (fun T => 1 - T / a.T_r) (𝓝 a.T_r) (𝓝 0) := by
      have : Continuous fun T : ℝ => 1 - T / a.T_r := by fun_prop
      have h2 := this.tendsto a.T_r
      rwa [div_self hT.ne', sub_self] at h2
    generalize a.n.zip a.t = nt at hz ⊢
    induction nt with
    | nil => simp [ancSeries]
    | cons p nt ih =>
      have e : ∀ th, ancSeries th (p :: nt) = p.1 * th ^ p.2 + ancSeries th nt := fun th => by simp [ancSeries]
      simp only [e]
      refine Tendsto.add ?_ (ih fun q hq => hz q (List.mem_cons_of_mem _ hq))
      have hp := hz p (by simp)
      exact (((Real.continuousAt_rpow_const 0 p.2 (Or.inr hp.le)).tendsto).comp hth).const_mul p.1
  have htau : Tendsto (fun T : ℝ => if a.usingTauR then a.T_r / T else 1) (𝓝 a.T_r) (𝓝 1) := by
    cases a.usingTauR
    · simp
    · simp only [if_true]
      have : ContinuousAt (fun T : ℝ => a.T_r / T) a.T_r := continuousAt_const.div continuousAt_id hT.ne'
      have h2 := this.tendsto
      rwa [div_self hT.ne'] at h2
  have hm := htau.mul hs
  rw [one_mul] at hm
  unfold ancForm
  cases a.noexp
  · simp only [Bool.false_eq_true, if_false]
    have := ((Real.continuous_exp.tendsto 0).comp hm).const_mul a.reducingValue
    rw [Real.exp_zero, mul_one] at this
    exact this
  · simp only [if_true]
    have := (hm.const_add 1).const_mul a.reducingValue
    rw [add_zero, mul_one] at this
    exact this

/-- The exponential forms are positive whenever they have a value. -/
theorem ancillary_positive (a : VLEAncillary) (T v : ℝ) (hne : a.noexp = false) (hr : 0 < a.reducingValue)
    (h : a.eval T = .ok v) : 0 < v := by
  unfold VLEAncillary.eval at h
  split at h
  · cases h
  split at h
  · cases h
  split at h
  · cases h
  obtain ⟨s, -, h⟩ := Outcome.bind_eq_ok.mp h
  obtain ⟨s', -, h⟩ := Outcome.bind_eq_ok.mp h
  rw [hne] at h
  simp only [Bool.false_eq_true, if_false, Outcome.ok.injEq] at h
  rw [← h]
  positivity

/-- The exception to the exponential form is made for `rhoLnoexp` only. -/
theorem ancillary_make_noexp (j : JTree) (a : VLEAncillary) (h : VLEAncillary.make j = .ok a) :
    (a.noexp = true ↔ a.type = "rhoLnoexp") ∧ (j.at "T_r").bind JTree.toDouble = .ok a.T_r ∧
      (j.at "n").bind JTree.toRow = .ok a.n ∧ (j.at "t").bind JTree.toRow = .ok a.t ∧
      (j.at "reducing_value").bind JTree.toDouble = .ok a.reducingValue ∧
      (j.at "using_tau_r").bind JTree.toBool = .ok a.usingTauR ∧ (j.at "type").bind JTree.toStr = .ok a.type := by
  unfold VLEAncillary.make at h
  obtain ⟨x1, h1, h⟩ := Outcome.bind_eq_ok.mp h
  obtain ⟨x2, h2, h⟩ := Outcome.bind_eq_ok.mp h
  obtain ⟨x3, h3, h⟩ := Outcome.bind_eq_ok.mp h
  obtain ⟨x4, h4, h⟩ := Outcome.bind_eq_ok.mp h
  obtain ⟨x5, h5, h⟩ := Outcome.bind_eq_ok.mp h
  obtain ⟨x6, h6, h⟩ := Outcome.bind_eq_ok.mp h
  obtain ⟨x7, h7, h⟩ := Outcome.bind_eq_ok.mp h
  obtain ⟨x8, h8, h⟩ := Outcome.bind_eq_ok.mp h
  obtain ⟨x9, h9, h⟩ := Outcome.bind_eq_ok.mp h
  cases h
  exact ⟨by simp, h1, h6, h7, h8, h9, h4⟩

/-- A document with one pressure ancillary (`pS`) uses it for both phases; otherwise each phase has its
own. -/
theorem ancillaries_pressure (j : JTree) (m : MultiAncillaries) (h : MultiAncillaries.make j = .ok m) :
    (j.at "rhoL").bind VLEAncillary.make = .ok m.rhoL ∧ (j.at "rhoV").bind VLEAncillary.make = .ok m.rhoV ∧
    (j.contains "pS" = true → m.pL = m.pV ∧ (j.at "pS").bind VLEAncillary.make = .ok m.pL) ∧
    (j.contains "pS" = false → (j.at "pL").bind VLEAncillary.make = .ok m.pL ∧
      (j.at "pV").bind VLEAncillary.make = .ok m.pV) := by
  unfold MultiAncillaries.make at h
  obtain ⟨x1, h1, h⟩ := Outcome.bind_eq_ok.mp h
  obtain ⟨x2, h2, h⟩ := Outcome.bind_eq_ok.mp h
  obtain ⟨x3, h3, h⟩ := Outcome.bind_eq_ok.mp h
  obtain ⟨x4, h4, h⟩ := Outcome.bind_eq_ok.mp h
  cases h
  refine ⟨h1, h2, ?_, ?_⟩
  · intro hc
    rw [if_pos hc] at h3 h4
    refine ⟨?_, h3⟩
    have := h3.symm.trans h4
    cases this
    rfl
  · intro hc
    rw [hc] at h3 h4
    simp only [Bool.false_eq_true, if_false] at h3 h4
    exact ⟨h3, h4⟩

/-- A liquid-density ancillary of the usual kind. -/
noncomputable def ancWitness : VLEAncillary :=
  ⟨300, 300, 200, "rhoLnoexp", [2, 1], [1, 2], 10000, false, true⟩

example : ancWitness.eval 300 = .ok 10000 :=
  ancillary_at_reducing ancWitness (by norm_num [ancWitness]) rfl (by simp [ancWitness])
    (by intro t ht; simp [ancWitness] at ht; rcases ht with rfl | rfl <;> norm_num)

example : ancWitness.eval 150 = .ok 22500 := by
  rw [ancillary_value ancWitness 150 (by norm_num) (by norm_num [ancWitness]) rfl (by simp [ancWitness])
    (Or.inl (by norm_num [ancWitness]))]
  congr 1
  norm_num [ancForm, ancSeries, ancWitness]

example : ancWitness.eval 301 = .throws .invalidArgument :=
  (ancillary_refuses _ _).mpr (by norm_num [ancWitness])

/-- A vapour-pressure ancillary is positive. -/
example : ∃ v, (⟨300, 300, 200, "pS", [-7, 1], [1, 1.5], 4e6, true, false⟩ : VLEAncillary).eval 250 = .ok v ∧ 0 < v := by
  refine ⟨_, ancillary_value _ 250 (by norm_num) (by norm_num) rfl (by simp) (Or.inl (by norm_num)), ?_⟩
  exact ancillary_positive (⟨300, 300, 200, "pS", [-7, 1], [1, 1.5], 4e6, true, false⟩ : VLEAncillary) 250 _ rfl
    (by norm_num) (ancillary_value _ 250 (by norm_num) (by norm_num) rfl (by simp) (Or.inl (by norm_num)))

/-- The lower validity limit is not checked: a temperature below `Tmin` is not refused. -/
theorem ancillary_no_lower_limit : ∃ (a : VLEAncillary) (T : ℝ), T < a.Tmin ∧ ∃ v, a.eval T = .ok v := by
  refine ⟨ancWitness, 150, by norm_num [ancWitness], _,
    ancillary_value ancWitness 150 (by norm_num) (by norm_num [ancWitness]) rfl (by simp [ancWitness])
      (Or.inl (by norm_num [ancWitness]))⟩

/-- Without positive exponents the reducing value is missed. -/
theorem ancillary_zero_exponent :
    (⟨300, 300, 200, "rhoLnoexp", [2], [0], 10000, false, true⟩ : VLEAncillary).eval 300 = .ok 30000 := by
  rw [ancillary_value _ 300 (by norm_num) (by norm_num) rfl (by simp) (Or.inr (by simp))]
  congr 1
  norm_num [ancForm, ancSeries]

end Teqp.Props
