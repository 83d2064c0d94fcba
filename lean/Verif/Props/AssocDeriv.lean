import Verif.Lemmas.MassActionDeriv
import Verif.Props.AssocVirial
import Mathlib.Analysis.SpecialFunctions.Sqrt
import Mathlib.Analysis.SpecialFunctions.Log.Deriv
import Mathlib.Tactic

/-! # C166: derivatives through the solver for the site fractions

`/repo/include/teqp/models/association/association.hpp` lines 370-433 is differentiated by running it with numbers that carry a
derivative.  The fractions are defined by the law of mass action, so the derivative wanted is that of its solution. -/

set_option autoImplicit false

namespace Teqp.Props
open Teqp.Model Teqp.Spec Teqp.Lemmas Finset Filter
open scoped Topology

variable {n : ℕ}

/-- A number with its derivative. -/
noncomputable def dual (a a' : ℝ) : DualNumber ℝ := TrivSqZeroExt.inl a + TrivSqZeroExt.inr a'

@[simp] theorem dual_fst (a a' : ℝ) : (dual a a').fst = a := by simp [dual]
@[simp] theorem dual_snd (a a' : ℝ) : (dual a a').snd = a' := by simp [dual]

theorem massStep_fst (α : ℝ) (K : Fin n → Fin n → DualNumber ℝ) (X : Fin n → DualNumber ℝ) (i : Fin n) :
    (massStep α K X i).fst = maG α (fun i j => (K i j).fst) (fun j => (X j).fst) i := by
  unfold massStep maG maF
  change (TrivSqZeroExt.inl α * X i + TrivSqZeroExt.inl (1 - α) *
    (TrivSqZeroExt.inl ((1 + ∑ j, K i j * X j : DualNumber ℝ).fst⁻¹) +
      TrivSqZeroExt.inr (-(1 + ∑ j, K i j * X j : DualNumber ℝ).snd / (1 + ∑ j, K i j * X j : DualNumber ℝ).fst ^ 2)) : DualNumber ℝ).fst = _
  simp [TrivSqZeroExt.fst_sum]

theorem massStep_snd (α : ℝ) (K : Fin n → Fin n → DualNumber ℝ) (X : Fin n → DualNumber ℝ) (i : Fin n) :
    (massStep α K X i).snd = α * (X i).snd - (1 - α) * (maF (fun i j => (K i j).fst) (fun j => (X j).fst) i) ^ 2 *
      ∑ j, ((K i j).snd * (X j).fst + (K i j).fst * (X j).snd) := by
  unfold massStep maF
  change (TrivSqZeroExt.inl α * X i + TrivSqZeroExt.inl (1 - α) *
    (TrivSqZeroExt.inl ((1 + ∑ j, K i j * X j : DualNumber ℝ).fst⁻¹) +
      TrivSqZeroExt.inr (-(1 + ∑ j, K i j * X j : DualNumber ℝ).snd / (1 + ∑ j, K i j * X j : DualNumber ℝ).fst ^ 2)) : DualNumber ℝ).snd = _
  simp only [DualNumber.snd_mul, TrivSqZeroExt.snd_add, TrivSqZeroExt.fst_inl, TrivSqZeroExt.snd_inl, TrivSqZeroExt.snd_inr,
    TrivSqZeroExt.fst_add, TrivSqZeroExt.fst_inr, TrivSqZeroExt.snd_one, TrivSqZeroExt.fst_one, TrivSqZeroExt.fst_sum, TrivSqZeroExt.snd_sum,
    TrivSqZeroExt.fst_mul]
  have : ∑ j, ((K i j).fst * (X j).snd + (K i j).snd * (X j).fst) = ∑ j, ((K i j).snd * (X j).fst + (K i j).fst * (X j).snd) :=
    sum_congr rfl fun j _ => add_comm _ _
  rw [this]
  generalize 1 + ∑ j, (K i j).fst * (X j).fst = s
  rw [inv_pow, div_eq_mul_inv]
  ring

theorem massStep_iter_fst (α : ℝ) (K : Fin n → Fin n → DualNumber ℝ) (k : ℕ) :
    (fun i => ((massStep α K)^[k] (fun _ => 1) i).fst) = (maG α fun i j => (K i j).fst)^[k] fun _ => 1 := by
  induction k with
  | zero => funext i; simp
  | succ k ih =>
    rw [Function.iterate_succ_apply', Function.iterate_succ_apply', ← ih]
    funext i
    exact massStep_fst _ _ _ _

/-- The solver returns one of the substitutes, as for numbers without derivatives; only the values are looked at. -/
theorem ssLoop_dual (α rtol atol : ℝ) (K : Fin n → Fin n → DualNumber ℝ) (m : ℕ) (X : Fin n → DualNumber ℝ) :
    ∃ k ≤ m, ssLoop α rtol atol K m X = (massStep α K)^[k] X ∧
      (k < m → ∀ i, |((massStep α K)^[k + 1] X i).fst - ((massStep α K)^[k] X i).fst| < rtol * ((massStep α K)^[k + 1] X i).fst + atol) := by
  induction m generalizing X with
  | zero => exact ⟨0, le_rfl, rfl, fun h => absurd h (lt_irrefl _)⟩
  | succ m ih =>
    have hiff : (∀ i, |ADScalar.base (massStep α K X i - X i)| < ADScalar.base (ADScalar.ofR rtol * massStep α K X i + ADScalar.ofR atol)) ↔
        ∀ i, |(massStep α K X i).fst - (X i).fst| < rtol * (massStep α K X i).fst + atol := by
      refine forall_congr' fun i => ?_
      change |(massStep α K X i - X i : DualNumber ℝ).fst| <
        (TrivSqZeroExt.inl rtol * massStep α K X i + TrivSqZeroExt.inl atol : DualNumber ℝ).fst ↔ _
      simp
    by_cases h : ∀ i, |(massStep α K X i).fst - (X i).fst| < rtol * (massStep α K X i).fst + atol
    · refine ⟨0, Nat.zero_le _, ?_, fun _ => h⟩
      rw [ssLoop]
      exact if_pos (hiff.2 h)
    · obtain ⟨k, hk, he, hc⟩ := ih (massStep α K X)
      refine ⟨k + 1, Nat.succ_le_succ hk, ?_, ?_⟩
      · rw [ssLoop]
        refine (if_neg fun h' => h (hiff.1 h')).trans ?_
        rw [Function.iterate_succ_apply]
        exact he
      · intro hlt
        have := hc (by omega)
        rw [Function.iterate_succ_apply, Function.iterate_succ_apply (n := k)]
        exact this

/-- A sequence that contracts up to a disturbance that dies out. -/
theorem tendsto_of_contract {a d : ℕ → ℝ} {c : ℝ} (hc0 : 0 ≤ c) (hc1 : c < 1) (ha : ∀ k, 0 ≤ a k)
    (h : ∀ᶠ k in atTop, a (k + 1) ≤ c * a k + d k) (hd : Tendsto d atTop (𝓝 0)) : Tendsto a atTop (𝓝 0) := by
  rw [Metric.tendsto_atTop]
  intro ε hε
  have h1 : ∀ᶠ k in atTop, d k < ε / 2 * (1 - c) := hd.eventually_lt_const (by have : 0 < 1 - c := by linarith
                                                                               positivity)
  obtain ⟨N, hN⟩ := eventually_atTop.1 (h.and h1)
  have h2 : ∀ m, a (N + m) - ε / 2 ≤ c ^ m * a N := by
    intro m
    induction m with
    | zero => simp; linarith
    | succ m ih =>
      obtain ⟨p1, p2⟩ := hN (N + m) (by omega)
      have : a (N + (m + 1)) ≤ c * a (N + m) + d (N + m) := p1
      have q := mul_le_mul_of_nonneg_left ih hc0
      rw [pow_succ]
      nlinarith
  have h3 : Tendsto (fun m => c ^ m * a N) atTop (𝓝 0) := by
    have := (tendsto_pow_atTop_nhds_zero_of_lt_one hc0 hc1).mul_const (a N)
    rwa [zero_mul] at this
  obtain ⟨M, hM⟩ := eventually_atTop.1 (h3.eventually_lt_const (half_pos hε))
  refine ⟨N + M, fun k hk => ?_⟩
  obtain ⟨m, rfl⟩ : ∃ m, k = N + m := ⟨k - N, by omega⟩
  have q1 := h2 m
  have q2 := hM m (by omega)
  rw [Real.dist_eq, sub_zero, abs_of_nonneg (ha _)]
  linarith

/-- **C166.** The derivatives carried by the substitutions converge to the derivative of the solution of the law of mass action. -/
theorem dual_iteration_converges (α : ℝ) (h0 : 0 ≤ α) (h1 : α < 1) (K K' : Fin n → Fin n → ℝ) (hK : ∀ i j, 0 ≤ K i j)
    (Y P : Fin n → ℝ) (hY : MassAction K Y) (hP : LinMassAction K K' Y P) (i : Fin n) :
    Tendsto (fun k => ((massStep α fun i j => dual (K i j) (K' i j))^[k] (fun _ => 1) i).snd) atTop (𝓝 (P i)) := by
  obtain ⟨hpos, hfix⟩ := (massAction_iff hK Y).1 hY
  have hunit := maF_unit_of_pos hK hpos hfix
  set Kd : Fin n → Fin n → DualNumber ℝ := fun i j => dual (K i j) (K' i j) with hKd
  set D : ℕ → Fin n → DualNumber ℝ := fun k => (massStep α Kd)^[k] (fun _ => 1) with hD
  have hKf : (fun i j => (Kd i j).fst) = K := by funext a b; simp [hKd]
  have hX : ∀ j, Tendsto (fun k => (D k j).fst) atTop (𝓝 (Y j)) := fun j => by
    refine (maG_tendsto h0 h1 hK hunit hfix j).congr fun k => ?_
    have := congrFun (massStep_iter_fst α Kd k) j
    rw [hKf] at this
    exact this.symm
  have hF : ∀ j, Tendsto (fun k => maF K (fun a => (D k a).fst) j) atTop (𝓝 (Y j)) := fun j => by
    conv_rhs => rw [← hfix]
    unfold maF
    refine Tendsto.inv₀ (tendsto_const_nhds.add (tendsto_finset_sum _ fun a _ => (hX a).const_mul _)) ?_
    have := ma_sum_nonneg hK (fun i => (hpos i).le) j
    linarith
  -- the recursion of the errors
  have hrec : ∀ k j, (D (k + 1) j).snd - P j = α * ((D k j).snd - P j) -
      (1 - α) * (maF K (fun a => (D k a).fst) j) ^ 2 * ∑ a, K j a * ((D k a).snd - P a) +
      (1 - α) * ((Y j) ^ 2 * ∑ a, (K' j a * Y a + K j a * P a) -
        (maF K (fun a => (D k a).fst) j) ^ 2 * ∑ a, (K' j a * (D k a).fst + K j a * P a)) := by
    intro k j
    have e : D (k + 1) = massStep α Kd (D k) := Function.iterate_succ_apply' _ _ _
    rw [e, massStep_snd, hKf]
    simp only [hKd, dual_fst, dual_snd]
    have e2 : ∑ a, (K' j a * (D k a).fst + K j a * (D k a).snd) =
        ∑ a, K j a * ((D k a).snd - P a) + ∑ a, (K' j a * (D k a).fst + K j a * P a) := by
      rw [← sum_add_distrib]
      exact sum_congr rfl fun a _ => by ring
    rw [e2]
    have e3 := hP j
    linear_combination (1 - α) * (-e3)
  haveI : Nonempty (Fin n) := ⟨i⟩
  -- the error relative to the fractions
  set e : ℕ → ℝ := fun k => univ.sup' univ_nonempty fun j => |(D k j).snd - P j| / Y j with he
  have hle : ∀ k j, |(D k j).snd - P j| ≤ Y j * e k := fun k j => by
    have := le_sup' (fun j => |(D k j).snd - P j| / Y j) (mem_univ j)
    rw [div_le_iff₀ (hpos j)] at this
    linarith
  have he0 : ∀ k, 0 ≤ e k := fun k => by
    have := le_sup' (fun j => |(D k j).snd - P j| / Y j) (mem_univ i)
    exact (div_nonneg (abs_nonneg _) (hpos i).le).trans this
  set δ : ℕ → Fin n → ℝ := fun k j => (Y j) ^ 2 * ∑ a, (K' j a * Y a + K j a * P a) -
        (maF K (fun a => (D k a).fst) j) ^ 2 * ∑ a, (K' j a * (D k a).fst + K j a * P a) with hδ
  have hδ0 : ∀ j, Tendsto (fun k => δ k j) atTop (𝓝 0) := fun j => by
    have : Tendsto (fun k => δ k j) atTop (𝓝 ((Y j) ^ 2 * ∑ a, (K' j a * Y a + K j a * P a) -
        (Y j) ^ 2 * ∑ a, (K' j a * Y a + K j a * P a))) :=
      tendsto_const_nhds.sub (((hF j).pow 2).mul (tendsto_finset_sum _ fun a _ => ((hX a).const_mul _).add tendsto_const_nhds))
    rwa [sub_self] at this
  -- the rate
  obtain ⟨j0, -, hj0⟩ := Finset.exists_min_image univ Y univ_nonempty
  set c : ℝ := 1 - (1 - α) * (Y j0 / 2) with hc
  have hα : 0 < 1 - α := by linarith
  have hc1 : c < 1 := by have := mul_pos hα (half_pos (hpos j0)); linarith
  have hc0 : 0 ≤ c := by
    have : (1 - α) * (Y j0 / 2) ≤ 1 * 1 := mul_le_mul (by linarith) (by have := (hunit j0).2; linarith) (half_pos (hpos j0)).le one_pos.le
    linarith
  have hrate : ∀ j, ∀ᶠ k in atTop, (maF K (fun a => (D k a).fst) j) ^ 2 * ∑ a, K j a * Y a ≤ Y j * (1 - Y j0 / 2) := fun j => by
    have ht : Tendsto (fun k => (maF K (fun a => (D k a).fst) j) ^ 2 * ∑ a, K j a * Y a) atTop (𝓝 ((Y j) ^ 2 * ∑ a, K j a * Y a)) :=
      ((hF j).pow 2).mul_const _
    have hlt : (Y j) ^ 2 * ∑ a, K j a * Y a < Y j * (1 - Y j0 / 2) := by
      have e1 : (Y j) ^ 2 * ∑ a, K j a * Y a = Y j * (1 - Y j) := by rw [← massAction_sum hY j]; ring
      rw [e1]
      have := hj0 j (mem_univ _)
      have := hpos j0
      exact mul_lt_mul_of_pos_left (by linarith) (hpos j)
    exact (ht.eventually_lt_const hlt).mono fun k h => h.le
  have hstep : ∀ᶠ k in atTop, e (k + 1) ≤ c * e k + ∑ j, (1 - α) * |δ k j| / Y j := by
    filter_upwards [eventually_all.2 hrate] with k hk
    refine sup'_le _ _ fun j _ => ?_
    rw [hrec k j]
    have b1 : |α * ((D k j).snd - P j)| ≤ α * (Y j * e k) := by
      rw [abs_mul, abs_of_nonneg h0]
      exact mul_le_mul_of_nonneg_left (hle k j) h0
    have b2 : |(1 - α) * (maF K (fun a => (D k a).fst) j) ^ 2 * ∑ a, K j a * ((D k a).snd - P a)| ≤
        (1 - α) * (Y j * (1 - Y j0 / 2) * e k) := by
      rw [abs_mul, abs_of_nonneg (mul_nonneg hα.le (sq_nonneg _)), mul_assoc]
      refine mul_le_mul_of_nonneg_left ?_ hα.le
      have q : |∑ a, K j a * ((D k a).snd - P a)| ≤ (∑ a, K j a * Y a) * e k := by
        rw [sum_mul]
        refine (abs_sum_le_sum_abs _ _).trans (sum_le_sum fun a _ => ?_)
        rw [abs_mul, abs_of_nonneg (hK j a), mul_assoc]
        exact mul_le_mul_of_nonneg_left (hle k a) (hK j a)
      calc _ ≤ (maF K (fun a => (D k a).fst) j) ^ 2 * ((∑ a, K j a * Y a) * e k) := mul_le_mul_of_nonneg_left q (sq_nonneg _)
        _ = ((maF K (fun a => (D k a).fst) j) ^ 2 * ∑ a, K j a * Y a) * e k := by ring
        _ ≤ _ := mul_le_mul_of_nonneg_right (hk j) (he0 k)
    have b3 : |(1 - α) * δ k j| = (1 - α) * |δ k j| := by rw [abs_mul, abs_of_pos hα]
    have b4 : (1 - α) * |δ k j| / Y j ≤ ∑ j, (1 - α) * |δ k j| / Y j :=
      single_le_sum (f := fun j => (1 - α) * |δ k j| / Y j) (fun j _ => div_nonneg (mul_nonneg hα.le (abs_nonneg _)) (hpos j).le) (mem_univ j)
    have b5 := (abs_add_le (α * ((D k j).snd - P j) - (1 - α) * (maF K (fun a => (D k a).fst) j) ^ 2 *
      ∑ a, K j a * ((D k a).snd - P a)) ((1 - α) * δ k j)).trans (add_le_add_left (abs_sub _ _) _)
    rw [b3] at b5
    refine (div_le_div_of_nonneg_right (b5.trans (add_le_add_left (add_le_add b1 b2) _)) (hpos j).le).trans ?_
    have b6 : (α * (Y j * e k) + (1 - α) * (Y j * (1 - Y j0 / 2) * e k) + (1 - α) * |δ k j|) / Y j = c * e k + (1 - α) * |δ k j| / Y j := by
      have := (hpos j).ne'
      rw [hc]
      field_simp
      ring
    rw [b6]
    linarith
  have hsum : Tendsto (fun k => ∑ j, (1 - α) * |δ k j| / Y j) atTop (𝓝 0) := by
    have : Tendsto (fun k => ∑ j, (1 - α) * |δ k j| / Y j) atTop (𝓝 (∑ j, (1 - α) * |(0 : ℝ)| / Y j)) :=
      tendsto_finset_sum _ fun j _ => (((hδ0 j).abs).const_mul _).div_const _
    simpa using this
  have hez := tendsto_of_contract hc0 hc1 he0 hstep hsum
  rw [tendsto_iff_dist_tendsto_zero]
  refine squeeze_zero (fun _ => dist_nonneg) (fun k => ?_) (by simpa using hez.const_mul (Y i))
  rw [Real.dist_eq]
  exact hle k i

/-- So with both tolerances set to zero the derivatives of the fractions and of the contribution to the Helmholtz energy approach the
exact ones as the permitted number of iterations grows.  `k` are the strengths as functions of a variable (density, temperature),
`Y` the exact fractions. -/
theorem assoc_derivative_limit (α : ℝ) (h0 : 0 ≤ α) (h1 : α < 1) (k : ℝ → Fin n → Fin n → ℝ) (k' : Fin n → Fin n → ℝ) (t0 : ℝ)
    (hk : ∀ᶠ t in 𝓝 t0, ∀ i j, 0 ≤ k t i j) (hd : ∀ i j, HasDerivAt (fun t => k t i j) (k' i j) t0) (Y : ℝ → Fin n → ℝ)
    (hY : ∀ᶠ t in 𝓝 t0, MassAction (k t) (Y t)) (x : List ℝ) (comp count : Fin n → ℕ) :
    (∀ i, ∃ P, HasDerivAt (fun t => Y t i) P t0 ∧
      Tendsto (fun m => (ssLoop α 0 0 (fun i j => dual (k t0 i j) (k' i j)) m (fun _ => 1) i).snd) atTop (𝓝 P)) ∧
    ∃ S, HasDerivAt (fun t => assocSum x comp count (Y t)) S t0 ∧
      Tendsto (fun m => (assocSum (x.map TrivSqZeroExt.inl) comp count
        (ssLoop α 0 0 (fun i j => dual (k t0 i j) (k' i j)) m (fun _ => 1))).snd) atTop (𝓝 S) := by
  have hK := hk.self_of_nhds
  have hY0 := hY.self_of_nhds
  obtain ⟨P, hP, -⟩ := lin_exists_unique hK k' hY0
  have hder := fun i => massAction_hasDeriv hk hd hY hP i
  -- without tolerances all substitutions are made
  have hall : ∀ (m : ℕ) (i : Fin n), ssLoop α 0 0 (fun i j => dual (k t0 i j) (k' i j)) m (fun _ => 1) =
      (massStep α fun i j => dual (k t0 i j) (k' i j))^[m] (fun _ => 1) := fun m i => by
    obtain ⟨l, hl, e, hc⟩ := ssLoop_dual α 0 0 (fun i j => dual (k t0 i j) (k' i j)) m (fun _ => 1)
    rcases hl.lt_or_eq with hlt | heq
    · have := hc hlt i
      rw [zero_mul, zero_add] at this
      exact absurd this (not_lt.2 (abs_nonneg _))
    · rw [e, heq]
  have hlim := fun i => dual_iteration_converges α h0 h1 (k t0) k' hK (Y t0) P hY0 hP i
  refine ⟨fun i => ⟨P i, hder i, (hlim i).congr fun m => by rw [hall m i]⟩,
    ∑ i ∈ range x.length, x.getD i 0 * ∑ I : Fin n, if comp I = i then (P I / Y t0 I - P I * (1 / 2)) * (count I : ℝ) else 0, ?_, ?_⟩
  · unfold assocSum
    refine HasDerivAt.fun_sum fun i _ => HasDerivAt.const_mul _ (HasDerivAt.fun_sum fun I _ => ?_)
    by_cases hI : comp I = i
    · simp only [if_pos hI]
      change HasDerivAt (fun t => (Real.log (Y t I) - Y t I * (1 / 2) + 1 / 2) * (count I : ℝ)) _ t0
      exact ((((hder I).log (hY0.1 I).ne').sub ((hder I).mul_const (1 / 2))).add_const (1 / 2)).mul_const _
    · simp only [if_neg hI]
      exact hasDerivAt_const _ _
  · unfold assocSum
    simp only [List.length_map, TrivSqZeroExt.snd_sum]
    refine tendsto_finset_sum _ fun i _ => ?_
    have hx : ∀ s : DualNumber ℝ, ((x.map TrivSqZeroExt.inl).getD i (0 : DualNumber ℝ) * s).snd = x.getD i 0 * s.snd := fun s => by
      have : (x.map TrivSqZeroExt.inl).getD i (0 : DualNumber ℝ) = TrivSqZeroExt.inl (x.getD i 0) := by
        by_cases hi : i < x.length <;> simp [List.getD, hi]
      rw [this, DualNumber.snd_mul]
      simp
    simp only [hx, TrivSqZeroExt.snd_sum]
    refine (tendsto_finset_sum _ fun I _ => ?_).const_mul _
    by_cases hI : comp I = i
    · simp only [if_pos hI]
      have e : ∀ X : DualNumber ℝ, ((ADScalar.log X - X * ADScalar.ofR (1 / 2) + ADScalar.ofR (1 / 2)) * ADScalar.ofR (count I : ℝ) : DualNumber ℝ).snd =
          (X.snd / X.fst - X.snd * (1 / 2)) * (count I : ℝ) := fun X => by
        change ((TrivSqZeroExt.inl (Real.log X.fst) + TrivSqZeroExt.inr (X.snd / X.fst) - X * TrivSqZeroExt.inl (1 / 2) +
          TrivSqZeroExt.inl (1 / 2)) * TrivSqZeroExt.inl (count I : ℝ) : DualNumber ℝ).snd = _
        simp [DualNumber.snd_mul]
      simp only [e]
      have hs : Tendsto (fun m => (ssLoop α 0 0 (fun i j => dual (k t0 i j) (k' i j)) m (fun _ => 1) I).snd) atTop (𝓝 (P I)) :=
        (hlim I).congr fun m => by rw [hall m I]
      have hf : Tendsto (fun m => (ssLoop α 0 0 (fun i j => dual (k t0 i j) (k' i j)) m (fun _ => 1) I).fst) atTop (𝓝 (Y t0 I)) := by
        obtain ⟨hpos, hfix⟩ := (massAction_iff hK (Y t0)).1 hY0
        refine (maG_tendsto h0 h1 hK (maF_unit_of_pos hK hpos hfix) hfix I).congr fun m => ?_
        rw [hall m I]
        have := congrFun (massStep_iter_fst α (fun i j => dual (k t0 i j) (k' i j)) m) I
        simp only [dual_fst] at this
        exact this.symm
      exact ((hs.div hf (hY0.1 I).ne').sub (hs.mul_const _)).mul_const _
    · simp only [if_neg hI, TrivSqZeroExt.snd_zero]
      exact tendsto_const_nhds

/-- With tolerances the same holds as they become small, unless some substitute hits the exact fractions: below some bound of the
tolerances, and with enough iterations, the derivatives are as close as wanted. -/
theorem assoc_derivative_tolerance (α : ℝ) (h0 : 0 ≤ α) (h1 : α < 1) (K K' : Fin n → Fin n → ℝ) (hK : ∀ i j, 0 ≤ K i j)
    (Y P : Fin n → ℝ) (hY : MassAction K Y) (hP : LinMassAction K K' Y P) (hne : ∀ m, (maG α K)^[m] (fun _ => 1) ≠ Y) (ε : ℝ) (hε : 0 < ε) :
    ∃ δ > 0, ∃ M : ℕ, ∀ rtol atol, 0 ≤ rtol → rtol + atol ≤ δ → ∀ m ≥ M, ∀ i,
      |(ssLoop α rtol atol (fun i j => dual (K i j) (K' i j)) m (fun _ => 1) i).snd - P i| < ε := by
  have hlim := fun i => dual_iteration_converges α h0 h1 K K' hK Y P hY hP i
  obtain ⟨N, hN⟩ : ∃ N, ∀ m ≥ N, ∀ i, |((massStep α fun i j => dual (K i j) (K' i j))^[m] (fun _ => 1) i).snd - P i| < ε := by
    have : ∀ᶠ m in atTop, ∀ i, |((massStep α fun i j => dual (K i j) (K' i j))^[m] (fun _ => 1) i).snd - P i| < ε :=
      eventually_all.2 fun i => by
        filter_upwards [(Metric.tendsto_nhds.1 (hlim i)) ε hε] with m hm
        rwa [Real.dist_eq] at hm
    exact eventually_atTop.1 this
  have hmove : ∀ m, ∃ i, 0 < |(maG α K)^[m + 1] (fun _ => 1) i - (maG α K)^[m] (fun _ => 1) i| := fun m => by
    by_contra hcon
    push Not at hcon
    refine hne m ?_
    have hu := maG_iterate_unit h0 h1.le hK (fun i => ⟨one_pos, le_rfl⟩ : Unit01 (fun _ : Fin n => (1 : ℝ))) m
    refine ma_unique hK (fun i => (hu i).1) ?_ hY.1 ((massAction_iff hK Y).1 hY).2
    funext i
    have h := abs_nonpos_iff.1 (hcon i)
    rw [Function.iterate_succ_apply'] at h
    unfold maG at h
    have h' : (1 - α) * (maF K ((maG α K)^[m] fun _ => 1) i - (maG α K)^[m] (fun _ => 1) i) = 0 := by
      unfold maG
      linarith
    rcases mul_eq_zero.1 h' with h'' | h''
    · linarith
    · linarith
  choose im him using hmove
  obtain ⟨δ, hδ, hδm⟩ : ∃ δ > 0, ∀ m < N, δ < |(maG α K)^[m + 1] (fun _ => 1) (im m) - (maG α K)^[m] (fun _ => 1) (im m)| := by
    clear hN
    induction N with
    | zero => exact ⟨1, one_pos, fun m hm => absurd hm (Nat.not_lt_zero _)⟩
    | succ N ih =>
      obtain ⟨d, hd, h⟩ := ih
      refine ⟨min d (|(maG α K)^[N + 1] (fun _ => 1) (im N) - (maG α K)^[N] (fun _ => 1) (im N)| / 2),
        lt_min hd (half_pos (him N)), fun m hm => ?_⟩
      rcases Nat.lt_succ_iff_lt_or_eq.1 hm with hlt | rfl
      · exact lt_of_le_of_lt (min_le_left _ _) (h m hlt)
      · exact lt_of_le_of_lt (min_le_right _ _) (half_lt_self (him m))
  refine ⟨δ, hδ, N, fun rtol atol hr ht m hm i => ?_⟩
  obtain ⟨l, hl, e, hc⟩ := ssLoop_dual α rtol atol (fun i j => dual (K i j) (K' i j)) m (fun _ => 1)
  rw [e]
  refine hN l ?_ i
  by_contra hlN
  push Not at hlN
  have h := hc (by omega) (im l)
  have f1 := congrFun (massStep_iter_fst α (fun i j => dual (K i j) (K' i j)) (l + 1)) (im l)
  have f2 := congrFun (massStep_iter_fst α (fun i j => dual (K i j) (K' i j)) l) (im l)
  simp only [dual_fst] at f1 f2
  rw [f1, f2] at h
  have hu := maG_iterate_unit h0 h1.le hK (fun i => ⟨one_pos, le_rfl⟩ : Unit01 (fun _ : Fin n => (1 : ℝ))) (l + 1) (im l)
  have := hδm l hlN
  have := mul_le_of_le_one_right hr hu.2
  linarith

/-- One kind of site that bonds with itself: the law of mass action and its derivative. -/
theorem one_site_lin (t Y : ℝ) (ht : 0 ≤ t) (hY : MassAction (fun _ _ : Fin 1 => t) (fun _ => Y)) (P : Fin 1 → ℝ) :
    LinMassAction (fun _ _ => t) (fun _ _ => 1) (fun _ => Y) P ↔ P 0 = -Y ^ 3 / (1 + t * Y ^ 2) := by
  have hp : 0 < 1 + t * Y ^ 2 := by positivity
  unfold LinMassAction
  rw [Fin.forall_fin_one, Fin.sum_univ_one, eq_div_iff hp.ne']
  constructor <;> intro h <;> linarith

/-- **C166** is false for every choice of the tolerances: the loop looks at the values only, so at a low density it stops at once and
returns the derivative zero, where the exact derivative is below minus one half. -/
theorem assoc_derivative_stopped (α rtol atol : ℝ) (h0 : 0 ≤ α) (h1 : α < 1) (hr : 0 ≤ rtol) (ha : 0 ≤ atol) (ht : 0 < rtol + atol) :
    ∃ t > 0, ∃ Y P : Fin 1 → ℝ, MassAction (fun _ _ => t) Y ∧ LinMassAction (fun _ _ => t) (fun _ _ => 1) Y P ∧ P 0 ≤ -(1 / 2) ∧
      ∀ m, (ssLoop α rtol atol (fun _ _ : Fin 1 => dual t 1) m (fun _ => 1) 0).snd = 0 := by
  refine ⟨min (1 / 8) ((rtol + atol) / 2), lt_min (by norm_num) (half_pos ht), ?_⟩
  set t := min (1 / 8) ((rtol + atol) / 2) with htd
  have t0 : 0 < t := lt_min (by norm_num) (half_pos ht)
  have t1 : t ≤ 1 / 8 := min_le_left _ _
  have t2 : t ≤ (rtol + atol) / 2 := min_le_right _ _
  obtain ⟨Y, hY, hYle, -⟩ := massAction_exists_unique (fun _ _ : Fin 1 => t) (fun _ _ => t0.le)
  obtain ⟨P, hP, -⟩ := lin_exists_unique (fun _ _ => t0.le) (fun _ _ => 1) hY
  have hYe : Y = fun _ => Y 0 := funext fun i => by rw [Subsingleton.elim i 0]
  refine ⟨Y, P, hY, hP, ?_, fun m => ?_⟩
  · rw [hYe] at hP hY
    rw [(one_site_lin t (Y 0) t0.le hY P).1 hP]
    have y0 := hY.1 0
    have y1 := hYle 0
    have e := hY.2 0
    rw [Fin.sum_univ_one] at e
    have ty : t * Y 0 ≤ 1 / 8 * 1 := mul_le_mul t1 y1 y0.le (by norm_num)
    have y2 : 8 / 9 ≤ Y 0 := by nlinarith
    have y3 : (8 / 9) ^ 3 ≤ Y 0 ^ 3 := pow_le_pow_left₀ (by norm_num) y2 3
    have y4 : t * Y 0 ^ 2 ≤ 1 / 8 * 1 := mul_le_mul t1 (by nlinarith) (sq_nonneg _) (by norm_num)
    rw [div_le_iff₀ (by positivity)]
    norm_num at y3
    linarith
  · have hstop : ∀ i, |ADScalar.base (massStep α (fun _ _ : Fin 1 => dual t 1) (fun _ => 1) i - 1)| <
        ADScalar.base (ADScalar.ofR rtol * massStep α (fun _ _ : Fin 1 => dual t 1) (fun _ => 1) i + ADScalar.ofR atol) := by
      intro i
      change |(massStep α (fun _ _ : Fin 1 => dual t 1) (fun _ => 1) i - 1 : DualNumber ℝ).fst| <
        (TrivSqZeroExt.inl rtol * massStep α (fun _ _ : Fin 1 => dual t 1) (fun _ => 1) i + TrivSqZeroExt.inl atol : DualNumber ℝ).fst
      simp only [TrivSqZeroExt.fst_sub, TrivSqZeroExt.fst_add, TrivSqZeroExt.fst_mul, TrivSqZeroExt.fst_inl, TrivSqZeroExt.fst_one, massStep_fst,
        dual_fst]
      unfold maG maF
      rw [Fin.sum_univ_one, mul_one, mul_one]
      have e : α + (1 - α) * (1 + t)⁻¹ - 1 = -((1 - α) * (t / (1 + t))) := by field_simp; ring
      have p1 : t / (1 + t) ≤ t := div_le_self t0.le (by linarith)
      have p2 : 0 ≤ t / (1 + t) := by positivity
      have p3 : (1 - α) * (t / (1 + t)) ≤ t := by nlinarith
      have p4 : 1 - t ≤ α + (1 - α) * (1 + t)⁻¹ := by linarith
      rw [e, abs_neg, abs_of_nonneg (mul_nonneg (by linarith) p2)]
      have p5 := mul_le_mul_of_nonneg_left p4 hr
      nlinarith
    cases m with
    | zero => rfl
    | succ m =>
      rw [ssLoop]
      split_ifs with hcon
      · rfl
      · exact absurd hstop hcon

/-! ## The closed form -/

/-- The first fraction of the closed form as a formula. -/
noncomputable def root2 (a b : ℝ) : ℝ := (a - b + Real.sqrt (a * a - 2 * a * b + 2 * a + b * b + 2 * b + 1) - 1) * (2 * a)⁻¹

theorem explicit_roots (a b : ℝ) (ha : 0 < a) (hb : 0 ≤ b) :
    0 < a * a - 2 * a * b + 2 * a + b * b + 2 * b + 1 ∧
    (a - b - Real.sqrt (a * a - 2 * a * b + 2 * a + b * b + 2 * b + 1) - 1) * (2 * a)⁻¹ < 0 ∧ 0 < root2 a b := by
  have hrad : a * a - 2 * a * b + 2 * a + b * b + 2 * b + 1 = (1 + b - a) ^ 2 + 4 * a := by ring
  have hpos : 0 < (1 + b - a) ^ 2 + 4 * a := by positivity
  have hgt : |1 + b - a| < Real.sqrt ((1 + b - a) ^ 2 + 4 * a) := by
    rw [← sq_lt_sq₀ (abs_nonneg _) (Real.sqrt_nonneg _), sq_abs, Real.sq_sqrt hpos.le]; linarith
  have h1 := abs_lt.mp hgt
  have hi : 0 < (2 * a)⁻¹ := by positivity
  unfold root2
  rw [hrad]
  exact ⟨hpos, mul_neg_of_neg_of_pos (by linarith) hi, mul_pos (by linarith) hi⟩

/-- In the closed form the derivatives are exact whenever the strengths are positive: those of the formula that is evaluated are those
of the fractions. -/
theorem explicit_derivative (κA κB : ℝ → ℝ) (a' b' t0 X0 : ℝ) (hA : HasDerivAt κA a' t0) (hB : HasDerivAt κB b' t0) (ha : 0 < κA t0)
    (hb : ∀ᶠ t in 𝓝 t0, 0 ≤ κB t) (X1 : DualNumber ℝ) :
    HasDerivAt (fun t => explicitX0 (κA t) (κB t) X0) (explicitX0 (dual (κA t0) a') (dual (κB t0) b') X1).snd t0 ∧
    HasDerivAt (fun t => (1 + κA t * explicitX0 (κA t) (κB t) X0)⁻¹)
      (ADScalar.inv (1 + dual (κA t0) a' * explicitX0 (dual (κA t0) a') (dual (κB t0) b') X1) : DualNumber ℝ).snd t0 := by
  obtain ⟨hr, hn, hp⟩ := explicit_roots (κA t0) (κB t0) ha hb.self_of_nhds
  -- real numbers
  have hreal : ∀ a b : ℝ, 0 < a → 0 ≤ b → explicitX0 a b X0 = root2 a b := fun a b ha hb => by
    obtain ⟨hr, hn, hp⟩ := explicit_roots a b ha hb
    unfold explicitX0
    change (if a = 0 ∨ a * a - 2 * a * b + 2 * a + b * b + 2 * b + 1 < 0 then X0
      else if (a - b - Real.sqrt (a * a - 2 * a * b + 2 * a + b * b + 2 * b + 1) - 1) * (2 * a)⁻¹ < 0 ∧ 0 < root2 a b then root2 a b
      else if 0 < (a - b - Real.sqrt (a * a - 2 * a * b + 2 * a + b * b + 2 * b + 1) - 1) * (2 * a)⁻¹ ∧ root2 a b < 0 then
        (a - b - Real.sqrt (a * a - 2 * a * b + 2 * a + b * b + 2 * b + 1) - 1) * (2 * a)⁻¹ else X0) = _
    rw [if_neg (by rintro (h | h) <;> linarith), if_pos ⟨hn, hp⟩]
  have hev : (fun t => explicitX0 (κA t) (κB t) X0) =ᶠ[𝓝 t0] fun t => root2 (κA t) (κB t) := by
    filter_upwards [hb, hA.continuousAt.eventually_const_lt ha] with t h1 h2
    exact hreal _ _ h2 h1
  -- dual numbers
  set a := κA t0 with had
  set b := κB t0 with hbd
  set q := Real.sqrt (a * a - 2 * a * b + 2 * a + b * b + 2 * b + 1) with hq
  have q0 : 0 < q := Real.sqrt_pos.2 hr
  set r' := 2 * a * a' - 2 * (a' * b + a * b') + 2 * a' + 2 * b * b' + 2 * b' with hr'
  have hrad : dual a a' * dual a a' - ADScalar.ofR 2 * dual a a' * dual b b' + ADScalar.ofR 2 * dual a a' + dual b b' * dual b b' +
      ADScalar.ofR 2 * dual b b' + 1 = dual (a * a - 2 * a * b + 2 * a + b * b + 2 * b + 1) r' := by
    change dual a a' * dual a a' - TrivSqZeroExt.inl 2 * dual a a' * dual b b' + TrivSqZeroExt.inl 2 * dual a a' + dual b b' * dual b b' +
      TrivSqZeroExt.inl 2 * dual b b' + 1 = _
    ext
    · simp
    · simp [DualNumber.snd_mul, hr']
      ring
  have hsqrt : (ADScalar.sqrt (dual (a * a - 2 * a * b + 2 * a + b * b + 2 * b + 1) r') : DualNumber ℝ) = dual q (r' / (2 * q)) := by
    change dual (Real.sqrt (dual (a * a - 2 * a * b + 2 * a + b * b + 2 * b + 1) r').fst)
      ((dual (a * a - 2 * a * b + 2 * a + b * b + 2 * b + 1) r').snd / (2 * Real.sqrt (dual (a * a - 2 * a * b + 2 * a + b * b + 2 * b + 1) r').fst)) = _
    simp only [dual_fst, dual_snd]
    rfl
  have hinv : (ADScalar.inv (ADScalar.ofR 2 * dual a a') : DualNumber ℝ) = dual (2 * a)⁻¹ (-(2 * a') / (2 * a) ^ 2) := by
    change dual (TrivSqZeroExt.inl 2 * dual a a' : DualNumber ℝ).fst⁻¹
      (-(TrivSqZeroExt.inl 2 * dual a a' : DualNumber ℝ).snd / (TrivSqZeroExt.inl 2 * dual a a' : DualNumber ℝ).fst ^ 2) = _
    simp [DualNumber.snd_mul]
  have hX2 : (dual a a' - dual b b' + dual q (r' / (2 * q)) - 1) * dual (2 * a)⁻¹ (-(2 * a') / (2 * a) ^ 2) =
      dual (root2 a b) ((a - b + q - 1) * (-(2 * a') / (2 * a) ^ 2) + (a' - b' + r' / (2 * q)) * (2 * a)⁻¹) := by
    ext
    · simp [root2, hq]
    · simp [DualNumber.snd_mul]
      ring
  have hX1 : ((dual a a' - dual b b' - dual q (r' / (2 * q)) - 1) * dual (2 * a)⁻¹ (-(2 * a') / (2 * a) ^ 2)).fst =
      (a - b - q - 1) * (2 * a)⁻¹ := by simp
  have hd : explicitX0 (dual a a') (dual b b') X1 =
      dual (root2 a b) ((a - b + q - 1) * (-(2 * a') / (2 * a) ^ 2) + (a' - b' + r' / (2 * q)) * (2 * a)⁻¹) := by
    unfold explicitX0
    simp only
    rw [hrad, hsqrt, hinv, hX2, if_neg, if_pos]
    · refine ⟨?_, ?_⟩
      · change ((dual a a' - dual b b' - dual q (r' / (2 * q)) - 1) * dual (2 * a)⁻¹ (-(2 * a') / (2 * a) ^ 2)).fst < 0
        rw [hX1]
        exact hn
      · change 0 < (dual (root2 a b) _).fst
        rw [dual_fst]
        exact hp
    · rintro (h | h)
      · change (dual a a').fst = 0 at h
        rw [dual_fst] at h
        exact ha.ne' h
      · change (dual (a * a - 2 * a * b + 2 * a + b * b + 2 * b + 1) r').fst < 0 at h
        rw [dual_fst] at h
        linarith
  have hfirst : HasDerivAt (fun t => explicitX0 (κA t) (κB t) X0) (explicitX0 (dual a a') (dual b b') X1).snd t0 := by
    refine HasDerivAt.congr_of_eventuallyEq ?_ hev
    rw [hd, dual_snd]
    unfold root2
    have h1 : HasDerivAt (fun t => κA t * κA t - 2 * κA t * κB t + 2 * κA t + κB t * κB t + 2 * κB t + 1) r' t0 := by
      refine ((((((hA.mul hA).sub ((hA.const_mul 2).mul hB)).add (hA.const_mul 2)).add (hB.mul hB)).add (hB.const_mul 2)).add_const 1).congr_deriv ?_
      rw [hr']
      ring
    have h2 := h1.sqrt hr.ne'
    have h3 := ((((hA.sub hB).add h2).sub_const 1).mul ((hA.const_mul 2).inv (by positivity : (2 : ℝ) * κA t0 ≠ 0)))
    refine h3.congr_deriv ?_
    simp only [Pi.sub_apply, Pi.add_apply, Pi.inv_apply]
    rw [← had, ← hbd, ← hq]
    ring
  refine ⟨hfirst, ?_⟩
  have hval : explicitX0 (κA t0) (κB t0) X0 = root2 a b := hreal _ _ ha hb.self_of_nhds
  have hpos : 0 < 1 + κA t0 * explicitX0 (κA t0) (κB t0) X0 := by
    rw [hval]
    positivity
  have hfm : HasDerivAt (fun t => κA t * explicitX0 (κA t) (κB t) X0) _ t0 := hA.mul hfirst
  refine ((hfm.const_add 1).fun_inv hpos.ne').congr_deriv ?_
  rw [hval]
  change _ = (dual (1 + dual a a' * explicitX0 (dual a a') (dual b b') X1 : DualNumber ℝ).fst⁻¹
    (-(1 + dual a a' * explicitX0 (dual a a') (dual b b') X1 : DualNumber ℝ).snd / (1 + dual a a' * explicitX0 (dual a a') (dual b b') X1 : DualNumber ℝ).fst ^ 2)).snd
  rw [dual_snd]
  have hf : (explicitX0 (dual a a') (dual b b') X1).fst = root2 a b := by rw [hd, dual_fst]
  simp only [TrivSqZeroExt.snd_add, TrivSqZeroExt.fst_add, TrivSqZeroExt.fst_one, TrivSqZeroExt.snd_one, TrivSqZeroExt.fst_mul, DualNumber.snd_mul,
    dual_fst, dual_snd, hf]
  ring

/-! ## One kind of site at strength two: the fraction is 1/2, its derivative -1/12 -/

theorem half_massAction : MassAction (fun _ _ : Fin 1 => (2 : ℝ)) (fun _ => 1 / 2) :=
  ⟨fun _ => by norm_num, fun _ => by rw [Fin.sum_univ_one]; norm_num⟩

theorem half_lin : LinMassAction (fun _ _ : Fin 1 => (2 : ℝ)) (fun _ _ => 1) (fun _ => 1 / 2) (fun _ => -1 / 12) :=
  (one_site_lin 2 (1 / 2) (by norm_num) half_massAction _).2 (by norm_num)

example : Tendsto (fun k => ((massStep (1 / 2) fun _ _ : Fin 1 => dual 2 1)^[k] (fun _ => 1) 0).snd) atTop (𝓝 (-1 / 12)) :=
  dual_iteration_converges (1 / 2) (by norm_num) (by norm_num) (fun _ _ => 2) (fun _ _ => 1) (fun _ _ => by norm_num) _ _ half_massAction
    half_lin 0

example : ∃ Y : ℝ → Fin 1 → ℝ, (∀ᶠ t in 𝓝 (2 : ℝ), MassAction (fun _ _ => t) (Y t)) ∧ ∃ S, HasDerivAt (fun t => assocSum [1] (fun _ => 0) (fun _ => 4) (Y t)) S 2 ∧
    Tendsto (fun m => (assocSum ([1].map TrivSqZeroExt.inl) (fun _ => 0) (fun _ => 4)
      (ssLoop (1 / 2) 0 0 (fun _ _ : Fin 1 => dual 2 1) m (fun _ => 1))).snd) atTop (𝓝 S) := by
  have hex : ∀ t : ℝ, ∃ Y : Fin 1 → ℝ, 0 ≤ t → MassAction (fun _ _ => t) Y := fun t => by
    by_cases h : 0 ≤ t
    · obtain ⟨Y, hY, -⟩ := massAction_exists_unique (n := 1) (fun _ _ => t) (fun _ _ => h)
      exact ⟨Y, fun _ => hY⟩
    · exact ⟨fun _ => 0, fun h' => absurd h' h⟩
  choose Y hY using hex
  have hpos : ∀ᶠ t in 𝓝 (2 : ℝ), 0 ≤ t := (lt_mem_nhds (by norm_num : (0 : ℝ) < 2)).mono fun t h => le_of_lt h
  exact ⟨Y, hpos.mono fun t h => hY t h, (assoc_derivative_limit (1 / 2) (by norm_num) (by norm_num) (fun t _ _ => t) (fun _ _ => 1) 2
    (hpos.mono fun t h _ _ => h) (fun _ _ => hasDerivAt_id 2) Y (hpos.mono fun t h => hY t h) [1] (fun _ => 0) (fun _ => 4)).2⟩

example : ∃ δ > 0, ∃ M : ℕ, ∀ rtol atol, 0 ≤ rtol → rtol + atol ≤ δ → ∀ m ≥ M, ∀ i,
    |(ssLoop (1 / 2) rtol atol (fun _ _ : Fin 1 => dual 2 1) m (fun _ => 1) i).snd - -1 / 12| < 1e-6 := by
  refine assoc_derivative_tolerance (1 / 2) (by norm_num) (by norm_num) (fun _ _ => 2) (fun _ _ => 1) (fun _ _ => by norm_num) _ _ half_massAction
    half_lin (fun m => ?_) _ (by norm_num)
  have key : ∀ m, 0 < (maG (1 / 2) fun _ _ : Fin 1 => (2 : ℝ))^[m] (fun _ => 1) 0 ∧ (maG (1 / 2) fun _ _ : Fin 1 => (2 : ℝ))^[m] (fun _ => 1) 0 ≠ 1 / 2 := by
    intro m
    induction m with
    | zero => exact ⟨one_pos, by norm_num⟩
    | succ m ih =>
      rw [Function.iterate_succ_apply']
      obtain ⟨h1, h2⟩ := ih
      generalize (maG (1 / 2) fun _ _ : Fin 1 => (2 : ℝ))^[m] (fun _ => 1) = X at h1 h2
      unfold maG maF
      rw [Fin.sum_univ_one]
      have h3 : 0 < 1 + 2 * X 0 := by positivity
      refine ⟨by positivity, fun h => h2 ?_⟩
      field_simp at h
      have : X 0 * (2 * X 0 - 1) = 0 := by linarith
      rcases mul_eq_zero.1 this with h | h
      · exact absurd h h1.ne'
      · linarith
  exact fun h => (key m).2 (congrFun h 0)

/-- The default options of the library. -/
example : ∃ t > 0, ∃ Y P : Fin 1 → ℝ, MassAction (fun _ _ => t) Y ∧ LinMassAction (fun _ _ => t) (fun _ _ => 1) Y P ∧ P 0 ≤ -(1 / 2) ∧
    ∀ m, (ssLoop ({} : AssocOptions).alpha ({} : AssocOptions).rtol ({} : AssocOptions).atol (fun _ _ : Fin 1 => dual t 1) m (fun _ => 1) 0).snd = 0 :=
  assoc_derivative_stopped _ _ _ (by norm_num) (by norm_num) (by norm_num) (by norm_num) (by norm_num)

example : HasDerivAt (fun t => explicitX0 t (2 * t) (1 : ℝ)) (explicitX0 (dual 2 1) (dual (2 * 2) 2) 1).snd 2 :=
  (explicit_derivative (fun t => t) (fun t => 2 * t) 1 2 2 1 (hasDerivAt_id 2) (by simpa using (hasDerivAt_id (2 : ℝ)).const_mul 2) (by norm_num)
    ((lt_mem_nhds (by norm_num : (0 : ℝ) < 2)).mono fun t h => by have : (0 : ℝ) < t := h
                                                                  linarith) 1).1

end Teqp.Props
