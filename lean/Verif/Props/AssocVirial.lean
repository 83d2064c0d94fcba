import Verif.Props.AssocAlphar
import Mathlib.Analysis.SpecialFunctions.Log.Deriv
import Mathlib.Analysis.Calculus.Deriv.Add
import Mathlib.Analysis.Calculus.Deriv.Mul
import Mathlib.Analysis.Calculus.Deriv.Slope

/-! # C76: the second virial coefficient of associating fluids

Virial coefficients are derivatives at zero density, obtained by automatic differentiation.  The derivative
of the contribution that follows from the law of mass action is compared with the derivative that the
code obtains. -/

set_option autoImplicit false

namespace Teqp.Props
open Teqp.Model Teqp.Spec Teqp.Lemmas Finset Filter
open scoped Topology

variable {n : ℕ}

theorem massAction_le_one {K : Fin n → Fin n → ℝ} (hK : ∀ i j, 0 ≤ K i j) {Y : Fin n → ℝ} (h : MassAction K Y) (i : Fin n) :
    Y i ≤ 1 := by
  obtain ⟨h1, h2⟩ := (massAction_iff hK Y).mp h
  exact (maF_unit_of_pos hK h1 h2 i).2

/-- The fractions at low density: their derivative with respect to density at zero is minus the sum of
the strengths per density. -/
theorem fraction_hasDeriv (k : ℝ → Fin n → Fin n → ℝ) (hk : ∀ ρ, 0 ≤ ρ → ∀ i j, 0 ≤ k ρ i j)
    (hc : ∀ i j, ContinuousWithinAt (fun ρ => k ρ i j) (Set.Ici 0) 0) (Y : ℝ → Fin n → ℝ)
    (hY : ∀ ρ, 0 ≤ ρ → MassAction (fun i j => ρ * k ρ i j) (Y ρ)) (i : Fin n) :
    Y 0 i = 1 ∧ HasDerivWithinAt (fun ρ => Y ρ i) (-∑ j, k 0 i j) (Set.Ici 0) 0 := by
  have hone : ∀ i, Y 0 i = 1 := fun i => by
    have := (hY 0 le_rfl).2 i
    simpa using this
  have hle : ∀ ρ, 0 ≤ ρ → ∀ i, Y ρ i ≤ 1 := fun ρ hρ i =>
    massAction_le_one (fun i j => mul_nonneg hρ (hk ρ hρ i j)) (hY ρ hρ) i
  have heq : ∀ ρ, 0 ≤ ρ → ∀ i, 1 - Y ρ i = ρ * (Y ρ i * ∑ j, k ρ i j * Y ρ j) := fun ρ hρ i => by
    have h := (hY ρ hρ).2 i
    have e : ∑ j, ρ * k ρ i j * Y ρ j = ρ * ∑ j, k ρ i j * Y ρ j := by
      rw [Finset.mul_sum]; exact Finset.sum_congr rfl fun j _ => by ring
    rw [e] at h
    linarith
  have hlim : ∀ i, Tendsto (fun ρ => Y ρ i) (𝓝[Set.Ici 0] 0) (𝓝 1) := fun i => by
    have hb : Tendsto (fun ρ => ρ * ∑ j, k ρ i j) (𝓝[Set.Ici 0] 0) (𝓝 0) := by
      have h1 : Tendsto (fun ρ : ℝ => ρ) (𝓝[Set.Ici 0] 0) (𝓝 0) := tendsto_id.mono_left nhdsWithin_le_nhds
      have h2 : Tendsto (fun ρ => ∑ j, k ρ i j) (𝓝[Set.Ici 0] 0) (𝓝 (∑ j, k 0 i j)) :=
        tendsto_finsetSum _ fun j _ => hc i j
      have := h1.mul h2
      rwa [zero_mul] at this
    have hs : Tendsto (fun ρ => 1 - Y ρ i) (𝓝[Set.Ici 0] 0) (𝓝 0) := by
      refine tendsto_of_tendsto_of_tendsto_of_le_of_le' tendsto_const_nhds hb ?_ ?_
      · filter_upwards [self_mem_nhdsWithin] with ρ hρ
        linarith [hle ρ hρ i]
      · filter_upwards [self_mem_nhdsWithin] with ρ hρ
        rw [heq ρ hρ i]
        refine mul_le_mul_of_nonneg_left ?_ hρ
        have hs0 : 0 ≤ ∑ j, k ρ i j * Y ρ j :=
          Finset.sum_nonneg fun j _ => mul_nonneg (hk ρ hρ i j) ((hY ρ hρ).1 j).le
        calc Y ρ i * ∑ j, k ρ i j * Y ρ j ≤ 1 * ∑ j, k ρ i j * Y ρ j :=
              mul_le_mul_of_nonneg_right (hle ρ hρ i) hs0
          _ = ∑ j, k ρ i j * Y ρ j := one_mul _
          _ ≤ ∑ j, k ρ i j := Finset.sum_le_sum fun j _ => mul_le_of_le_one_right (hk ρ hρ i j) (hle ρ hρ j)
    have := tendsto_const_nhds (x := (1 : ℝ)).sub hs
    simpa using this
  refine ⟨hone i, ?_⟩
  rw [hasDerivWithinAt_iff_tendsto_slope]
  have hsub : 𝓝[Set.Ici 0 \ {0}] (0 : ℝ) ≤ 𝓝[Set.Ici 0] 0 := nhdsWithin_mono _ Set.sdiff_subset
  have hT : Tendsto (fun ρ => -(Y ρ i * ∑ j, k ρ i j * Y ρ j)) (𝓝[Set.Ici 0 \ {0}] 0) (𝓝 (-(1 * ∑ j, k 0 i j * 1))) := by
    refine Tendsto.neg (Tendsto.mul ((hlim i).mono_left hsub) ?_)
    exact tendsto_finsetSum _ fun j _ => ((hc i j).mono_left hsub).mul ((hlim j).mono_left hsub)
  simp only [mul_one, one_mul] at hT
  refine hT.congr' ?_
  filter_upwards [self_mem_nhdsWithin] with ρ hρ
  have hρ0 : ρ ≠ 0 := fun h => hρ.2 (by simpa using h)
  rw [slope_def_field, hone i, sub_zero, eq_div_iff hρ0]
  have := heq ρ hρ.1 i
  linarith

/-- The derivative with respect to density of the association contribution at zero density, which is the
association contribution to the second virial coefficient: minus one half of the sum of the strengths,
weighted by fractions and multiplicities. -/
theorem assoc_virial_exact (k : ℝ → Fin n → Fin n → ℝ) (hk : ∀ ρ, 0 ≤ ρ → ∀ i j, 0 ≤ k ρ i j)
    (hc : ∀ i j, ContinuousWithinAt (fun ρ => k ρ i j) (Set.Ici 0) 0) (Y : ℝ → Fin n → ℝ)
    (hY : ∀ ρ, 0 ≤ ρ → MassAction (fun i j => ρ * k ρ i j) (Y ρ)) (x : List ℝ) (comp count : Fin n → ℕ) :
    HasDerivWithinAt (fun ρ => assocSum x comp count (Y ρ))
      (∑ i ∈ range x.length, x.getD i 0 * ∑ I : Fin n, if comp I = i then -(1/2) * (∑ J, k 0 I J) * (count I : ℝ) else 0)
      (Set.Ici 0) 0 := by
  unfold assocSum
  refine HasDerivWithinAt.fun_sum fun i _ => HasDerivWithinAt.const_mul _ (HasDerivWithinAt.fun_sum fun I _ => ?_)
  by_cases hI : comp I = i
  · simp only [if_pos hI]
    obtain ⟨h0, h⟩ := fraction_hasDeriv k hk hc Y hY I
    change HasDerivWithinAt (fun ρ => (Real.log (Y ρ I) - Y ρ I * (1/2) + 1/2) * (count I : ℝ)) _ _ _
    have hl := h.log (by rw [h0]; exact one_ne_zero)
    have := ((hl.sub (h.mul_const (1/2))).add_const (1/2)).mul_const (count I : ℝ)
    refine this.congr_deriv ?_
    rw [h0]
    ring
  · simp only [if_neg hI]
    exact hasDerivWithinAt_const _ _ _

/-! ## What the code obtains -/

/-- In dual numbers at zero density the iteration stops at once, because the values do not change; the
derivatives are never updated. -/
theorem dual_iteration_blind (α rtol atol : ℝ) (h : 0 < rtol + atol) (K : Fin n → Fin n → DualNumber ℝ)
    (hK : ∀ i j, (K i j).fst = 0) (m : ℕ) : ssLoop α rtol atol K m (fun _ => 1) = fun _ => 1 := by
  cases m with
  | zero => rfl
  | succ m =>
    rw [ssLoop]
    refine if_pos fun i => ?_
    have hstep : (massStep α K (fun _ => 1) i).fst = 1 := by
      unfold massStep
      change (TrivSqZeroExt.inl α * 1 + TrivSqZeroExt.inl (1 - α) *
        (TrivSqZeroExt.inl ((1 + ∑ j, K i j * 1 : DualNumber ℝ).fst⁻¹) +
          TrivSqZeroExt.inr (-(1 + ∑ j, K i j * 1 : DualNumber ℝ).snd / (1 + ∑ j, K i j * 1 : DualNumber ℝ).fst ^ 2)) :
          DualNumber ℝ).fst = 1
      have hs : (∑ j, K i j : DualNumber ℝ).fst = 0 := by
        rw [TrivSqZeroExt.fst_sum]
        exact Finset.sum_eq_zero fun j _ => hK i j
      simp [hs]
    change |(massStep α K (fun _ => 1) i - 1 : DualNumber ℝ).fst| <
      (TrivSqZeroExt.inl rtol * massStep α K (fun _ => 1) i + TrivSqZeroExt.inl atol : DualNumber ℝ).fst
    simp [hstep, h]

/-- The derivative of the contribution with respect to density at zero density, as obtained with dual numbers
(density `0` with derivative `1`; the strengths may depend on density). -/
noncomputable def virialByAD (o : AssocOptions) (NA : ℝ) (Delta : Fin n → Fin n → DualNumber ℝ) (D : Fin n → Fin n → ℕ)
    (comp count : Fin n → ℕ) (x : List ℝ) : ℝ :=
  (assocSum (x.map TrivSqZeroExt.inl) comp count (assocSolve o x.length (DualNumber.eps : DualNumber ℝ)
    (TrivSqZeroExt.inl NA) Delta D count (fun I => TrivSqZeroExt.inl (x.getD (comp I) 0)) (fun _ => 1))).snd

/-- In the iterative branch the association contribution to the second virial coefficient is lost: the derivative
is zero, whatever the strengths. -/
theorem assoc_virial_lost (o : AssocOptions) (h : 0 < o.rtol + o.atol) (NA : ℝ) (Delta : Fin n → Fin n → DualNumber ℝ)
    (D : Fin n → Fin n → ℕ) (comp count : Fin n → ℕ) (x : List ℝ)
    (he : o.allowExplicit = false ∨ x.length ≠ 1 ∨ n ≠ 2) : virialByAD o NA Delta D comp count x = 0 := by
  unfold virialByAD assocSolve
  simp only
  rw [dif_neg (by
    rintro ⟨h1, h2, h3, -⟩
    rcases he with he | he | he
    · rw [h1] at he; cases he
    · exact he h2
    · exact he h3), dual_iteration_blind _ _ _ h _ fun i j => by
      unfold rDDX
      simp]
  have h1 : (ADScalar.log (1 : DualNumber ℝ) - 1 * ADScalar.ofR (1/2) + ADScalar.ofR (1/2) : DualNumber ℝ) = 0 := by
    change (TrivSqZeroExt.inl (Real.log (1 : DualNumber ℝ).fst) +
      TrivSqZeroExt.inr ((1 : DualNumber ℝ).snd / (1 : DualNumber ℝ).fst) - 1 * TrivSqZeroExt.inl (1/2) +
      TrivSqZeroExt.inl (1/2) : DualNumber ℝ) = 0
    simp
  have h2 : assocSum (x.map TrivSqZeroExt.inl) comp count (fun _ : Fin n => (1 : DualNumber ℝ)) = 0 := by
    unfold assocSum
    refine Finset.sum_eq_zero fun i _ => ?_
    rw [Finset.sum_eq_zero, mul_zero]
    intro I _
    by_cases hI : comp I = i
    · rw [if_pos hI, h1, zero_mul]
    · rw [if_neg hI]
  rw [h2]
  rfl

/-- In the closed form (a pure fluid with two kinds of sites) only half of it is obtained: the fraction of
the first kind keeps its constant initial value. -/
theorem assoc_virial_half (o : AssocOptions) (ho : o.allowExplicit = true) (NA : ℝ) (Delta : Fin 2 → Fin 2 → DualNumber ℝ)
    (D : Fin 2 → Fin 2 → ℕ) (count : Fin 2 → ℕ) :
    virialByAD o NA Delta D (fun _ => 0) count [1] = -(1/2) * (NA * (count 0 : ℝ) * (Delta 0 1).fst) * (count 1 : ℝ) := by
  unfold virialByAD assocSolve
  simp only
  have hcond : useExplicit o [(1 : ℝ)].length (rDDX (DualNumber.eps : DualNumber ℝ) (TrivSqZeroExt.inl NA) Delta D
      (fun _ : Fin 2 => TrivSqZeroExt.inl ([(1 : ℝ)].getD 0 0))) := by
    refine ⟨ho, rfl, rfl, fun i => ?_⟩
    unfold rDDX
    change (DualNumber.eps * TrivSqZeroExt.inl NA * (Delta i i * TrivSqZeroExt.inl (D i i : ℝ)) *
      TrivSqZeroExt.inl ([(1 : ℝ)].getD 0 0) : DualNumber ℝ).fst = 0
    simp
  rw [dif_pos hcond]
  have hX0 : explicitX0 ((DualNumber.eps : DualNumber ℝ) * TrivSqZeroExt.inl NA * ADScalar.ofR (count 0 : ℝ) * Delta 0 1)
      ((DualNumber.eps : DualNumber ℝ) * TrivSqZeroExt.inl NA * ADScalar.ofR (count 1 : ℝ) * Delta 0 1) 1 = 1 := by
    unfold explicitX0
    simp only
    rw [if_pos]
    left
    change ((DualNumber.eps : DualNumber ℝ) * TrivSqZeroExt.inl NA * TrivSqZeroExt.inl (count 0 : ℝ) * Delta 0 1).fst = 0
    simp
  change (assocSum _ _ _ (fun i : Fin 2 => if i = 0 then explicitX0 ((DualNumber.eps : DualNumber ℝ) * TrivSqZeroExt.inl NA *
      ADScalar.ofR (count 0 : ℝ) * Delta 0 1) ((DualNumber.eps : DualNumber ℝ) * TrivSqZeroExt.inl NA *
      ADScalar.ofR (count 1 : ℝ) * Delta 0 1) 1 else ADScalar.inv (1 + ((DualNumber.eps : DualNumber ℝ) * TrivSqZeroExt.inl NA *
      ADScalar.ofR (count 0 : ℝ) * Delta 0 1) * explicitX0 ((DualNumber.eps : DualNumber ℝ) * TrivSqZeroExt.inl NA *
      ADScalar.ofR (count 0 : ℝ) * Delta 0 1) ((DualNumber.eps : DualNumber ℝ) * TrivSqZeroExt.inl NA *
      ADScalar.ofR (count 1 : ℝ) * Delta 0 1) 1))).snd = _
  rw [hX0, mul_one]
  have hinv : (ADScalar.inv (1 + (DualNumber.eps : DualNumber ℝ) * TrivSqZeroExt.inl NA * ADScalar.ofR (count 0 : ℝ) * Delta 0 1) :
      DualNumber ℝ) = TrivSqZeroExt.inl 1 + TrivSqZeroExt.inr (-(NA * (count 0 : ℝ) * (Delta 0 1).fst)) := by
    change (TrivSqZeroExt.inl ((1 + (DualNumber.eps : DualNumber ℝ) * TrivSqZeroExt.inl NA * TrivSqZeroExt.inl (count 0 : ℝ) *
      Delta 0 1).fst⁻¹) + TrivSqZeroExt.inr (-(1 + (DualNumber.eps : DualNumber ℝ) * TrivSqZeroExt.inl NA *
      TrivSqZeroExt.inl (count 0 : ℝ) * Delta 0 1).snd / (1 + (DualNumber.eps : DualNumber ℝ) * TrivSqZeroExt.inl NA *
      TrivSqZeroExt.inl (count 0 : ℝ) * Delta 0 1).fst ^ 2) : DualNumber ℝ) = _
    ext
    · simp
    · simp
  rw [hinv]
  unfold assocSum
  simp only [List.map_cons, List.map_nil, List.length_singleton, Finset.sum_range_one, if_true, Fin.sum_univ_two,
    Fin.isValue, one_ne_zero, if_false]
  change ((TrivSqZeroExt.inl (1 : ℝ)) *
    ((TrivSqZeroExt.inl (Real.log (1 : DualNumber ℝ).fst) +
      TrivSqZeroExt.inr ((1 : DualNumber ℝ).snd / (1 : DualNumber ℝ).fst) - 1 * TrivSqZeroExt.inl (1/2) +
      TrivSqZeroExt.inl (1/2)) * TrivSqZeroExt.inl (count 0 : ℝ) +
     (TrivSqZeroExt.inl (Real.log (TrivSqZeroExt.inl 1 + TrivSqZeroExt.inr (-(NA * (count 0 : ℝ) * (Delta 0 1).fst)) : DualNumber ℝ).fst) +
      TrivSqZeroExt.inr ((TrivSqZeroExt.inl 1 + TrivSqZeroExt.inr (-(NA * (count 0 : ℝ) * (Delta 0 1).fst)) : DualNumber ℝ).snd /
        (TrivSqZeroExt.inl 1 + TrivSqZeroExt.inr (-(NA * (count 0 : ℝ) * (Delta 0 1).fst)) : DualNumber ℝ).fst) -
      (TrivSqZeroExt.inl 1 + TrivSqZeroExt.inr (-(NA * (count 0 : ℝ) * (Delta 0 1).fst))) * TrivSqZeroExt.inl (1/2) +
      TrivSqZeroExt.inl (1/2)) * TrivSqZeroExt.inl (count 1 : ℝ)) : DualNumber ℝ).snd = _
  simp
  ring

/-- So the claim is false: one kind of site that bonds with itself, with unit strength per density, gives
zero where the exact value is minus one half; and two kinds give minus one half of minus one. -/
theorem assoc_virial_wrong :
    (∃ Y : ℝ → Fin 1 → ℝ, (∀ ρ, 0 ≤ ρ → MassAction (fun _ _ => ρ * 1) (Y ρ)) ∧
      HasDerivWithinAt (fun ρ => assocSum [1] (fun _ => 0) (fun _ => 1) (Y ρ)) (-(1/2)) (Set.Ici 0) 0 ∧
      virialByAD {} 1 (fun _ _ => 1) (fun _ _ : Fin 1 => 1) (fun _ => 0) (fun _ => 1) [1] = 0) ∧
    (∃ Y : ℝ → Fin 2 → ℝ, (∀ ρ, 0 ≤ ρ → MassAction (fun i j => ρ * if i = j then 0 else 1) (Y ρ)) ∧
      HasDerivWithinAt (fun ρ => assocSum [1] (fun _ => 0) (fun _ => 1) (Y ρ)) (-1) (Set.Ici 0) 0 ∧
      virialByAD {} 1 (fun _ _ => 1) (fun i j : Fin 2 => if i = j then 0 else 1) (fun _ => 0) (fun _ => 1) [1] = -(1/2)) := by
  constructor
  · have hex : ∀ ρ : ℝ, ∃ Y : Fin 1 → ℝ, 0 ≤ ρ → MassAction (fun _ _ => ρ * 1) Y := fun ρ => by
      by_cases h : 0 ≤ ρ
      · obtain ⟨Y, hY, -⟩ := massAction_exists_unique (n := 1) (fun _ _ => ρ * 1) (fun _ _ => by linarith)
        exact ⟨Y, fun _ => hY⟩
      · exact ⟨fun _ => 0, fun h' => absurd h' h⟩
    choose Y hY using hex
    refine ⟨Y, hY, ?_, ?_⟩
    · refine (assoc_virial_exact (fun _ _ _ => 1) (fun _ _ _ _ => zero_le_one) (fun _ _ => continuousWithinAt_const) Y hY
        [1] (fun _ => 0) (fun _ => 1)).congr_deriv ?_
      norm_num
    · exact assoc_virial_lost {} (by norm_num) 1 _ _ _ _ [1] (Or.inr (Or.inr (by norm_num)))
  · have hex : ∀ ρ : ℝ, ∃ Y : Fin 2 → ℝ, 0 ≤ ρ → MassAction (fun i j => ρ * if i = j then 0 else 1) Y := fun ρ => by
      by_cases h : 0 ≤ ρ
      · obtain ⟨Y, hY, -⟩ := massAction_exists_unique (n := 2) (fun i j => ρ * if i = j then 0 else 1)
          (fun i j => by split <;> linarith)
        exact ⟨Y, fun _ => hY⟩
      · exact ⟨fun _ => 0, fun h' => absurd h' h⟩
    choose Y hY using hex
    refine ⟨Y, hY, ?_, ?_⟩
    · refine (assoc_virial_exact (fun _ i j => if i = j then 0 else 1) (fun _ _ i j => by split <;> norm_num)
        (fun _ _ => continuousWithinAt_const) Y hY [1] (fun _ => 0) (fun _ => 1)).congr_deriv ?_
      norm_num [Fin.sum_univ_two]
    · rw [assoc_virial_half {} rfl 1 (fun _ _ => 1) _ (fun _ => 1)]
      simp

end Teqp.Props
