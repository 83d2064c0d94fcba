import Verif.Model.CritPolish
import Verif.Props.Newton
import Verif.Lemmas.Outcome
import Mathlib.Analysis.Calculus.IteratedDeriv.Lemmas
import Mathlib.Tactic

/-! # Polishing of critical points -/

set_option autoImplicit false

namespace Teqp.Props
open Teqp.Model

variable {m : EOS (Fin 2)} {eig : EigSolver}

/-- The solver returns solutions only. -/
def SolverSound {n : ℕ} (solve : Matrix (Fin n) (Fin n) ℝ → NVec n → Option (NVec n)) : Prop := ∀ J b v, solve J b = some v → J.mulVec v = b

/-- A finite residual is the pair of the criticality conditions. -/
theorem polishResid_some (T : ℝ) (ρ : Fin 2 → ℝ) (r : NVec 2) : polishResid m eig T ρ = some r ↔ critConditions m eig T ρ = .ok (r 0, r 1) := by
  unfold polishResid
  cases h : critConditions m eig T ρ with
  | ok c =>
    simp only [Option.some.injEq, Outcome.ok.injEq]
    constructor
    · rintro rfl; rfl
    · rintro rfl; ext i; fin_cases i <;> rfl
  | throws e => simp
  | ub => simp
  | nonFinite => simp

theorem norm2_two (r : NVec 2) : norm2 r = Real.sqrt (r 0 ^ 2 + r 1 ^ 2) := by simp [norm2, Fin.sum_univ_two]

/-- C135. Polishing at constant composition returns finite numbers with the composition given; the last state evaluated has that composition too, and there the two
conditions are fulfilled to `1e-10` unless thirty passes were used. -/
theorem polish_fixedz (solve : Matrix (Fin 2) (Fin 2) ℝ → NVec 2 → Option (NVec 2)) (T z0 : ℝ) (ρ : Fin 2 → ℝ) (r : Option ℝ × (Fin 2 → Option ℝ))
    (h : polishFixedZ m eig solve T ρ z0 = .ok r) :
    ∃ T' ρ0 ρ1, r = (some T', ![some ρ0, some ρ1]) ∧ ρ0 = z0 * (ρ0 + ρ1) ∧
      ∃ run T₁ d c₁ c₂, newtonRaphson (fun x => polishResid m eig (x 0) ![z0 * x 1, (1 - z0) * x 1]) solve ![T, ρ 0 + ρ 1] 1e-10 = .ok run ∧
        critConditions m eig T₁ ![z0 * d, (1 - z0) * d] = .ok (c₁, c₂) ∧ (run.pts.length < 30 → Real.sqrt (c₁ ^ 2 + c₂ ^ 2) < 1e-10) := by
  unfold polishFixedZ at h
  obtain ⟨run, hr, h⟩ := Outcome.bind_eq_ok.1 h
  obtain ⟨z, r0, -, -, hz, ht, hx⟩ := newton_contract _ _ _ _ _ hr
  unfold fixedzEnd at h
  split_ifs at h with hf
  injection h with h
  push Not at hf
  obtain ⟨y, hy⟩ : ∃ y, run.x = some y := by
    cases hrx : run.x with
    | none => exact absurd (by rw [hrx]; rfl) hf.1
    | some y => exact ⟨y, rfl⟩
  refine ⟨y 0, y 1 * z0, y 1 * (1 - z0), ?_, by ring, run, z 0, z 1, r0 0, r0 1, hr, (polishResid_some _ _ _).1 hz, fun hl => by rw [← norm2_two]; exact ht hl⟩
  rw [← h, hy]
  rfl

/-- The row of the Jacobian that belongs to a residual `x j - c` is exact, so that one step with a sound solver fulfils it. -/
theorem newton_linear_row {n : ℕ} (f : NVec n → Option (NVec n)) (solve : Matrix (Fin n) (Fin n) ℝ → NVec n → Option (NVec n)) (hs : SolverSound solve)
    (a j : Fin n) (c : ℝ) (hf : ∀ x r, f x = some r → r a = x j - c) (x r y : NVec n) (hr : f x = some r) (hy : newtonNext f solve x r = some y) : y j = c := by
  unfold newtonNext at hy
  cases hJ : fdJac f x r with
  | none => rw [hJ] at hy; cases hy
  | some J =>
    rw [hJ] at hy
    simp only at hy
    cases hv : solve J (fun i => -r i) with
    | none => rw [hv] at hy; cases hy
    | some v =>
      rw [hv] at hy
      simp only [Option.some.injEq] at hy
      subst hy
      have h1 := congrFun (hs _ _ _ hv) a
      have hrow : ∀ i, J a i = if i = j then 1 else 0 := by
        intro i
        unfold fdJac at hJ
        split_ifs at hJ with hsome
        simp only [Option.some.injEq] at hJ
        subst hJ
        simp only [Matrix.of_apply]
        have h2 := hf _ _ (Option.some_get (hsome i)).symm
        have h3 := hf _ _ hr
        rw [h2, h3]
        unfold argPlus
        have hp := fdStep_pos x i
        split_ifs with hij
        · subst hij
          rw [Function.update_self]
          field_simp
          ring
        · rw [Function.update_of_ne (Ne.symm hij)]
          simp
      rw [Matrix.mulVec, dotProduct] at h1
      simp only [hrow, ite_mul, one_mul, zero_mul, Finset.sum_ite_eq', Finset.mem_univ, if_true] at h1
      change x j + v j = c
      rw [h1, hf _ _ hr]
      ring

/-- C135. Polishing at one constant concentration, with a linear solver that solves, returns that concentration. -/
theorem polish_fixedrho (solve : Matrix (Fin 3) (Fin 3) ℝ → NVec 3 → Option (NVec 3)) (hs : SolverSound solve) (T : ℝ) (ρ : Fin 2 → ℝ) (i : Fin 2)
    (r : Option ℝ × (Fin 2 → Option ℝ)) (h : polishFixedRho m eig solve T ρ i = .ok r) :
    r.2 i = some (ρ i) ∧
      ∃ run T₁ ρ₁ c₁ c₂, newtonRaphson (fixedrhoResid m eig ρ i) solve ![T, ρ 0, ρ 1] 1e-10 = .ok run ∧
        critConditions m eig T₁ ρ₁ = .ok (c₁, c₂) ∧ (run.pts.length < 30 → Real.sqrt (c₁ ^ 2 + c₂ ^ 2 + (ρ₁ i - ρ i) ^ 2) < 1e-10) := by
  unfold polishFixedRho at h
  obtain ⟨run, hr, h⟩ := Outcome.bind_eq_ok.1 h
  obtain ⟨z, r0, -, -, hz, ht, hx⟩ := newton_contract _ _ _ _ _ hr
  have hrow : ∀ x r, fixedrhoResid m eig ρ i x = some r → r 2 = x i.succ - ρ i := by
    intro x r hxr
    unfold fixedrhoResid at hxr
    obtain ⟨q, -, rfl⟩ := Option.map_eq_some_iff.1 hxr
    fin_cases i <;> rfl
  unfold fixedrhoEnd at h
  by_cases hf : some T = none ∨ entries run.x 1 = none ∨ entries run.x 2 = none
  · rw [if_pos hf] at h; cases h
  rw [if_neg hf] at h
  injection h with h
  obtain ⟨y, hy⟩ : ∃ y, run.x = some y := by
    cases hrx : run.x with
    | none => exact absurd (.inr (.inl (by rw [hrx]; rfl))) hf
    | some y => exact ⟨y, rfl⟩
  have hyi := newton_linear_row _ solve hs 2 i.succ (ρ i) hrow z r0 y hz (hx ▸ hy)
  refine ⟨?_, run, z 0, ![z 1, z 2], r0 0, r0 1, hr, ?_, fun hl => ?_⟩
  · rw [← h, hy]
    fin_cases i
    · exact congrArg some hyi
    · exact congrArg some hyi
  · unfold fixedrhoResid at hz
    obtain ⟨q, hq, hq'⟩ := Option.map_eq_some_iff.1 hz
    rw [← hq']
    exact (polishResid_some _ _ _).1 hq
  · have h1 := ht hl
    have h2 := hrow _ _ hz
    rw [norm2, Fin.sum_univ_three, h2] at h1
    fin_cases i <;> exact h1

/-- C135. Polishing at constant temperature: the second concentration is finite, and the conditions at the last state evaluated are fulfilled to `1e-10` unless thirty
passes were used. -/
theorem polish_fixedT (solve : Matrix (Fin 2) (Fin 2) ℝ → NVec 2 → Option (NVec 2)) (T : ℝ) (ρ : Fin 2 → ℝ) (r : Fin 2 → Option ℝ)
    (h : polishFixedT m eig solve T ρ = .ok r) :
    r 1 ≠ none ∧ ∃ run ρ₁ c₁ c₂, newtonRaphson (polishResid m eig T) solve ρ 1e-10 = .ok run ∧
        critConditions m eig T ρ₁ = .ok (c₁, c₂) ∧ (run.pts.length < 30 → Real.sqrt (c₁ ^ 2 + c₂ ^ 2) < 1e-10) := by
  unfold polishFixedT at h
  obtain ⟨run, hr, h⟩ := Outcome.bind_eq_ok.1 h
  obtain ⟨z, r0, -, -, hz, ht, hx⟩ := newton_contract _ _ _ _ _ hr
  unfold fixedTEnd at h
  by_cases hf : some T = none ∨ entries run.x 1 = none
  · rw [if_pos hf] at h; cases h
  rw [if_neg hf] at h
  injection h with h
  refine ⟨by rw [← h]; exact fun he => hf (.inr he), run, z, r0 0, r0 1, hr, (polishResid_some _ _ _).1 hz, fun hl => by rw [← norm2_two]; exact ht hl⟩

/-- A root with finite residuals around it, and a solver that returns zero for a zero right-hand side, is left where it is. -/
theorem newton_at_root {n : ℕ} (f : NVec n → Option (NVec n)) (solve : Matrix (Fin n) (Fin n) ℝ → NVec n → Option (NVec n)) (x : NVec n) (tol : ℝ) (htol : 0 < tol)
    (h0 : f x = some fun _ => 0) (hn : ∀ i, (f (argPlus x i)).isSome) (hs : ∀ J, solve J (fun _ => 0) = some fun _ => 0) :
    newtonRaphson f solve x tol = .ok ⟨some x, [x]⟩ := by
  unfold newtonRaphson
  rw [newtonLoop]
  simp only [h0]
  rw [if_pos (by rw [norm2_zero]; exact htol)]
  unfold newtonNext fdJac
  rw [dif_pos hn]
  simp [hs]

/-- With positive concentrations the conditions can be evaluated. -/
theorem polishResid_isSome (T : ℝ) (ρ : Fin 2 → ℝ) (h : ∀ i, 0 < ρ i) : (polishResid m eig T ρ).isSome := by
  have hz : zeroCount ρ = 0 := by
    unfold zeroCount
    rw [Finset.card_eq_zero, Finset.filter_eq_empty_iff]
    exact fun i _ => (h i).ne'
  unfold polishResid critConditions getDerivs eigenProblem
  simp only [hz, if_true, Outcome.bind_ok, Option.isSome_some]

theorem argPlus_ge {n : ℕ} (x : NVec n) (i k : Fin n) : x k ≤ argPlus x i k := by
  unfold argPlus
  by_cases h : k = i
  · subst h; rw [Function.update_self]; linarith [fdStep_pos x k]
  · rw [Function.update_of_ne h]

/-- C135. A state of positive concentrations that fulfils both conditions is left as it is by all four polishers. -/
theorem polish_at_critical (solve2 : Matrix (Fin 2) (Fin 2) ℝ → NVec 2 → Option (NVec 2)) (solve3 : Matrix (Fin 3) (Fin 3) ℝ → NVec 3 → Option (NVec 3))
    (h2 : ∀ J, solve2 J (fun _ => 0) = some fun _ => 0) (h3 : ∀ J, solve3 J (fun _ => 0) = some fun _ => 0)
    (T : ℝ) (ρ : Fin 2 → ℝ) (hp : ∀ i, 0 < ρ i) (hc : critConditions m eig T ρ = .ok (0, 0)) :
    ∀ p ∈ critPolishers m eig solve2 solve3, p T ρ = .ok (some T, fun i => some (ρ i)) := by
  have hr : polishResid m eig T ρ = some fun _ => 0 := (polishResid_some _ _ _).2 hc
  have p0 := hp 0
  have p1 := hp 1
  have hρ : ρ 0 + ρ 1 ≠ 0 := by positivity
  have hv : (![ρ 0, ρ 1] : Fin 2 → ℝ) = ρ := by ext i; fin_cases i <;> rfl
  have rho : ∀ i, polishFixedRho m eig solve3 T ρ i = .ok (some T, fun i => some (ρ i)) := by
    intro i
    unfold polishFixedRho
    have hz : fixedrhoResid m eig ρ i ![T, ρ 0, ρ 1] = some fun _ => 0 := by
      unfold fixedrhoResid
      simp only [Matrix.cons_val_zero, Matrix.cons_val_one, Matrix.cons_val]
      rw [hv, hr]
      simp only [Option.map_some, Option.some.injEq, sub_self]
      ext k; fin_cases k <;> rfl
    have hall : ∀ k, (fixedrhoResid m eig ρ i (argPlus ![T, ρ 0, ρ 1] k)).isSome := by
      intro k
      unfold fixedrhoResid
      rw [Option.isSome_map]
      refine polishResid_isSome _ _ fun q => ?_
      have g1 := argPlus_ge ![T, ρ 0, ρ 1] k 1
      have g2 := argPlus_ge ![T, ρ 0, ρ 1] k 2
      fin_cases q
      · exact lt_of_lt_of_le p0 g1
      · exact lt_of_lt_of_le p1 g2
    rw [newton_at_root _ solve3 _ _ (by norm_num) hz hall h3, Outcome.bind_ok]
    unfold fixedrhoEnd entries
    rw [if_neg (by simp)]
    simp only [Option.map_some, Outcome.ok.injEq, Prod.mk.injEq]
    refine ⟨rfl, ?_⟩
    ext1 k; fin_cases k <;> rfl
  intro p hm
  simp only [critPolishers, List.mem_cons, List.not_mem_nil, or_false] at hm
  rcases hm with rfl | rfl | rfl | rfl
  · simp only
    unfold polishFixedZ
    have e0 : ρ 0 / (ρ 0 + ρ 1) * (ρ 0 + ρ 1) = ρ 0 := by field_simp
    have e1 : (1 - ρ 0 / (ρ 0 + ρ 1)) * (ρ 0 + ρ 1) = ρ 1 := by field_simp; ring
    have q0 : 0 < ρ 0 / (ρ 0 + ρ 1) := by positivity
    have q1 : 0 < 1 - ρ 0 / (ρ 0 + ρ 1) := by rw [show 1 - ρ 0 / (ρ 0 + ρ 1) = ρ 1 / (ρ 0 + ρ 1) by field_simp; ring]; positivity
    have hall : ∀ k, ((fun x : NVec 2 => polishResid m eig (x 0) ![ρ 0 / (ρ 0 + ρ 1) * x 1, (1 - ρ 0 / (ρ 0 + ρ 1)) * x 1]) (argPlus ![T, ρ 0 + ρ 1] k)).isSome := by
      intro k
      refine polishResid_isSome _ _ fun q => ?_
      have g1 : ρ 0 + ρ 1 ≤ argPlus ![T, ρ 0 + ρ 1] k 1 := argPlus_ge ![T, ρ 0 + ρ 1] k 1
      have g2 : 0 < argPlus ![T, ρ 0 + ρ 1] k 1 := lt_of_lt_of_le (by positivity) g1
      fin_cases q
      · exact mul_pos q0 g2
      · exact mul_pos q1 g2
    rw [newton_at_root (fun x : NVec 2 => polishResid m eig (x 0) ![ρ 0 / (ρ 0 + ρ 1) * x 1, (1 - ρ 0 / (ρ 0 + ρ 1)) * x 1]) solve2 ![T, ρ 0 + ρ 1] _ (by norm_num) ?_ hall h2, Outcome.bind_ok]
    · unfold fixedzEnd entries
      rw [if_neg (by simp)]
      simp only [Option.map_some, Outcome.ok.injEq, Prod.mk.injEq]
      refine ⟨rfl, ?_⟩
      ext1 k
      fin_cases k
      · exact congrArg some ((mul_comm _ _).trans e0)
      · exact congrArg some ((mul_comm _ _).trans e1)
    · simp only [Matrix.cons_val_zero, Matrix.cons_val_one]
      rw [e0, e1, hv, hr]
  · simp only
    unfold polishFixedT
    rw [newton_at_root _ solve2 _ _ (by norm_num) hr (fun k => polishResid_isSome _ _ fun q => lt_of_lt_of_le (hp q) (argPlus_ge ρ k q)) h2, Outcome.bind_ok]
    unfold fixedTEnd entries
    rw [if_neg (by simp)]
    rfl
  · exact rho 0
  · exact rho 1

/-- A model with the energy density `RT (ρ₀³/6 - ρ₀²)`, and a routine that gives the unit vectors. -/
noncomputable def cubicPsi : EOS (Fin 2) := ⟨fun _ r x => r ^ 2 * x 0 ^ 3 / 6 - r * x 0 ^ 2, fun _ => 8⟩

/-- See above. -/
noncomputable def unitEig : EigSolver := fun _ _ => (fun _ => 0, 1)

theorem cubicPsi_conditions (T : ℝ) : critConditions cubicPsi unitEig T ![1, 1] = .ok (0, 0) := by
  have hz : zeroCount (![1, 1] : Fin 2 → ℝ) = 0 := by
    unfold zeroCount
    rw [Finset.card_eq_zero, Finset.filter_eq_empty_iff]
    intro i _
    fin_cases i <;> norm_num
  have hor : orient (![1, 1] : Fin 2 → ℝ) (1 : Matrix (Fin 2) (Fin 2) ℝ) = 1 := by
    have : ¬∃ r, (1 : Matrix (Fin 2) (Fin 2) ℝ) r (minIndex ![1, 1]) < 0 := by
      rintro ⟨r, hr⟩
      rw [Matrix.one_apply] at hr
      split_ifs at hr <;> norm_num at hr
    unfold orient
    simp only [if_neg this]
    rfl
  have hP : (fun σ => Psir cubicPsi T (fun i => (![1, 1] : Fin 2 → ℝ) i + σ * (1 : Matrix (Fin 2) (Fin 2) ℝ) i 0)) =ᶠ[nhds 0]
      fun σ => 8 * T * ((1 + σ) ^ 3 / 6 - (1 + σ) ^ 2) := by
    filter_upwards [eventually_ne_nhds (show (0 : ℝ) ≠ -2 by norm_num)] with σ hσ
    have h2 : (2 : ℝ) + σ ≠ 0 := fun h => hσ (by linarith)
    have hs : rhotot (fun i => (![1, 1] : Fin 2 → ℝ) i + σ * (1 : Matrix (Fin 2) (Fin 2) ℝ) i 0) = 2 + σ := by
      simp [rhotot, Fin.sum_univ_two]; ring
    unfold Psir molefrac
    rw [hs]
    simp only [cubicPsi]
    simp
    field_simp
  have d1 : deriv (fun σ : ℝ => 8 * T * ((1 + σ) ^ 3 / 6 - (1 + σ) ^ 2)) = fun σ => 8 * T * ((1 + σ) ^ 2 / 2 - 2 * (1 + σ)) := by
    ext σ
    have h : HasDerivAt (fun σ : ℝ => 1 + σ) 1 σ := (hasDerivAt_id σ).const_add 1
    exact (((h.pow 3).div_const 6).sub (h.pow 2) |>.const_mul (8 * T) |>.congr_deriv (by push_cast; ring)).deriv
  have d2 : deriv (fun σ : ℝ => 8 * T * ((1 + σ) ^ 2 / 2 - 2 * (1 + σ))) = fun σ => 8 * T * ((1 + σ) - 2) := by
    ext σ
    have h : HasDerivAt (fun σ : ℝ => 1 + σ) 1 σ := (hasDerivAt_id σ).const_add 1
    exact (((h.pow 2).div_const 2).sub (h.const_mul 2) |>.const_mul (8 * T) |>.congr_deriv (by push_cast; ring)).deriv
  have d3 : deriv (fun σ : ℝ => 8 * T * ((1 + σ) - 2)) = fun _ => 8 * T := by
    ext σ
    have h : HasDerivAt (fun σ : ℝ => 1 + σ) 1 σ := (hasDerivAt_id σ).const_add 1
    exact ((h.sub_const 2).const_mul (8 * T) |>.congr_deriv (by ring)).deriv
  unfold critConditions getDerivs eigenProblem
  simp only [hz, if_true, Outcome.bind_ok, unitEig, alignFirst, hor]
  unfold psiTot PsirSigmaDeriv
  have v0 : EigenData.v0 (n := 0) ⟨List.ofFn fun _ : Fin 2 => (0 : ℝ), 1⟩ = fun i => (1 : Matrix (Fin 2) (Fin 2) ℝ) i 0 := rfl
  rw [v0]
  simp only [Filter.EventuallyEq.iteratedDeriv_eq _ hP]
  simp only [iteratedDeriv_succ, iteratedDeriv_zero, d1, d2, d3]
  simp only [psi0Deriv, Fin.sum_univ_two, cubicPsi]
  simp
  ring

example : ∀ p ∈ critPolishers cubicPsi unitEig (fun _ _ => some fun _ => 0) (fun _ _ => some fun _ => 0), p 300 ![1, 1] = .ok (some 300, fun i => some ((![1, 1] : Fin 2 → ℝ) i)) :=
  polish_at_critical (fun _ _ => some fun _ => 0) (fun _ _ => some fun _ => 0) (fun _ => rfl) (fun _ => rfl) 300 ![1, 1] (fun i => by fin_cases i <;> norm_num) (cubicPsi_conditions 300)

example : ∃ T' ρ0 ρ1, ((some 300, fun i => some ((![1, 1] : Fin 2 → ℝ) i)) : Option ℝ × (Fin 2 → Option ℝ)) = (some T', ![some ρ0, some ρ1]) ∧ ρ0 = 1 / 2 * (ρ0 + ρ1) := by
  have h := polish_at_critical (m := cubicPsi) (eig := unitEig) (fun _ _ => some fun _ => 0) (fun _ _ => some fun _ => 0) (fun _ => rfl) (fun _ => rfl) 300 ![1, 1]
    (fun i => by fin_cases i <;> norm_num) (cubicPsi_conditions 300) _ (List.mem_cons_self)
  rw [show (![1, 1] : Fin 2 → ℝ) 0 / ((![1, 1] : Fin 2 → ℝ) 0 + (![1, 1] : Fin 2 → ℝ) 1) = 1 / 2 by norm_num] at h
  obtain ⟨a, b, c, h1, h2, -⟩ := polish_fixedz _ _ _ _ _ h
  exact ⟨a, b, c, h1, h2⟩

/-- For finite numbers the tests of the tracer are those of `Model/CritTrace.lean`. -/
theorem polishAcceptsF_finite (opt : CritOpts) (x : Fin 3 → ℝ) (T : ℝ) (ρ : Fin 2 → ℝ) : polishAcceptsF opt x (some T, fun i => some (ρ i)) ↔ polishAccepts opt x (T, ρ) := by
  unfold polishAcceptsF polishAccepts gtF
  simp

/-- C135. Finiteness is not assured: polishing at a constant concentration tests the temperature given in place of the one found, so that a root finder that ends with finite
concentrations and a temperature that is not finite is believed; and the tests of the tracer let that temperature pass, for a comparison with it is false.  Polishing at
constant temperature tests the second concentration only. -/
theorem polish_nonfinite (opt : CritOpts) (x : Fin 3 → ℝ) (hT : 0 ≤ opt.reltolRho * crho x 0 ∧ 0 ≤ opt.reltolRho * crho x 1) :
    (∃ r, fixedrhoEnd (some (x 0)) ![none, some (x 1), some (x 2)] = .ok r ∧ r.1 = none ∧ polishAcceptsF opt x r) ∧
    (∃ r, fixedTEnd (some (x 0)) ![none, some (x 2)] = .ok r ∧ r 0 = none ∧ (¬gtF (some |x 0 - x 0|) (opt.reltolT * x 0) → polishAcceptsF opt x (some (x 0), r))) ∧
    (∀ z0 y0, fixedzEnd z0 ![none, y0] = .throws .stdInvalidArgument) ∧ (∀ z0 y0, fixedzEnd z0 ![y0, none] = .throws .stdInvalidArgument) := by
  refine ⟨⟨(none, ![some (x 1), some (x 2)]), ?_, rfl, ?_⟩, ⟨![none, some (x 2)], ?_, rfl, fun h => ?_⟩, fun z0 y0 => ?_, fun z0 y0 => ?_⟩
  · unfold fixedrhoEnd
    rw [if_neg (by simp)]
    rfl
  · refine ⟨by simp [gtF], ?_⟩
    rintro ⟨i, v, hv, hgt⟩
    fin_cases i
    · simp [crho] at hv; simp at hgt; rw [← hv] at hgt; exact absurd hgt (not_lt.2 hT.1)
    · simp [crho] at hv; simp at hgt; rw [← hv] at hgt; exact absurd hgt (not_lt.2 hT.2)
  · unfold fixedTEnd
    rw [if_neg (by simp)]
  · refine ⟨h, ?_⟩
    rintro ⟨i, v, hv, hgt⟩
    fin_cases i
    · simp at hv
    · simp [crho] at hv; simp at hgt; rw [← hv] at hgt; exact absurd hgt (not_lt.2 hT.2)
  · unfold fixedzEnd
    rw [if_pos (.inl rfl)]
  · unfold fixedzEnd
    rw [if_pos (.inr rfl)]

example (opt : CritOpts) (h : 0 ≤ opt.reltolRho) : ∃ r, fixedrhoEnd (some 300) ![none, some 2, some 3] = .ok r ∧ r.1 = none ∧ polishAcceptsF opt ![300, 2, 3] r :=
  (polish_nonfinite opt ![300, 2, 3] ⟨mul_nonneg h (by norm_num [crho]), mul_nonneg h (show (0 : ℝ) ≤ 3 by norm_num)⟩).1

end Teqp.Props
