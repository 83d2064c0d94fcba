import Verif.Props.Rewrite
import Verif.Props.ReducingFn
import Verif.Model.MultiFluid

/-! # C185: multi-fluid mixtures with a component that is listed several times -/

set_option autoImplicit false

namespace Teqp.Props
open Teqp Teqp.Model Teqp.Spec Finset

/-- A sum over the pairs `i < j` of a symmetric function. -/
theorem sum_pairs_symm {n : ℕ} (s : Fin n → Fin n → ℝ) (h : ∀ i j, s i j = s j i) : ∑ i, ∑ j, s i j = ∑ i, s i i + 2 * ∑ i, ∑ j ∈ univ.filter (i < ·), s i j := by
  have h1 (i j : Fin n) : s i j = (if i = j then s i j else 0) + ((if i < j then s i j else 0) + if j < i then s i j else 0) := by
    rcases lt_trichotomy i j with q | q | q
    · simp [q, q.ne, q.not_gt]
    · simp [q]
    · simp [q, q.ne', q.not_gt]
  have h2 : ∑ i, ∑ j, (if j < i then s i j else 0) = ∑ i, ∑ j, if i < j then s i j else 0 := by
    rw [sum_comm]
    refine sum_congr rfl fun i _ => sum_congr rfl fun j _ => ?_
    rw [h j i]
  simp only [sum_filter]
  rw [sum_congr rfl fun i _ => sum_congr rfl fun j _ => h1 i j]
  simp only [sum_add_distrib, h2, sum_ite_eq, mem_univ, if_true]
  ring

/-- With `beta = 1` a reducing function is a quadratic form. -/
theorem redY_quadratic {n : ℕ} (z Yc : Fin n → ℝ) (beta Yij y : Fin n → Fin n → ℝ) (hb : ∀ i j, i ≠ j → beta i j = 1) (hY : ∀ i j, i ≠ j → Yij i j = 2 * y i j) (hs : ∀ i j, y i j = y j i)
    (hd : ∀ i, y i i = Yc i) : redY z Yc beta Yij = ∑ i, ∑ j, z i * z j * y i j := by
  rw [sum_pairs_symm (fun i j => z i * z j * y i j) fun i j => by rw [hs i j]; ring]
  unfold redY
  congr 1
  · exact sum_congr rfl fun i _ => by rw [hd i]; ring
  · rw [mul_sum]
    refine sum_congr rfl fun i _ => ?_
    rw [mul_sum]
    refine sum_congr rfl fun j hj => ?_
    have hij : i ≠ j := (mem_filter.1 hj).2.ne
    rw [hb i j hij, hY i j hij]
    unfold redTerm
    split_ifs with q
    · have q' : z i + z j ≠ 0 := by simpa using q
      field_simp
    · ring

/-- The parameters of a mixture with `beta = 1` in which entry `k` is component `f k`: copies of a component form an ideal pair. -/
structure SameRed {n' n : ℕ} (f : Fin n' → Fin n) (r' : RedFn n') (r : RedFn n) : Prop where
  Tc : ∀ k, r'.Tc k = r.Tc (f k)
  vc : ∀ k, r'.vc k = r.vc (f k)
  Tc_nonneg : ∀ i, 0 ≤ r.Tc i
  betaT' : ∀ k l, k ≠ l → r'.betaT k l = 1
  betaT : ∀ i j, i ≠ j → r.betaT i j = 1
  betaV' : ∀ k l, k ≠ l → r'.betaV k l = 1
  betaV : ∀ i j, i ≠ j → r.betaV i j = 1
  gammaT : ∀ k l, k ≠ l → r'.gammaT k l = if f k = f l then 1 else r.gammaT (f k) (f l)
  gammaV : ∀ k l, k ≠ l → r'.gammaV k l = if f k = f l then 1 else r.gammaV (f k) (f l)
  gammaT_symm : ∀ i j, r.gammaT i j = r.gammaT j i
  gammaV_symm : ∀ i j, r.gammaV i j = r.gammaV j i

section
variable {n' n : ℕ} {f : Fin n' → Fin n} {r' : RedFn n'} {r : RedFn n}

theorem SameRed.Tr (h : SameRed f r' r) (z : Fin n' → ℝ) : r'.Tr z = r.Tr (gathered f z) := by
  set y : Fin n → Fin n → ℝ := fun i j => (if i = j then 1 else r.gammaT i j) * Real.sqrt (r.Tc i * r.Tc j) with hy
  have ys (i j : Fin n) : y i j = y j i := by
    simp only [hy, eq_comm (a := i), r.Tc i |> mul_comm, h.gammaT_symm i j]
  have yd (i : Fin n) : y i i = r.Tc i := by
    simp only [hy, if_true, one_mul]
    exact Real.sqrt_mul_self (h.Tc_nonneg i)
  unfold RedFn.Tr
  rw [redY_quadratic z r'.Tc r'.betaT r'.YT (fun k l => y (f k) (f l)) h.betaT' (fun k l hkl => ?_) (fun k l => ys _ _) (fun k => by rw [yd, h.Tc]),
    redY_quadratic (gathered f z) r.Tc r.betaT r.YT y h.betaT (fun i j hij => ?_) ys yd]
  · exact gathered_sum2 f z y
  · unfold RedFn.YT
    rw [if_neg hij, h.betaT i j hij]
    simp only [hy, if_neg hij]
    ring
  · unfold RedFn.YT
    rw [if_neg hkl, h.betaT' k l hkl, h.gammaT k l hkl, h.Tc, h.Tc]
    simp only [hy]
    ring

theorem SameRed.rhor (h : SameRed f r' r) (z : Fin n' → ℝ) : r'.rhor z = r.rhor (gathered f z) := by
  set y : Fin n → Fin n → ℝ := fun i j => 1 / 8 * (if i = j then 1 else r.gammaV i j) * (cbrt (r.vc i) + cbrt (r.vc j)) ^ 3 with hy
  have ys (i j : Fin n) : y i j = y j i := by
    simp only [hy, eq_comm (a := i), add_comm (cbrt (r.vc i)), h.gammaV_symm i j]
  have yd (i : Fin n) : y i i = r.vc i := by
    simp only [hy, if_true]
    rw [← two_mul, mul_pow, Teqp.Lemmas.Red.cbrt_cube]
    ring
  unfold RedFn.rhor
  rw [redY_quadratic z r'.vc r'.betaV r'.Yv (fun k l => y (f k) (f l)) h.betaV' (fun k l hkl => ?_) (fun k l => ys _ _) (fun k => by rw [yd, h.vc]),
    redY_quadratic (gathered f z) r.vc r.betaV r.Yv y h.betaV (fun i j hij => ?_) ys yd]
  · rw [gathered_sum2 f z y]
  · unfold RedFn.Yv
    rw [if_neg hij, h.betaV i j hij]
    simp only [hy, if_neg hij]
    ring
  · unfold RedFn.Yv
    rw [if_neg hkl, h.betaV' k l hkl, h.gammaV k l hkl, h.vc, h.vc]
    simp only [hy]
    ring

/-- The rest of a multi-fluid mixture: copies of a component have no departure function. -/
structure SameMulti (f : Fin n' → Fin n) (m' : MultiFluid n') (m : MultiFluid n) : Prop where
  eos : ∀ k, m'.eos k = m.eos (f k)
  F : ∀ k l, k ≠ l → m'.F k l = if f k = f l then 0 else m.F (f k) (f l)
  func : ∀ k l, f k ≠ f l → m'.func k l = m.func (f k) (f l)
  F_symm : ∀ i j, m.F i j = m.F j i
  func_symm : ∀ i j, m.func i j = m.func j i

variable {m' : MultiFluid n'} {m : MultiFluid n}

theorem dep_quadratic {N : ℕ} (q : MultiFluid N) (tau delta : ℝ) (z : Fin N → ℝ) (y : Fin N → Fin N → ℝ) (hy : ∀ i j, i ≠ j → q.F i j * containerAlphar (q.func i j) tau delta = 2 * y i j)
    (hs : ∀ i j, y i j = y j i) (hd : ∀ i, y i i = 0) : q.dep tau delta z = ∑ i, ∑ j, z i * z j * y i j := by
  rw [sum_pairs_symm (fun i j => z i * z j * y i j) fun i j => by rw [hs i j]; ring]
  unfold MultiFluid.dep
  simp only [hd, mul_zero, sum_const_zero, zero_add, mul_sum]
  refine sum_congr rfl fun i _ => sum_congr rfl fun j hj => ?_
  rw [mul_assoc, hy i j (mem_filter.1 hj).2.ne]
  ring

theorem SameMulti.taudelta (h : SameMulti f m' m) (tau delta : ℝ) (z : Fin n' → ℝ) :
    m'.corr tau delta z + m'.dep tau delta z = m.corr tau delta (gathered f z) + m.dep tau delta (gathered f z) := by
  set y : Fin n → Fin n → ℝ := fun i j => if i = j then 0 else m.F i j * containerAlphar (m.func i j) tau delta / 2 with hy
  have ys (i j : Fin n) : y i j = y j i := by
    simp only [hy, eq_comm (a := i), h.F_symm i j, h.func_symm i j]
  have yd (i : Fin n) : y i i = 0 := by simp only [hy, if_true]
  rw [dep_quadratic m' tau delta z (fun k l => y (f k) (f l)) (fun k l hkl => ?_) (fun k l => ys _ _) (fun k => yd _),
    dep_quadratic m tau delta (gathered f z) y (fun i j hij => ?_) ys yd, gathered_sum2 f z y]
  · congr 1
    unfold MultiFluid.corr
    rw [← gathered_sum f z fun i => containerAlphar (m.eos i) tau delta]
    exact sum_congr rfl fun k _ => by rw [h.eos]
  · simp only [hy, if_neg hij]
    ring
  · rw [h.F k l hkl]
    by_cases e : f k = f l
    · simp [hy, e]
    · simp only [hy, if_neg e, h.func k l e]
      ring

/-- For mole fractions that add up to one, the short cut for pure fluids is the general formula. -/
theorem alphar_taudelta_sum {N : ℕ} (q : MultiFluid N) (tau delta : ℝ) (z : Fin N → ℝ) (hz : ∑ i, z i = 1) : q.alphar_taudelta tau delta z = q.corr tau delta z + q.dep tau delta z := by
  unfold MultiFluid.alphar_taudelta
  split_ifs with h1
  · subst h1
    rw [Fin.sum_univ_one] at hz
    unfold MultiFluid.corr MultiFluid.dep
    rw [Fin.sum_univ_one, Fin.sum_univ_one, hz, sum_eq_zero]
    · simp
    · intro j hj
      have := (mem_filter.1 hj).2
      exact absurd this (by rw [Subsingleton.elim j 0]; exact lt_irrefl _)
  · rfl

/-- **C185, partial.**  With `beta = 1` for all pairs, the reducing functions and the residual Helmholtz energy of a multi-fluid mixture are the same when a component is listed several times.
For other `beta` this is false (`splitting_false`). -/
theorem multifluid_splitting_partial (hr : SameRed f r' r) (h : SameMulti f m' m) (hT' : m'.Tr = r'.Tr) (hT : m.Tr = r.Tr) (hv' : m'.rhor = r'.rhor) (hv : m.rhor = r.rhor)
    (T rho : ℝ) (z : Fin n' → ℝ) (hz : ∑ k, z k = 1) :
    m'.Tr z = m.Tr (gathered f z) ∧ m'.rhor z = m.rhor (gathered f z) ∧ m'.alphar T rho z = m.alphar T rho (gathered f z) := by
  have e1 : m'.Tr z = m.Tr (gathered f z) := by rw [hT', hT, hr.Tr]
  have e2 : m'.rhor z = m.rhor (gathered f z) := by rw [hv', hv, hr.rhor]
  refine ⟨e1, e2, ?_⟩
  have hg : ∑ i, gathered f z i = 1 := by
    have := gathered_sum f z fun _ => 1
    simp only [mul_one] at this
    rw [← this, hz]
  unfold MultiFluid.alphar
  rw [alphar_taudelta_sum _ _ _ _ hz, alphar_taudelta_sum _ _ _ _ hg, e1, e2, h.taudelta]

/-- **C185 for the invariant reducing functions**: no condition on the parameters. -/
theorem invY_splitting (f : Fin n' → Fin n) (z : Fin n' → ℝ) (phi lam Y : Fin n → Fin n → ℝ) :
    invY z (fun k l => phi (f k) (f l)) (fun k l => lam (f k) (f l)) (fun k l => Y (f k) (f l)) = invY (gathered f z) phi lam Y := by
  unfold invY
  simp only [mul_assoc]
  rw [← gathered_sum f z fun i => ∑ j, gathered f z j * (phi i j * Y i j) + (∑ j, gathered f z j * (cbrt (lam i j) * cbrt (Y i j))) ^ 3]
  refine sum_congr rfl fun k _ => ?_
  rw [← gathered_sum f z fun j => phi (f k) j * Y (f k) j, ← gathered_sum f z fun j => cbrt (lam (f k) j) * cbrt (Y (f k) j)]

theorem invariant_splitting (f : Fin n' → Fin n) (r : InvFn n) (z : Fin n' → ℝ) :
    (⟨fun k l => r.phiT (f k) (f l), fun k l => r.lambdaT (f k) (f l), fun k l => r.phiV (f k) (f l), fun k l => r.lambdaV (f k) (f l), fun k => r.Tc (f k), fun k => r.vc (f k)⟩ : InvFn n').Tr z = r.Tr (gathered f z) ∧
    (⟨fun k l => r.phiT (f k) (f l), fun k l => r.lambdaT (f k) (f l), fun k l => r.phiV (f k) (f l), fun k l => r.lambdaV (f k) (f l), fun k => r.Tc (f k), fun k => r.vc (f k)⟩ : InvFn n').rhor z = r.rhor (gathered f z) := by
  unfold InvFn.Tr InvFn.rhor
  exact ⟨invY_splitting f z _ _ fun i j => Real.sqrt (r.Tc i * r.Tc j), by rw [← invY_splitting f z _ _ fun i j => 1 / 8 * (cbrt (r.vc i) + cbrt (r.vc j)) ^ 3]⟩

end

/-- Two components with `beta = 1`, the first of them listed twice. -/
noncomputable def gammaTwo : RedFn 2 := ⟨fun _ _ => 1, fun _ _ => 3/2, fun _ _ => 1, fun _ _ => 5/4, ![100, 300], ![1, 2]⟩

/-- The same with the first component listed twice. -/
noncomputable def gammaTwoSplit : RedFn 3 :=
  ⟨fun _ _ => 1, fun k l => if k = 2 ↔ l = 2 then 1 else 3/2, fun _ _ => 1, fun k l => if k = 2 ↔ l = 2 then 1 else 5/4, ![100, 100, 300], ![1, 1, 2]⟩

theorem gammaTwo_same : SameRed ![0, 0, 1] gammaTwoSplit gammaTwo where
  Tc k := by fin_cases k <;> rfl
  vc k := by fin_cases k <;> rfl
  Tc_nonneg i := by fin_cases i <;> norm_num [gammaTwo]
  betaT' _ _ _ := rfl
  betaT _ _ _ := rfl
  betaV' _ _ _ := rfl
  betaV _ _ _ := rfl
  gammaT k l h := by fin_cases k <;> fin_cases l <;> simp [gammaTwoSplit, gammaTwo] at h ⊢
  gammaV k l h := by fin_cases k <;> fin_cases l <;> simp [gammaTwoSplit, gammaTwo] at h ⊢
  gammaT_symm _ _ := rfl
  gammaV_symm _ _ := rfl

example (e0 e1 d : List ResTerm) (T rho x y z : ℝ) (h : x + y + z = 1) :
    (⟨gammaTwoSplit.Tr, gammaTwoSplit.rhor, ![e0, e0, e1], fun k l => if k = 2 ↔ l = 2 then 0 else 1, fun _ _ => d, none⟩ : MultiFluid 3).alphar T rho ![x, y, z] =
    (⟨gammaTwo.Tr, gammaTwo.rhor, ![e0, e1], fun _ _ => 1, fun _ _ => d, none⟩ : MultiFluid 2).alphar T rho ![x + y, z] := by
  have hm : SameMulti ![0, 0, 1] (⟨gammaTwoSplit.Tr, gammaTwoSplit.rhor, ![e0, e0, e1], fun k l => if k = 2 ↔ l = 2 then 0 else 1, fun _ _ => d, none⟩ : MultiFluid 3)
      (⟨gammaTwo.Tr, gammaTwo.rhor, ![e0, e1], fun _ _ => 1, fun _ _ => d, none⟩ : MultiFluid 2) :=
    { eos := fun k => by fin_cases k <;> rfl
      F := fun k l hkl => by fin_cases k <;> fin_cases l <;> simp at hkl ⊢
      func := fun _ _ _ => rfl, F_symm := fun _ _ => rfl, func_symm := fun _ _ => rfl }
  have key := (multifluid_splitting_partial gammaTwo_same hm rfl rfl rfl rfl T rho ![x, y, z] (by simpa [Fin.sum_univ_three] using h)).2.2
  have e : gathered ![(0 : Fin 2), 0, 1] ![x, y, z] = ![x + y, z] := by
    funext i
    fin_cases i <;> simp [gathered, sum_filter, Fin.sum_univ_three]
  rwa [e] at key

/-! ## Other values of `beta` -/

/-- Two components with `beta = 2`. -/
noncomputable def betaTwo : RedFn 2 where
  betaT i j := if i < j then 2 else 1 / 2
  gammaT _ _ := 1
  betaV i j := if i < j then 2 else 1 / 2
  gammaV _ _ := 1
  Tc _ := 1
  vc _ := 1

/-- The same with the first component listed twice. -/
noncomputable def betaTwoSplit : RedFn 3 where
  betaT i j := if j = 2 ∧ i ≠ 2 then 2 else if i = 2 ∧ j ≠ 2 then 1 / 2 else 1
  gammaT _ _ := 1
  betaV i j := if j = 2 ∧ i ≠ 2 then 2 else if i = 2 ∧ j ≠ 2 then 1 / 2 else 1
  gammaV _ _ := 1
  Tc _ := 1
  vc _ := 1

theorem betaTwo_Tr : betaTwo.Tr ![1/2, 1/2] = 9/10 := by
  have f0 : univ.filter ((0 : Fin 2) < ·) = {1} := by decide
  have f1 : univ.filter ((1 : Fin 2) < ·) = ∅ := by decide
  unfold RedFn.Tr redY
  rw [Fin.sum_univ_two, Fin.sum_univ_two, f0, f1]
  simp [redTerm, betaTwo, RedFn.YT]
  norm_num

theorem betaTwoSplit_Tr : betaTwoSplit.Tr ![1/4, 1/4, 1/2] = 1 := by
  have f0 : univ.filter ((0 : Fin 3) < ·) = {1, 2} := by decide
  have f1 : univ.filter ((1 : Fin 3) < ·) = {2} := by decide
  have f2 : univ.filter ((2 : Fin 3) < ·) = ∅ := by decide
  unfold RedFn.Tr redY
  rw [Fin.sum_univ_three, Fin.sum_univ_three, f0, f1, f2, sum_pair (by decide)]
  simp [redTerm, betaTwoSplit, RedFn.YT]
  norm_num

/-- **C185 is false for `beta ≠ 1`**: the parameters agree along the map of the components and the copies form an ideal pair, and the reducing temperatures differ. -/
theorem splitting_false : ∃ (r' : RedFn 3) (r : RedFn 2) (f : Fin 3 → Fin 2) (z : Fin 3 → ℝ), Regular r ∧ (∀ k, r'.Tc k = r.Tc (f k)) ∧
    (∀ k l, f k ≠ f l → r'.betaT k l = r.betaT (f k) (f l) ∧ r'.gammaT k l = r.gammaT (f k) (f l)) ∧ (∀ k l, k ≠ l → f k = f l → r'.betaT k l = 1 ∧ r'.gammaT k l = 1) ∧
    ∑ k, z k = 1 ∧ (∀ k, 0 < z k) ∧ r'.Tr z ≠ r.Tr (gathered f z) := by
  refine ⟨betaTwoSplit, betaTwo, ![0, 0, 1], ![1/4, 1/4, 1/2], ?_, fun k => rfl, ?_, ?_, ?_, ?_, ?_⟩
  · exact
    { betaT_pos := fun i j _ => by simp only [betaTwo]; split <;> norm_num
      betaV_pos := fun i j _ => by simp only [betaTwo]; split <;> norm_num
      betaT_inv := fun i j hij => by fin_cases i <;> fin_cases j <;> simp_all [betaTwo]
      betaV_inv := fun i j hij => by fin_cases i <;> fin_cases j <;> simp_all [betaTwo]
      gammaT_symm := fun i j => rfl
      gammaV_symm := fun i j => rfl }
  · intro k l
    fin_cases k <;> fin_cases l <;> simp [betaTwoSplit, betaTwo]
  · intro k l
    fin_cases k <;> fin_cases l <;> simp [betaTwoSplit]
  · rw [Fin.sum_univ_three]
    simp
    norm_num
  · intro k
    fin_cases k <;> norm_num
  · have : gathered ![(0 : Fin 2), 0, 1] ![(1/4 : ℝ), 1/4, 1/2] = ![1/2, 1/2] := by
      funext i
      fin_cases i <;> simp [gathered, sum_filter, Fin.sum_univ_three]
      norm_num
    rw [this, betaTwo_Tr, betaTwoSplit_Tr]
    norm_num
end Teqp.Props
