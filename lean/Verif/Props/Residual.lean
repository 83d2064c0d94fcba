import Verif.Model.EosTerms
import Verif.Lemmas.Powi
import Verif.Spec.Residual
import Verif.Props.Superanc
import Verif.Lemmas.PCPure
import Mathlib.Analysis.SpecialFunctions.Pow.Deriv
import Mathlib.Analysis.SpecialFunctions.ExpDeriv
import Mathlib.Analysis.Calculus.IteratedDeriv.Lemmas
import Mathlib.Analysis.Calculus.ContDiff.Polynomial
import Mathlib.Analysis.Calculus.Deriv.Polynomial
import Mathlib.Tactic.NormNum
import Mathlib.Tactic.Positivity

/-! # C27: residual terms at zero density -/

set_option autoImplicit false

namespace Teqp.Props
open Teqp Teqp.Model Teqp.Spec Filter Topology
open scoped ContDiff

/-- What the literature writes for the terms held by the container. -/
noncomputable def ResTerm.doc : ResTerm → ℝ → ℝ → ℝ
  | .justPower l, τ, δ => (l.map fun e => polySummand e.n e.t e.d τ δ).sum
  | .power l, τ, δ => (l.map fun e => expSummand e.n e.t e.d e.c e.li τ δ).sum
  | .exponential l, τ, δ => (l.map fun e => expSummand e.n e.t e.d e.g e.li τ δ).sum
  | .doubleExp l, τ, δ => (l.map fun e => doubleExpSummand e.n e.t e.d e.gd e.ldi e.gt e.lt τ δ).sum
  | .gaussian l, τ, δ => (l.map fun e => gaussSummand e.n e.t e.d e.eta e.beta e.gamma e.epsilon τ δ).sum
  | .gerg2004 l, τ, δ => (l.map fun e => gergSummand e.n e.t e.d e.eta e.beta e.gamma e.epsilon τ δ).sum
  | .lemmon2005 l, τ, δ => (l.map fun e => lemmonSummand e.n e.t e.d e.li e.m τ δ).sum
  | .gaoB l, τ, δ => (l.map fun e => gaoBSummand e.n e.t e.d e.eta e.beta e.gamma e.epsilon e.b τ δ).sum
  | .nonAnalytic l, τ, δ => (l.map fun e => nonAnalyticSummand e.A e.B e.C e.D e.a e.b e.beta e.n τ δ).sum
  | .cubic e, τ, δ => cubicResidual e.R (e.a0 * e.alpha.eval (e.Tred / τ)) e.b e.Delta1 e.Delta2 (e.Tred / τ)
      (δ * e.rhored)
  | .pcsaft NA e, τ, δ => grossSadowski pureCoeff e.m e.sigma e.eps (e.Tred / τ) (NA * (δ * e.rhored) * 1e-30)
  | .cheb e, τ, δ => chebSum2D e.n e.n e.a ((2 * τ - (e.taumax + e.taumin)) / (e.taumax - e.taumin))
      ((2 * δ - (e.deltamax + e.deltamin)) / (e.deltamax - e.deltamin))
  | .null, _, _ => 0

/-- `d` is a non-negative integer. -/
def IsNat (d : ℝ) : Prop := ∃ k : ℕ, d = k

/-- The density exponents are non-negative integers; for the non-analytic term `B` is positive; PC-SAFT has segments of
positive number and diameter, with an energy that is not negative; the ranges of a Chebyshev expansion are not empty. -/
def IntegerExponents : ResTerm → Prop
  | .justPower l => ∀ e ∈ l, IsNat e.d
  | .power l => ∀ e ∈ l, IsNat e.d ∧ 0 ≤ e.li
  | .exponential l => ∀ e ∈ l, IsNat e.d ∧ 0 ≤ e.li
  | .doubleExp l => ∀ e ∈ l, IsNat e.d ∧ 0 ≤ e.ldi
  | .gaussian l => ∀ e ∈ l, IsNat e.d
  | .gerg2004 l => ∀ e ∈ l, IsNat e.d
  | .lemmon2005 l => ∀ e ∈ l, IsNat e.d ∧ 0 ≤ e.li
  | .gaoB l => ∀ e ∈ l, IsNat e.d
  | .nonAnalytic l => ∀ e ∈ l, 0 < e.B
  | .cubic _ => True
  | .pcsaft _ e => 0 < e.m ∧ 0 < e.sigma ∧ 0 ≤ e.eps ∧ 0 < e.Tred
  | .cheb e => e.taumin ≠ e.taumax ∧ e.deltamin ≠ e.deltamax
  | .null => True

/-- The two passes of Clenshaw's recursion are the sum over both polynomials. -/
theorem chebTerm_value (e : ChebTermC) (τ δ : ℝ) : e.value τ δ = ResTerm.doc (.cheb e) τ δ := by
  have h := cheb2D_exact e.n e.a e.taumin e.taumax e.deltamin e.deltamax τ δ
  unfold cheb2DAlphar clenshaw2D clenshawByRow at h
  rw [if_neg (by simp)] at h
  simp only [ResTerm.doc, ChebTermC.value]
  by_cases hn : e.n = 0
  · simp only [hn, if_true, Outcome.bind_ok, Outcome.ok.injEq] at h
    rw [hn, ← h]
    rfl
  · rw [if_neg hn, Outcome.bind_ok, Outcome.ok.injEq] at h
    exact h

theorem castInt_intCast (k : ℤ) : castInt (k : ℝ) = k := by
  unfold castInt
  split <;> simp

theorem castInt_natCast (k : ℕ) : castInt (k : ℝ) = k := by
  have := castInt_intCast (k : ℤ)
  simpa using this

theorem powiV_nat (x : ℝ) (k : ℕ) : powiV x (k : ℤ) = x ^ (k : ℝ) := by
  rw [powiV_eq, zpow_natCast, Real.rpow_natCast]

theorem powiV_nonneg (x : ℝ) (l : ℤ) (_ : 0 ≤ l) : powiV x l = x ^ (l : ℝ) := by
  rw [powiV_eq, Real.rpow_intCast]

theorem exp_tlog {τ : ℝ} (hτ : 0 < τ) (t : ℝ) : Real.exp (t * Real.log τ) = τ ^ t := by
  rw [Real.rpow_def_of_pos hτ, mul_comm]

theorem sum_map_congr {α : Type} (l : List α) (f g : α → ℝ) (h : ∀ e ∈ l, f e = g e) :
    (l.map f).sum = (l.map g).sum := by rw [List.map_congr_left h]

/-- The exponential of the code, split into powers. -/
theorem exp_split {τ δ : ℝ} (hτ : 0 < τ) (hδ : 0 < δ) (t d w : ℝ) :
    Real.exp (t * Real.log τ + d * Real.log δ + w) = δ ^ d * τ ^ t * Real.exp w := by
  rw [Real.exp_add, Real.exp_add, exp_tlog hτ, exp_tlog hδ]; ring

theorem exp_split0 {τ : ℝ} (hτ : 0 < τ) (t w : ℝ) :
    Real.exp (t * Real.log τ + w) = τ ^ t * Real.exp w := by
  rw [Real.exp_add, exp_tlog hτ]

/-- The branch for `delta = 0` is the documented formula (as a formula in `delta`, at all `delta`). -/
theorem zeroBranch_doc (t : ResTerm) (ht : IntegerExponents t) (τ δ : ℝ) (hτ : 0 < τ) :
    t.zeroBranch τ δ = ResTerm.doc t τ δ := by
  cases t with
  | justPower l =>
    refine sum_map_congr l _ _ fun e he => ?_
    obtain ⟨k, hk⟩ := ht e he
    simp only [PolyC.zero, polySummand, hk, castInt_natCast, powiV_nat, exp_tlog hτ]
    ring
  | power l =>
    refine sum_map_congr l _ _ fun e he => ?_
    obtain ⟨⟨k, hk⟩, hl⟩ := ht e he
    simp only [PowC.zero, expSummand, hk, castInt_natCast, powiV_nat, powiV_nonneg _ _ hl]
    rw [sub_eq_add_neg, exp_split0 hτ]
    ring
  | exponential l =>
    refine sum_map_congr l _ _ fun e he => ?_
    obtain ⟨⟨k, hk⟩, hl⟩ := ht e he
    simp only [ExpC.zero, expSummand, hk, castInt_natCast, powiV_nat, powiV_nonneg _ _ hl]
    rw [sub_eq_add_neg, exp_split0 hτ]
    ring
  | doubleExp l =>
    refine sum_map_congr l _ _ fun e he => ?_
    obtain ⟨⟨k, hk⟩, hl⟩ := ht e he
    simp only [DExpC.zero, doubleExpSummand, hk, castInt_natCast, powiV_nat, powiV_nonneg _ _ hl]
    rw [sub_eq_add_neg (e.t * _), add_sub_assoc, exp_split0 hτ]
    ring
  | gaussian l =>
    refine sum_map_congr l _ _ fun e he => ?_
    obtain ⟨k, hk⟩ := ht e he
    simp only [GaussC.zero, gaussSummand, hk, castInt_natCast, powiV_nat]
    rw [sub_eq_add_neg (e.t * _), add_sub_assoc, exp_split0 hτ, sq, sq]
    ring
  | gerg2004 l =>
    refine sum_map_congr l _ _ fun e he => ?_
    obtain ⟨k, hk⟩ := ht e he
    simp only [GaussC.zeroGERG, gergSummand, hk, castInt_natCast, powiV_nat]
    rw [sub_eq_add_neg (e.t * _), add_sub_assoc, exp_split0 hτ, sq]
    ring
  | lemmon2005 l =>
    refine sum_map_congr l _ _ fun e he => ?_
    obtain ⟨⟨k, hk⟩, hl⟩ := ht e he
    simp only [LemmonC.zero, lemmonSummand, hk, castInt_natCast, powiV_nat, powiV_nonneg _ _ hl]
    rw [sub_eq_add_neg (e.t * _), add_sub_assoc, exp_split0 hτ]
    ring
  | gaoB l =>
    refine sum_map_congr l _ _ fun e he => ?_
    obtain ⟨k, hk⟩ := ht e he
    simp only [GaoBC.zero, gaoBSummand, hk, castInt_natCast, powiV_nat]
    rw [sub_eq_add_neg (e.t * _), add_assoc, exp_split0 hτ, sq, sq]
    ring
  | nonAnalytic l =>
    refine sum_map_congr l _ _ fun e he => ?_
    simp only [NonAC.value, nonAnalyticSummand, sq, neg_mul]
  | cubic e =>
    simp only [ResTerm.zeroBranch, ResTerm.doc, CubicTermC.value, cubicAlphar, cubicResidual,
      add_comm (1 : ℝ), div_mul_div_comm, mul_assoc]
  | pcsaft NA e =>
    simp only [ResTerm.zeroBranch, ResTerm.doc, PCTerm.zero, pureZero_gs]
    congr 1
    ring
  | cheb e => exact chebTerm_value e τ δ
  | null => rfl

/-- The ordinary branch is the documented formula at positive density, for arbitrary exponents. -/
theorem ordBranch_doc (t : ResTerm) (τ δ : ℝ) (hτ : 0 < τ) (hδ : 0 < δ) :
    t.ordBranch τ δ = ResTerm.doc t τ δ := by
  have hp : ∀ l : ℤ, powiV δ l = δ ^ (l : ℝ) := fun l => by rw [powiV_eq, Real.rpow_intCast]
  cases t with
  | justPower l =>
    refine sum_map_congr l _ _ fun e he => ?_
    simp only [PolyC.ord, polySummand]
    have := exp_split hτ hδ e.t e.d 0
    rw [add_zero, Real.exp_zero, mul_one] at this
    rw [this]; ring
  | power l =>
    refine sum_map_congr l _ _ fun e he => ?_
    simp only [PowC.ord, expSummand, hp]
    rw [sub_eq_add_neg, ← add_assoc, exp_split hτ hδ]
    ring
  | exponential l =>
    refine sum_map_congr l _ _ fun e he => ?_
    simp only [ExpC.ord, expSummand, hp]
    rw [sub_eq_add_neg, exp_split hτ hδ]
    ring
  | doubleExp l =>
    refine sum_map_congr l _ _ fun e he => ?_
    simp only [DExpC.ord, doubleExpSummand, hp]
    rw [sub_eq_add_neg (e.t * _ + _), add_sub_assoc, exp_split hτ hδ]
    ring
  | gaussian l =>
    refine sum_map_congr l _ _ fun e he => ?_
    simp only [GaussC.ord, gaussSummand]
    rw [sub_eq_add_neg (e.t * _ + _), add_sub_assoc, exp_split hτ hδ, sq, sq]
    ring
  | gerg2004 l =>
    refine sum_map_congr l _ _ fun e he => ?_
    simp only [GaussC.ordGERG, gergSummand]
    rw [sub_eq_add_neg (e.t * _ + _), add_sub_assoc, exp_split hτ hδ, sq]
    ring
  | lemmon2005 l =>
    refine sum_map_congr l _ _ fun e he => ?_
    simp only [LemmonC.ord, lemmonSummand, hp]
    rw [sub_eq_add_neg (e.t * _ + _), add_sub_assoc, exp_split hτ hδ]
    ring
  | gaoB l =>
    refine sum_map_congr l _ _ fun e he => ?_
    simp only [GaoBC.ord, gaoBSummand]
    rw [sub_eq_add_neg (e.t * _ + _), add_assoc, exp_split hτ hδ, sq, sq]
    ring
  | nonAnalytic l =>
    refine sum_map_congr l _ _ fun e he => ?_
    simp only [NonAC.value, nonAnalyticSummand, sq, neg_mul]
  | cubic e =>
    simp only [ResTerm.ordBranch, ResTerm.doc, CubicTermC.value, cubicAlphar, cubicResidual,
      add_comm (1 : ℝ), div_mul_div_comm, mul_assoc]
  | pcsaft NA e =>
    simp only [ResTerm.ordBranch, ResTerm.doc, PCTerm.value, pcPureAlphar, pure_gs]
    congr 1
    ring
  | cheb e => exact chebTerm_value e τ δ
  | null => rfl

/-- C27. For integer exponents every term has its documented value at all densities including zero. -/
theorem residual_value (t : ResTerm) (ht : IntegerExponents t) (τ δ : ℝ) (hτ : 0 < τ) (hδ : 0 ≤ δ) :
    t.alphar τ δ = ResTerm.doc t τ δ := by
  unfold ResTerm.alphar
  rcases hδ.eq_or_lt with h | h
  · rw [if_pos h.symm, zeroBranch_doc t ht τ δ hτ]
  · rw [if_neg h.ne', ordBranch_doc t τ δ hτ h]

/-- A term with a constant part (`d = 0`) and one with `d = 2`, `l = 1`. -/
noncomputable def sampleTerm : ResTerm := .power [⟨3, 0.5, 0, 0, 0⟩, ⟨-2, 1.5, 2, 1, 1⟩]

theorem sampleTerm_int : IntegerExponents sampleTerm := by
  intro e he
  simp only [List.mem_cons, List.not_mem_nil, or_false] at he
  rcases he with rfl | rfl
  · exact ⟨⟨0, by norm_num⟩, le_refl 0⟩
  · exact ⟨⟨2, by norm_num⟩, by norm_num⟩

example : sampleTerm.alphar 1 0 = 3 := by
  rw [residual_value sampleTerm sampleTerm_int 1 0 one_pos le_rfl]
  simp [sampleTerm, ResTerm.doc, expSummand]

theorem contDiffAt_list_sum {α : Type} (l : List α) (f : α → ℝ → ℝ) (x : ℝ)
    (h : ∀ e ∈ l, ContDiffAt ℝ ∞ (f e) x) : ContDiffAt ℝ ∞ (fun y => (l.map fun e => f e y).sum) x := by
  induction l with
  | nil => exact contDiffAt_const
  | cons a l ih =>
    simp only [List.map_cons, List.sum_cons]
    exact (h a (by simp)).add (ih fun e he => h e (by simp [he]))

theorem contDiff_powiV_nat (k : ℕ) : ContDiff ℝ ∞ fun δ : ℝ => powiV δ (k : ℤ) := by
  have : (fun δ : ℝ => powiV δ (k : ℤ)) = fun δ => δ ^ k := by
    funext δ; rw [powiV_eq, zpow_natCast]
  rw [this]
  exact contDiff_id.pow k

theorem contDiff_powiV (l : ℤ) (h : 0 ≤ l) : ContDiff ℝ ∞ fun δ : ℝ => powiV δ l := by
  obtain ⟨k, rfl⟩ := Int.eq_ofNat_of_zero_le h
  exact contDiff_powiV_nat k

theorem contDiff_castInt (d : ℝ) (h : IsNat d) : ContDiff ℝ ∞ fun δ : ℝ => powiV δ (castInt d) := by
  obtain ⟨k, rfl⟩ := h
  rw [castInt_natCast]
  exact contDiff_powiV_nat k

/-- The branch for `delta = 0` is smooth at zero density. -/
theorem zeroBranch_contDiffAt (t : ResTerm) (ht : IntegerExponents t) (τ : ℝ) :
    ContDiffAt ℝ ∞ (t.zeroBranch τ) 0 := by
  cases t with
  | justPower l =>
    refine contDiffAt_list_sum l (fun e δ => e.zero τ δ) 0 fun e he => ContDiff.contDiffAt ?_
    have h := contDiff_castInt e.d (ht e he)
    unfold PolyC.zero
    fun_prop
  | power l =>
    refine contDiffAt_list_sum l (fun e δ => e.zero τ δ) 0 fun e he => ContDiff.contDiffAt ?_
    have h := contDiff_castInt e.d (ht e he).1
    have h' := contDiff_powiV e.li (ht e he).2
    unfold PowC.zero
    fun_prop
  | exponential l =>
    refine contDiffAt_list_sum l (fun e δ => e.zero τ δ) 0 fun e he => ContDiff.contDiffAt ?_
    have h := contDiff_castInt e.d (ht e he).1
    have h' := contDiff_powiV e.li (ht e he).2
    unfold ExpC.zero
    fun_prop
  | doubleExp l =>
    refine contDiffAt_list_sum l (fun e δ => e.zero τ δ) 0 fun e he => ContDiff.contDiffAt ?_
    have h := contDiff_castInt e.d (ht e he).1
    have h' := contDiff_powiV e.ldi (ht e he).2
    unfold DExpC.zero
    fun_prop
  | gaussian l =>
    refine contDiffAt_list_sum l (fun e δ => e.zero τ δ) 0 fun e he => ContDiff.contDiffAt ?_
    have h := contDiff_castInt e.d (ht e he)
    unfold GaussC.zero
    fun_prop
  | gerg2004 l =>
    refine contDiffAt_list_sum l (fun e δ => e.zeroGERG τ δ) 0 fun e he => ContDiff.contDiffAt ?_
    have h := contDiff_castInt e.d (ht e he)
    unfold GaussC.zeroGERG
    fun_prop
  | lemmon2005 l =>
    refine contDiffAt_list_sum l (fun e δ => e.zero τ δ) 0 fun e he => ContDiff.contDiffAt ?_
    have h := contDiff_castInt e.d (ht e he).1
    have h' := contDiff_powiV e.li (ht e he).2
    unfold LemmonC.zero
    fun_prop
  | gaoB l =>
    refine contDiffAt_list_sum l (fun e δ => e.zero τ δ) 0 fun e he => ContDiff.contDiffAt ?_
    have h := contDiff_castInt e.d (ht e he)
    unfold GaoBC.zero
    fun_prop
  | nonAnalytic l =>
    refine contDiffAt_list_sum l (fun e δ => e.value τ δ) 0 fun e he => ?_
    have hB : 0 < e.B := ht e he
    unfold NonAC.value
    have hdm : ContDiffAt ℝ ∞ (fun δ : ℝ => (δ - 1) * (δ - 1)) 0 := ContDiff.contDiffAt (by fun_prop)
    have h1 : ContDiffAt ℝ ∞ (fun δ : ℝ => ((δ - 1) * (δ - 1)) ^ (1 / (2 * e.beta))) 0 :=
      hdm.rpow_const_of_ne (by norm_num)
    have h2 : ContDiffAt ℝ ∞ (fun δ : ℝ => ((δ - 1) * (δ - 1)) ^ e.a) 0 :=
      hdm.rpow_const_of_ne (by norm_num)
    have hth : ContDiffAt ℝ ∞ (fun δ : ℝ => 1 - τ + e.A * ((δ - 1) * (δ - 1)) ^ (1 / (2 * e.beta))) 0 :=
      contDiffAt_const.add (contDiffAt_const.mul h1)
    have hD : ContDiffAt ℝ ∞ (fun δ : ℝ => (1 - τ + e.A * ((δ - 1) * (δ - 1)) ^ (1 / (2 * e.beta))) *
        (1 - τ + e.A * ((δ - 1) * (δ - 1)) ^ (1 / (2 * e.beta))) + e.B * ((δ - 1) * (δ - 1)) ^ e.a) 0 :=
      (hth.mul hth).add (contDiffAt_const.mul h2)
    have hpow := hD.rpow_const_of_ne (p := e.b) (by
      have h3 : (((0 : ℝ) - 1) * (0 - 1)) ^ e.a = 1 := by norm_num
      rw [h3, mul_one]
      have := mul_self_nonneg (1 - τ + e.A * (((0 : ℝ) - 1) * (0 - 1)) ^ (1 / (2 * e.beta)))
      linarith)
    have hPsi : ContDiffAt ℝ ∞ (fun δ : ℝ => Real.exp (-e.C * ((δ - 1) * (δ - 1)) - e.D * ((τ - 1) * (τ - 1)))) 0 :=
      ContDiff.contDiffAt (by fun_prop)
    exact ((contDiffAt_const.mul hpow).mul contDiffAt_id).mul hPsi
  | cubic e =>
    change ContDiffAt ℝ ∞ (fun δ => e.value τ δ) 0
    unfold CubicTermC.value cubicAlphar
    have h1 : ContDiffAt ℝ ∞ (fun δ : ℝ => Real.log (1 - e.b * (δ * e.rhored))) 0 :=
      ContDiffAt.log (ContDiff.contDiffAt (by fun_prop)) (by norm_num)
    have h2 : ContDiffAt ℝ ∞ (fun δ : ℝ => Real.log ((e.Delta1 * e.b * (δ * e.rhored) + 1) /
        (e.Delta2 * e.b * (δ * e.rhored) + 1))) 0 := by
      refine ContDiffAt.log (ContDiffAt.div (ContDiff.contDiffAt (by fun_prop))
        (ContDiff.contDiffAt (by fun_prop)) (by norm_num)) (by norm_num)
    exact h1.neg.sub (contDiffAt_const.mul (h2.div_const _))
  | pcsaft NA e =>
    have h := grossSadowski_contDiffAt pureCoeff e.m e.sigma e.eps (e.Tred / τ) (e.rhored * NA / 1e30)
    have he : ResTerm.zeroBranch (.pcsaft NA e) τ = fun δ => grossSadowski pureCoeff e.m e.sigma e.eps (e.Tred / τ) (δ * (e.rhored * NA / 1e30)) := by
      funext δ
      simp only [ResTerm.zeroBranch, PCTerm.zero, pureZero_gs]
      congr 1
      ring
    rw [he]
    exact h
  | cheb e =>
    have he : ResTerm.zeroBranch (.cheb e) τ = ResTerm.doc (.cheb e) τ := funext fun δ => chebTerm_value e τ δ
    rw [he]
    change ContDiffAt ℝ ∞ (fun δ => ∑ j ∈ Finset.range e.n, ∑ k ∈ Finset.range e.n, halfFirst j * halfFirst k * e.a k j *
      (Polynomial.Chebyshev.T ℝ (k : ℤ)).eval ((2 * δ - (e.deltamax + e.deltamin)) / (e.deltamax - e.deltamin)) * _) 0
    refine ContDiff.contDiffAt (ContDiff.sum fun j _ => ContDiff.sum fun k _ => ?_)
    have hp := (Polynomial.Chebyshev.T ℝ (k : ℤ)).contDiff_aeval (𝕜 := ℝ) ∞
    have hp' : ContDiff ℝ ∞ fun y : ℝ => (Polynomial.Chebyshev.T ℝ (k : ℤ)).eval y := by simpa using hp
    have hl : ContDiff ℝ ∞ fun δ : ℝ => (2 * δ - (e.deltamax + e.deltamin)) / (e.deltamax - e.deltamin) := by fun_prop
    exact (contDiff_const.mul (hp'.comp hl)).mul contDiff_const
  | null => exact contDiffAt_const

/-- C27. All density derivatives have a limit at zero density, and it is the derivative of the expression
that the code differentiates at `delta = 0`. -/
theorem residual_derivatives_extend (t : ResTerm) (ht : IntegerExponents t) (τ : ℝ) (hτ : 0 < τ) (k : ℕ) :
    Tendsto (fun δ => iteratedDeriv k (t.alphar τ) δ) (𝓝[>] 0) (𝓝 (iteratedDeriv k (t.zeroBranch τ) 0)) := by
  have hc : ContinuousAt (iteratedDeriv k (t.zeroBranch τ)) 0 := by
    rw [iteratedDeriv_eq_equiv_comp]
    refine (LinearIsometryEquiv.continuous _).continuousAt.comp ?_
    exact (zeroBranch_contDiffAt t ht τ).continuousAt_iteratedFDeriv (by exact_mod_cast le_top)
  have he : ∀ᶠ δ in 𝓝[>] (0 : ℝ), iteratedDeriv k (t.zeroBranch τ) δ = iteratedDeriv k (t.alphar τ) δ := by
    filter_upwards [self_mem_nhdsWithin] with δ hδ
    refine Filter.EventuallyEq.iteratedDeriv_eq k ?_
    filter_upwards [Ioi_mem_nhds hδ] with y hy
    have hy' : 0 < y := hy
    rw [residual_value t ht τ y hτ hy'.le, zeroBranch_doc t ht τ y hτ]
  exact (hc.tendsto.mono_left nhdsWithin_le_nhds).congr' he

example : Tendsto (fun δ => iteratedDeriv 2 (sampleTerm.alphar 1) δ) (𝓝[>] 0)
    (𝓝 (iteratedDeriv 2 (sampleTerm.zeroBranch 1) 0)) :=
  residual_derivatives_extend sampleTerm sampleTerm_int 1 one_pos 2

/-- C27. The whole container: its value is the sum of the documented terms at every density `≥ 0`. -/
theorem container_value (ts : List ResTerm) (hts : ∀ t ∈ ts, IntegerExponents t) (τ δ : ℝ) (hτ : 0 < τ)
    (hδ : 0 ≤ δ) : containerAlphar ts τ δ = (ts.map fun t => ResTerm.doc t τ δ).sum :=
  sum_map_congr ts _ _ fun t ht => residual_value t (hts t ht) τ δ hτ hδ

example : containerAlphar [sampleTerm, .null] 1 0 = 3 := by
  rw [container_value _ (by
    intro t ht
    simp only [List.mem_cons, List.not_mem_nil, or_false] at ht
    rcases ht with rfl | rfl
    · exact sampleTerm_int
    · trivial) 1 0 one_pos le_rfl]
  simp [sampleTerm, ResTerm.doc, expSummand]

/-- C27. Why the exponents must be integers: `d = 1/2` is truncated to `0` at zero density, where the term
then jumps from `0` to `n`. -/
theorem noninteger_exponent_jump :
    (ResTerm.justPower [⟨1, 0, 1 / 2⟩]).alphar 1 0 = 1 ∧
    Tendsto (fun δ => (ResTerm.justPower [⟨1, 0, 1 / 2⟩]).alphar 1 δ) (𝓝[>] 0) (𝓝 0) := by
  constructor
  · have : castInt (1 / 2) = 0 := by
      unfold castInt
      rw [if_pos (by norm_num)]
      norm_num [Int.floor_eq_zero_iff]
    simp only [ResTerm.alphar, ResTerm.zeroBranch, PolyC.zero, if_true, List.map_cons, List.map_nil, this]
    simp [powiV_eq]
  · have h : Tendsto (fun δ : ℝ => δ ^ (1 / 2 : ℝ)) (𝓝[>] 0) (𝓝 0) := by
      have := (Real.continuousAt_rpow_const 0 (1 / 2) (Or.inr (by norm_num))).tendsto
      rw [Real.zero_rpow (by norm_num)] at this
      exact this.mono_left nhdsWithin_le_nhds
    refine h.congr' ?_
    filter_upwards [self_mem_nhdsWithin] with δ hδ
    have hδ' : 0 < δ := hδ
    unfold ResTerm.alphar
    rw [if_neg hδ'.ne', ordBranch_doc _ 1 δ one_pos hδ']
    simp [ResTerm.doc, polySummand]

end Teqp.Props
