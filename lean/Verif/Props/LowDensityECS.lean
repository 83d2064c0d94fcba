import Verif.Props.LowDensityMF
import Verif.Model.MultiFluidExt

/-! # C165: the extended-corresponding-states mutant at low density

Its reducing temperature and density depend on the density (`/repo/include/teqp/models/multifluid_ecs_mutant.hpp` lines 82-127), so that the terms of the pure fluids are met along a curve. -/

set_option autoImplicit false

namespace Teqp.Props
open Teqp Teqp.Model Teqp.Spec Filter Topology

/-- What the terms need in addition for a derivative in both variables: no zero in the denominator of a GaoB term, and an alpha function with a derivative. -/
def SmoothTerm (τ : ℝ) : ResTerm → Prop
  | .gaoB l => ∀ e ∈ l, e.beta * ((τ - e.gamma) * (τ - e.gamma)) + e.b ≠ 0
  | .cubic e => DifferentiableAt ℝ e.alpha.eval (e.Tred / τ)
  | _ => True

theorem powi_joint (l : ℤ) (hl : 0 ≤ l) (p : ℝ × ℝ) : DifferentiableAt ℝ (fun p : ℝ × ℝ => powiV p.2 l) p := by
  obtain ⟨k, rfl⟩ := Int.eq_ofNat_of_zero_le hl
  simp only [powiV_eq]
  have : (fun p : ℝ × ℝ => p.2 ^ ((k : ℕ) : ℤ)) = fun p : ℝ × ℝ => p.2 ^ k := by
    funext p; exact zpow_natCast _ _
  rw [this]
  fun_prop

theorem powi_joint' (d : ℝ) (hd : ∃ k : ℕ, 1 ≤ k ∧ d = k) (p : ℝ × ℝ) : DifferentiableAt ℝ (fun p : ℝ × ℝ => powiV p.2 (castInt d)) p := by
  obtain ⟨k, -, rfl⟩ := hd
  rw [castInt_natCast]
  exact powi_joint _ (by positivity) p

theorem div_joint {f g : ℝ × ℝ → ℝ} {p : ℝ × ℝ} (hf : DifferentiableAt ℝ f p) (hg : DifferentiableAt ℝ g p) (h0 : g p ≠ 0) :
    DifferentiableAt ℝ (fun p => f p / g p) p := by
  simp only [div_eq_mul_inv]
  exact hf.fun_mul (hg.fun_inv h0)

theorem eventually_fst_pos {τ : ℝ} (hτ : 0 < τ) : ∀ᶠ p : ℝ × ℝ in 𝓝 (τ, 0), 0 < p.1 :=
  (continuous_fst.tendsto (τ, (0 : ℝ))).eventually (lt_mem_nhds hτ)

theorem joint_list_sum {α : Type} (l : List α) (g : α → ℝ → ℝ → ℝ) (p : ℝ × ℝ) (h : ∀ e ∈ l, DifferentiableAt ℝ (fun p : ℝ × ℝ => g e p.1 p.2) p) :
    DifferentiableAt ℝ (fun p : ℝ × ℝ => (l.map fun e => g e p.1 p.2).sum) p := by
  induction l with
  | nil => simpa using differentiableAt_const (0 : ℝ)
  | cons a l ih =>
    simp only [List.map_cons, List.sum_cons]
    exact (h a (by simp)).add (ih fun e he => h e (by simp [he]))

theorem grossSadowski_joint (c : Fin 7 → Fin 6 → ℝ) (m σ ε Tr s τ : ℝ) (hTr : Tr ≠ 0) (hτ : 0 < τ) :
    DifferentiableAt ℝ (fun p : ℝ × ℝ => grossSadowski c m σ ε (Tr / p.1) (p.2 * s)) (τ, 0) := by
  have hT : DifferentiableAt ℝ (fun p : ℝ × ℝ => Tr / p.1) (τ, 0) :=
    div_joint (f := fun _ => Tr) (g := fun p => p.1) (differentiableAt_const _) differentiableAt_fst hτ.ne'
  have hne : Tr / τ ≠ 0 := div_ne_zero hTr hτ.ne'
  have hq (a : ℝ) : DifferentiableAt ℝ (fun p : ℝ × ℝ => a / (Tr / p.1)) (τ, 0) :=
    div_joint (f := fun _ => a) (differentiableAt_const _) hT hne
  have hq1 := hq (-3 * ε)
  have hq2 := hq ε
  have hη : ∃ η : ℝ × ℝ → ℝ, DifferentiableAt ℝ η (τ, 0) ∧ η (τ, 0) = 0 ∧
      (fun p : ℝ × ℝ => Real.pi / 6 * (p.2 * s) * m * (σ * (1 - 0.12 * Real.exp (-3 * ε / (Tr / p.1)))) ^ 3) = η :=
    ⟨_, by fun_prop, by simp, rfl⟩
  obtain ⟨η, dη, zη, eη⟩ := hη
  have eη' (p : ℝ × ℝ) : Real.pi / 6 * (p.2 * s) * m * (σ * (1 - 0.12 * Real.exp (-3 * ε / (Tr / p.1)))) ^ 3 = η p := congrFun eη p
  unfold grossSadowski
  simp only [eη']
  have hhs : DifferentiableAt ℝ (fun p => (4 * η p - 3 * η p ^ 2) / (1 - η p) ^ 2) (τ, 0) :=
    div_joint (by fun_prop) (by fun_prop) (by simp [zη])
  have hg : DifferentiableAt ℝ (fun p => Real.log ((1 - η p / 2) / (1 - η p) ^ 3)) (τ, 0) :=
    DifferentiableAt.log (div_joint (by fun_prop) (by fun_prop) (by simp [zη])) (by simp [zη])
  have hC : DifferentiableAt ℝ (fun p => (1 + m * (8 * η p - 2 * η p ^ 2) / (1 - η p) ^ 4 + (1 - m) * (20 * η p - 27 * η p ^ 2 + 12 * η p ^ 3 - 2 * η p ^ 4) /
      ((1 - η p) * (2 - η p)) ^ 2)⁻¹) (τ, 0) := by
    refine DifferentiableAt.fun_inv (DifferentiableAt.fun_add (DifferentiableAt.fun_add (by fun_prop) (div_joint (by fun_prop) (by fun_prop) (by simp [zη])))
      (div_joint (by fun_prop) (by fun_prop) (by simp [zη]))) (by simp [zη])
  fun_prop

/-- Every term has a derivative in both variables at zero density. -/
theorem term_joint (t : ResTerm) (h : GasTerm t) (τ : ℝ) (hτ : 0 < τ) (hs : SmoothTerm τ t) :
    DifferentiableAt ℝ (fun p : ℝ × ℝ => t.zeroBranch p.1 p.2) (τ, 0) := by
  have hlog : DifferentiableAt ℝ (fun p : ℝ × ℝ => Real.log p.1) (τ, 0) := differentiableAt_fst.log hτ.ne'
  have hpow : ∀ a : ℝ, DifferentiableAt ℝ (fun p : ℝ × ℝ => p.1 ^ a) (τ, 0) := fun a => differentiableAt_fst.rpow_const (.inl hτ.ne')
  cases t with
  | justPower l =>
    refine joint_list_sum l (fun e => e.zero) _ fun e he => ?_
    have := powi_joint' e.d (h e he) (τ, 0)
    unfold PolyC.zero
    fun_prop
  | power l =>
    refine joint_list_sum l (fun e => e.zero) _ fun e he => ?_
    have := powi_joint' e.d (h e he).1 (τ, 0)
    have := powi_joint e.li (h e he).2 (τ, 0)
    unfold PowC.zero
    fun_prop
  | exponential l =>
    refine joint_list_sum l (fun e => e.zero) _ fun e he => ?_
    have := powi_joint' e.d (h e he).1 (τ, 0)
    have := powi_joint e.li (h e he).2 (τ, 0)
    unfold ExpC.zero
    fun_prop
  | doubleExp l =>
    refine joint_list_sum l (fun e => e.zero) _ fun e he => ?_
    have := powi_joint' e.d (h e he).1 (τ, 0)
    have := powi_joint e.ldi (h e he).2 (τ, 0)
    have := hpow e.lt
    unfold DExpC.zero
    fun_prop
  | gaussian l =>
    refine joint_list_sum l (fun e => e.zero) _ fun e he => ?_
    have := powi_joint' e.d (h e he) (τ, 0)
    unfold GaussC.zero
    fun_prop
  | gerg2004 l =>
    refine joint_list_sum l (fun e => e.zeroGERG) _ fun e he => ?_
    have := powi_joint' e.d (h e he) (τ, 0)
    unfold GaussC.zeroGERG
    fun_prop
  | lemmon2005 l =>
    refine joint_list_sum l (fun e => e.zero) _ fun e he => ?_
    have := powi_joint' e.d (h e he).1 (τ, 0)
    have := powi_joint e.li (h e he).2 (τ, 0)
    have := hpow e.m
    unfold LemmonC.zero
    fun_prop
  | gaoB l =>
    refine joint_list_sum l (fun e => e.zero) _ fun e he => ?_
    have := powi_joint' e.d (h e he) (τ, 0)
    have hd : DifferentiableAt ℝ (fun p : ℝ × ℝ => 1 / (e.beta * ((p.1 - e.gamma) * (p.1 - e.gamma)) + e.b)) (τ, 0) :=
      div_joint (f := fun _ => (1 : ℝ)) (g := fun p => e.beta * ((p.1 - e.gamma) * (p.1 - e.gamma)) + e.b) (differentiableAt_const _) (by fun_prop) (hs e he)
    unfold GaoBC.zero
    fun_prop
  | nonAnalytic l =>
    refine joint_list_sum l (fun e => e.value) _ fun e he => ?_
    have hB : 0 < e.B := h e he
    have hq (a : ℝ) : DifferentiableAt ℝ (fun p : ℝ × ℝ => ((p.2 - 1) * (p.2 - 1)) ^ a) (τ, 0) :=
      DifferentiableAt.rpow_const (by fun_prop) (.inl (by norm_num))
    have h1 := hq (1 / (2 * e.beta))
    have h2 := hq e.a
    have h3 : DifferentiableAt ℝ (fun p : ℝ × ℝ => ((1 - p.1 + e.A * ((p.2 - 1) * (p.2 - 1)) ^ (1 / (2 * e.beta))) *
        (1 - p.1 + e.A * ((p.2 - 1) * (p.2 - 1)) ^ (1 / (2 * e.beta))) + e.B * ((p.2 - 1) * (p.2 - 1)) ^ e.a) ^ e.b) (τ, 0) := by
      refine DifferentiableAt.rpow_const (by fun_prop) (.inl ?_)
      have h4 : (((0 : ℝ) - 1) * (0 - 1)) ^ e.a = 1 := by norm_num
      simp only [h4, mul_one]
      have := mul_self_nonneg (1 - τ + e.A * (((0 : ℝ) - 1) * (0 - 1)) ^ (1 / (2 * e.beta)))
      linarith
    unfold NonAC.value
    simp only
    fun_prop
  | cubic e =>
    have hs : DifferentiableAt ℝ e.alpha.eval (e.Tred / τ) := hs
    have hT : DifferentiableAt ℝ (fun p : ℝ × ℝ => e.Tred / p.1) (τ, 0) := div_joint (f := fun _ => e.Tred) (g := fun p => p.1) (differentiableAt_const _) differentiableAt_fst hτ.ne'
    have ha : DifferentiableAt ℝ (fun p : ℝ × ℝ => e.alpha.eval (e.Tred / p.1)) (τ, 0) := DifferentiableAt.comp (g := e.alpha.eval) (τ, (0 : ℝ)) hs hT
    have h1 : DifferentiableAt ℝ (fun p : ℝ × ℝ => Real.log (1 - e.b * (p.2 * e.rhored))) (τ, 0) :=
      DifferentiableAt.log (by fun_prop) (by norm_num)
    have h2 : DifferentiableAt ℝ (fun p : ℝ × ℝ => Real.log ((e.Delta1 * e.b * (p.2 * e.rhored) + 1) / (e.Delta2 * e.b * (p.2 * e.rhored) + 1))) (τ, 0) :=
      DifferentiableAt.log (div_joint (by fun_prop) (by fun_prop) (by norm_num)) (by norm_num)
    have hTne : e.R * (e.Tred / τ) ≠ 0 := by
      rw [← mul_div_assoc]
      exact div_ne_zero h.2.2 hτ.ne'
    have h3 : DifferentiableAt ℝ (fun p : ℝ × ℝ => e.a0 * e.alpha.eval (e.Tred / p.1) / (e.R * (e.Tred / p.1))) (τ, 0) :=
      div_joint (ha.const_mul _) (hT.const_mul _) hTne
    change DifferentiableAt ℝ (fun p : ℝ × ℝ => e.value p.1 p.2) (τ, 0)
    unfold CubicTermC.value cubicAlphar
    simp only [div_eq_mul_inv (Real.log (_ / _))]
    exact h1.neg.sub (h3.mul (h2.mul_const _))
  | pcsaft NA e =>
    have he : (fun p : ℝ × ℝ => ResTerm.zeroBranch (.pcsaft NA e) p.1 p.2) =ᶠ[𝓝 (τ, 0)]
        fun p => grossSadowski pureCoeff e.m e.sigma e.eps (e.Tred / p.1) (p.2 * (NA * e.rhored * 1e-30)) := by
      filter_upwards [eventually_fst_pos hτ] with p hp
      rw [zeroBranch_doc _ (gasTerm_integer _ h) p.1 p.2 hp]
      simp only [ResTerm.doc]
      congr 1
      ring
    exact he.differentiableAt_iff.2 (grossSadowski_joint _ _ _ _ _ _ τ h.2.2.2.ne' hτ)
  | cheb e =>
    have he : (fun p : ℝ × ℝ => ResTerm.zeroBranch (.cheb e) p.1 p.2) = fun p => ResTerm.doc (.cheb e) p.1 p.2 := funext fun p => chebTerm_value e p.1 p.2
    rw [he]
    simp only [ResTerm.doc, chebSum2D]
    refine DifferentiableAt.fun_sum fun j _ => DifferentiableAt.fun_sum fun k _ => ?_
    have hd : DifferentiableAt ℝ (fun p : ℝ × ℝ => (2 * p.2 - (e.deltamax + e.deltamin)) / (e.deltamax - e.deltamin)) (τ, 0) := by fun_prop
    have ht : DifferentiableAt ℝ (fun p : ℝ × ℝ => (2 * p.1 - (e.taumax + e.taumin)) / (e.taumax - e.taumin)) (τ, 0) := by fun_prop
    exact (((Polynomial.Chebyshev.T ℝ (k : ℤ)).differentiable.differentiableAt.comp _ hd).const_mul _).mul
      ((Polynomial.Chebyshev.T ℝ (j : ℤ)).differentiable.differentiableAt.comp _ ht)
  | null => exact differentiableAt_const _

/-- **A term along a curve** that starts at zero density: to first order only the change of the density counts, not that of the temperature. -/
theorem term_curve (t : ResTerm) (h : GasTerm t) (τ δ : ℝ → ℝ) (τ' δ' : ℝ) (hτ : 0 < τ 0) (hδ : δ 0 = 0) (hs : SmoothTerm (τ 0) t)
    (dτ : HasDerivAt τ τ' 0) (dδ : HasDerivAt δ δ' 0) : HasDerivAt (fun r => ResTerm.doc t (τ r) (δ r)) (termVirial t (τ 0) * δ') 0 := by
  have hg : DifferentiableAt ℝ (fun p : ℝ × ℝ => ResTerm.doc t p.1 p.2) (τ 0, 0) := by
    refine (Filter.EventuallyEq.differentiableAt_iff ?_).1 (term_joint t h (τ 0) hτ hs)
    filter_upwards [eventually_fst_pos hτ] with p hp
    exact zeroBranch_doc t (gasTerm_integer t h) p.1 p.2 hp
  have hf := hg.hasFDerivAt
  set L := fderiv ℝ (fun p : ℝ × ℝ => ResTerm.doc t p.1 p.2) (τ 0, 0)
  have h1 : L (1, 0) = 0 := by
    have hc : HasDerivAt (fun s : ℝ => (s, (0 : ℝ))) (1, 0) (τ 0) := (hasDerivAt_id (τ 0)).prodMk (hasDerivAt_const _ _)
    have := HasFDerivAt.comp_hasDerivAt (τ 0) hf hc
    have h0 : ((fun p : ℝ × ℝ => ResTerm.doc t p.1 p.2) ∘ fun s : ℝ => (s, (0 : ℝ))) = fun _ => 0 := funext fun s => term_zero t h s
    rw [h0] at this
    exact this.unique (hasDerivAt_const _ _)
  have h2 : L (0, 1) = termVirial t (τ 0) := by
    have hc : HasDerivAt (fun s : ℝ => (τ 0, s)) (0, 1) 0 := (hasDerivAt_const _ _).prodMk (hasDerivAt_id 0)
    have := (HasFDerivAt.comp_hasDerivAt (0 : ℝ) hf hc).hasDerivWithinAt (s := Set.Ici 0)
    exact (uniqueDiffOn_Ici (0 : ℝ)).uniqueDiffWithinAt Set.self_mem_Ici |>.eq_deriv _ this (term_slope t h (τ 0) hτ)
  have hc : HasDerivAt (fun r : ℝ => (τ r, δ r)) (τ', δ') 0 := dτ.prodMk dδ
  have hf' : HasFDerivAt (fun p : ℝ × ℝ => ResTerm.doc t p.1 p.2) L ((fun r : ℝ => (τ r, δ r)) 0) := by simpa [hδ] using hf
  have := HasFDerivAt.comp_hasDerivAt (0 : ℝ) hf' hc
  have hL : L (τ', δ') = termVirial t (τ 0) * δ' := by
    have : ((τ', δ') : ℝ × ℝ) = τ' • (1, 0) + δ' • (0, 1) := by simp
    rw [this, map_add, map_smul, map_smul, h1, h2]
    simp [mul_comm]
  rw [hL] at this
  exact this

/-- The same for the terms of a fluid, as the code evaluates them. -/
theorem eos_curve (ts : List ResTerm) (h : ∀ t ∈ ts, GasTerm t) (τ δ : ℝ → ℝ) (τ' δ' : ℝ) (hτ : 0 < τ 0) (hδ : δ 0 = 0) (hs : ∀ t ∈ ts, SmoothTerm (τ 0) t)
    (dτ : HasDerivAt τ τ' 0) (dδ : HasDerivAt δ δ' 0) :
    HasDerivAt (fun r => (ts.map fun t => ResTerm.doc t (τ r) (δ r)).sum) (eosVirial ts (τ 0) * δ') 0 := by
  induction ts with
  | nil => simpa [eosVirial] using hasDerivAt_const (0 : ℝ) (0 : ℝ)
  | cons t ts ih =>
    have h1 := term_curve t (h t (by simp)) τ δ τ' δ' hτ hδ (hs t (by simp)) dτ dδ
    have h2 := ih (fun t ht => h t (by simp [ht])) (fun t ht => hs t (by simp [ht]))
    simp only [List.map_cons, List.sum_cons, eosVirial, add_mul] at h2 ⊢
    exact h1.add h2

/-- **The extended-corresponding-states mutant**: the pure fluids' coefficients at the reciprocal reduced temperature of zero density, weighted with the mole
fractions, times the reducing volume of zero density.  The density dependence of the two reducing quantities does not matter at this order, and there is no contribution of
a departure function. -/
theorem ecs_virial (m : ECSMutant) (base : MultiFluid 2) (T x0 x1 : ℝ) (hT : 0 < T) (hTr : 0 < m.getTr T 0 x0 x1) (hVr : 0 < m.getVr T 0 x0 x1)
    (hv : m.vScale ≠ 0) (hc : 0 ≤ m.Tc0 * m.Tc1) (he : ∀ i, ∀ t ∈ base.eos i, GasTerm t) (hs : ∀ i, ∀ t ∈ base.eos i, SmoothTerm (m.getTr T 0 x0 x1 / T) t) :
    HasVirial (fun r => ECSMutant.alphar (some m) base T r [x0, x1])
      ((x0 * eosVirial (base.eos 0) (m.getTr T 0 x0 x1 / T) + x1 * eosVirial (base.eos 1) (m.getTr T 0 x0 x1 / T)) * m.getVr T 0 x0 x1) := by
  have dT : Differentiable ℝ fun r => m.getTr T r x0 x1 := by
    unfold ECSMutant.getTr ECSMutant.poly; fun_prop
  have dV : Differentiable ℝ fun r => m.getVr T r x0 x1 := by
    unfold ECSMutant.getVr ECSMutant.poly; fun_prop
  have dτ : HasDerivAt (fun r => m.getTr T r x0 x1 / T) (deriv (fun r => m.getTr T r x0 x1) 0 / T) 0 := ((dT 0).hasDerivAt).div_const T
  have dδ : HasDerivAt (fun r : ℝ => r / (1 / m.getVr T r x0 x1)) (m.getVr T 0 x0 x1) 0 := by
    have h : HasDerivAt (fun r : ℝ => r * m.getVr T r x0 x1) _ 0 := (hasDerivAt_id (0 : ℝ)).mul (dV 0).hasDerivAt
    simpa [div_eq_mul_inv] using h
  have hτ0 : 0 < (fun r => m.getTr T r x0 x1 / T) 0 := div_pos hTr hT
  have hcur (i : Fin 2) := eos_curve (base.eos i) (he i) _ _ _ _ hτ0 (by simp) (hs i) dτ dδ
  refine ⟨fun r => x0 * ((base.eos 0).map fun t => ResTerm.doc t (m.getTr T r x0 x1 / T) (r / (1 / m.getVr T r x0 x1))).sum
    + x1 * ((base.eos 1).map fun t => ResTerm.doc t (m.getTr T r x0 x1 / T) (r / (1 / m.getVr T r x0 x1))).sum, ?_, ?_, ?_⟩
  · have e1 : ∀ᶠ r in 𝓝[≥] (0 : ℝ), 0 < m.getTr T r x0 x1 := (dT 0).continuousAt.continuousWithinAt.eventually (lt_mem_nhds hTr)
    have e2 : ∀ᶠ r in 𝓝[≥] (0 : ℝ), 0 < m.getVr T r x0 x1 := (dV 0).continuousAt.continuousWithinAt.eventually (lt_mem_nhds hVr)
    filter_upwards [e1, e2, self_mem_nhdsWithin] with r h1 h2 h3
    have h3 : 0 ≤ r := h3
    have hn : ¬ (T = 0 ∨ m.getVr T r x0 x1 = 0 ∨ m.vScale = 0 ∨ m.Tc0 * m.Tc1 < 0) := by
      push Not
      exact ⟨hT.ne', h2.ne', hv, hc⟩
    have hδ : 0 ≤ r / (1 / m.getVr T r x0 x1) := by positivity
    simp only [ECSMutant.alphar, if_neg hn, MultiFluid.corr, Fin.sum_univ_two]
    rw [container_value _ (fun t ht => gasTerm_integer t (he 0 t ht)) _ _ (div_pos h1 hT) hδ, container_value _ (fun t ht => gasTerm_integer t (he 1 t ht)) _ _ (div_pos h1 hT) hδ]
    rfl
  · have h0 (i : Fin 2) : ((base.eos i).map fun t => ResTerm.doc t (m.getTr T 0 x0 x1 / T) (0 / (1 / m.getVr T 0 x0 x1))).sum = 0 :=
      List.sum_eq_zero fun y hy => by
        obtain ⟨t, ht, rfl⟩ := List.mem_map.1 hy
        rw [zero_div]
        exact term_zero t (he i t ht) _
    simp only [h0, mul_zero, add_zero]
  · have := ((hcur 0).const_mul x0).add ((hcur 1).const_mul x1)
    refine (HasDerivAt.congr_deriv this ?_).hasDerivWithinAt
    ring

/-- Two equal fluids' constants, and reducing quantities that grow with the density. -/
def ecsGas : ECSMutant := ⟨fun i k => if k = 0 ∧ i = 0 then 3 else if k = 0 ∧ i = 1 then 1 else 0, fun i k => if k = 0 ∧ i = 0 then 3 else if k = 0 ∧ i = 1 then 1 else 0, 100, 100, 1, 1⟩

theorem ecsGas_scales : ecsGas.vScale = 1 ∧ ecsGas.tScale = 100 := by
  constructor
  · have : (1 + 1 : ℝ) ^ (3 : ℝ) = 8 := by
      rw [show (3 : ℝ) = ((3 : ℕ) : ℝ) by norm_num, Real.rpow_natCast]; norm_num
    norm_num [ECSMutant.vScale, ecsGas, this]
  · rw [ECSMutant.tScale, show ecsGas.Tc0 * ecsGas.Tc1 = 100 ^ 2 by norm_num [ecsGas]]
    exact Real.sqrt_sq (by norm_num)

theorem ecsGas_reducing (r : ℝ) : ecsGas.getTr 100 r 0.5 0.5 = 200 + 50 * r ∧ ecsGas.getVr 100 r 0.5 0.5 = 2 + r / 2 := by
  constructor
  · unfold ECSMutant.getTr ECSMutant.poly ECSMutant.coef
    rw [ecsGas_scales.1, ecsGas_scales.2, show (2 : ℝ) = ((2 : ℕ) : ℝ) by norm_num, Real.rpow_natCast]
    norm_num [ecsGas]
    ring
  · unfold ECSMutant.getVr ECSMutant.poly ECSMutant.coef
    rw [ecsGas_scales.1, ecsGas_scales.2, show (2 : ℝ) = ((2 : ℕ) : ℝ) by norm_num, Real.rpow_natCast]
    norm_num [ecsGas]
    ring

example : HasVirial (fun r => ECSMutant.alphar (some ecsGas) gasSample 100 r [0.5, 0.5]) ((0.5 * (2 * 2) + 0.5 * (3 * 2)) * 2) := by
  have hg : ∀ i, ∀ t ∈ gasSample.eos i, GasTerm t := fun i t ht => by
    rw [List.mem_singleton.1 ht]
    intro e he
    rcases List.mem_cons.1 he with rfl | he
    · exact ⟨1, le_rfl, by simp⟩
    · rw [List.mem_singleton.1 he]
      exact ⟨2, by norm_num, by simp⟩
  have := ecs_virial ecsGas gasSample 100 0.5 0.5 (by norm_num) (by rw [(ecsGas_reducing 0).1]; norm_num) (by rw [(ecsGas_reducing 0).2]; norm_num)
    (by rw [ecsGas_scales.1]; norm_num) (by norm_num [ecsGas]) hg (fun i t ht => by rw [List.mem_singleton.1 ht]; trivial)
  rw [(ecsGas_reducing 0).1, (ecsGas_reducing 0).2] at this
  convert this using 1
  simp [gasSample, eosVirial, termVirial, firstOrder]
  norm_num

end Teqp.Props
