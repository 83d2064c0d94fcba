import Verif.Lemmas.MixVLE
import Verif.Lemmas.Outcome
import Verif.Lemmas.SampleMix

/-! # Properties of the mixture saturation solvers (C37, C38, C39) -/

set_option autoImplicit false

open Teqp.Calc Teqp.Model Teqp.Spec Teqp.Lemmas Teqp.MixVLE Filter Topology

namespace Teqp.Props

/-! ## C38: residuals and Jacobians -/

section
variable {m : EOS (Fin 2)} {T R p : ℝ} {x : Fin 4 → ℝ}

/-- All four concentrations are positive. -/
def AllPos (x : Fin 4 → ℝ) : Prop := ∀ i, 0 < x i

theorem AllPos.liq {x : Fin 4 → ℝ} (h : AllPos x) (i : Fin 2) : 0 < liq x i := by
  fin_cases i
  · exact h 0
  · exact h 1

theorem AllPos.vap {x : Fin 4 → ℝ} (h : AllPos x) (i : Fin 2) : 0 < vap x i := by
  fin_cases i
  · exact h 2
  · exact h 3

theorem muResid_pos (hx : AllPos x) (RT : ℝ) (i : Fin 2) :
    muResid m RT T (liq x) (vap x) i =
      gradPsir m T (liq x) i + RT * Real.log (liq x i) - (gradPsir m T (vap x) i + RT * Real.log (vap x i)) := by
  unfold muResid
  rw [if_pos ⟨hx.liq i, hx.vap i⟩]

/-- C38. With temperature and liquid composition specified the residual vanishes exactly at coexisting phases whose
liquid has the specified composition. -/
theorem tx_residual_zero_iff (hL : SmoothAt m T (liq x)) (hV : SmoothAt m T (vap x)) (hR : ∀ y, m.R y = R)
    (hx : AllPos x) (xspec : Fin 2 → ℝ) :
    (∀ i, txResid m T xspec x i = 0) ↔
      MixCoexist m.alphar R T (liq x) (vap x) ∧ x 0 / (x 0 + x 1) = xspec 0 := by
  have e : rhotot (liq x) = x 0 + x 1 := by simp [rhotot, liq]
  unfold MixCoexist
  rw [mixP_eq hL hR, mixP_eq hV hR]
  simp only [Fin.forall_fin_succ, Fin.isValue, mixMu_eq hL hR _ (hx.liq _), mixMu_eq hV hR _ (hx.vap _)]
  simp only [txResid, muResid_pos hx, hR, e]
  simp [sub_eq_zero, liq, and_assoc]

/-- C38. With temperature and pressure specified the residual vanishes exactly at coexisting phases of that pressure. -/
theorem tp_residual_zero_iff (hL : SmoothAt m T (liq x)) (hV : SmoothAt m T (vap x)) (hR : ∀ y, m.R y = R)
    (hx : AllPos x) (hp : p ≠ 0) :
    (∀ i, tpResid m T p x i = 0) ↔
      MixCoexist m.alphar R T (liq x) (vap x) ∧ mixP m.alphar R T (liq x) = p := by
  unfold MixCoexist
  rw [mixP_eq hL hR, mixP_eq hV hR]
  simp only [Fin.forall_fin_succ, Fin.isValue, mixMu_eq hL hR _ (hx.liq _), mixMu_eq hV hR _ (hx.vap _)]
  simp only [tpResid, muResid_pos hx, hR]
  simp [sub_eq_zero, hp, and_assoc]
  intro _ _ h2
  rw [h2]
  exact eq_comm

theorem liq_curve {γ : ℝ → Fin 4 → ℝ} {v : Fin 4 → ℝ} {s : ℝ} (hγ : HasDerivAt γ v s) :
    HasDerivAt (fun u => liq (γ u)) (liq v) s := by
  rw [hasDerivAt_pi] at hγ ⊢
  intro i
  fin_cases i
  · exact hγ 0
  · exact hγ 1

theorem vap_curve {γ : ℝ → Fin 4 → ℝ} {v : Fin 4 → ℝ} {s : ℝ} (hγ : HasDerivAt γ v s) :
    HasDerivAt (fun u => vap (γ u)) (vap v) s := by
  rw [hasDerivAt_pi] at hγ ⊢
  intro i
  fin_cases i
  · exact hγ 2
  · exact hγ 3

theorem eventually_allPos {γ : ℝ → Fin 4 → ℝ} {v : Fin 4 → ℝ} {s : ℝ} (hγ : HasDerivAt γ v s) (hx : AllPos (γ s)) :
    ∀ᶠ u in 𝓝 s, AllPos (γ u) := by
  unfold AllPos
  rw [eventually_all]
  intro i
  exact (hasDerivAt_pi.1 hγ i).continuousAt.eventually (lt_mem_nhds (hx i))

/-- A chemical-potential row along a curve. -/
theorem muResid_curve {γ : ℝ → Fin 4 → ℝ} {v : Fin 4 → ℝ} {s : ℝ} (hγ : HasDerivAt γ v s)
    (hL : SmoothAt m T (liq (γ s))) (hV : SmoothAt m T (vap (γ s))) (hx : AllPos (γ s)) (i : Fin 2) :
    HasDerivAt (fun u => muResid m (R * T) T (liq (γ u)) (vap (γ u)) i)
      ((∑ j, hessPsir m T (liq (γ s)) i j * liq v j + R * T / liq (γ s) i * liq v i) -
        (∑ j, hessPsir m T (vap (γ s)) i j * vap v j + R * T / vap (γ s) i * vap v i)) s := by
  have h1 := mu_curve hL (hasDerivAt_const s T) (liq_curve hγ) rfl rfl R i (hx.liq i)
  have h2 := mu_curve hV (hasDerivAt_const s T) (vap_curve hγ) rfl rfl R i (hx.vap i)
  have h3 := (h1.sub h2).congr_deriv (by ring :
    _ = (∑ j, hessPsir m T (liq (γ s)) i j * liq v j + R * T / liq (γ s) i * liq v i) -
        (∑ j, hessPsir m T (vap (γ s)) i j * vap v j + R * T / vap (γ s) i * vap v i))
  refine h3.congr_of_eventuallyEq ?_
  filter_upwards [eventually_allPos hγ hx] with u hu
  rw [muResid_pos hu]
  rfl

/-- C38. The Jacobian of the fixed temperature/composition solver is the derivative of its residual along every curve. -/
theorem tx_jacobian_exact {γ : ℝ → Fin 4 → ℝ} {v : Fin 4 → ℝ} {s : ℝ} (hγ : HasDerivAt γ v s)
    (hL : SmoothAt m T (liq (γ s))) (hV : SmoothAt m T (vap (γ s))) (hR : ∀ y, m.R y = R) (hx : AllPos (γ s))
    (xspec : Fin 2 → ℝ) (i : Fin 4) :
    HasDerivAt (fun u => txResid m T xspec (γ u) i) (∑ j, txJac m T xspec (γ s) i j * v j) s := by
  have hd : ∀ k, idealDiag (R * T) (liq (γ s)) (vap (γ s)) (liq (γ s)) k = R * T / liq (γ s) k := fun k => by
    unfold idealDiag; rw [if_pos ⟨hx.liq k, hx.vap k⟩]
  have hd' : ∀ k, idealDiag (R * T) (liq (γ s)) (vap (γ s)) (vap (γ s)) k = R * T / vap (γ s) k := fun k => by
    unfold idealDiag; rw [if_pos ⟨hx.liq k, hx.vap k⟩]
  have l0 : liq v 0 = v 0 := rfl
  have l1 : liq v 1 = v 1 := rfl
  have l2 : vap v 0 = v 2 := rfl
  have l3 : vap v 1 = v 3 := rfl
  fin_cases i
  · refine (muResid_curve (R := R) hγ hL hV hx 0 |>.congr_of_eventuallyEq ?_).congr_deriv ?_
    · exact Eventually.of_forall fun u => by simp [txResid, hR]
    · simp only [txJac, hR, hd, hd', Fin.sum_univ_four, Fin.sum_univ_two, l0, l1, l2, l3]
      simp
      ring
  · refine (muResid_curve (R := R) hγ hL hV hx 1 |>.congr_of_eventuallyEq ?_).congr_deriv ?_
    · exact Eventually.of_forall fun u => by simp [txResid, hR]
    · simp only [txJac, hR, hd, hd', Fin.sum_univ_four, Fin.sum_univ_two, l0, l1, l2, l3]
      simp
      ring
  · have h1 := p_curve hL hR (hasDerivAt_const s T) (liq_curve hγ) rfl rfl
    have h2 := p_curve hV hR (hasDerivAt_const s T) (vap_curve hγ) rfl rfl
    refine ((h1.sub h2).congr_of_eventuallyEq ?_).congr_deriv ?_
    · exact Eventually.of_forall fun u => by simp [txResid, hR]
    · simp only [txJac, hR, Fin.sum_univ_four, Fin.sum_univ_two, l0, l1, l2, l3]
      simp
      ring
  · have hs : 0 < γ s 0 + γ s 1 := add_pos (hx 0) (hx 1)
    have h1 := (hasDerivAt_pi.1 hγ 0).div ((hasDerivAt_pi.1 hγ 0).add (hasDerivAt_pi.1 hγ 1)) hs.ne'
    refine ((h1.sub_const (xspec 0)).congr_of_eventuallyEq ?_).congr_deriv ?_
    · exact Eventually.of_forall fun u => by simp [txResid, rhotot, liq]
    · simp only [txJac, Fin.sum_univ_four]
      simp [rhotot, liq]
      field_simp
      ring

/-- C38. The same for temperature and pressure specified. -/
theorem tp_jacobian_exact {γ : ℝ → Fin 4 → ℝ} {v : Fin 4 → ℝ} {s : ℝ} (hγ : HasDerivAt γ v s)
    (hL : SmoothAt m T (liq (γ s))) (hV : SmoothAt m T (vap (γ s))) (hR : ∀ y, m.R y = R) (hx : AllPos (γ s))
    (i : Fin 4) :
    HasDerivAt (fun u => tpResid m T p (γ u) i) (∑ j, tpJac m T p (γ s) i j * v j) s := by
  have hd : ∀ k, idealDiag (R * T) (liq (γ s)) (vap (γ s)) (liq (γ s)) k = R * T / liq (γ s) k := fun k => by
    unfold idealDiag; rw [if_pos ⟨hx.liq k, hx.vap k⟩]
  have hd' : ∀ k, idealDiag (R * T) (liq (γ s)) (vap (γ s)) (vap (γ s)) k = R * T / vap (γ s) k := fun k => by
    unfold idealDiag; rw [if_pos ⟨hx.liq k, hx.vap k⟩]
  have l0 : liq v 0 = v 0 := rfl
  have l1 : liq v 1 = v 1 := rfl
  have l2 : vap v 0 = v 2 := rfl
  have l3 : vap v 1 = v 3 := rfl
  fin_cases i
  · refine (muResid_curve (R := R) hγ hL hV hx 0 |>.congr_of_eventuallyEq ?_).congr_deriv ?_
    · exact Eventually.of_forall fun u => by simp [tpResid, hR]
    · simp only [tpJac, hR, hd, hd', Fin.sum_univ_four, Fin.sum_univ_two, l0, l1, l2, l3]
      simp
      ring
  · refine (muResid_curve (R := R) hγ hL hV hx 1 |>.congr_of_eventuallyEq ?_).congr_deriv ?_
    · exact Eventually.of_forall fun u => by simp [tpResid, hR]
    · simp only [tpJac, hR, hd, hd', Fin.sum_univ_four, Fin.sum_univ_two, l0, l1, l2, l3]
      simp
      ring
  · have h2 := p_curve hV hR (hasDerivAt_const s T) (vap_curve hγ) rfl rfl
    refine (((h2.sub_const p).div_const p).congr_of_eventuallyEq ?_).congr_deriv ?_
    · exact Eventually.of_forall fun u => by simp [tpResid, hR]
    · simp only [tpJac, hR, Fin.sum_univ_four, Fin.sum_univ_two, l2, l3]
      simp
      ring
  · have h1 := p_curve hL hR (hasDerivAt_const s T) (liq_curve hγ) rfl rfl
    refine (((h1.sub_const p).div_const p).congr_of_eventuallyEq ?_).congr_deriv ?_
    · exact Eventually.of_forall fun u => by simp [tpResid, hR]
    · simp only [tpJac, hR, Fin.sum_univ_four, Fin.sum_univ_two, l0, l1]
      simp
      ring

end

section
variable {N : ℕ} {m : EOS (Fin N)} {T R p : ℝ} {z L V : Fin N → ℝ}

theorem molefracs_eq_of_head {L z : Fin N → ℝ} (hz : ∑ i, z i = 1) (hL : rhotot L ≠ 0)
    (h : ∀ i : Fin (N - 1), L (headIdx i) / rhotot L = z (headIdx i)) (i : Fin N) : L i / rhotot L = z i := by
  by_cases hi : i.1 < N - 1
  · exact h ⟨i.1, hi⟩
  · have hs := sum_molefrac hL
    rw [← hz, ← Finset.add_sum_erase _ _ (Finset.mem_univ i), ← Finset.add_sum_erase (a := i) _ z (Finset.mem_univ i)] at hs
    have : ∑ k ∈ Finset.univ.erase i, molefrac L k = ∑ k ∈ Finset.univ.erase i, z k := by
      refine Finset.sum_congr rfl fun k hk => ?_
      have hne : k.1 ≠ i.1 := fun e => Finset.ne_of_mem_erase hk (Fin.ext e)
      have := k.2; have := i.2
      exact h ⟨k.1, by omega⟩
    rw [this] at hs
    have := add_right_cancel hs
    exact this

/-- C38. With pressure and liquid composition specified (any number of components) the residual vanishes exactly at
coexisting phases with that pressure and that liquid composition. -/
theorem px_residual_zero_iff (hL : SmoothAt m T L) (hV : SmoothAt m T V) (hR : ∀ y, m.R y = R)
    (hLp : ∀ i, 0 < L i) (hVp : ∀ i, 0 < V i) (hp : p ≠ 0) (hz : ∑ i, z i = 1) :
    (∀ e, pxResid m p z T L V e = 0) ↔
      MixCoexist m.alphar R T L V ∧ mixP m.alphar R T L = p ∧ ∀ i, L i / ∑ k, L k = z i := by
  unfold MixCoexist
  rw [mixP_eq hL hR, mixP_eq hV hR]
  simp only [mixMu_eq hL hR _ (hLp _), mixMu_eq hV hR _ (hVp _)]
  constructor
  · intro h
    have h0 := h (.inr (.inl 0))
    have h1 := h (.inr (.inl 1))
    simp only [pxResid, hR, sub_eq_zero, div_eq_one_iff_eq hp] at h0 h1
    refine ⟨⟨fun i => ?_, h0.trans h1.symm⟩, h0, ?_⟩
    · have := h (.inl i)
      simpa only [pxResid, hR, sub_eq_zero] using this
    · refine molefracs_eq_of_head hz hL.tot fun i => ?_
      have := h (.inr (.inr i))
      simpa only [pxResid, sub_eq_zero] using this
  · rintro ⟨⟨h1, h2⟩, h3, h4⟩ e
    match e with
    | .inl i => simp only [pxResid, hR, sub_eq_zero]; exact h1 i
    | .inr (.inl 0) => simp only [pxResid, hR, sub_eq_zero, div_eq_one_iff_eq hp]; exact h3
    | .inr (.inl 1) => simp only [pxResid, hR, sub_eq_zero, div_eq_one_iff_eq hp]; exact h2 ▸ h3
    | .inr (.inr i) => simp only [pxResid, sub_eq_zero]; exact h4 _

/-- C38. Its Jacobian is the derivative of the residual along every curve in temperature and concentrations. -/
theorem px_jacobian_exact {τ : ℝ → ℝ} {γ δ : ℝ → Fin N → ℝ} {τ' s : ℝ} {v w : Fin N → ℝ} (hτ : HasDerivAt τ τ' s)
    (hγ : HasDerivAt γ v s) (hδ : HasDerivAt δ w s) (hL : SmoothAt m (τ s) (γ s)) (hV : SmoothAt m (τ s) (δ s))
    (hR : ∀ y, m.R y = R) (hLp : ∀ i, 0 < γ s i) (hVp : ∀ i, 0 < δ s i) (e : PxEq N) :
    HasDerivAt (fun u => pxResid m p z (τ u) (γ u) (δ u) e)
      (∑ j, pxJac m p z (τ s) (γ s) (δ s) e j * pxVec τ' v w j) s := by
  simp only [Fintype.sum_sum_type, Finset.univ_unique, Finset.sum_singleton]
  match e with
  | .inl i =>
    have h1 := mu_curve hL hτ hγ rfl rfl R i (hLp i)
    have h2 := mu_curve hV hτ hδ rfl rfl R i (hVp i)
    simp only [pxResid, hR]
    refine (h1.sub h2).congr_deriv ?_
    simp only [pxJac, pxVec, hR, Real.log_div (hLp i).ne' (hVp i).ne', add_mul, neg_mul, Finset.sum_add_distrib,
      Finset.sum_neg_distrib, neg_add, ite_mul, zero_mul, Finset.sum_ite_eq, Finset.mem_univ, if_true]
    ring
  | .inr (.inl 0) =>
    have h1 := p_curve hL hR hτ hγ rfl rfl
    simp only [pxResid, hR]
    refine ((h1.div_const p).sub_const 1).congr_deriv ?_
    simp only [pxJac, pxVec, hR, zero_mul, Finset.sum_const_zero, div_mul_eq_mul_div, ← Finset.sum_div]
    ring
  | .inr (.inl 1) =>
    have h1 := p_curve hV hR hτ hδ rfl rfl
    simp only [pxResid, hR]
    refine ((h1.div_const p).sub_const 1).congr_deriv ?_
    simp only [pxJac, pxVec, hR, zero_mul, Finset.sum_const_zero, div_mul_eq_mul_div, ← Finset.sum_div]
    ring
  | .inr (.inr i) =>
    have ht : HasDerivAt (fun u => rhotot (γ u)) (∑ i, v i) s := by
      unfold rhotot
      exact HasDerivAt.fun_sum fun i _ => hasDerivAt_pi.1 hγ i
    have h1 := (hasDerivAt_pi.1 hγ (headIdx i)).div ht hL.tot
    simp only [pxResid]
    refine (h1.sub_const (z (headIdx i))).congr_deriv ?_
    have ht0 := hL.tot
    simp only [pxJac, pxVec, zero_mul, Finset.sum_const_zero, div_mul_eq_mul_div, ← Finset.sum_div, sub_mul,
      Finset.sum_sub_distrib, mul_ite, mul_one, mul_zero, ite_mul, Finset.sum_ite_eq, Finset.mem_univ, if_true,
      ← Finset.mul_sum]
    field_simp
    ring

end

/-! ## A state meeting the hypotheses -/

open Teqp.Sample in
example : SmoothAt demix 1 (liq ![2, 1, 1, 2]) ∧ SmoothAt demix 1 (vap ![2, 1, 1, 2]) ∧ AllPos ![2, 1, 1, 2] ∧
    MixCoexist demix.alphar 8 1 (liq ![2, 1, 1, 2]) (vap ![2, 1, 1, 2]) ∧
    ∀ i, txResid demix 1 ![2 / 3, 1 / 3] ![2, 1, 1, 2] i = 0 := by
  have h1 : SmoothAt demix 1 (liq ![2, 1, 1, 2]) := demix_smooth _ _ (by simp [rhotot, liq]; norm_num)
  have h2 : SmoothAt demix 1 (vap ![2, 1, 1, 2]) := demix_smooth _ _ (by simp [rhotot, vap]; norm_num)
  have h3 : AllPos ![2, 1, 1, 2] := by intro i; fin_cases i <;> simp
  have e1 : liq ![2, 1, 1, 2] = ![2, 1] := by funext i; fin_cases i <;> rfl
  have e2 : vap ![2, 1, 1, 2] = ![1, 2] := by funext i; fin_cases i <;> rfl
  have h4 : MixCoexist demix.alphar 8 1 (liq ![2, 1, 1, 2]) (vap ![2, 1, 1, 2]) := by
    rw [e1, e2]
    refine demix_coexist two_pos one_pos ?_
    rw [Real.log_one]; ring
  exact ⟨h1, h2, h3, h4, (tx_residual_zero_iff h1 h2 demix_R h3 _).mpr ⟨h4, by simp; norm_num⟩⟩

/-- A curve through that state with a non-trivial derivative. -/
example : HasDerivAt (fun u : ℝ => (![2 + u, 1, 1 + u ^ 2, 2 - u] : Fin 4 → ℝ)) ![1, 0, 0, -1] 0 := by
  rw [hasDerivAt_pi]
  intro i
  fin_cases i
  · exact ((hasDerivAt_id (0 : ℝ)).const_add 2)
  · exact hasDerivAt_const _ _
  · exact (((hasDerivAt_id (0 : ℝ)).pow 2).const_add 1).congr_deriv (by simp)
  · exact ((hasDerivAt_id (0 : ℝ)).const_sub 2)

end Teqp.Props
