import Verif.Lemmas.Envelope
import Verif.Lemmas.SampleMix
import Mathlib.Analysis.Complex.ExponentialBounds

/-! # Derivatives along the phase envelope (C40) -/

set_option autoImplicit false

open Teqp.Calc Teqp.Model Teqp.Spec Teqp.Lemmas Teqp.MixVLE Teqp.Envelope Filter Topology

namespace Teqp.Props

/-- A curve of coexisting states with temperature `τ` and phases `γ`, `δ`, differentiable at `s` with the rates `τ'`, `v`
and `w`; all components are present at `s`. -/
structure EqCurve {N : ℕ} (αr : ℝ → ℝ → (Fin N → ℝ) → ℝ) (R : ℝ) (τ : ℝ → ℝ) (γ δ : ℝ → Fin N → ℝ) (s τ' : ℝ)
    (v w : Fin N → ℝ) : Prop where
  hτ : HasDerivAt τ τ' s
  hγ : HasDerivAt γ v s
  hδ : HasDerivAt δ w s
  posL : ∀ i, 0 < γ s i
  posV : ∀ i, 0 < δ s i
  co : ∀ᶠ u in 𝓝 s, MixCoexist αr R (τ u) (γ u) (δ u)

section
variable {N : ℕ} {m : EOS (Fin N)} {R s τ' : ℝ} {τ : ℝ → ℝ} {γ δ : ℝ → Fin N → ℝ} {v w : Fin N → ℝ}

theorem EqCurve.mu (h : EqCurve m.alphar R τ γ δ s τ' v w) (hR : ∀ x, m.R x = R) (hL : SmoothAt m (τ s) (γ s))
    (hV : SmoothAt m (τ s) (δ s)) (i : Fin N) :
    τ' * dchempotdT m (τ s) (γ s) i + mv (psiHess m (τ s) (γ s)) v i =
      τ' * dchempotdT m (τ s) (δ s) i + mv (psiHess m (τ s) (δ s)) w i := by
  have h1 := mu_rate hL hR h.hτ h.hγ i (h.posL i)
  have h2 := mu_rate hV hR h.hτ h.hδ i (h.posV i)
  have he : (fun u => gradPsir m (τ u) (γ u) i + R * τ u * Real.log (γ u i)) =ᶠ[𝓝 s]
      fun u => gradPsir m (τ u) (δ u) i + R * τ u * Real.log (δ u i) := by
    filter_upwards [smooth_curve hL h.hτ.continuousAt h.hγ.continuousAt,
      smooth_curve hV h.hτ.continuousAt h.hδ.continuousAt, pos_curve h.hγ.continuousAt h.posL,
      pos_curve h.hδ.continuousAt h.posV, h.co] with u s1 s2 p1 p2 hc
    have := hc.1 i
    rwa [mixMu_eq s1 hR i (p1 i), mixMu_eq s2 hR i (p2 i)] at this
  have := h1.unique (h2.congr_of_eventuallyEq he)
  linarith

theorem EqCurve.pL (h : EqCurve m.alphar R τ γ δ s τ' v w) (hR : ∀ x, m.R x = R) (hL : SmoothAt m (τ s) (γ s)) :
    HasDerivAt (fun u => mixP m.alphar R (τ u) (γ u))
      (τ' * dpdT m (τ s) (γ s) + ∑ k, γ s k * mv (psiHess m (τ s) (γ s)) v k) s := by
  refine (p_rate hL hR h.hτ h.hγ fun i => (h.posL i).ne').congr_of_eventuallyEq ?_
  filter_upwards [smooth_curve hL h.hτ.continuousAt h.hγ.continuousAt] with u hu
  exact mixP_eq hu hR

theorem EqCurve.pV (h : EqCurve m.alphar R τ γ δ s τ' v w) (hR : ∀ x, m.R x = R) (hV : SmoothAt m (τ s) (δ s)) :
    HasDerivAt (fun u => mixP m.alphar R (τ u) (γ u))
      (τ' * dpdT m (τ s) (δ s) + ∑ k, δ s k * mv (psiHess m (τ s) (δ s)) w k) s := by
  refine (p_rate hV hR h.hτ h.hδ fun i => (h.posV i).ne').congr_of_eventuallyEq ?_
  filter_upwards [smooth_curve hV h.hτ.continuousAt h.hδ.continuousAt, h.co] with u hu hc
  rw [← mixP_eq hu hR]
  exact hc.2

end

section
variable {m : EOS (Fin 2)} {R s τ' : ℝ} {τ : ℝ → ℝ} {γ δ : ℝ → Fin 2 → ℝ} {v w : Fin 2 → ℝ} {solve : Solver 2}

theorem satA_mulVec {T : ℝ} {L V : Fin 2 → ℝ} (h : SmoothAt m T L) (v : Fin 2 → ℝ) :
    (satA (psiHess m T L) L V).mulVec v =
      ![∑ k, V k * mv (psiHess m T L) v k, ∑ k, L k * mv (psiHess m T L) v k] := by
  rw [← hess_swap h, ← hess_swap h]
  funext i
  fin_cases i <;> simp [Matrix.mulVec, dotProduct, satA, psiHess_apply]

theorem satA_det {T : ℝ} {L V : Fin 2 → ℝ} (h : SmoothAt m T L) :
    (satA (psiHess m T L) L V).det =
      (V 0 * L 1 - V 1 * L 0) * Matrix.det (psiHess m T L) := by
  have hs := (hessPsi_symm h 0 1).2
  rw [Matrix.det_fin_two, Matrix.det_fin_two]
  simp only [satA, psiHess_apply, Fin.sum_univ_two, Fin.val_zero, Fin.val_one, zero_lt_two, one_lt_two, if_true, one_ne_zero, if_false]
  rw [hs]
  ring

theorem mv_eq (H : Matrix (Fin 2) (Fin 2) ℝ) (v : Fin 2 → ℝ) : mv H v = H.mulVec v := rfl

theorem mv_smul (H : Matrix (Fin 2) (Fin 2) ℝ) (c : ℝ) (v : Fin 2 → ℝ) (i : Fin 2) :
    mv H (fun i => c * v i) i = c * mv H v i := by
  simp only [mv, Finset.mul_sum]
  exact Finset.sum_congr rfl fun k _ => by ring

/-- Both phases regular and of different composition. -/
structure RegularPair (m : EOS (Fin 2)) (T : ℝ) (L V : Fin 2 → ℝ) : Prop where
  sL : SmoothAt m T L
  sV : SmoothAt m T V
  detL : Matrix.det (psiHess m T L) ≠ 0
  detV : Matrix.det (psiHess m T V) ≠ 0
  comp : V 0 * L 1 ≠ V 1 * L 0

theorem RegularPair.detA {T : ℝ} {L V : Fin 2 → ℝ} (h : RegularPair m T L V) :
    (satA (psiHess m T L) L V).det ≠ 0 := by
  rw [satA_det h.sL]
  exact mul_ne_zero (sub_ne_zero.mpr h.comp) h.detL

theorem ofFn_two (f : Fin 2 → ℝ) : List.ofFn f = [f 0, f 1] := by simp

theorem vec2_eta (f : Fin 2 → ℝ) : vec2 (f 0) (f 1) = f := by funext i; fin_cases i <;> rfl

theorem getD_ofFn (f : Fin 2 → ℝ) : (fun i : Fin 2 => (List.ofFn f)[i]?.getD 0) = f := by
  funext i; fin_cases i <;> simp

theorem pos_psatFinite {L V : Fin 2 → ℝ} (hL : ∀ i, 0 < L i) (hV : ∀ i, 0 < V i) : psatFinite L V := by
  have p : ∀ ρ : Fin 2 → ℝ, (∀ i, 0 < ρ i) → rhotot ρ ≠ 0 := fun ρ h => by
    rw [rhotot, Fin.sum_univ_two]
    exact (add_pos (h 0) (h 1)).ne'
  refine ⟨p _ hL, p _ hV, ?_⟩
  rw [if_pos ⟨fun i => (hL i).ne', fun i => (hV i).ne'⟩]
  exact fun j => ⟨hL j, hV j⟩

/-- C40. At constant temperature: along every curve of coexisting states the rates of the concentrations are the rate of
the pressure times the vectors `get_drhovecdp_Tsat` returns. -/
theorem dp_tsat_is_slope {T : ℝ} (h : EqCurve m.alphar R (fun _ => T) γ δ s 0 v w) (hR : ∀ x, m.R x = R)
    (hreg : RegularPair m T (γ s) (δ s)) (hs : SolvesRegular solve) :
    ∃ dL dV p', drhodpTsat m solve T (List.ofFn (γ s)) (List.ofFn (δ s)) = .ok (dL, dV) ∧
      HasDerivAt (fun u => mixP m.alphar R T (γ u)) p' s ∧ (∀ i, v i = p' * dL i) ∧ ∀ i, w i = p' * dV i := by
  have hmu := h.mu hR hreg.sL hreg.sV
  have hpL := h.pL hR hreg.sL
  have hpV := h.pV hR hreg.sV
  simp only [zero_mul, zero_add] at hmu hpL hpV
  set p' := ∑ k, γ s k * mv (psiHess m T (γ s)) v k with hp'
  have e2 : ∑ k, δ s k * mv (psiHess m T (γ s)) v k = p' := by
    rw [hpL.unique hpV]
    exact Finset.sum_congr rfl fun k _ => by rw [hmu k]
  have hv : v = fun i => p' * solve (satA (psiHess m T (γ s)) (γ s) (δ s)) (fun _ => 1) i := by
    refine hs.smul hreg.detA ?_
    rw [satA_mulVec hreg.sL]
    funext i
    fin_cases i
    · simpa using e2
    · simp [p']
  have hw : w = fun i => p' * solve (psiHess m T (δ s)) (mv (psiHess m T (γ s))
      (solve (satA (psiHess m T (γ s)) (γ s) (δ s)) (fun _ => 1))) i := by
    refine hs.smul hreg.detV ?_
    rw [← mv_eq]
    funext i
    rw [← mv_smul, ← hv]
    exact (hmu i).symm
  refine ⟨_, _, p', ?_, hpL, congrFun hv, congrFun hw⟩
  unfold drhodpTsat drhodpTsatVec
  rw [if_pos (by simp), if_neg (by norm_num), getD_ofFn, getD_ofFn,
    if_pos ⟨hreg.sL.tot, hreg.sV.tot, fun j hj => absurd hj (h.posV j).ne'⟩,
    if_pos ⟨fun i => (h.posL i).ne', fun i => (h.posV i).ne'⟩]

/-- C40. At constant pressure: the rates of the concentrations are the rate of the temperature times the vectors
`get_drhovecdT_psat` returns. -/
theorem dT_psat_is_slope (h : EqCurve m.alphar R τ γ δ s τ' v w) (hR : ∀ x, m.R x = R)
    (hreg : RegularPair m (τ s) (γ s) (δ s)) (hs : SolvesRegular solve) {p : ℝ}
    (hp : ∀ᶠ u in 𝓝 s, mixP m.alphar R (τ u) (γ u) = p) :
    ∃ dL dV, drhodTpsat m solve (τ s) (List.ofFn (γ s)) (List.ofFn (δ s)) = .ok (dL, dV) ∧
      (∀ i, v i = τ' * dL i) ∧ ∀ i, w i = τ' * dV i := by
  have hmu := h.mu hR hreg.sL hreg.sV
  have hc : HasDerivAt (fun u => mixP m.alphar R (τ u) (γ u)) 0 s :=
    (hasDerivAt_const s p).congr_of_eventuallyEq hp
  have hpL := (h.pL hR hreg.sL).unique hc
  have hpV := (h.pV hR hreg.sV).unique hc
  set Δ := deltaS m (τ s) (γ s) (δ s) with hΔ
  have hmu' : ∀ i, mv (psiHess m (τ s) (δ s)) w i = mv (psiHess m (τ s) (γ s)) v i - τ' * Δ i := fun i => by
    have := hmu i
    simp only [hΔ, deltaS]
    linarith
  set b : Fin 2 → ℝ := ![(∑ i, Δ i * δ s i) - dpdT m (τ s) (δ s), -dpdT m (τ s) (γ s)] with hb
  have hv : v = fun i => τ' * solve (satA (psiHess m (τ s) (γ s)) (γ s) (δ s)) b i := by
    refine hs.smul hreg.detA ?_
    rw [satA_mulVec hreg.sL]
    funext i
    fin_cases i
    · simp only [hmu', mul_sub, Finset.sum_sub_distrib] at hpV
      have : ∑ k, δ s k * (τ' * Δ k) = τ' * ∑ k, Δ k * δ s k := by
        rw [Finset.mul_sum]; exact Finset.sum_congr rfl fun k _ => by ring
      rw [this] at hpV
      simp only [b]
      simp only [Fin.zero_eta, Matrix.cons_val_zero]
      linarith
    · simp only [b]
      simp only [Fin.mk_one, Matrix.cons_val_one, Matrix.cons_val_zero]
      linarith
  have hw : w = fun i => τ' * solve (psiHess m (τ s) (δ s)) (fun i => mv (psiHess m (τ s) (γ s))
      (solve (satA (psiHess m (τ s) (γ s)) (γ s) (δ s)) b) i - Δ i) i := by
    refine hs.smul hreg.detV ?_
    rw [← mv_eq]
    funext i
    rw [hmu', mul_sub, ← mv_smul, ← hv]
  refine ⟨_, _, ?_, congrFun hv, congrFun hw⟩
  unfold drhodTpsat
  rw [ofFn_two, ofFn_two]
  simp only [List.length_cons, List.length_nil, zero_add, Nat.reduceAdd, ne_eq, not_true_eq_false, if_false]
  rw [vec2_eta, vec2_eta, if_pos (pos_psatFinite h.posL h.posV)]
  unfold drhodTpsatVec
  rw [if_pos ⟨fun i => (h.posL i).ne', fun i => (h.posV i).ne'⟩]
  rfl

/-- Along a curve of constant liquid composition the rates of the concentrations are proportional to the mole
fractions. -/
theorem isopleth_rate {x : Fin 2 → ℝ} (hγ : HasDerivAt γ v s) (hL : rhotot (γ s) ≠ 0)
    (hx : ∀ᶠ u in 𝓝 s, ∀ i, γ u i / ∑ k, γ u k = x i) (i : Fin 2) : v i = (∑ k, v k) * x i := by
  have ht : HasDerivAt (fun u => ∑ k, γ u k) (∑ k, v k) s := HasDerivAt.fun_sum fun i _ => hasDerivAt_pi.1 hγ i
  have hne : ∀ᶠ u in 𝓝 s, ∑ k, γ u k ≠ 0 := ht.continuousAt.eventually_ne hL
  refine (hasDerivAt_pi.1 hγ i).unique ((ht.mul_const (x i)).congr_of_eventuallyEq ?_)
  filter_upwards [hx, hne] with u h1 h2
  rw [← h1 i]
  field_simp

theorem isopleth_num {x : Fin 2 → ℝ} {c τ' num den : ℝ} (hden : den ≠ 0) (h : c * den = τ' * num) (i : Fin 2) :
    c * x i = τ' * (num / den * x i) := by
  have : c = τ' * num / den := by rw [eq_div_iff hden]; exact h
  rw [this]; ring

/-- `dp/dT` at constant density and composition through the reduced derivatives. -/
theorem dpdT_tdx {T : ℝ} {ρ : Fin 2 → ℝ} (hR : ∀ x, m.R x = R) (h : SmoothAt m T ρ) (hT : T ≠ 0) :
    dpdT m T ρ = R * rhotot ρ * (1 + tdxAr m 0 1 T (rhotot ρ) (molefrac ρ) - tdxAr m 1 1 T (rhotot ρ) (molefrac ρ)) := by
  have h1 := dpdT_true h
  have h2 := ((hasDerivAt_id T).const_mul (R * rhotot ρ)).mul (hasDerivAt_Z_T h hT)
  have he : (fun T' => ptot m T' ρ) =ᶠ[𝓝 T]
      (fun T' => R * rhotot ρ * id T') * fun T' => 1 + tdxAr m 0 1 T' (rhotot ρ) (molefrac ρ) :=
    Eventually.of_forall fun T' => by
      simp only [Pi.mul_apply, ptot, pr, hR, tdxAr_01', id]
      ring
  rw [h1.unique (h2.congr_of_eventuallyEq he)]
  simp only [id]
  field_simp
  ring

/-- C40. At constant liquid composition: the rates of the concentrations are the rate of the temperature times the
vectors `get_drhovecdT_xsat` returns, and the rate of the pressure is the rate of the temperature times the number
`get_dpsat_dTsat_isopleth` returns. -/
theorem dT_xsat_is_slope (h : EqCurve m.alphar R τ γ δ s τ' v w) (hR : ∀ x, m.R x = R)
    (hreg : RegularPair m (τ s) (γ s) (δ s)) (hs : SolvesRegular solve) (hT : τ s ≠ 0) {x : Fin 2 → ℝ}
    (hx : ∀ᶠ u in 𝓝 s, ∀ i, γ u i / ∑ k, γ u k = x i)
    (hden : ∑ i, (∑ j, hessPsi m (τ s) (γ s) i j * (δ s j - γ s j)) * x i ≠ 0) :
    ∃ dL dV dp, drhodTxsat m solve (τ s) (List.ofFn (γ s)) (List.ofFn (δ s)) = .ok (dL, dV) ∧
      (∀ i, v i = τ' * dL i) ∧ (∀ i, w i = τ' * dV i) ∧
      dpsatdTisopleth m solve (τ s) (List.ofFn (γ s)) (List.ofFn (δ s)) = .ok dp ∧
      HasDerivAt (fun u => mixP m.alphar R (τ u) (γ u)) (τ' * dp) s := by
  have hmu := h.mu hR hreg.sL hreg.sV
  have hpL := h.pL hR hreg.sL
  have hpV := h.pV hR hreg.sV
  have hpe := hpL.unique hpV
  have hxs : molefrac (γ s) = x := funext fun i => hx.self_of_nhds i
  have hvx := isopleth_rate h.hγ hreg.sL.tot hx
  set σ := ∑ k, v k with hσ
  set Δ := deltaS m (τ s) (γ s) (δ s) with hΔ
  have hmu' : ∀ i, mv (psiHess m (τ s) (δ s)) w i = mv (psiHess m (τ s) (γ s)) v i - τ' * Δ i := fun i => by
    have := hmu i
    simp only [hΔ, deltaS]
    linarith
  set num := (∑ i, Δ i * δ s i) - (dpdT m (τ s) (δ s) - dpdT m (τ s) (γ s)) with hnum
  set den := ∑ i, mv (psiHess m (τ s) (γ s)) (fun k => δ s k - γ s k) i * x i with hdn
  have hcd : σ * den = τ' * num := by
    have e1 : σ * den = ∑ k, (δ s k - γ s k) * mv (psiHess m (τ s) (γ s)) v k := by
      rw [← hess_swap hreg.sL, hdn, Finset.mul_sum]
      refine Finset.sum_congr rfl fun k _ => ?_
      rw [hvx k]
      simp only [mv, psiHess_apply]
      ring
    rw [e1]
    simp only [hmu', mul_sub, Finset.sum_sub_distrib] at hpe
    have : ∑ k, δ s k * (τ' * Δ k) = τ' * ∑ k, Δ k * δ s k := by
      rw [Finset.mul_sum]; exact Finset.sum_congr rfl fun k _ => by ring
    rw [this] at hpe
    simp only [sub_mul, Finset.sum_sub_distrib]
    rw [hnum]
    linarith
  have hv : ∀ i, v i = τ' * (num / den * x i) := fun i => by
    rw [hvx i]
    exact isopleth_num hden hcd i
  have hw : w = fun i => τ' * solve (psiHess m (τ s) (δ s)) (fun i => mv (psiHess m (τ s) (γ s))
      (fun i => num / den * x i) i - Δ i) i := by
    refine hs.smul hreg.detV ?_
    rw [← mv_eq]
    funext i
    rw [hmu', mul_sub, ← mv_smul, ← funext hv]
  have hok : drhodTxsat m solve (τ s) (List.ofFn (γ s)) (List.ofFn (δ s)) =
      .ok (fun i => num / den * x i, solve (psiHess m (τ s) (δ s)) (fun i => mv (psiHess m (τ s) (γ s))
      (fun i => num / den * x i) i - Δ i)) := by
    unfold drhodTxsat
    rw [ofFn_two, ofFn_two]
    simp only [List.length_cons, List.length_nil, zero_add, Nat.reduceAdd, ne_eq, not_true_eq_false, if_false]
    rw [vec2_eta, vec2_eta]
    rw [if_pos ⟨fun i => (h.posL i).ne', fun i => (h.posV i).ne'⟩,
      if_pos ⟨fun j => ⟨h.posL j, h.posV j⟩, by rw [hxs]; exact hden⟩]
    simp only [drhodTxsatNormal, hxs]
    rfl
  refine ⟨_, _, R * rhotot (γ s) * (1 + tdxAr m 0 1 (τ s) (rhotot (γ s)) x - tdxAr m 1 1 (τ s) (rhotot (γ s)) x) +
    R * τ s * (1 + 2 * tdxAr m 0 1 (τ s) (rhotot (γ s)) x + tdxAr m 0 2 (τ s) (rhotot (γ s)) x) *
      (num / den * x 0 + num / den * x 1), hok, hv, congrFun hw, ?_, ?_⟩
  · unfold dpsatdTisopleth
    rw [hok, Outcome.bind_ok, getD_ofFn]
    simp only [hxs, hR]
  · refine hpL.congr_deriv ?_
    have e1 := dpdT_tdx (R := R) hR hreg.sL hT
    have e2 : ∑ k, γ s k * mv (psiHess m (τ s) (γ s)) v k = τ' * (R * τ s * (1 +
        2 * tdxAr m 0 1 (τ s) (rhotot (γ s)) x + tdxAr m 0 2 (τ s) (rhotot (γ s)) x) * (num / den * (x 0 + x 1))) := by
      have h1 := sum_rho_dpdrho hreg.sL
      rw [← hess_swap hreg.sL]
      have h2 : ∀ j, (∑ k, hessPsi m (τ s) (γ s) j k * γ s k) * v j =
          τ' * (num / den) / rhotot (γ s) * (γ s j * dpdrhovec m (τ s) (γ s) j) := fun j => by
        have h3 := solverDp_eq (m := m) (T := τ s) (ρ := γ s) hR (fun i => (h.posL i).ne') j
        rw [← h3, hv j, ← hxs]
        simp only [dpdrhovec, solverDp, hR, molefrac]
        ring
      simp only [h2, ← Finset.mul_sum]
      rw [h1]
      have hsum : x 0 + x 1 = 1 := by
        have := sum_molefrac hreg.sL.tot
        rwa [hxs, Fin.sum_univ_two] at this
      have := hreg.sL.tot
      rw [hsum, hR, hxs]
      field_simp
    rw [e1, e2, hxs]
    ring

/-- C40, in the words of the property: the two vectors satisfy the linearised conditions of equal chemical potentials
and of a pressure in both phases that grows at unit rate. -/
theorem dp_tsat_linearised {T : ℝ} {L V : Fin 2 → ℝ} (hR : ∀ x, m.R x = R) (hreg : RegularPair m T L V)
    (hL : ∀ i, L i ≠ 0) (hV : ∀ i, V i ≠ 0) (hs : SolvesRegular solve) :
    ∃ dL dV, drhodpTsat m solve T (List.ofFn L) (List.ofFn V) = .ok (dL, dV) ∧
      (∀ i, ∑ j, hessPsi m T L i j * dL j = ∑ j, hessPsi m T V i j * dV j) ∧
      ∑ i, solverDp m (R * T) T L i * dL i = 1 ∧ ∑ i, solverDp m (R * T) T V i * dV i = 1 := by
  have hA := hs (satA (psiHess m T L) L V) (fun _ => 1) hreg.detA
  set dL := solve (satA (psiHess m T L) L V) (fun _ => 1) with hdL
  have hB := hs (psiHess m T V) (mv (psiHess m T L) dL) hreg.detV
  set dV := solve (psiHess m T V) (mv (psiHess m T L) dL) with hdV
  rw [satA_mulVec hreg.sL] at hA
  rw [← mv_eq] at hB
  refine ⟨dL, dV, ?_, fun i => (congrFun hB i).symm, ?_, ?_⟩
  · unfold drhodpTsat drhodpTsatVec
    rw [if_pos (by simp), if_neg (by norm_num), getD_ofFn, getD_ofFn,
      if_pos ⟨hreg.sL.tot, hreg.sV.tot, fun j hj => absurd hj (hV j)⟩, if_pos ⟨hL, hV⟩]
  · simp only [solverDp_eq hR hL]
    rw [hess_swap hreg.sL]
    exact congrFun hA 1
  · simp only [solverDp_eq hR hV]
    rw [hess_swap hreg.sV, hB]
    exact congrFun hA 0

/-- C40. `get_drhovecdT_psat` and `get_drhovecdT_xsat` refuse every number of components other than two; the latter also
refuses states with a vanishing concentration. -/
theorem envelope_refusals {T : ℝ} {L V : List ℝ} :
    (L.length ≠ 2 → drhodTpsat m solve T L V = .throws .stdInvalidArgument ∧
      drhodTxsat m solve T L V = .throws .stdInvalidArgument ∧
      dpsatdTisopleth m solve T L V = .throws .stdInvalidArgument) ∧
    (L.length = 2 → V.length = 2 → ((0 : ℝ) ∈ L ∨ (0 : ℝ) ∈ V) →
      drhodTxsat m solve T L V = .throws .stdInvalidArgument ∧
      dpsatdTisopleth m solve T L V = .throws .stdInvalidArgument) := by
  constructor
  · intro h
    have h2 : drhodTxsat m solve T L V = .throws .stdInvalidArgument := by unfold drhodTxsat; rw [if_pos h]
    refine ⟨by unfold drhodTpsat; rw [if_pos h], h2, ?_⟩
    unfold dpsatdTisopleth
    rw [h2]; rfl
  · intro hL hV h
    obtain ⟨l0, l1, rfl⟩ := List.length_eq_two.mp hL
    obtain ⟨v0, v1, rfl⟩ := List.length_eq_two.mp hV
    have h2 : drhodTxsat m solve T [l0, l1] [v0, v1] = .throws .stdInvalidArgument := by
      unfold drhodTxsat
      simp only [hL, ne_eq, not_true_eq_false, if_false]
      rw [if_neg]
      rintro ⟨a, b⟩
      have a0 := a 0
      have a1 := a 1
      have b0 := b 0
      have b1 := b 1
      simp [vec2] at a0 a1 b0 b1
      simp [eq_comm] at h
      tauto
    refine ⟨h2, ?_⟩
    unfold dpsatdTisopleth
    rw [h2]; rfl

end

/-- C40, negative result. `get_drhovecdp_Tsat` does not refuse mixtures of three or more components.  It returns whatever
the linear solver makes of a system without solution: the remaining rows of the matrix are zero. -/
theorem dp_tsat_accepts_more_components {N : ℕ} (hN : 3 ≤ N) (m : EOS (Fin N)) (solve : Solver N) (T : ℝ)
    (L V : Fin N → ℝ) (hL : ∀ i, L i ≠ 0) (hV : ∀ i, V i ≠ 0) (tL : ∑ i, L i ≠ 0) (tV : ∑ i, V i ≠ 0) :
    (∃ r, drhodpTsat m solve T (List.ofFn L) (List.ofFn V) = .ok r ∧
      r.1 = solve (satA (psiHess m T L) L V) (fun _ => 1)) ∧
    ¬∃ d, (satA (psiHess m T L) L V).mulVec d = fun _ => 1 := by
  constructor
  · have e : ∀ f : Fin N → ℝ, (fun i : Fin N => (List.ofFn f)[i]?.getD 0) = f := fun f => by
      funext i; simp
    unfold drhodpTsat drhodpTsatVec
    rw [if_pos (by simp), if_neg (by omega), e, e, if_pos ⟨tL, tV, fun j hj => absurd hj (hV j)⟩, if_pos ⟨hL, hV⟩]
    exact ⟨_, rfl, rfl⟩
  · rintro ⟨d, hd⟩
    have := congrFun hd ⟨2, by omega⟩
    simp [Matrix.mulVec, dotProduct, satA] at this

/-! ## States meeting the hypotheses -/

open Teqp.Sample

theorem demix_regular : RegularPair demix 1 ![2, 1] ![1, 2] := by
  have h1 : rhotot (![2, 1] : Fin 2 → ℝ) ≠ 0 := by rw [rhotot_two]; simp; norm_num
  have h2 : rhotot (![1, 2] : Fin 2 → ℝ) ≠ 0 := by rw [rhotot_two]; simp; norm_num
  have l1 := Real.log_two_gt_d9
  have l2 := Real.log_two_lt_d9
  have hl : Real.log 2 * Real.log 2 < 1 / 2 := by nlinarith
  refine ⟨demix_smooth _ _ h1, demix_smooth _ _ h2, ?_, ?_, by simp; norm_num⟩
  · rw [Matrix.det_fin_two]
    simp only [psiHess_apply, hessPsi, demix_hess _ _ h1, demix_R]
    simp
    intro h
    nlinarith
  · rw [Matrix.det_fin_two]
    simp only [psiHess_apply, hessPsi, demix_hess _ _ h2, demix_R]
    simp
    intro h
    nlinarith

theorem demix_heating :
    EqCurve demix.alphar 8 (fun u => u) (fun u => ![2 / u, 1 / u]) (fun u => ![1 / u, 2 / u]) 1 1 ![-2, -1] ![-1, -2] ∧
    ∀ᶠ u in 𝓝 (1 : ℝ), mixP demix.alphar 8 u ![2 / u, 1 / u] = 24 + 16 * Real.log 2 := by
  have hpos : ∀ᶠ u in 𝓝 (1 : ℝ), 0 < u := lt_mem_nhds one_pos
  have hd : ∀ c : ℝ, HasDerivAt (fun u : ℝ => c / u) (-c) 1 := fun c => by
    have := (hasDerivAt_const (1 : ℝ) c).div (hasDerivAt_id (1 : ℝ)) one_ne_zero
    exact this.congr_deriv (by simp)
  refine ⟨⟨hasDerivAt_id _, ?_, ?_, ?_, ?_, ?_⟩, ?_⟩
  · rw [hasDerivAt_pi]; intro i
    fin_cases i
    · exact hd 2
    · exact hd 1
  · rw [hasDerivAt_pi]; intro i
    fin_cases i
    · exact hd 1
    · exact hd 2
  · intro i; fin_cases i <;> simp
  · intro i; fin_cases i <;> simp
  · filter_upwards [hpos] with u hu
    refine demix_coexist (by positivity) (by positivity) ?_
    rw [Real.log_div two_ne_zero hu.ne', Real.log_div one_ne_zero hu.ne', Real.log_one]
    field_simp
    ring
  · filter_upwards [hpos] with u hu
    have h1 : rhotot ![2 / u, 1 / u] ≠ 0 := by rw [rhotot_two]; simp; positivity
    rw [mixP_eq (demix_smooth u _ h1) demix_R]
    simp only [solverP, demix_Psir _ _ h1, demix_grad _ _ h1, Fin.sum_univ_two, rhotot_two]
    simp
    field_simp
    ring

/-- The hypotheses of `dT_psat_is_slope` and `dT_xsat_is_slope`: heating at constant pressure and constant composition. -/
example : EqCurve demix.alphar 8 (fun u => u) (fun u => ![2 / u, 1 / u]) (fun u => ![1 / u, 2 / u]) 1 1 ![-2, -1] ![-1, -2] ∧
    (∀ᶠ u in 𝓝 (1 : ℝ), ∀ i, (![2 / u, 1 / u] : Fin 2 → ℝ) i / ∑ k, (![2 / u, 1 / u] : Fin 2 → ℝ) k =
      (![2 / 3, 1 / 3] : Fin 2 → ℝ) i) ∧
    (∀ᶠ u in 𝓝 (1 : ℝ), mixP demix.alphar 8 u ![2 / u, 1 / u] = 24 + 16 * Real.log 2) ∧
    ∑ i, (∑ j, hessPsi demix 1 ![2, 1] i j * ((![1, 2] : Fin 2 → ℝ) j - (![2, 1] : Fin 2 → ℝ) j)) *
      (![2 / 3, 1 / 3] : Fin 2 → ℝ) i ≠ 0 := by
  have hpos : ∀ᶠ u in 𝓝 (1 : ℝ), 0 < u := lt_mem_nhds one_pos
  refine ⟨demix_heating.1, ?_, demix_heating.2, ?_⟩
  · filter_upwards [hpos] with u hu i
    fin_cases i <;> simp <;> field_simp <;> norm_num
  · have h1 : rhotot (![2, 1] : Fin 2 → ℝ) ≠ 0 := by rw [rhotot_two]; simp; norm_num
    simp only [hessPsi, demix_hess _ _ h1, demix_R, Fin.sum_univ_two]
    have l1 := Real.log_two_gt_d9
    simp
    intro h
    nlinarith

/-- The hypotheses of `dp_tsat_is_slope`: the ratio of the concentrations as parameter. -/
theorem demix_isotherm : ∃ v w, EqCurve demix.alphar 8 (fun _ => 1)
    (fun u => ![u * (Real.log u / (Real.log 2 * (u - 1))), Real.log u / (Real.log 2 * (u - 1))])
    (fun u => ![Real.log u / (Real.log 2 * (u - 1)), u * (Real.log u / (Real.log 2 * (u - 1)))]) 2 0 v w := by
  have l1 := Real.log_two_gt_d9
  have hl : 0 < Real.log 2 := by linarith
  obtain ⟨b', hb⟩ : ∃ b', HasDerivAt (fun u : ℝ => Real.log u / (Real.log 2 * (u - 1))) b' 2 :=
    ⟨_, (Real.hasDerivAt_log two_ne_zero).div (((hasDerivAt_id (2 : ℝ)).sub_const 1).const_mul (Real.log 2))
      (by simp; constructor <;> norm_num)⟩
  obtain ⟨a', ha⟩ : ∃ a', HasDerivAt (fun u : ℝ => u * (Real.log u / (Real.log 2 * (u - 1)))) a' 2 :=
    ⟨_, (hasDerivAt_id (2 : ℝ)).mul hb⟩
  refine ⟨![a', b'], ![b', a'], hasDerivAt_const _ _, ?_, ?_, ?_, ?_, ?_⟩
  · rw [hasDerivAt_pi]; intro i
    fin_cases i
    · exact ha
    · exact hb
  · rw [hasDerivAt_pi]; intro i
    fin_cases i
    · exact hb
    · exact ha
  · intro i; fin_cases i <;> simp <;> norm_num
  · intro i; fin_cases i <;> simp <;> norm_num
  · filter_upwards [lt_mem_nhds (show (1 : ℝ) < 2 by norm_num)] with u hu
    have h1 : 0 < u - 1 := by linarith
    have h2 : 0 < Real.log u := Real.log_pos hu
    have h3 : 0 < Real.log u / (Real.log 2 * (u - 1)) := by positivity
    refine demix_coexist (by positivity) h3 ?_
    rw [Real.log_mul (by positivity) h3.ne']
    field_simp
    ring

end Teqp.Props
