import Verif.Props.Envelope
import Mathlib.LinearAlgebra.Matrix.ToLinearEquiv

/-! # Derivatives along the phase envelope at infinite dilution (C40) -/

set_option autoImplicit false

open Teqp.Calc Teqp.Model Teqp.Spec Teqp.Lemmas Teqp.MixVLE Teqp.Envelope Filter Topology

namespace Teqp.Props

/-- Two functions that agree to the right of a point have the same derivative there. -/
theorem right_unique {f g : ℝ → ℝ} {a b s : ℝ} (hf : HasDerivAt f a s) (hg : HasDerivAt g b s)
    (h : f =ᶠ[𝓝[>] s] g) : a = b := by
  have h1 : Tendsto f (𝓝[>] s) (𝓝 (f s)) := hf.continuousAt.tendsto.mono_left nhdsWithin_le_nhds
  have h2 : Tendsto f (𝓝[>] s) (𝓝 (g s)) :=
    (hg.continuousAt.tendsto.mono_left nhdsWithin_le_nhds).congr' h.symm
  have h3 : f s = g s := tendsto_nhds_unique h1 h2
  have h4 : HasDerivWithinAt f b (Set.Ioi s) s := (hg.hasDerivWithinAt).congr_of_eventuallyEq h h3
  exact (uniqueDiffWithinAt_Ioi s).eq_deriv _ hf.hasDerivWithinAt h4

/-- A curve of coexisting states that starts at a state where component `k` is absent from both phases: to the right of
`s` all components are present. -/
structure DiluteCurve (αr : ℝ → ℝ → (Fin 2 → ℝ) → ℝ) (R : ℝ) (k : Fin 2) (τ : ℝ → ℝ) (γ δ : ℝ → Fin 2 → ℝ) (s τ' : ℝ)
    (v w : Fin 2 → ℝ) : Prop where
  hτ : HasDerivAt τ τ' s
  hγ : HasDerivAt γ v s
  hδ : HasDerivAt δ w s
  zL : γ s k = 0
  zV : δ s k = 0
  pL : 0 < γ s (1 - k)
  pV : 0 < δ s (1 - k)
  pos : ∀ᶠ u in 𝓝[>] s, ∀ i, 0 < γ u i ∧ 0 < δ u i
  co : ∀ᶠ u in 𝓝[>] s, MixCoexist αr R (τ u) (γ u) (δ u)

/-- The limit of the ratio of the vapor to the liquid concentration of the dilute component. -/
noncomputable def kFactor (m : EOS (Fin 2)) (R T : ℝ) (k : Fin 2) (L V : Fin 2 → ℝ) : ℝ :=
  Real.exp (-(gradPsir m T V k - gradPsir m T L k) / (R * T))

section
variable {m : EOS (Fin 2)} {R s τ' : ℝ} {k : Fin 2} {τ : ℝ → ℝ} {γ δ : ℝ → Fin 2 → ℝ} {v w : Fin 2 → ℝ}
  {solve : Solver 2}

theorem DiluteCurve.mu_eq (h : DiluteCurve m.alphar R k τ γ δ s τ' v w) (hR : ∀ x, m.R x = R)
    (hL : SmoothAt m (τ s) (γ s)) (hV : SmoothAt m (τ s) (δ s)) (i : Fin 2) :
    ∀ᶠ u in 𝓝[>] s, gradPsir m (τ u) (γ u) i + R * τ u * Real.log (γ u i) =
      gradPsir m (τ u) (δ u) i + R * τ u * Real.log (δ u i) := by
  filter_upwards [(smooth_curve hL h.hτ.continuousAt h.hγ.continuousAt).filter_mono nhdsWithin_le_nhds,
    (smooth_curve hV h.hτ.continuousAt h.hδ.continuousAt).filter_mono nhdsWithin_le_nhds, h.pos, h.co]
    with u s1 s2 hp hc
  have := hc.1 i
  rwa [mixMu_eq s1 hR i (hp i).1, mixMu_eq s2 hR i (hp i).2] at this

/-- The dilute component grows in the vapor at `K` times its rate in the liquid. -/
theorem DiluteCurve.ratio (h : DiluteCurve m.alphar R k τ γ δ s τ' v w) (hR : ∀ x, m.R x = R)
    (hL : SmoothAt m (τ s) (γ s)) (hV : SmoothAt m (τ s) (δ s)) (hRT : R * τ s ≠ 0) :
    w k = kFactor m R (τ s) k (γ s) (δ s) * v k := by
  have hgL := grad_curve hL h.hτ h.hγ rfl rfl k
  have hgV := grad_curve hV h.hτ h.hδ rfl rfl k
  have hF := ((hgV.sub hgL).neg.div (h.hτ.const_mul R) hRT).exp
  have hprod := (hasDerivAt_pi.1 h.hγ k).mul hF
  have he : (fun u => δ u k) =ᶠ[𝓝[>] s] ((fun u => γ u k) * fun u =>
      Real.exp ((-((fun u => gradPsir m (τ u) (δ u) k) - fun u => gradPsir m (τ u) (γ u) k) / fun u => R * τ u) u)) := by
    have hne : ∀ᶠ u in 𝓝[>] s, R * τ u ≠ 0 :=
      ((h.hτ.const_mul R).continuousAt.eventually_ne hRT).filter_mono nhdsWithin_le_nhds
    filter_upwards [h.mu_eq hR hL hV k, h.pos, hne] with u hu hp hn
    have h1 : Real.log (δ u k) = Real.log (γ u k) + -(gradPsir m (τ u) (δ u) k - gradPsir m (τ u) (γ u) k) / (R * τ u) := by
      refine mul_left_cancel₀ hn ?_
      rw [mul_add, mul_div_cancel₀ _ hn]
      linarith
    have h2 := congrArg Real.exp h1
    rw [Real.exp_log (hp k).2, Real.exp_add, Real.exp_log (hp k).1] at h2
    simpa using h2
  have := right_unique (hasDerivAt_pi.1 h.hδ k) hprod he
  rw [this, h.zL, zero_mul, add_zero]
  simp only [Pi.div_apply, Pi.neg_apply, Pi.sub_apply, kFactor]
  ring

/-- Equal chemical potentials of the solvent. -/
theorem DiluteCurve.mu (h : DiluteCurve m.alphar R k τ γ δ s τ' v w) (hR : ∀ x, m.R x = R)
    (hL : SmoothAt m (τ s) (γ s)) (hV : SmoothAt m (τ s) (δ s)) :
    mv (psiHess m (τ s) (δ s)) w (1 - k) = mv (psiHess m (τ s) (γ s)) v (1 - k) -
      τ' * (d2PsirdTdrhoi m (τ s) (δ s) (1 - k) - d2PsirdTdrhoi m (τ s) (γ s) (1 - k) +
        R * Real.log (δ s (1 - k) / γ s (1 - k))) := by
  have h1 := mu_rate hL hR h.hτ h.hγ (1 - k) h.pL
  have h2 := mu_rate hV hR h.hτ h.hδ (1 - k) h.pV
  have := right_unique h1 h2 (h.mu_eq hR hL hV (1 - k))
  rw [Real.log_div h.pV.ne' h.pL.ne']
  simp only [dchempotdT, hR, div_one] at this
  linarith

/-- The rate of the pressure through either phase. -/
theorem DiluteCurve.p (h : DiluteCurve m.alphar R k τ γ δ s τ' v w) (hR : ∀ x, m.R x = R)
    (hL : SmoothAt m (τ s) (γ s)) (hV : SmoothAt m (τ s) (δ s)) :
    HasDerivAt (fun u => mixP m.alphar R (τ u) (γ u))
      (τ' * dpdT m (τ s) (γ s) + ∑ j, solverDp m (R * τ s) (τ s) (γ s) j * v j) s ∧
    τ' * dpdT m (τ s) (γ s) + ∑ j, solverDp m (R * τ s) (τ s) (γ s) j * v j =
      τ' * dpdT m (τ s) (δ s) + ∑ j, solverDp m (R * τ s) (τ s) (δ s) j * w j := by
  have h1 := p_curve hL hR h.hτ h.hγ rfl rfl
  have h2 := p_curve hV hR h.hτ h.hδ rfl rfl
  have s1 := smooth_curve hL h.hτ.continuousAt h.hγ.continuousAt
  have s2 := smooth_curve hV h.hτ.continuousAt h.hδ.continuousAt
  refine ⟨h1.congr_of_eventuallyEq (s1.mono fun u hu => mixP_eq hu hR), right_unique h1 h2 ?_⟩
  filter_upwards [s1.filter_mono nhdsWithin_le_nhds, s2.filter_mono nhdsWithin_le_nhds, h.co] with u a b c
  rw [← mixP_eq a hR, ← mixP_eq b hR]
  exact c.2

theorem solverDp_dilute {T : ℝ} {ρ : Fin 2 → ℝ} (hs : SmoothAt m T ρ) (hR : ∀ x, m.R x = R) (hz : ρ k = 0)
    (hp : ρ (1 - k) ≠ 0) (v : Fin 2 → ℝ) :
    ∑ j, solverDp m (R * T) T ρ j * v j = ρ (1 - k) * mv (psiHess m T ρ) v (1 - k) + R * T * v k := by
  have hsym := (hessPsi_symm hs 0 1).1
  simp only [solverDp, mv, psiHess_apply, hessPsi, hR, Fin.sum_univ_two]
  fin_cases k
  · simp at hz hp ⊢
    rw [hz]
    field_simp
    rw [hsym]
    ring
  · simp at hz hp ⊢
    rw [hz]
    field_simp
    rw [hsym]
    ring

/-- Both phases regular at infinite dilution of component `k`. -/
structure DiluteRegular (m : EOS (Fin 2)) (R T : ℝ) (k : Fin 2) (L V : Fin 2 → ℝ) : Prop where
  sL : SmoothAt m T L
  sV : SmoothAt m T V
  rt : R * T ≠ 0
  hL : hessPsi m T L (1 - k) (1 - k) ≠ 0
  hV : hessPsi m T V (1 - k) (1 - k) ≠ 0
  comp : V (1 - k) ≠ kFactor m R T k L V * L (1 - k)

theorem dil_matrices {T : ℝ} {L V : Fin 2 → ℝ} (hR : ∀ x, m.R x = R) (zL : L k = 0) (zV : V k = 0)
    (pL : L (1 - k) ≠ 0) (sL : SmoothAt m T L) (v w : Fin 2 → ℝ) :
    dilAT m T L V = dilA m T L V ∧
    ((dilA m T L V).mulVec v 0 = V (1 - k) * mv (psiHess m T L) v (1 - k) + R * T * kFactor m R T k L V * v k) ∧
    ((dilA m T L V).mulVec v 1 = L (1 - k) * mv (psiHess m T L) v (1 - k) + R * T * v k) ∧
    (mv (dilHL m T L) v k = R * T * v k) ∧
    (mv (dilHL m T L) v (1 - k) = L (1 - k) * mv (psiHess m T L) v (1 - k)) ∧
    ((dilHV m T L V).mulVec w k = R * T / kFactor m R T k L V * w k) ∧
    ((dilHV m T L V).mulVec w (1 - k) = L (1 - k) * mv (psiHess m T V) w (1 - k)) := by
  have hsym := (hessPsi_symm sL 0 1).2
  have e : dilAT m T L V = dilA m T L V := by
    funext i j
    fin_cases k <;> fin_cases i <;> fin_cases j <;> simp at zL zV pL <;> simp [dilAT, dilA, zL, zV, pL]
  refine ⟨e, ?_, ?_, ?_, ?_, ?_, ?_⟩
  all_goals
    fin_cases k <;> simp at zL zV pL <;>
      simp [Matrix.mulVec, dotProduct, Fin.sum_univ_two, dilA, dilHL, dilHV, mv, psiHess_apply, kFactor, zL, zV, pL, hR, hsym] <;>
      ring

theorem fin_two_cases {P : Fin 2 → Prop} (k : Fin 2) (h1 : P k) (h2 : P (1 - k)) (i : Fin 2) : P i := by
  fin_cases k <;> fin_cases i
  · exact h1
  · exact h2
  · exact h2
  · exact h1

theorem sum_two (k : Fin 2) (f : Fin 2 → ℝ) : ∑ i, f i = f k + f (1 - k) := by
  fin_cases k
  · simp
  · simp [add_comm]

theorem dil_dets {T : ℝ} {L V : Fin 2 → ℝ} (hR : ∀ x, m.R x = R) (zL : L k = 0) (zV : V k = 0)
    (pL : L (1 - k) ≠ 0) (h : DiluteRegular m R T k L V) :
    (dilA m T L V).det ≠ 0 ∧ (dilHV m T L V).det ≠ 0 := by
  have hK : kFactor m R T k L V ≠ 0 := (Real.exp_pos _).ne'
  constructor
  · intro hd
    obtain ⟨x, hx, hx0⟩ := Matrix.exists_mulVec_eq_zero_iff.mpr hd
    obtain ⟨-, e0, e1, -⟩ := dil_matrices (v := x) (w := x) hR zL zV pL h.sL
    rw [hx0] at e0 e1
    simp only [Pi.zero_apply] at e0 e1
    have e2 : (V (1 - k) - kFactor m R T k L V * L (1 - k)) * (R * T * x k) = 0 := by
      linear_combination V (1 - k) * -e1 + L (1 - k) * e0
    have hxk : x k = 0 := by
      rcases mul_eq_zero.mp e2 with h1 | h1
      · exact absurd (sub_eq_zero.mp h1) h.comp
      · exact (mul_eq_zero.mp h1).resolve_left h.rt
    rw [hxk, mul_zero, add_zero] at e1
    have e3 := (mul_eq_zero.mp e1.symm).resolve_left pL
    simp only [mv, psiHess_apply, sum_two k, hxk, mul_zero, zero_add] at e3
    exact hx (funext (fin_two_cases k hxk ((mul_eq_zero.mp e3).resolve_left h.hL)))
  · intro hd
    obtain ⟨x, hx, hx0⟩ := Matrix.exists_mulVec_eq_zero_iff.mpr hd
    obtain ⟨-, -, -, -, -, e0, e1⟩ := dil_matrices (v := x) (w := x) hR zL zV pL h.sL
    rw [hx0] at e0 e1
    simp only [Pi.zero_apply] at e0 e1
    have hxk : x k = 0 := (mul_eq_zero.mp e0.symm).resolve_left (div_ne_zero h.rt hK)
    have e3 := (mul_eq_zero.mp e1.symm).resolve_left pL
    simp only [mv, psiHess_apply, sum_two k, hxk, mul_zero, zero_add] at e3
    exact hx (funext (fin_two_cases k hxk ((mul_eq_zero.mp e3).resolve_left h.hV)))

theorem not_noneZero {L V : Fin 2 → ℝ} (zL : L k = 0) : ¬noneZero L V := fun h => h.1 k zL

/-- C40. At infinite dilution and constant temperature the rates of the concentrations along every curve that leaves the
pure fluid are the rate of the pressure times the vectors `get_drhovecdp_Tsat` returns. -/
theorem dp_tsat_dilute_is_slope {T : ℝ} (h : DiluteCurve m.alphar R k (fun _ => T) γ δ s 0 v w) (hR : ∀ x, m.R x = R)
    (hreg : DiluteRegular m R T k (γ s) (δ s)) (hs : SolvesRegular solve) :
    ∃ dL dV p', drhodpTsat m solve T (List.ofFn (γ s)) (List.ofFn (δ s)) = .ok (dL, dV) ∧
      HasDerivAt (fun u => mixP m.alphar R T (γ u)) p' s ∧ (∀ i, v i = p' * dL i) ∧ ∀ i, w i = p' * dV i := by
  obtain ⟨hp, hpe⟩ := h.p hR hreg.sL hreg.sV
  have hmu := h.mu hR hreg.sL hreg.sV
  have hrat := h.ratio hR hreg.sL hreg.sV hreg.rt
  obtain ⟨dA, dV⟩ := dil_dets hR h.zL h.zV h.pL.ne' hreg
  have hK : kFactor m R T k (γ s) (δ s) ≠ 0 := (Real.exp_pos _).ne'
  rw [solverDp_dilute hreg.sL hR h.zL h.pL.ne', solverDp_dilute hreg.sV hR h.zV h.pV.ne'] at hpe
  rw [solverDp_dilute hreg.sL hR h.zL h.pL.ne'] at hp
  simp only [zero_mul, zero_add, sub_zero] at hp hpe hmu
  set p' := γ s (1 - k) * mv (psiHess m T (γ s)) v (1 - k) + R * T * v k with hp'
  have hv : v = fun i => p' * solve (dilA m T (γ s) (δ s)) (fun _ => 1) i := by
    refine hs.smul dA ?_
    obtain ⟨-, e0, e1, -⟩ := dil_matrices (v := v) (w := w) hR h.zL h.zV h.pL.ne' hreg.sL
    funext i
    fin_cases i
    · simp only [Fin.zero_eta, mul_one]
      rw [e0, hpe, hmu, hrat]
      ring
    · simp only [Fin.mk_one, mul_one]
      rw [e1]
  have hw : w = fun i => p' * solve (dilHV m T (γ s) (δ s)) (mv (dilHL m T (γ s))
      (solve (dilA m T (γ s) (δ s)) (fun _ => 1))) i := by
    refine hs.smul dV ?_
    obtain ⟨-, -, -, e2, e3, e4, e5⟩ := dil_matrices (v := v) (w := w) hR h.zL h.zV h.pL.ne' hreg.sL
    funext i
    rw [← mv_smul, ← hv]
    refine fin_two_cases (P := fun i => (dilHV m T (γ s) (δ s)).mulVec w i = mv (dilHL m T (γ s)) v i) k ?_ ?_ i
    · rw [e4, e2, hrat]
      field_simp
    · rw [e5, e3, hmu]
  refine ⟨_, _, p', ?_, hp, congrFun hv, congrFun hw⟩
  unfold drhodpTsat drhodpTsatVec
  rw [if_pos (by simp), if_neg (by norm_num), getD_ofFn, getD_ofFn, if_pos ⟨hreg.sL.tot, hreg.sV.tot,
    fin_two_cases k (fun _ => h.zL) (fun h0 => absurd h0 h.pV.ne')⟩, if_neg (not_noneZero h.zL)]

/-- C40. At infinite dilution and constant pressure the rates of the concentrations are the rate of the temperature times
the vectors `get_drhovecdT_psat` returns. -/
theorem dT_psat_dilute_is_slope (h : DiluteCurve m.alphar R k τ γ δ s τ' v w) (hR : ∀ x, m.R x = R)
    (hreg : DiluteRegular m R (τ s) k (γ s) (δ s)) (hs : SolvesRegular solve) {p : ℝ}
    (hp : ∀ᶠ u in 𝓝[>] s, mixP m.alphar R (τ u) (γ u) = p) :
    ∃ dL dV, drhodTpsat m solve (τ s) (List.ofFn (γ s)) (List.ofFn (δ s)) = .ok (dL, dV) ∧
      (∀ i, v i = τ' * dL i) ∧ ∀ i, w i = τ' * dV i := by
  obtain ⟨hpd, hpe⟩ := h.p hR hreg.sL hreg.sV
  have hp0 := right_unique hpd (hasDerivAt_const s p) hp
  have hmu := h.mu hR hreg.sL hreg.sV
  have hrat := h.ratio hR hreg.sL hreg.sV hreg.rt
  obtain ⟨dA, dV⟩ := dil_dets hR h.zL h.zV h.pL.ne' hreg
  have hK : kFactor m R (τ s) k (γ s) (δ s) ≠ 0 := (Real.exp_pos _).ne'
  rw [hp0, solverDp_dilute hreg.sV hR h.zV h.pV.ne'] at hpe
  rw [solverDp_dilute hreg.sL hR h.zL h.pL.ne'] at hp0
  set T := τ s with hT
  set L := γ s with hL
  set V := δ s with hV
  set o := 1 - k with ho
  set res : Fin 2 → ℝ := fun i => d2PsirdTdrhoi m T V i - d2PsirdTdrhoi m T L i with hres
  set b : Fin 2 → ℝ := ![(∑ i, V i * res i) + (∑ i, dilRhoVIdeal m L V i) - dpdT m T V, -dpdT m T L] with hb
  have zL : L k = 0 := h.zL
  have zV : V k = 0 := h.zV
  have pV : V o ≠ 0 := h.pV.ne'
  obtain ⟨eA, e0, e1, e2, e3, e4, e5⟩ := dil_matrices (m := m) (T := T) (L := L) (V := V) (v := v) (w := w) hR h.zL h.zV h.pL.ne' hreg.sL
  have hsum : ∀ f : Fin 2 → ℝ, f k = 0 → ∑ i, f i = f o := fun f hf => by
    rw [ho]
    fin_cases k <;> simp at hf ⊢ <;> rw [hf]
  have hb0 : b 0 = V o * (res o + R * Real.log (V o / L o)) - dpdT m T V := by
    simp only [b, Matrix.cons_val_zero]
    rw [hsum (fun i => V i * res i) (by rw [zV, zero_mul]), hsum (fun i => dilRhoVIdeal m L V i)
      (by simp only [dilRhoVIdeal]; rw [if_pos zV])]
    simp only [dilRhoVIdeal, hR]
    rw [if_neg pV]
    ring
  have hv : v = fun i => τ' * solve (dilA m T L V) b i := by
    refine hs.smul dA ?_
    funext i
    fin_cases i
    · simp only [Fin.zero_eta]
      rw [e0, hb0]
      rw [hmu, hrat] at hpe
      simp only [hres]
      linear_combination -hpe
    · simp only [Fin.mk_one]
      rw [e1]
      simp only [b, Matrix.cons_val_one, Matrix.cons_val_zero]
      linear_combination hp0
  have hw : w = fun i => τ' * solve (dilHV m T L V) (fun i => mv (dilHL m T L) (solve (dilA m T L V) b) i -
      L i * (res i + dilIdeal m L V i)) i := by
    refine hs.smul dV ?_
    funext i
    rw [mul_sub, ← mv_smul, ← hv]
    refine fin_two_cases (P := fun i => (dilHV m T L V).mulVec w i = mv (dilHL m T L) v i -
      τ' * (L i * (res i + dilIdeal m L V i))) k ?_ ?_ i
    · rw [e4, e2, hrat, zL]
      field_simp
      ring
    · rw [e5, e3, hmu]
      simp only [dilIdeal, hR]
      rw [if_neg pV]
      ring
  refine ⟨_, _, ?_, congrFun hv, congrFun hw⟩
  unfold drhodTpsat
  rw [ofFn_two, ofFn_two]
  simp only [List.length_cons, List.length_nil, zero_add, Nat.reduceAdd, ne_eq, not_true_eq_false, if_false]
  have hfin : psatFinite L V := by
    refine ⟨hreg.sL.tot, hreg.sV.tot, ?_⟩
    rw [if_neg (not_noneZero h.zL)]
    exact fin_two_cases k (.inl ⟨zL, zV⟩) (.inr (div_pos h.pV h.pL))
  rw [vec2_eta, vec2_eta, if_pos hfin]
  unfold drhodTpsatVec
  rw [if_neg (not_noneZero h.zL)]
  unfold drhodTpsatDilute
  rw [eA]

end
/-! ## A state meeting the hypotheses -/

open Teqp.Sample

theorem dissolved_curve {τ : ℝ → ℝ} {τ' : ℝ} (hτ : HasDerivAt τ τ' 0) :
    DiluteCurve dissolved.alphar 1 1 τ (fun u => ![2, u]) (fun u => ![1, u]) 0 τ' ![0, 1] ![0, 1] := by
  have hd : ∀ c : ℝ, HasDerivAt (fun u : ℝ => (![c, u] : Fin 2 → ℝ)) ![0, 1] 0 := fun c => by
    rw [hasDerivAt_pi]
    intro i
    fin_cases i
    · exact hasDerivAt_const _ _
    · exact hasDerivAt_id _
  refine ⟨hτ, hd 2, hd 1, rfl, rfl, two_pos, one_pos, ?_, ?_⟩
  · filter_upwards [self_mem_nhdsWithin] with u hu i
    have hu : 0 < u := hu
    fin_cases i <;> simp [hu]
  · filter_upwards [self_mem_nhdsWithin] with u hu
    exact dissolved_coexist hu

theorem dissolved_regular {T : ℝ} (hT : T ≠ 0) : DiluteRegular dissolved 1 T 1 ![2, 0] ![1, 0] := by
  have h1 : rhotot (![2, 0] : Fin 2 → ℝ) ≠ 0 := by rw [rhotot_two]; simp
  have h2 : rhotot (![1, 0] : Fin 2 → ℝ) ≠ 0 := by rw [rhotot_two]; simp
  have l1 := Real.log_two_gt_d9
  have l2 := Real.log_two_lt_d9
  refine ⟨dissolved_smooth _ _ h1, dissolved_smooth _ _ h2, by simpa using hT, ?_, ?_, ?_⟩
  · have : hessPsi dissolved T ![2, 0] (1 - 1) (1 - 1) = T * (8 * Real.log 2 - 11 / 2) := by
      simp only [sub_self, hessPsi, dissolved_hess00 T _ h1, dissolved_R, if_true]
      simp
      ring
    rw [this]
    exact mul_ne_zero hT (by intro h; linarith)
  · have : hessPsi dissolved T ![1, 0] (1 - 1) (1 - 1) = T * (7 - 10 * Real.log 2) := by
      simp only [sub_self, hessPsi, dissolved_hess00 T _ h2, dissolved_R, if_true]
      simp
      ring
    rw [this]
    exact mul_ne_zero hT (by intro h; linarith)
  · simp only [kFactor, (dissolved_grad T _ h1).2, (dissolved_grad T _ h2).2]
    simp

/-- The hypotheses of `dp_tsat_dilute_is_slope`. -/
example : DiluteCurve dissolved.alphar 1 1 (fun _ => 3) (fun u => ![2, u]) (fun u => ![1, u]) 0 0 ![0, 1] ![0, 1] ∧
    DiluteRegular dissolved 1 3 1 ![2, 0] ![1, 0] ∧ ∃ solve : Solver 2, SolvesRegular solve :=
  ⟨dissolved_curve (hasDerivAt_const _ _), dissolved_regular (by norm_num), fun A b => A⁻¹.mulVec b, fun A b hA => by
    have hu : IsUnit A.det := isUnit_iff_ne_zero.mpr hA
    simp [Matrix.mulVec_mulVec, Matrix.mul_nonsing_inv _ hu]⟩

/-- The hypotheses of `dT_psat_dilute_is_slope`: the pressure stays at 1. -/
example : DiluteCurve dissolved.alphar 1 1 (fun u => 1 / (6 - 8 * Real.log 2 + u)) (fun u => ![2, u])
      (fun u => ![1, u]) 0 (-1 / (6 - 8 * Real.log 2) ^ 2) ![0, 1] ![0, 1] ∧
    (∀ᶠ u in 𝓝[>] (0 : ℝ), mixP dissolved.alphar 1 (1 / (6 - 8 * Real.log 2 + u)) ![2, u] = 1) ∧
    DiluteRegular dissolved 1 (1 / (6 - 8 * Real.log 2 + 0)) 1 ![2, 0] ![1, 0] := by
  have l2 := Real.log_two_lt_d9
  have hp : 0 < 6 - 8 * Real.log 2 := by linarith
  refine ⟨dissolved_curve ?_, ?_, dissolved_regular (by rw [add_zero]; positivity)⟩
  · have h1 := (hasDerivAt_const (0 : ℝ) (1 : ℝ)).div ((hasDerivAt_id (0 : ℝ)).const_add (6 - 8 * Real.log 2))
      (by simpa using hp.ne')
    exact h1.congr_deriv (by simp)
  · filter_upwards [self_mem_nhdsWithin] with u hu
    have hu : 0 < u := hu
    have h1 : rhotot ![2, u] ≠ 0 := by rw [rhotot_two]; simp; positivity
    rw [dissolved_p _ _ h1]
    have : 6 - 8 * Real.log 2 + u ≠ 0 := by positivity
    simp
    field_simp
    ring

end Teqp.Props
