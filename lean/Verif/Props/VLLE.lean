import Verif.Lemmas.VLLE
import Verif.Props.Envelope
import Verif.Props.MixSolver

/-! # Three-phase equilibrium: equations, Jacobian, tangent, return codes (C39, C72) -/

set_option autoImplicit false

open Teqp.Calc Teqp.Model Teqp.Spec Teqp.Lemmas Teqp.MixVLE Teqp.Envelope Teqp.VLLE Filter Topology

namespace Teqp.Props

/-- The three phases are in equilibrium with one another. -/
def ThreeCoexist (αr : ℝ → ℝ → (Fin 2 → ℝ) → ℝ) (R T : ℝ) (ph : Phases) : Prop :=
  ∀ k k', MixCoexist αr R T (ph k) (ph k')

/-- Every component is present in every phase, and the residual part is smooth there. -/
structure GoodPhases (m : EOS (Fin 2)) (T : ℝ) (ph : Phases) : Prop where
  smooth : ∀ k, SmoothAt m T (ph k)
  pos : ∀ k i, 0 < ph k i

theorem wells_good {T : ℝ} (hT : 0 < T) : GoodPhases wells T (wellsPhases T) :=
  ⟨fun k => wells_smooth hT.ne' (wellsPhases_pos hT k), wellsPhases_pos hT⟩

section
variable {m : EOS (Fin 2)} {R T : ℝ} {ph : Phases}

theorem coexist_iff (hR : ∀ x, m.R x = R) (hg : GoodPhases m T ph) (k k' : Fin 3) :
    MixCoexist m.alphar R T (ph k) (ph k') ↔
      (∀ i, phaseMu m T (ph k) i = phaseMu m T (ph k') i) ∧ phaseP m T (ph k) = phaseP m T (ph k') := by
  simp only [MixCoexist, phaseMu_eq hR (hg.smooth _) (hg.pos _), phaseP_eq hR (hg.smooth _)]

/-- C72. The residual of `mix_VLLE_T` vanishes exactly at three phases in equilibrium. -/
theorem vlleResid_zero_iff (hR : ∀ x, m.R x = R) (hg : GoodPhases m T ph) :
    (∀ e, vlleResid m T ph e = 0) ↔ ThreeCoexist m.alphar R T ph := by
  unfold ThreeCoexist
  simp only [coexist_iff hR hg]
  constructor
  · intro h
    have h01 : (∀ i, phaseMu m T (ph 0) i = phaseMu m T (ph 1) i) ∧ phaseP m T (ph 0) = phaseP m T (ph 1) :=
      ⟨fun i => sub_eq_zero.mp (h (.inl (0, i))), sub_eq_zero.mp (h (.inr 0))⟩
    have h12 : (∀ i, phaseMu m T (ph 1) i = phaseMu m T (ph 2) i) ∧ phaseP m T (ph 1) = phaseP m T (ph 2) :=
      ⟨fun i => sub_eq_zero.mp (h (.inl (1, i))), sub_eq_zero.mp (h (.inr 1))⟩
    have hall : ∀ k, (∀ i, phaseMu m T (ph k) i = phaseMu m T (ph 1) i) ∧ phaseP m T (ph k) = phaseP m T (ph 1) := by
      intro k
      fin_cases k
      · exact h01
      · exact ⟨fun _ => rfl, rfl⟩
      · exact ⟨fun i => (h12.1 i).symm, h12.2.symm⟩
    intro k k'
    exact ⟨fun i => ((hall k).1 i).trans ((hall k').1 i).symm, (hall k).2.trans (hall k').2.symm⟩
  · rintro h (⟨k, i⟩ | k)
    · exact sub_eq_zero.mpr ((h k.castSucc k.succ).1 i)
    · exact sub_eq_zero.mpr (h k.castSucc k.succ).2

/-- C72. The residual of `mix_VLLE_p` vanishes exactly at three phases in equilibrium at the specified pressure. -/
theorem vllePResid_zero_iff (hR : ∀ x, m.R x = R) (hg : GoodPhases m T ph) (p : ℝ) :
    (∀ e, vllePResid m p T ph e = 0) ↔ ThreeCoexist m.alphar R T ph ∧ ∀ k, mixP m.alphar R T (ph k) = p := by
  have h1 : (∀ e, vllePResid m p T ph e = 0) ↔ (∀ e, vlleResid m T ph e = 0) ∧ phaseP m T (ph 0) = p := by
    constructor
    · intro h
      exact ⟨fun e => h (.inl e), sub_eq_zero.mp (h (.inr ()))⟩
    · rintro ⟨h, h'⟩ (e | e)
      · exact h e
      · exact sub_eq_zero.mpr h'
  rw [h1, vlleResid_zero_iff hR hg, phaseP_eq hR (hg.smooth 0)]
  constructor
  · rintro ⟨h, h'⟩
    exact ⟨h, fun k => (h k 0).2.trans h'⟩
  · rintro ⟨h, h'⟩
    exact ⟨h, h' 0⟩

end

/-- The sample fluid has three phases in equilibrium, at zero pressure. -/
example : (∀ e, vlleResid wells 3 (wellsPhases 3) e = 0) ∧ (∀ e, vllePResid wells 0 3 (wellsPhases 3) e = 0) := by
  have hg := wells_good (T := 3) (by norm_num)
  refine ⟨(vlleResid_zero_iff wells_R hg).mpr (wells_coexist (by norm_num)),
    (vllePResid_zero_iff wells_R hg 0).mpr ⟨wells_coexist (by norm_num), fun k => ?_⟩⟩
  rw [wells_p (by norm_num) (wellsPhases_pos (by norm_num) k)]
  simp [wellsPhases_mu, wellsPhases_psi]

/-! ## The Jacobians -/

section
variable {m : EOS (Fin 2)} {R s τ' : ℝ} {τ : ℝ → ℝ} {γ : ℝ → Phases} {v : Phases}

theorem sum_two_phases (a b : Fin 2 → ℝ) (w : Phases) (k : Fin 2) :
    ∑ q : VlleVar, (if q.1 = k.castSucc then a q.2 else if q.1 = k.succ then -b q.2 else 0) * w q.1 q.2 =
      ∑ j, a j * w k.castSucc j - ∑ j, b j * w k.succ j := by
  rw [Fintype.sum_prod_type]
  fin_cases k <;> simp [Fin.sum_univ_three, Fin.sum_univ_two] <;> ring

/-- C72. The Jacobian of `mix_VLLE_p`: along any differentiable curve of temperature and phases the rate of every residual
is the row of the Jacobian times the rates of the unknowns. -/
theorem vllePJac_exact (hR : ∀ x, m.R x = R) (hg : GoodPhases m (τ s) (γ s)) (hτ : HasDerivAt τ τ' s)
    (hγ : HasDerivAt γ v s) (p : ℝ) (e : VllePEq) :
    HasDerivAt (fun u => vllePResid m p (τ u) (γ u) e) (∑ q, vllePJac m (τ s) (γ s) e q * phVecT τ' v q) s := by
  have hk : ∀ k, HasDerivAt (fun u => γ u k) (v k) s := hasDerivAt_pi.mp hγ
  have hmu := fun k i => phaseMu_rate hR (hg.smooth k) hτ (hk k) (hg.pos k) i
  have hp := fun k => phaseP_rate hR (hg.smooth k) hτ (hk k)
  rw [Fintype.sum_sum_type]
  simp only [Fintype.sum_unique, phVecT]
  rcases e with (⟨k, i⟩ | k) | e
  · refine ((hmu k.castSucc i).sub (hmu k.succ i)).congr_deriv ?_
    have := sum_two_phases (fun j => hessPsi m (τ s) (γ s k.castSucc) i j) (fun j => hessPsi m (τ s) (γ s k.succ) i j) v k
    have h2 : ∑ q : VlleVar, vllePJac m (τ s) (γ s) (.inl (.inl (k, i))) (.inl q) * v q.1 q.2 =
        ∑ j, hessPsi m (τ s) (γ s k.castSucc) i j * v k.castSucc j - ∑ j, hessPsi m (τ s) (γ s k.succ) i j * v k.succ j := by
      rw [← this]
      refine Finset.sum_congr rfl fun q _ => ?_
      obtain ⟨q, j⟩ := q
      simp only [vllePJac, vlleJac]
      by_cases h1 : q = k.castSucc
      · subst h1; simp
      · by_cases h2 : q = k.succ
        · subst h2; simp [h1]
        · simp [h1, h2]
    rw [h2]
    simp only [vllePJac]
    ring
  · refine ((hp k.castSucc).sub (hp k.succ)).congr_deriv ?_
    have := sum_two_phases (fun j => solverDp m (phaseRT m (τ s) (γ s k.castSucc)) (τ s) (γ s k.castSucc) j)
      (fun j => solverDp m (phaseRT m (τ s) (γ s k.succ)) (τ s) (γ s k.succ) j) v k
    have h2 : ∑ q : VlleVar, vllePJac m (τ s) (γ s) (.inl (.inr k)) (.inl q) * v q.1 q.2 =
        ∑ j, solverDp m (phaseRT m (τ s) (γ s k.castSucc)) (τ s) (γ s k.castSucc) j * v k.castSucc j -
          ∑ j, solverDp m (phaseRT m (τ s) (γ s k.succ)) (τ s) (γ s k.succ) j * v k.succ j := by
      rw [← this]
      refine Finset.sum_congr rfl fun q _ => ?_
      obtain ⟨q, j⟩ := q
      simp only [vllePJac, vlleJac]
      by_cases h1 : q = k.castSucc
      · subst h1; simp
      · by_cases h2 : q = k.succ
        · subst h2; simp [h1]
        · simp [h1, h2]
    rw [h2]
    simp only [vllePJac]
    ring
  · refine ((hp 0).sub_const p).congr_deriv ?_
    have h2 : ∑ q : VlleVar, vllePJac m (τ s) (γ s) (.inr e) (.inl q) * v q.1 q.2 =
        ∑ j, solverDp m (phaseRT m (τ s) (γ s 0)) (τ s) (γ s 0) j * v 0 j := by
      rw [Fintype.sum_prod_type]
      simp [vllePJac]
    rw [h2]
    simp only [vllePJac]
    ring

/-- C72. The Jacobian of `mix_VLLE_T`. -/
theorem vlleJac_exact (hR : ∀ x, m.R x = R) {T : ℝ} (hg : GoodPhases m T (γ s)) (hγ : HasDerivAt γ v s) (e : VlleEq) :
    HasDerivAt (fun u => vlleResid m T (γ u) e) (∑ q, vlleJac m T (γ s) e q * phVec v q) s := by
  have := vllePJac_exact (τ := fun _ => T) hR hg (hasDerivAt_const s T) hγ 0 (.inl e)
  rw [Fintype.sum_sum_type] at this
  simp only [Fintype.sum_unique, phVecT, mul_zero, add_zero] at this
  exact this

example : ∃ γ : ℝ → Phases, ∃ v, HasDerivAt γ v 3 ∧ v ≠ 0 ∧ GoodPhases wells 3 (γ 3) := by
  refine ⟨wellsPhases, ![![1, 0], ![1, 0], ![1, 0]], ?_, fun h => ?_, wells_good (by norm_num)⟩
  · exact wellsPhases_rate 3
  · have := congrFun (congrFun h 0) 0
    simp at this

/-! ## The tangent of the three-phase curve -/

/-- The matrix the tangent is computed from. -/
noncomputable def vlleLHS (m : EOS (Fin 2)) (T : ℝ) (ph : Phases) : Matrix (Fin 2) (Fin 2) ℝ :=
  Matrix.of fun r j => ∑ i, hessPsi m T (ph 0) j i * (ph r.succ i - ph 0 i)

/-- A curve of three phases in equilibrium, differentiable at `s`, with the rates `τ'` and `v`. -/
structure ThreeCurve (αr : ℝ → ℝ → (Fin 2 → ℝ) → ℝ) (R : ℝ) (τ : ℝ → ℝ) (γ : ℝ → Phases) (s τ' : ℝ) (v : Phases) :
    Prop where
  hτ : HasDerivAt τ τ' s
  hγ : HasDerivAt γ v s
  co : ∀ᶠ u in 𝓝 s, ThreeCoexist αr R (τ u) (γ u)

/-- C72. Along every curve of three phases in equilibrium the rates of the concentrations are the rate of the temperature
times the vectors that `get_drhovecdT_VLLE_binary` returns. -/
theorem drhodTVLLE_is_slope {solve : Solver 2} (hs : SolvesRegular solve) (hR : ∀ x, m.R x = R)
    (h : ThreeCurve m.alphar R τ γ s τ' v) (hg : GoodPhases m (τ s) (γ s)) (hL : (vlleLHS m (τ s) (γ s)).det ≠ 0)
    (h1 : Matrix.det (psiHess m (τ s) (γ s 1)) ≠ 0) (h2 : Matrix.det (psiHess m (τ s) (γ s 2)) ≠ 0) :
    ∃ d, drhodTVLLE m solve (τ s) (γ s) = .ok d ∧ ∀ k i, v k i = τ' * d k i := by
  have hk : ∀ k, HasDerivAt (fun u => γ u k) (v k) s := hasDerivAt_pi.mp h.hγ
  have hc : ∀ k, EqCurve m.alphar R τ (fun u => γ u k) (fun u => γ u 0) s τ' (v k) (v 0) := fun k =>
    ⟨h.hτ, hk k, hk 0, hg.pos k, hg.pos 0, h.co.mono fun u hu => hu k 0⟩
  set H : Fin 3 → Matrix (Fin 2) (Fin 2) ℝ := fun k => psiHess m (τ s) (γ s k) with hH
  set Δ : Fin 3 → Fin 2 → ℝ := fun k i => phaseMuT m (τ s) (γ s k) i - phaseMuT m (τ s) (γ s 0) i with hΔ
  have hd : ∀ k i, dchempotdT m (τ s) (γ s k) i - dchempotdT m (τ s) (γ s 0) i = Δ k i := fun k i => by
    simp only [hΔ, dchempotdT, phaseMuT, hR, div_one]; ring
  have hmu : ∀ k i, mv (H k) (v k) i = mv (H 0) (v 0) i - τ' * Δ k i := fun k i => by
    have := (hc k).mu hR (hg.smooth k) (hg.smooth 0) i
    rw [← hd]
    simp only [hH]
    linarith
  have hp : ∀ k, ∑ i, (γ s k i - γ s 0 i) * mv (H 0) (v 0) i =
      τ' * (∑ i, Δ k i * γ s k i - (dpdT m (τ s) (γ s k) - dpdT m (τ s) (γ s 0))) := fun k => by
    have e := ((hc k).pL hR (hg.smooth k)).unique ((hc k).pV hR (hg.smooth 0))
    have e1 : ∑ i, γ s k i * mv (H k) (v k) i = ∑ i, γ s k i * (mv (H 0) (v 0) i - τ' * Δ k i) :=
      Finset.sum_congr rfl fun i _ => by rw [hmu]
    simp only [hH] at e1 e ⊢
    rw [e1] at e
    simp only [Fin.sum_univ_two] at e ⊢
    linarith
  have hsym : ∀ i j, H 0 i j = H 0 j i := fun i j => (hessPsi_symm (hg.smooth 0) i j).2
  set A : Matrix (Fin 2) (Fin 2) ℝ := Matrix.of ![mv (H 0) fun i => γ s 1 i - γ s 0 i, mv (H 0) fun i => γ s 2 i - γ s 0 i]
    with hA
  have hAL : A = vlleLHS m (τ s) (γ s) := by
    ext r j
    fin_cases r <;> simp [hA, vlleLHS, mv, hH, psiHess_apply]
  have hv0 : v 0 = fun i => τ' * solve A ![∑ i, Δ 1 i * γ s 1 i - (dpdT m (τ s) (γ s 1) - dpdT m (τ s) (γ s 0)),
      ∑ i, Δ 2 i * γ s 2 i - (dpdT m (τ s) (γ s 2) - dpdT m (τ s) (γ s 0))] i := by
    refine hs.smul (by rw [hAL]; exact hL) ?_
    funext r
    have e1 := hp 1
    have e2 := hp 2
    have hs01 := hsym 0 1
    fin_cases r
    · simp only [Fin.zero_eta, Matrix.cons_val_zero]
      rw [← e1]
      simp only [Matrix.mulVec, dotProduct, hA, mv, Fin.sum_univ_two, Matrix.of_apply, Matrix.cons_val_zero, hs01]
      ring
    · change A.mulVec (v 0) 1 = τ' * (∑ i, Δ 2 i * γ s 2 i - (dpdT m (τ s) (γ s 2) - dpdT m (τ s) (γ s 0)))
      rw [← e2]
      simp only [Matrix.mulVec, dotProduct, hA, mv, Fin.sum_univ_two, Matrix.of_apply, Matrix.cons_val_one, Matrix.cons_val_fin_one, hs01]
      ring
  set dV := solve A ![∑ i, Δ 1 i * γ s 1 i - (dpdT m (τ s) (γ s 1) - dpdT m (τ s) (γ s 0)),
      ∑ i, Δ 2 i * γ s 2 i - (dpdT m (τ s) (γ s 2) - dpdT m (τ s) (γ s 0))] with hdV
  have hvk : ∀ k, Matrix.det (H k) ≠ 0 → v k = fun i => τ' * solve (H k) (fun i => mv (H 0) dV i - Δ k i) i := fun k hdet => by
    refine hs.smul hdet ?_
    rw [← mv_eq]
    funext i
    rw [hmu, hv0, mv_smul]
    ring
  refine ⟨![dV, solve (H 1) fun i => mv (H 0) dV i - Δ 1 i, solve (H 2) fun i => mv (H 0) dV i - Δ 2 i], ?_, ?_⟩
  · unfold drhodTVLLE
    rw [if_pos hg.pos]
  · intro k i
    fin_cases k
    · exact congrFun hv0 i
    · exact congrFun (hvk 1 h1) i
    · exact congrFun (hvk 2 h2) i

/-- The three phases of the sample fluid move along the first axis with the temperature. -/
example {solve : Solver 2} (hs : SolvesRegular solve) :
    ∃ d, drhodTVLLE wells solve 3 (wellsPhases 3) = .ok d ∧ ∀ k, d k 0 = 1 ∧ d k 1 = 0 := by
  have hγ := wellsPhases_rate 3
  have hdet : ∀ k, Matrix.det (psiHess wells 3 (wellsPhases 3 k)) ≠ 0 := fun k => by
    rw [wellsPhases_hess (by norm_num), Matrix.det_fin_two_of]; norm_num
  have hL : (vlleLHS wells 3 (wellsPhases 3)).det ≠ 0 := by
    have hh : ∀ i j, hessPsi wells 3 (wellsPhases 3 0) i j = !![2, 0; 0, 2] i j := fun i j => by
      rw [← psiHess_apply, wellsPhases_hess (by norm_num)]
    rw [Matrix.det_fin_two]
    have e1 : wellsPhases 3 0 = ![3, 1] := rfl
    have e2 : wellsPhases 3 (Fin.succ 0) = ![3 + 1, 1] := rfl
    have e3 : wellsPhases 3 (Fin.succ 1) = ![3, 2] := rfl
    simp only [vlleLHS, Matrix.of_apply, hh, Fin.sum_univ_two]
    simp only [e1, e2, e3]
    norm_num
  obtain ⟨d, h1, h2⟩ := drhodTVLLE_is_slope (τ := fun u => u) hs wells_R
    ⟨hasDerivAt_id 3, hγ, (lt_mem_nhds (by norm_num : (0 : ℝ) < 3)).mono fun u hu => wells_coexist hu⟩
    (wells_good (by norm_num)) hL (hdet 1) (hdet 2)
  refine ⟨d, h1, fun k => ?_⟩
  have e0 := h2 k 0
  have e1 := h2 k 1
  rw [one_mul] at e0 e1
  rw [← e0, ← e1]
  fin_cases k <;> simp

end

/-! ## Return codes -/

/-- The step test of the three-phase solvers: the step, with its sign, is below the threshold. -/
def StepBelow {κ : Type} (tol : VLETol) (dx y : κ → ℝ) : Prop := ∀ i, dx i < tol.axtol + tol.relxtol * |y i|

theorem vlleTests_spec {κ κ' : Type} (tol : VLETol) (y dx : κ → ℝ) (r : κ' → ℝ) (o : Option VLLECode)
    (h : vlleTests tol y dx r = o) :
    (o = some .xtolSatisfied ∧ (StepBelow tol dx y ∨ ∀ i, |y i - dx i| < dblMin)) ∨
    (o = some .functolSatisfied ∧ ResidSmall tol r ∧ ¬StepBelow tol dx y) ∨
    (o = none ∧ ¬StepBelow tol dx y ∧ ¬ResidSmall tol r) := by
  unfold vlleTests at h
  by_cases h1 : ∀ i, dx i < tol.axtol + tol.relxtol * |y i|
  · rw [if_pos h1] at h; exact .inl ⟨h.symm, .inl h1⟩
  rw [if_neg h1] at h
  by_cases h2 : ∀ i, |r i| < tol.atol + tol.reltol * |r i|
  · rw [if_pos h2] at h; exact .inr (.inl ⟨h.symm, h2, h1⟩)
  rw [if_neg h2] at h
  by_cases h3 : ∀ i, |y i - dx i| < dblMin
  · rw [if_pos h3] at h; exact .inl ⟨h.symm, .inr h3⟩
  rw [if_neg h3] at h
  exact .inr (.inr ⟨h.symm, h1, h2⟩)

section
variable (resid : Phases → VlleEq → ℝ) (jac : Phases → VlleEq → VlleVar → ℝ)
    (solve : (VlleEq → VlleVar → ℝ) → (VlleEq → ℝ) → Option (VlleVar → ℝ)) (tol : VLETol)

/-- The Newton step of `mix_VLLE_T` from `ph` to `ph'`. -/
def VlleNewton (ph : Phases) (dx : VlleVar → ℝ) (ph' : Phases) : Prop :=
  (∀ k i, 0 < ph k i) ∧ solve (jac ph) (fun e => -resid ph e) = some dx ∧ ∀ k i, ph' k i = ph k i + dx (k, i)

/-- One pass. -/
noncomputable def vllePass (ph : Phases) : Outcome (Phases × Option VLLECode) :=
  open Classical in
  if ∀ k i, 0 < ph k i then
    match solve (jac ph) (fun e => -resid ph e) with
    | none => .nonFinite
    | some dx => .ok (phAdd ph dx, vlleTests tol (phVec (phAdd ph dx)) dx (resid ph))
  else .nonFinite

theorem vlleLoop_eq (n : ℕ) (ph : Phases) :
    vlleLoop resid jac solve tol (n + 1) ph = codeLoop (vllePass resid jac solve tol) .maxiterMet n ph := by
  induction n generalizing ph with
  | zero =>
    simp only [vlleLoop, codeLoop, vllePass]
    by_cases hp : ∀ k i, 0 < ph k i
    · simp only [if_pos hp]
      cases hs : solve (jac ph) (fun e => -resid ph e) with
      | none => rfl
      | some dx =>
        simp only [Outcome.bind_ok]
        cases ht : vlleTests tol (phVec (phAdd ph dx)) dx (resid ph) <;> rfl
    · simp only [if_neg hp]; rfl
  | succ n ih =>
    rw [vlleLoop, codeLoop, vllePass]
    by_cases hp : ∀ k i, 0 < ph k i
    · simp only [if_pos hp]
      cases hs : solve (jac ph) (fun e => -resid ph e) with
      | none => rfl
      | some dx =>
        simp only [Outcome.bind_ok]
        cases ht : vlleTests tol (phVec (phAdd ph dx)) dx (resid ph) with
        | none => simp only [ih, Nat.add_eq_zero_iff, one_ne_zero, and_false, if_false]
        | some c => rfl
    · simp only [if_neg hp]; rfl

theorem vllePass_ok {ph ph' : Phases} {o : Option VLLECode} (h : vllePass resid jac solve tol ph = .ok (ph', o)) :
    ∃ dx, VlleNewton resid jac solve ph dx ph' ∧ vlleTests tol (phVec ph') dx (resid ph) = o := by
  unfold vllePass at h
  by_cases hp : ∀ k i, 0 < ph k i
  · rw [if_pos hp] at h
    cases hs : solve (jac ph) (fun e => -resid ph e) with
    | none => rw [hs] at h; simp at h
    | some dx =>
      rw [hs] at h
      simp only [Outcome.ok.injEq, Prod.mk.injEq] at h
      obtain ⟨rfl, h⟩ := h
      exact ⟨dx, ⟨hp, hs, fun _ _ => rfl⟩, h⟩
  · rw [if_neg hp] at h; simp at h

/-- What a finished run of `mix_VLLE_T` with a positive number of iterations looks like: `k` Newton steps that met neither
test, then the last one, and the code says which test it met. -/
def VlleRun (n : ℕ) (ph : Phases) (c : VLLECode) (ph' : Phases) : Prop :=
  ∃ k, k < n ∧ ∃ path : ℕ → Phases, path 0 = ph ∧
    (∀ j, j < k → ∃ dx, VlleNewton resid jac solve (path j) dx (path (j + 1)) ∧
      ¬StepBelow tol dx (phVec (path (j + 1))) ∧ ¬ResidSmall tol (resid (path j))) ∧
    ∃ dx, VlleNewton resid jac solve (path k) dx ph' ∧
      ((c = .xtolSatisfied ∧ (StepBelow tol dx (phVec ph') ∨ ∀ q, |phVec (path k) q| < dblMin)) ∨
       (c = .functolSatisfied ∧ ResidSmall tol (resid (path k))) ∨
       (c = .maxiterMet ∧ k + 1 = n ∧ ¬StepBelow tol dx (phVec ph') ∧ ¬ResidSmall tol (resid (path k))))

theorem vlleLoop_run {n : ℕ} {ph ph' : Phases} {c : VLLECode} (h : vlleLoop resid jac solve tol n ph = .ok (c, ph')) :
    (n = 0 ∧ c = .unset ∧ ph' = ph) ∨ VlleRun resid jac solve tol n ph c ph' := by
  rcases n with _ | n
  · simp only [vlleLoop, Outcome.ok.injEq, Prod.mk.injEq] at h
    exact .inl ⟨rfl, h.1.symm, h.2.symm⟩
  right
  rw [vlleLoop_eq] at h
  obtain ⟨k, hk, path, hp0, hp, hl⟩ := codeLoop_run _ _ _ _ _ _ h
  refine ⟨k, by omega, path, hp0, fun j hj => ?_, ?_⟩
  · obtain ⟨dx, h1, h2⟩ := vllePass_ok _ _ _ _ (hp j hj)
    rcases vlleTests_spec _ _ _ _ _ h2 with ⟨h, _⟩ | ⟨h, _⟩ | ⟨_, h4, h5⟩
    · cases h
    · cases h
    · exact ⟨dx, h1, h4, h5⟩
  · rcases hl with hl | ⟨hl, rfl, rfl⟩
    · obtain ⟨dx, h1, h2⟩ := vllePass_ok _ _ _ _ hl
      refine ⟨dx, h1, ?_⟩
      rcases vlleTests_spec _ _ _ _ _ h2 with ⟨h, h4⟩ | ⟨h, h4, _⟩ | ⟨h, _⟩
      · injection h with h
        refine .inl ⟨h, h4.imp id fun h5 q => ?_⟩
        have := h5 q
        rwa [phVec, h1.2.2, add_sub_cancel_right] at this
      · injection h with h
        exact .inr (.inl ⟨h, h4⟩)
      · cases h
    · obtain ⟨dx, h1, h2⟩ := vllePass_ok _ _ _ _ hl
      refine ⟨dx, h1, ?_⟩
      rcases vlleTests_spec _ _ _ _ _ h2 with ⟨h, _⟩ | ⟨h, _⟩ | ⟨_, h4, h5⟩
      · cases h
      · cases h
      · exact .inr (.inr ⟨rfl, rfl, h4, h5⟩)

end

/-- C39. What the return code of `mix_VLLE_T` says. -/
theorem vlleT_code {m : EOS (Fin 2)} {solve : (VlleEq → VlleVar → ℝ) → (VlleEq → ℝ) → Option (VlleVar → ℝ)} {T : ℝ}
    {ph ph' : Phases} {tol : VLETol} {maxiter : ℤ} {c : VLLECode}
    (h : mixVLLET m solve T ph tol maxiter = .ok (c, ph')) :
    (maxiter ≤ 0 ∧ c = .unset ∧ ph' = ph) ∨
      VlleRun (vlleResid m T) (vlleJac m T) solve tol maxiter.toNat ph c ph' := by
  rcases vlleLoop_run _ _ _ _ h with ⟨h1, h2⟩ | h
  · exact .inl ⟨by omega, h2⟩
  · exact .inr h

section
variable (resid : ℝ → Phases → VllePEq → ℝ) (jac : ℝ → Phases → VllePEq → VllePVar → ℝ)
    (solve : (VllePEq → VllePVar → ℝ) → (VllePEq → ℝ) → Option (VllePVar → ℝ)) (tol : VLETol)

/-- The Newton step of `mix_VLLE_p`. -/
def VllePNewton (x : ℝ × Phases) (dx : VllePVar → ℝ) (y : ℝ × Phases) : Prop :=
  (∀ k i, 0 < x.2 k i) ∧ solve (jac x.1 x.2) (fun e => -resid x.1 x.2 e) = some dx ∧ y.1 = x.1 + dx (.inr ()) ∧
    ∀ k i, y.2 k i = x.2 k i + dx (.inl (k, i))

/-- One pass. -/
noncomputable def vllePPass (x : ℝ × Phases) : Outcome ((ℝ × Phases) × Option VLLECode) :=
  open Classical in
  if ∀ k i, 0 < x.2 k i then
    match solve (jac x.1 x.2) (fun e => -resid x.1 x.2 e) with
    | none => .nonFinite
    | some dx =>
      .ok ((x.1 + dx (.inr ()), phAdd x.2 fun q => dx (.inl q)),
        vlleTests tol (phVecT (x.1 + dx (.inr ())) (phAdd x.2 fun q => dx (.inl q))) dx (resid x.1 x.2))
  else .nonFinite

theorem vllePLoop_eq (n : ℕ) (T : ℝ) (ph : Phases) :
    vllePLoop resid jac solve tol (n + 1) T ph = codeLoop (vllePPass resid jac solve tol) .maxiterMet n (T, ph) := by
  induction n generalizing T ph with
  | zero =>
    simp only [vllePLoop, codeLoop, vllePPass]
    by_cases hp : ∀ k i, 0 < ph k i
    · simp only [if_pos hp]
      cases hs : solve (jac T ph) (fun e => -resid T ph e) with
      | none => rfl
      | some dx =>
        simp only [Outcome.bind_ok]
        cases ht : vlleTests tol (phVecT (T + dx (.inr ())) (phAdd ph fun q => dx (.inl q))) dx (resid T ph) <;> rfl
    · simp only [if_neg hp]; rfl
  | succ n ih =>
    rw [vllePLoop, codeLoop, vllePPass]
    by_cases hp : ∀ k i, 0 < ph k i
    · simp only [if_pos hp]
      cases hs : solve (jac T ph) (fun e => -resid T ph e) with
      | none => rfl
      | some dx =>
        simp only [Outcome.bind_ok]
        cases ht : vlleTests tol (phVecT (T + dx (.inr ())) (phAdd ph fun q => dx (.inl q))) dx (resid T ph) with
        | none => simp only [ih, Nat.add_eq_zero_iff, one_ne_zero, and_false, if_false]
        | some c => rfl
    · simp only [if_neg hp]; rfl

theorem vllePPass_ok {x y : ℝ × Phases} {o : Option VLLECode} (h : vllePPass resid jac solve tol x = .ok (y, o)) :
    ∃ dx, VllePNewton resid jac solve x dx y ∧ vlleTests tol (phVecT y.1 y.2) dx (resid x.1 x.2) = o := by
  unfold vllePPass at h
  by_cases hp : ∀ k i, 0 < x.2 k i
  · rw [if_pos hp] at h
    cases hs : solve (jac x.1 x.2) (fun e => -resid x.1 x.2 e) with
    | none => rw [hs] at h; simp at h
    | some dx =>
      rw [hs] at h
      simp only [Outcome.ok.injEq, Prod.mk.injEq] at h
      obtain ⟨rfl, h⟩ := h
      exact ⟨dx, ⟨hp, hs, rfl, fun _ _ => rfl⟩, h⟩
  · rw [if_neg hp] at h; simp at h

/-- What a finished run of `mix_VLLE_p` looks like. -/
def VllePRun (n : ℕ) (x : ℝ × Phases) (c : VLLECode) (y : ℝ × Phases) : Prop :=
  ∃ k, k < n ∧ ∃ path : ℕ → ℝ × Phases, path 0 = x ∧
    (∀ j, j < k → ∃ dx, VllePNewton resid jac solve (path j) dx (path (j + 1)) ∧
      ¬StepBelow tol dx (phVecT (path (j + 1)).1 (path (j + 1)).2) ∧ ¬ResidSmall tol (resid (path j).1 (path j).2)) ∧
    ∃ dx, VllePNewton resid jac solve (path k) dx y ∧
      ((c = .xtolSatisfied ∧ (StepBelow tol dx (phVecT y.1 y.2) ∨ ∀ q, |phVecT (path k).1 (path k).2 q| < dblMin)) ∨
       (c = .functolSatisfied ∧ ResidSmall tol (resid (path k).1 (path k).2)) ∨
       (c = .maxiterMet ∧ k + 1 = n ∧ ¬StepBelow tol dx (phVecT y.1 y.2) ∧ ¬ResidSmall tol (resid (path k).1 (path k).2)))

theorem vllePLoop_run {n : ℕ} {T : ℝ} {ph : Phases} {y : ℝ × Phases} {c : VLLECode}
    (h : vllePLoop resid jac solve tol n T ph = .ok (c, y)) :
    (n = 0 ∧ c = .unset ∧ y = (-1, ph)) ∨ VllePRun resid jac solve tol n (T, ph) c y := by
  rcases n with _ | n
  · simp only [vllePLoop, Outcome.ok.injEq, Prod.mk.injEq] at h
    exact .inl ⟨rfl, h.1.symm, h.2.symm⟩
  right
  rw [vllePLoop_eq] at h
  obtain ⟨k, hk, path, hp0, hp, hl⟩ := codeLoop_run _ _ _ _ _ _ h
  refine ⟨k, by omega, path, hp0, fun j hj => ?_, ?_⟩
  · obtain ⟨dx, h1, h2⟩ := vllePPass_ok _ _ _ _ (hp j hj)
    rcases vlleTests_spec _ _ _ _ _ h2 with ⟨h, _⟩ | ⟨h, _⟩ | ⟨_, h4, h5⟩
    · cases h
    · cases h
    · exact ⟨dx, h1, h4, h5⟩
  · rcases hl with hl | ⟨hl, rfl, rfl⟩
    · obtain ⟨dx, h1, h2⟩ := vllePPass_ok _ _ _ _ hl
      refine ⟨dx, h1, ?_⟩
      rcases vlleTests_spec _ _ _ _ _ h2 with ⟨h, h4⟩ | ⟨h, h4, _⟩ | ⟨h, _⟩
      · injection h with h
        refine .inl ⟨h, h4.imp id fun h5 q => ?_⟩
        have := h5 q
        rcases q with q | q
        · rwa [phVecT, h1.2.2.2, add_sub_cancel_right] at this
        · rwa [phVecT, h1.2.2.1, add_sub_cancel_right] at this
      · injection h with h
        exact .inr (.inl ⟨h, h4⟩)
      · cases h
    · obtain ⟨dx, h1, h2⟩ := vllePPass_ok _ _ _ _ hl
      refine ⟨dx, h1, ?_⟩
      rcases vlleTests_spec _ _ _ _ _ h2 with ⟨h, _⟩ | ⟨h, _⟩ | ⟨_, h4, h5⟩
      · cases h
      · cases h
      · exact .inr (.inr ⟨rfl, rfl, h4, h5⟩)

end

/-- C39. What the return code of `mix_VLLE_p` says; with no iterations the temperature is -1, not the initial one. -/
theorem vlleP_code {m : EOS (Fin 2)} {solve : (VllePEq → VllePVar → ℝ) → (VllePEq → ℝ) → Option (VllePVar → ℝ)}
    {p T : ℝ} {ph : Phases} {y : ℝ × Phases} {tol : VLETol} {maxiter : ℤ} {c : VLLECode}
    (h : mixVLLEp m solve p T ph tol maxiter = .ok (c, y)) :
    (maxiter ≤ 0 ∧ c = .unset ∧ y = (-1, ph)) ∨
      VllePRun (vllePResid m p) (vllePJac m) solve tol maxiter.toNat (T, ph) c y := by
  rcases vllePLoop_run _ _ _ _ h with ⟨h1, h2⟩ | h
  · exact .inl ⟨by omega, h2⟩
  · exact .inr h

/-- A linear solve that finds the solution where there is exactly one. -/
def ExactSolveT (solve : (VlleEq → VlleVar → ℝ) → (VlleEq → ℝ) → Option (VlleVar → ℝ)) : Prop :=
  ∀ A b d, (∀ d', (∀ e, ∑ q, A e q * d' q = b e) ↔ d' = d) → solve A b = some d

open Classical in
example : ExactSolveT fun A b =>
    if h : ∃ d, ∀ d', (∀ e, ∑ q, A e q * d' q = b e) ↔ d' = d then some h.choose else none := by
  intro A b d h
  have he : ∃ d, ∀ d' : VlleVar → ℝ, (∀ e, ∑ q, A e q * d' q = b e) ↔ d' = d := ⟨d, h⟩
  simp only
  rw [dif_pos he]
  congr 1
  exact (h _).mp ((he.choose_spec _).mpr rfl)

/-- The start of the example: three phases of an ideal gas far from equilibrium. -/
noncomputable def tilted : Phases := ![![3 / 2, 1 / 4], ![1, 1], ![1 / 4, 3 / 2]]

/-- The logarithmic step all unknowns make. -/
noncomputable def tiltedE : ℝ := -1 - 4 * (3 / 2 * Real.log (3 / 2) - 1 / 2 * Real.log 2)

theorem log_quarter : Real.log (1 / 4) = -2 * Real.log 2 := by
  rw [show (1 / 4 : ℝ) = (2 ^ 2)⁻¹ by norm_num, Real.log_inv, Real.log_pow]; push_cast; ring

theorem ideal_vlle_system {ph : Phases} (d : VlleVar → ℝ) :
    (∀ e, ∑ q, vlleJac idealMix 1 ph e q * d q = -vlleResid idealMix 1 ph e) ↔
      (∀ (k i : Fin 2), d (k.castSucc, i) / ph k.castSucc i - d (k.succ, i) / ph k.succ i =
        -(Real.log (ph k.castSucc i) - Real.log (ph k.succ i))) ∧
      ∀ k : Fin 2, d (k.castSucc, 0) + d (k.castSucc, 1) - (d (k.succ, 0) + d (k.succ, 1)) =
        -(ph k.castSucc 0 + ph k.castSucc 1 - (ph k.succ 0 + ph k.succ 1)) := by
  have hmu : ∀ ρ i, phaseMu idealMix 1 ρ i = Real.log (ρ i) := fun ρ i => by
    rw [phaseMu, idealMix_grad]; simp [phaseRT, idealMix]
  have hP : ∀ ρ, phaseP idealMix 1 ρ = ρ 0 + ρ 1 := fun ρ => by
    simp only [phaseP, solverP, idealMix_grad, idealMix_Psir]
    simp [phaseRT, idealMix, rhotot, Fin.sum_univ_two]
  have hH : ∀ ρ i j, hessPsi idealMix 1 ρ i j = if i = j then 1 / ρ i else 0 := fun ρ i j => by
    simp only [hessPsi, idealMix_hess]; simp [idealMix]
  have hDp : ∀ ρ j, solverDp idealMix (phaseRT idealMix 1 ρ) 1 ρ j = 1 := fun ρ j => by
    simp only [solverDp, idealMix_hess]; simp [phaseRT, idealMix]
  have hJ : ∀ k i, ∑ q, vlleJac idealMix 1 ph (.inl (k, i)) q * d q =
      d (k.castSucc, i) / ph k.castSucc i - d (k.succ, i) / ph k.succ i := fun k i => by
    rw [Fintype.sum_prod_type]
    fin_cases k <;> fin_cases i <;> simp [Fin.sum_univ_three, vlleJac, hH] <;> ring
  have hJp : ∀ k, ∑ q, vlleJac idealMix 1 ph (.inr k) q * d q =
      d (k.castSucc, 0) + d (k.castSucc, 1) - (d (k.succ, 0) + d (k.succ, 1)) := fun k => by
    rw [Fintype.sum_prod_type]
    fin_cases k <;> simp [Fin.sum_univ_three, Fin.sum_univ_two, vlleJac, hDp] <;> ring
  constructor
  · intro h
    refine ⟨fun k i => ?_, fun k => ?_⟩
    · rw [← hJ, h, vlleResid, hmu, hmu]
    · rw [← hJp, h, vlleResid, hP, hP]
  · rintro ⟨h1, h2⟩ (⟨k, i⟩ | k)
    · rw [hJ, h1, vlleResid, hmu, hmu]
    · rw [hJp, h2, vlleResid, hP, hP]

theorem tilted_system (d : VlleVar → ℝ) :
    (∀ e, ∑ q, vlleJac idealMix 1 tilted e q * d q = -vlleResid idealMix 1 tilted e) ↔
      d = fun q => tilted q.1 q.2 * (tiltedE - Real.log (tilted q.1 q.2)) := by
  have t00 : tilted 0 0 = 3 / 2 := rfl
  have t01 : tilted 0 1 = 1 / 4 := rfl
  have t10 : tilted 1 0 = 1 := rfl
  have t11 : tilted 1 1 = 1 := rfl
  have t20 : tilted 2 0 = 1 / 4 := rfl
  have t21 : tilted 2 1 = 3 / 2 := rfl
  have c0 : (0 : Fin 2).castSucc = 0 := rfl
  have c1 : (1 : Fin 2).castSucc = 1 := rfl
  have s0 : (0 : Fin 2).succ = 1 := rfl
  have s1 : (1 : Fin 2).succ = 2 := rfl
  rw [ideal_vlle_system]
  have hall : (d = fun q => tilted q.1 q.2 * (tiltedE - Real.log (tilted q.1 q.2))) ↔
      d (0, 0) = 3 / 2 * (tiltedE - Real.log (3 / 2)) ∧ d (0, 1) = 1 / 4 * (tiltedE - -2 * Real.log 2) ∧
        d (1, 0) = tiltedE ∧ d (1, 1) = tiltedE ∧ d (2, 0) = 1 / 4 * (tiltedE - -2 * Real.log 2) ∧
        d (2, 1) = 3 / 2 * (tiltedE - Real.log (3 / 2)) := by
    constructor
    · rintro rfl
      simp only [t00, t01, t10, t11, t20, t21, log_quarter, Real.log_one, sub_zero, one_mul, and_self]
    · rintro ⟨e1, e2, e3, e4, e5, e6⟩
      funext ⟨k, i⟩
      fin_cases k <;> fin_cases i
      · exact e1.trans (by simp only [Fin.zero_eta, t00])
      · exact e2.trans (by simp only [Fin.zero_eta, Fin.mk_one, t01, log_quarter])
      · exact e3.trans (by simp only [Fin.zero_eta, Fin.mk_one, t10, Real.log_one, sub_zero, one_mul])
      · exact e4.trans (by simp only [Fin.mk_one, t11, Real.log_one, sub_zero, one_mul])
      · exact e5.trans (by simp only [Fin.zero_eta, Fin.reduceFinMk, t20, log_quarter])
      · exact e6.trans (by simp only [Fin.mk_one, Fin.reduceFinMk, t21])
  rw [hall]
  simp only [Fin.forall_fin_two, c0, c1, s0, s1, t00, t01, t10, t11, t20, t21, log_quarter, Real.log_one]
  unfold tiltedE
  constructor
  · rintro ⟨⟨⟨a, b⟩, c, e⟩, f, g⟩
    norm_num at a b c e f g
    refine ⟨?_, ?_, ?_, ?_, ?_, ?_⟩ <;> linarith
  · rintro ⟨a, b, c, e, f, g⟩
    rw [a, b, c, e, f, g]
    refine ⟨⟨⟨?_, ?_⟩, ?_, ?_⟩, ?_, ?_⟩ <;> ring

theorem tiltedE_bounds : tiltedE < -2 ∧ tiltedE + 2 * Real.log 2 < 0 := by
  have h2 := Real.log_two_gt_d9
  have h2' := Real.log_two_lt_d9
  have h32 : 2 / 5 < Real.log (3 / 2) := by
    have e : 5 * Real.log (3 / 2) = Real.log ((3 / 2) ^ 5) := by rw [Real.log_pow]; push_cast; ring
    have : 2 < Real.log ((3 / 2 : ℝ) ^ 5) := by
      rw [Real.lt_log_iff_exp_lt (by norm_num)]
      have h1 := Real.exp_one_lt_d9
      have h3 : Real.exp 2 = Real.exp 1 * Real.exp 1 := by rw [← Real.exp_add]; norm_num
      have h0 := Real.exp_pos 1
      rw [h3]
      nlinarith
    linarith
  unfold tiltedE
  constructor <;> linarith

/-- C39 is false for the step tolerance of the three-phase solvers: the step is compared without its absolute value.
From this start every component of the Newton step is negative, so after one step the code is `xtol_satisfied` whatever
the tolerances, though the step is larger than the concentrations, two of which become negative. -/
theorem vlleT_xtol_false {solve : (VlleEq → VlleVar → ℝ) → (VlleEq → ℝ) → Option (VlleVar → ℝ)} (hs : ExactSolveT solve)
    (tol : VLETol) (ha : 0 ≤ tol.axtol) (hr : 0 ≤ tol.relxtol) (n : ℕ) :
    ∃ ph', mixVLLET idealMix solve 1 tilted tol (n + 1) = .ok (.xtolSatisfied, ph') ∧
      (∀ i, ph' 1 i < -1) ∧ ∀ i, ph' 1 i - tilted 1 i < -2 := by
  obtain ⟨b1, b2⟩ := tiltedE_bounds
  set d : VlleVar → ℝ := fun q => tilted q.1 q.2 * (tiltedE - Real.log (tilted q.1 q.2)) with hd
  have hsol : solve (vlleJac idealMix 1 tilted) (fun e => -vlleResid idealMix 1 tilted e) = some d :=
    hs _ _ _ tilted_system
  have hpos : ∀ k i, 0 < tilted k i := by
    intro k i
    fin_cases k <;> fin_cases i <;> norm_num [tilted]
  have h32 : 0 < Real.log (3 / 2) := Real.log_pos (by norm_num)
  have h2 : 0 < Real.log 2 := Real.log_pos (by norm_num)
  have hneg : ∀ q, d q < 0 := by
    rintro ⟨k, i⟩
    refine mul_neg_of_pos_of_neg (hpos k i) ?_
    have hval : tilted k i = 3 / 2 ∨ tilted k i = 1 ∨ tilted k i = 1 / 4 := by
      fin_cases k <;> fin_cases i <;> simp [tilted]
    simp only
    rcases hval with h | h | h <;> rw [h]
    · linarith
    · rw [Real.log_one]; linarith
    · rw [log_quarter]; linarith
  have hstep : ∀ q, d q < tol.axtol + tol.relxtol * |phVec (phAdd tilted d) q| := fun q =>
    lt_of_lt_of_le (hneg q) (by positivity)
  have h1 : ∀ i, d (1, i) = tiltedE := fun i => by
    have : tilted 1 i = 1 := by fin_cases i <;> rfl
    simp only [hd, this, Real.log_one]; ring
  have ht1 : ∀ i, tilted 1 i = 1 := fun i => by fin_cases i <;> rfl
  refine ⟨phAdd tilted d, ?_, fun i => ?_, fun i => ?_⟩
  · unfold mixVLLET
    rw [show (((n : ℤ) + 1).toNat) = n + 1 by omega, vlleLoop, if_pos hpos, hsol]
    simp only [vlleTests]
    rw [if_pos hstep]
  · simp only [phAdd, h1, ht1]; linarith
  · simp only [phAdd, h1]; linarith

/-- The solvers need two components: with another number the residual vector is overrun or not filled. -/
theorem mixVLLET_size (N : ℕ) (maxiter : ℤ) : mixVLLETSize N maxiter = .ub ↔ 0 < maxiter ∧ N ≠ 2 := by
  unfold mixVLLETSize
  by_cases h : maxiter ≤ 0 ∨ 2 * N + 2 = 3 * N
  · rw [if_pos h]
    simp
    omega
  · rw [if_neg h]
    simp
    omega

example : mixVLLETSize 3 10 = .ub := (mixVLLET_size 3 10).mpr ⟨by norm_num, by norm_num⟩

end Teqp.Props
