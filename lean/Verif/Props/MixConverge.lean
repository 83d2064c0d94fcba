import Verif.Props.MixSolver
import Verif.Lemmas.NewtonVec
import Verif.Lemmas.Envelope

/-! # C177: convergence of the mixture phase-equilibrium solvers from good guesses -/

set_option autoImplicit false

namespace Teqp.Props
open Teqp Teqp.Model Teqp.Spec Teqp.Calc Teqp.Lemmas Teqp.MixVLE Teqp.Envelope Filter Topology

/-! ## The stopping tests -/

/-- Tolerances for which the tests are meaningful. -/
structure TolOk (tol : VLETol) : Prop where
  atol : 0 < tol.atol
  reltol : 0 ≤ tol.reltol
  reltol_le : tol.reltol ≤ 1 / 2
  axtol : 0 ≤ tol.axtol
  relxtol : 0 ≤ tol.relxtol

section
variable {κ κ' : Type} [Fintype κ] [Fintype κ'] {tol : VLETol} {y dx : κ → ℝ} {r : κ' → ℝ}

theorem vle_decides (ht : TolOk tol) {c : VLECode} (h : vleTests tol y dx r = some c) (hb : ∃ i, dblMin ≤ |y i - dx i|) :
    (c = .xtolSatisfied ∧ ‖dx‖ ≤ tol.axtol + tol.relxtol * ‖y‖) ∨ (c = .functolSatisfied ∧ ‖r‖ ≤ 2 * tol.atol) := by
  rcases vleTests_spec tol y dx r _ h with ⟨e, h1 | h1⟩ | ⟨e, h1, -⟩ | ⟨e, -⟩
  · refine .inl ⟨Option.some.inj e, (pi_norm_le_iff_of_nonneg ?_).2 fun i => ?_⟩
    · have := norm_nonneg y
      have := mul_nonneg ht.relxtol this
      linarith [ht.axtol]
    · have h2 := norm_le_pi_norm y i
      have h3 := mul_le_mul_of_nonneg_left h2 ht.relxtol
      rw [Real.norm_eq_abs] at h3 ⊢
      linarith [h1 i]
  · obtain ⟨i, hi⟩ := hb
    exact absurd (h1 i) (not_lt.2 hi)
  · refine .inr ⟨Option.some.inj e, (pi_norm_le_iff_of_nonneg (by linarith [ht.atol])).2 fun i => ?_⟩
    have := h1 i
    rw [Real.norm_eq_abs]
    nlinarith [ht.reltol_le, abs_nonneg (r i)]
  · cases e

theorem vle_stops (ht : TolOk tol) (h : ‖r‖ < tol.atol) : vleTests tol y dx r ≠ none := by
  intro h0
  rcases vleTests_spec tol y dx r _ h0 with ⟨e, -⟩ | ⟨e, -⟩ | ⟨-, -, h1⟩
  · cases e
  · cases e
  · refine h1 fun i => ?_
    have h2 := norm_le_pi_norm r i
    rw [Real.norm_eq_abs] at h2
    nlinarith [ht.reltol, abs_nonneg (r i), mul_nonneg ht.reltol (abs_nonneg (r i))]

end

/-! ## The loops, given what a step does -/

/-- One pass near `p`. -/
def TxGood (resid : (Fin 4 → ℝ) → Fin 4 → ℝ) (jac : (Fin 4 → ℝ) → Matrix (Fin 4) (Fin 4) ℝ)
    (solve : Matrix (Fin 4) (Fin 4) ℝ → (Fin 4 → ℝ) → Option (Fin 4 → ℝ)) (p : Fin 4 → ℝ) (δ K L : ℝ) : Prop :=
  ∀ x, ‖x - p‖ < δ → ∃ dx, bothPhases x ∧ solve (jac x) (fun i => -resid x i) = some dx ∧ limitStep x dx = .ok dx ∧ ‖x + dx - p‖ ≤ 1 / 2 * ‖x - p‖ ∧
    ‖x - p‖ ≤ K * ‖resid x‖ ∧ ‖resid x‖ ≤ L * ‖x - p‖

section
variable {resid : (Fin 4 → ℝ) → Fin 4 → ℝ} {jac : (Fin 4 → ℝ) → Matrix (Fin 4) (Fin 4) ℝ}
    {solve : Matrix (Fin 4) (Fin 4) ℝ → (Fin 4 → ℝ) → Option (Fin 4 → ℝ)} {p : Fin 4 → ℝ} {δ K L : ℝ}

theorem zeroStep_present {z : Fin 2 → ℝ} (h0 : z 0 ≠ 0) (h1 : z 1 ≠ 0) (dx : Fin 4 → ℝ) : zeroStep z dx = dx := by
  funext i
  fin_cases i <;> simp [zeroStep, h0, h1]

theorem txLoop_converges (hg : TxGood resid jac solve p δ K L) (hK : 0 < K) (hL : 0 < L) (hbig : ∀ x, ‖x - p‖ < δ → ∃ i, dblMin ≤ |x i|) {z : Fin 2 → ℝ}
    (h0 : z 0 ≠ 0) (h1 : z 1 ≠ 0) {tol : VLETol} (ht : TolOk tol) (j : ℕ) : ∀ (n : ℕ) (x : Fin 4 → ℝ), ‖x - p‖ < δ → L * ((1 / 2) ^ j * ‖x - p‖) < tol.atol → j + 1 ≤ n →
      ∃ c y, txLoop resid jac solve tol z n x = .ok (c, y) ∧ (c = .xtolSatisfied ∨ c = .functolSatisfied) ∧
        ‖y - p‖ ≤ tol.axtol + tol.relxtol * (‖p‖ + δ) + 2 * K * tol.atol := by
  induction j with
  | zero =>
    intro n x hx hl hn
    obtain ⟨n, rfl⟩ : ∃ n', n = n' + 1 := ⟨n - 1, by omega⟩
    obtain ⟨dx, e1, e2, e3, e4, e5, e6⟩ := hg x hx
    rw [pow_zero, one_mul] at hl
    have hs : ‖resid x‖ < tol.atol := by linarith
    rw [txLoop, if_pos e1, e2]
    simp only [e3, Outcome.bind_ok, zeroStep_present h0 h1]
    cases hv : vleTests tol (fun i => x i + dx i) dx (resid x) with
    | none => exact absurd hv (vle_stops ht hs)
    | some c =>
      obtain ⟨i, hi⟩ := hbig x hx
      have hd := vle_decides ht hv ⟨i, by rw [add_sub_cancel_right]; exact hi⟩
      refine ⟨c, _, rfl, hd.imp And.left And.left, ?_⟩
      have := norm_nonneg (x - p)
      have h4 : ‖(fun i => x i + dx i) - p‖ ≤ 1 / 2 * ‖x - p‖ := e4
      have := mul_nonneg ht.relxtol (add_nonneg (norm_nonneg p) (hx.le.trans' this))
      have : K * ‖resid x‖ ≤ K * tol.atol := mul_le_mul_of_nonneg_left hs.le hK.le
      linarith [ht.axtol, mul_pos hK ht.atol]
  | succ j ih =>
    intro n x hx hl hn
    obtain ⟨n, rfl⟩ : ∃ n', n = n' + 1 := ⟨n - 1, by omega⟩
    obtain ⟨dx, e1, e2, e3, e4, e5, e6⟩ := hg x hx
    have hx0 := norm_nonneg (x - p)
    have h4 : ‖(fun i => x i + dx i) - p‖ ≤ 1 / 2 * ‖x - p‖ := e4
    rw [txLoop, if_pos e1, e2]
    simp only [e3, Outcome.bind_ok, zeroStep_present h0 h1]
    cases hv : vleTests tol (fun i => x i + dx i) dx (resid x) with
    | none =>
      simp only
      rw [if_neg (by omega)]
      refine ih n _ (by linarith) ?_ (by omega)
      have : (1 / 2 : ℝ) ^ j * ‖(fun i => x i + dx i) - p‖ ≤ (1 / 2) ^ (j + 1) * ‖x - p‖ := by
        rw [pow_succ, mul_assoc]
        exact mul_le_mul_of_nonneg_left h4 (by positivity)
      have := mul_le_mul_of_nonneg_left this hL.le
      linarith
    | some c =>
      obtain ⟨i, hi⟩ := hbig x hx
      have hd := vle_decides ht hv ⟨i, by rw [add_sub_cancel_right]; exact hi⟩
      refine ⟨c, _, rfl, hd.imp And.left And.left, ?_⟩
      have hpos := mul_nonneg ht.relxtol (add_nonneg (norm_nonneg p) (hx.le.trans' hx0))
      have hKa := mul_pos hK ht.atol
      rcases hd with ⟨-, hd⟩ | ⟨-, hd⟩
      · have t1 : ‖x - p‖ ≤ ‖x + dx - p‖ + ‖dx‖ := by
          have : x - p = (x + dx - p) - dx := by abel
          rw [this]
          exact norm_sub_le _ _
        have t2 : ‖(fun i => x i + dx i)‖ ≤ ‖p‖ + δ := by
          have : (fun i => x i + dx i) = p + ((fun i => x i + dx i) - p) := by abel
          rw [this]
          exact (norm_add_le _ _).trans (by linarith)
        have t3 := mul_le_mul_of_nonneg_left t2 ht.relxtol
        linarith
      · have := mul_le_mul_of_nonneg_left hd hK.le
        linarith [ht.axtol]

theorem tpLoop_converges (hg : TxGood resid jac solve p δ K L) (n : ℕ) : ∀ x : Fin 4 → ℝ, ‖x - p‖ < δ →
    ∃ y, tpLoop resid jac solve n x = .ok y ∧ ‖y - p‖ ≤ (1 / 2) ^ n * ‖x - p‖ := by
  induction n with
  | zero => exact fun x _ => ⟨x, rfl, by rw [pow_zero, one_mul]⟩
  | succ n ih =>
    intro x hx
    obtain ⟨dx, e1, e2, e3, e4, e5, e6⟩ := hg x hx
    have hx0 := norm_nonneg (x - p)
    have h4 : ‖(fun i => x i + dx i) - p‖ ≤ 1 / 2 * ‖x - p‖ := e4
    obtain ⟨y, g1, g2⟩ := ih (fun i => x i + dx i) (by linarith)
    rw [tpLoop, if_pos e1, e2]
    simp only [e3, Outcome.bind_ok]
    refine ⟨y, g1, g2.trans ?_⟩
    rw [pow_succ, mul_assoc]
    exact mul_le_mul_of_nonneg_left h4 (by positivity)

end

/-! ## What a step does -/

section
variable {m : EOS (Fin 2)} {T R : ℝ} {x : Fin 4 → ℝ}

theorem limitStep_inactive {n : ℕ} {x dx : Fin n → ℝ} (h : ∀ i, 0 ≤ x i + dx i) : limitStep x dx = .ok dx := by
  unfold limitStep
  rw [if_neg]
  rintro ⟨i, hi⟩
  exact absurd hi (not_lt.2 (h i))

theorem contDiff_liq : ContDiff ℝ 1 liq := by
  rw [contDiff_pi]
  intro i
  fin_cases i
  · exact contDiff_apply ℝ ℝ (0 : Fin 4)
  · exact contDiff_apply ℝ ℝ (1 : Fin 4)

theorem contDiff_vap : ContDiff ℝ 1 vap := by
  rw [contDiff_pi]
  intro i
  fin_cases i
  · exact contDiff_apply ℝ ℝ (2 : Fin 4)
  · exact contDiff_apply ℝ ℝ (3 : Fin 4)

/-- Close to a pair of smooth phases everything stays smooth and positive. -/
theorem phases_near (hL : SmoothAt m T (liq x)) (hV : SmoothAt m T (vap x)) (hx : AllPos x) :
    ∀ᶠ y in 𝓝 x, SmoothAt m T (liq y) ∧ SmoothAt m T (vap y) ∧ AllPos y := by
  have h1 := contDiff_liq.continuous.continuousAt.eventually hL.eventually_rho
  have h2 := contDiff_vap.continuous.continuousAt.eventually hV.eventually_rho
  have h3 : ∀ᶠ y in 𝓝 x, AllPos y := by
    unfold AllPos
    rw [eventually_all]
    intro i
    exact (continuousAt_apply i x).eventually (lt_mem_nhds (hx i))
  filter_upwards [h1, h2, h3] with y a b c
  exact ⟨a, b, c⟩

theorem contDiffAt_muResid (hL : SmoothAt m T (liq x)) (hV : SmoothAt m T (vap x)) (hx : AllPos x) (i : Fin 2) :
    ContDiffAt ℝ 1 (fun y => muResid m (R * T) T (liq y) (vap y) i) x := by
  have c1 : ContDiffAt ℝ 1 (fun y => (T, liq y)) x := contDiffAt_const.prodMk contDiff_liq.contDiffAt
  have c2 : ContDiffAt ℝ 1 (fun y => (T, vap y)) x := contDiffAt_const.prodMk contDiff_vap.contDiffAt
  have d1 := (contDiffAt_mu hL R i (hx.liq i)).comp x (f := fun y => (T, liq y)) c1
  have d2 := (contDiffAt_mu hV R i (hx.vap i)).comp x (f := fun y => (T, vap y)) c2
  refine (d1.sub d2).congr_of_eventuallyEq ?_
  filter_upwards [phases_near hL hV hx] with y hy
  rw [muResid_pos hy.2.2]
  rfl

theorem contDiffAt_pL (hL : SmoothAt m T (liq x)) : ContDiffAt ℝ 1 (fun y => solverP m (R * T) T (liq y)) x := by
  have c1 : ContDiffAt ℝ 1 (fun y => (T, liq y)) x := contDiffAt_const.prodMk contDiff_liq.contDiffAt
  exact (contDiffAt_solverP hL R).comp x (f := fun y => (T, liq y)) c1

theorem contDiffAt_pV (hV : SmoothAt m T (vap x)) : ContDiffAt ℝ 1 (fun y => solverP m (R * T) T (vap y)) x := by
  have c1 : ContDiffAt ℝ 1 (fun y => (T, vap y)) x := contDiffAt_const.prodMk contDiff_vap.contDiffAt
  exact (contDiffAt_solverP hV R).comp x (f := fun y => (T, vap y)) c1

theorem line_at (x v : Fin 4 → ℝ) : HasDerivAt (fun u : ℝ => x + u • v) v 0 := by
  have h1 : HasDerivAt (fun u : ℝ => u • v) ((1 : ℝ) • v) 0 := (hasDerivAt_id (0 : ℝ)).smul_const v
  rw [one_smul] at h1
  exact h1.const_add x

/-- From a regular zero of a system with exact Jacobian to the passes of the loops. -/
theorem good_of_regular {resid : (Fin 4 → ℝ) → Fin 4 → ℝ} {jac : (Fin 4 → ℝ) → Matrix (Fin 4) (Fin 4) ℝ}
    {solve : Matrix (Fin 4) (Fin 4) ℝ → (Fin 4 → ℝ) → Option (Fin 4 → ℝ)} {p : Fin 4 → ℝ} (hs : ExactSolve solve) (hF : ContDiffAt ℝ 1 resid p) (h0 : ∀ i, resid p i = 0)
    (hJ : ∀ᶠ x in 𝓝 p, ∀ (v : Fin 4 → ℝ) (e : Fin 4), HasDerivAt (fun u : ℝ => resid (x + u • v) e) (∑ j, jac x e j * v j) 0) (hreg : Inj (jac p)) (hp : AllPos p)
    (hbig : ∃ i, dblMin < p i) : ∃ δ > 0, ∃ K > 0, ∃ L > 0, TxGood resid jac solve p δ K L ∧ ∀ x, ‖x - p‖ < δ → ∃ i, dblMin ≤ |x i| := by
  obtain ⟨i0, hi0⟩ := hbig
  have hQ : ∀ᶠ x in 𝓝 p, AllPos x ∧ dblMin < x i0 := by
    refine Filter.Eventually.and ?_ ((continuousAt_apply i0 p).eventually (lt_mem_nhds hi0))
    unfold AllPos
    rw [eventually_all]
    intro i
    exact (continuousAt_apply i p).eventually (lt_mem_nhds (hp i))
  obtain ⟨δ, hδ, K, hK, L, hL, h⟩ := newton_vec (J := fun x e j => jac x e j) hF (funext h0) hJ hreg hQ
  refine ⟨δ, hδ, K, hK, L, hL, fun x hx => ?_, fun x hx => ⟨i0, (h x hx).1.2.le.trans (le_abs_self _)⟩⟩
  obtain ⟨⟨q1, -⟩, q2, q3, q4⟩ := h x hx
  have hdet : (jac x).det ≠ 0 := by
    intro hd
    obtain ⟨v, hv, e⟩ := Matrix.exists_mulVec_eq_zero_iff.2 hd
    exact hv (q2 v fun i => congrFun e i)
  obtain ⟨dx, e1, e2⟩ := hs (jac x) (fun i => -resid x i) hdet
  obtain ⟨g1, g2⟩ := q4 dx fun e => congrFun e2 e
  refine ⟨dx, ⟨?_, ?_⟩, e1, limitStep_inactive fun i => ?_, g1, g2, q3⟩
  · have a := q1.liq 0
    have b := q1.liq 1
    show rhotot (liq x) ≠ 0
    rw [rhotot, Fin.sum_univ_two]
    linarith
  · have a := q1.vap 0
    have b := q1.vap 1
    show rhotot (vap x) ≠ 0
    rw [rhotot, Fin.sum_univ_two]
    linarith
  · exact ((h (x + dx) (by linarith [norm_nonneg (x - p)])).1.1 i).le

/-! ## Temperature and composition -/

theorem contDiffAt_txResid (hL : SmoothAt m T (liq x)) (hV : SmoothAt m T (vap x)) (hR : ∀ y, m.R y = R) (hx : AllPos x) (z : Fin 2 → ℝ) :
    ContDiffAt ℝ 1 (txResid m T z) x := by
  rw [contDiffAt_pi]
  intro i
  have e : ∀ y, txResid m T z y = ![muResid m (R * T) T (liq y) (vap y) 0, muResid m (R * T) T (liq y) (vap y) 1,
      solverP m (R * T) T (liq y) - solverP m (R * T) T (vap y), liq y 0 / rhotot (liq y) - z 0] := fun y => by rw [txResid, hR]
  simp only [e]
  fin_cases i
  · exact contDiffAt_muResid hL hV hx 0
  · exact contDiffAt_muResid hL hV hx 1
  · exact (contDiffAt_pL hL).sub (contDiffAt_pV hV)
  · have c1 : ContDiffAt ℝ 1 (fun y => liq y 0) x := contDiffAt_pi.1 contDiff_liq.contDiffAt 0
    have c2 : ContDiffAt ℝ 1 (fun y => rhotot (liq y)) x := contDiff_rhotot.contDiffAt.comp x (f := liq) contDiff_liq.contDiffAt
    exact (c1.div c2 hL.tot).sub contDiffAt_const

/-- The condition on a coexisting pair under which the system of `mix_VLE_Tx` is regular: the vapor is not at its limit of stability and the pressure of the liquid
of fixed composition changes along the envelope (the divisor of `get_drhovecdT_xsat`). -/
def TxRegular (m : EOS (Fin 2)) (T : ℝ) (L V : Fin 2 → ℝ) : Prop :=
  (psiHess m T V).det ≠ 0 ∧ ∑ i, (V i - L i) * mv (psiHess m T L) L i ≠ 0

theorem hess_two (hR : ∀ y, m.R y = R) (ρ : Fin 2 → ℝ) (i j : Fin 2) :
    hessPsi m T ρ i j = hessPsir m T ρ i j + if i = j then R * T / ρ i else 0 := by
  rw [hessPsi, hR]

theorem phase_zero {ρ b : Fin 2 → ℝ} (hd : (psiHess m T ρ).det ≠ 0) (h : ∀ i, mv (psiHess m T ρ) b i = 0) : b = 0 := by
  by_contra hne
  refine hd (Matrix.exists_mulVec_eq_zero_iff.1 ⟨b, hne, ?_⟩)
  funext i
  exact h i

theorem tx_regular (hL : SmoothAt m T (liq x)) (hV : SmoothAt m T (vap x)) (hR : ∀ y, m.R y = R) (hx : AllPos x) {z : Fin 2 → ℝ}
    (h : TxRegular m T (liq x) (vap x)) : Inj (txJac m T z x) := by
  intro v hv
  obtain ⟨h1, h2⟩ := h
  have hnL : ∀ i, liq x i ≠ 0 := fun i => (hx.liq i).ne'
  have hnV : ∀ i, vap x i ≠ 0 := fun i => (hx.vap i).ne'
  have hd : ∀ k, idealDiag (R * T) (liq x) (vap x) (liq x) k = R * T / liq x k := fun k => by
    unfold idealDiag; rw [if_pos ⟨hx.liq k, hx.vap k⟩]
  have hd' : ∀ k, idealDiag (R * T) (liq x) (vap x) (vap x) k = R * T / vap x k := fun k => by
    unfold idealDiag; rw [if_pos ⟨hx.liq k, hx.vap k⟩]
  have r0 := hv 0
  have r1 := hv 1
  have r2 := hv 2
  have r3 := hv 3
  simp only [txJac, hR, hd, hd', Fin.sum_univ_four] at r0 r1 r2 r3
  simp only [Matrix.cons_val_zero, Matrix.cons_val_one, Matrix.cons_val, solverDp_eq hR hnL, solverDp_eq hR hnV] at r0 r1 r2 r3
  -- equal rates of the chemical potentials
  have w (i : Fin 2) : mv (psiHess m T (liq x)) (liq v) i = mv (psiHess m T (vap x)) (vap v) i := by
    have l0 : liq v 0 = v 0 := rfl
    have l1 : liq v 1 = v 1 := rfl
    have l2 : vap v 0 = v 2 := rfl
    have l3 : vap v 1 = v 3 := rfl
    fin_cases i
    · simp only [mv, psiHess_apply, Fin.sum_univ_two, hess_two hR, l0, l1, l2, l3, Fin.zero_eta]
      simp
      linarith
    · simp only [mv, psiHess_apply, Fin.sum_univ_two, hess_two hR, l0, l1, l2, l3, Fin.mk_one]
      simp
      linarith
  have sL := hess_swap hL (liq v) (liq x)
  have sV := hess_swap hV (vap v) (vap x)
  rw [Fin.sum_univ_two] at sL sV
  have pp : ∑ k, liq x k * mv (psiHess m T (liq x)) (liq v) k = ∑ k, vap x k * mv (psiHess m T (vap x)) (vap v) k := by
    rw [← sL, ← sV]
    have l0 : liq v 0 = v 0 := rfl
    have l1 : liq v 1 = v 1 := rfl
    have l2 : vap v 0 = v 2 := rfl
    have l3 : vap v 1 = v 3 := rfl
    rw [l0, l1, l2, l3]
    linarith
  have hρ : rhotot (liq x) = liq x 0 + liq x 1 := by rw [rhotot, Fin.sum_univ_two]
  have hρ0 : rhotot (liq x) ≠ 0 := hL.tot
  have comp : liq x 1 * v 0 = liq x 0 * v 1 := by
    have : (rhotot (liq x) - liq x 0) * v 0 - liq x 0 * v 1 = 0 := by
      have e : (rhotot (liq x) - liq x 0) * v 0 - liq x 0 * v 1 =
          rhotot (liq x) * rhotot (liq x) * ((rhotot (liq x) - liq x 0) / (rhotot (liq x) * rhotot (liq x)) * v 0 + -liq x 0 / (rhotot (liq x) * rhotot (liq x)) * v 1) := by
        field_simp
        ring
      rw [e]
      have : (rhotot (liq x) - liq x 0) / (rhotot (liq x) * rhotot (liq x)) * v 0 + -liq x 0 / (rhotot (liq x) * rhotot (liq x)) * v 1 = 0 := by linarith
      rw [this, mul_zero]
    rw [hρ] at this
    linarith
  obtain ⟨t, ht⟩ : ∃ t, t = v 0 / liq x 0 := ⟨_, rfl⟩
  have hvL : liq v = fun i => t * liq x i := by
    funext i
    have n0 := hnL 0
    fin_cases i
    · show v 0 = t * liq x 0
      rw [ht]
      field_simp
    · show v 1 = t * liq x 1
      rw [ht]
      field_simp
      linarith
  have wt (i : Fin 2) : mv (psiHess m T (liq x)) (liq v) i = t * mv (psiHess m T (liq x)) (liq x) i := by
    rw [hvL]
    simp only [mv, Finset.mul_sum]
    exact Finset.sum_congr rfl fun k _ => by ring
  have t0 : t = 0 := by
    have e : t * ∑ i, (vap x i - liq x i) * mv (psiHess m T (liq x)) (liq x) i = 0 := by
      have : t * ∑ i, (vap x i - liq x i) * mv (psiHess m T (liq x)) (liq x) i =
          ∑ k, vap x k * mv (psiHess m T (liq x)) (liq v) k - ∑ k, liq x k * mv (psiHess m T (liq x)) (liq v) k := by
        simp only [wt, Finset.mul_sum, ← Finset.sum_sub_distrib]
        exact Finset.sum_congr rfl fun k _ => by ring
      rw [this, pp]
      simp only [w, sub_self]
    exact (mul_eq_zero.1 e).resolve_right h2
  have vL : liq v = 0 := by
    rw [hvL, t0]
    funext i
    simp
  have vV : vap v = 0 := phase_zero h1 fun i => by
    rw [← w, wt, t0, zero_mul]
  funext i
  fin_cases i
  · exact congrFun vL 0
  · exact congrFun vL 1
  · exact congrFun vV 0
  · exact congrFun vV 1

/-- **C177** `mix_VLE_Tx`, started close to a regular coexisting pair of the specified liquid composition, reports convergence for all sensible tolerances within a
number of iterations that depends on them alone, and returns concentrations within a multiple of the tolerances of the solution. -/
theorem mix_Tx_converges {solve : Matrix (Fin 4) (Fin 4) ℝ → (Fin 4 → ℝ) → Option (Fin 4 → ℝ)} (hs : ExactSolve solve)
    (hL : SmoothAt m T (liq x)) (hV : SmoothAt m T (vap x)) (hR : ∀ y, m.R y = R) (hx : AllPos x) (hc : MixCoexist m.alphar R T (liq x) (vap x)) {z0 z1 : ℝ}
    (hz : x 0 / (x 0 + x 1) = z0) (hz1 : z1 ≠ 0) (hreg : TxRegular m T (liq x) (vap x)) (hbig : ∃ i, dblMin < x i) :
    ∃ δ > 0, ∃ C > 0, ∀ tol, TolOk tol → ∃ k : ℕ, ∀ maxiter : ℤ, k ≤ maxiter → ∀ g : Fin 4 → ℝ, ‖g - x‖ < δ →
      ∃ c, ∃ y : Fin 4 → ℝ, mixVLETx m solve T [g 0, g 1] [g 2, g 3] [z0, z1] tol maxiter = .ok (c, [y 0, y 1], [y 2, y 3]) ∧ (c = .xtolSatisfied ∨ c = .functolSatisfied) ∧
        ‖y - x‖ ≤ C * (tol.atol + tol.axtol + tol.relxtol) := by
  have hzero := (tx_residual_zero_iff (xspec := ![z0, z1]) hL hV hR hx).2 ⟨hc, hz⟩
  have hJ : ∀ᶠ y in 𝓝 x, ∀ (v : Fin 4 → ℝ) (e : Fin 4), HasDerivAt (fun u : ℝ => txResid m T ![z0, z1] (y + u • v) e) (∑ j, txJac m T ![z0, z1] y e j * v j) 0 := by
    filter_upwards [phases_near hL hV hx] with y hy v e
    have key : ∀ γ : ℝ → Fin 4 → ℝ, γ 0 = y → HasDerivAt γ v 0 →
        HasDerivAt (fun u => txResid m T ![z0, z1] (γ u) e) (∑ j, txJac m T ![z0, z1] y e j * v j) 0 := by
      intro γ h0 h
      have := tx_jacobian_exact (m := m) (T := T) h (by rw [h0]; exact hy.1) (by rw [h0]; exact hy.2.1) hR (by rw [h0]; exact hy.2.2) ![z0, z1] e
      rw [h0] at this
      exact this
    exact key (fun u => y + u • v) (by simp) (line_at y v)
  obtain ⟨δ, hδ, K, hK, L, hLp, hg, hb⟩ := good_of_regular hs (contDiffAt_txResid hL hV hR hx ![z0, z1]) hzero hJ (tx_regular hL hV hR hx hreg) hx hbig
  have hz0 : z0 ≠ 0 := by
    rw [← hz]
    have a := hx 0
    have b := hx 1
    positivity
  refine ⟨δ, hδ, 1 + (‖x‖ + δ) + 2 * K, by positivity, fun tol ht => ?_⟩
  obtain ⟨k, hk⟩ := exists_pow_lt_of_lt_one (y := 1 / 2) (x := tol.atol / (L * δ)) (div_pos ht.atol (by positivity)) (by norm_num)
  refine ⟨k + 1, fun maxiter hm g hgx => ?_⟩
  have hl : L * ((1 / 2) ^ k * ‖g - x‖) < tol.atol := by
    rw [lt_div_iff₀ (by positivity)] at hk
    have : (1 / 2 : ℝ) ^ k * ‖g - x‖ ≤ (1 / 2) ^ k * δ := mul_le_mul_of_nonneg_left hgx.le (by positivity)
    have := mul_le_mul_of_nonneg_left this hLp.le
    linarith
  obtain ⟨c, y, e1, e2, e3⟩ := txLoop_converges hg hK hLp hb (z := ![z0, z1]) hz0 hz1 ht k maxiter.toNat g hgx hl (by omega)
  refine ⟨c, y, ?_, e2, e3.trans ?_⟩
  · have eg : ![g 0, g 1, g 2, g 3] = g := by
      funext i
      fin_cases i <;> rfl
    unfold mixVLETx
    rw [if_pos ⟨rfl, rfl⟩]
    simp only [eg]
    rw [e1, Outcome.bind_ok]
  · have a := ht.atol
    have b := ht.axtol
    have d := ht.relxtol
    have n := norm_nonneg x
    nlinarith [mul_nonneg hK.le b, mul_nonneg hK.le d, mul_nonneg n a.le, mul_nonneg n b, mul_nonneg hδ.le a.le, mul_nonneg hδ.le b]

/-! ## Temperature and pressure -/

theorem contDiffAt_tpResid (hL : SmoothAt m T (liq x)) (hV : SmoothAt m T (vap x)) (hR : ∀ y, m.R y = R) (hx : AllPos x) (p : ℝ) :
    ContDiffAt ℝ 1 (tpResid m T p) x := by
  rw [contDiffAt_pi]
  intro i
  have e : ∀ y, tpResid m T p y = ![muResid m (R * T) T (liq y) (vap y) 0, muResid m (R * T) T (liq y) (vap y) 1,
      (solverP m (R * T) T (vap y) - p) / p, (solverP m (R * T) T (liq y) - p) / p] := fun y => by rw [tpResid, hR]
  simp only [e]
  fin_cases i
  · exact contDiffAt_muResid hL hV hx 0
  · exact contDiffAt_muResid hL hV hx 1
  · exact ((contDiffAt_pV hV).sub contDiffAt_const).div_const p
  · exact ((contDiffAt_pL hL).sub contDiffAt_const).div_const p

/-- Two phases of different composition, neither at its limit of stability. -/
def TpRegular (m : EOS (Fin 2)) (T : ℝ) (L V : Fin 2 → ℝ) : Prop :=
  (psiHess m T L).det ≠ 0 ∧ (psiHess m T V).det ≠ 0 ∧ L 0 * V 1 ≠ L 1 * V 0

theorem tp_regular (hL : SmoothAt m T (liq x)) (hV : SmoothAt m T (vap x)) (hR : ∀ y, m.R y = R) (hx : AllPos x) {p : ℝ} (hp : p ≠ 0)
    (h : TpRegular m T (liq x) (vap x)) : Inj (tpJac m T p x) := by
  intro v hv
  obtain ⟨h1, h2, h3⟩ := h
  have hnL : ∀ i, liq x i ≠ 0 := fun i => (hx.liq i).ne'
  have hnV : ∀ i, vap x i ≠ 0 := fun i => (hx.vap i).ne'
  have hd : ∀ k, idealDiag (R * T) (liq x) (vap x) (liq x) k = R * T / liq x k := fun k => by
    unfold idealDiag; rw [if_pos ⟨hx.liq k, hx.vap k⟩]
  have hd' : ∀ k, idealDiag (R * T) (liq x) (vap x) (vap x) k = R * T / vap x k := fun k => by
    unfold idealDiag; rw [if_pos ⟨hx.liq k, hx.vap k⟩]
  have r0 := hv 0
  have r1 := hv 1
  have r2 := hv 2
  have r3 := hv 3
  simp only [tpJac, hR, hd, hd', Fin.sum_univ_four] at r0 r1 r2 r3
  simp only [Matrix.cons_val_zero, Matrix.cons_val_one, Matrix.cons_val, solverDp_eq hR hnL, solverDp_eq hR hnV] at r0 r1 r2 r3
  have l0 : liq v 0 = v 0 := rfl
  have l1 : liq v 1 = v 1 := rfl
  have l2 : vap v 0 = v 2 := rfl
  have l3 : vap v 1 = v 3 := rfl
  have w (i : Fin 2) : mv (psiHess m T (liq x)) (liq v) i = mv (psiHess m T (vap x)) (vap v) i := by
    fin_cases i
    · simp only [mv, psiHess_apply, Fin.sum_univ_two, hess_two hR, l0, l1, l2, l3, Fin.zero_eta]
      simp
      linarith
    · simp only [mv, psiHess_apply, Fin.sum_univ_two, hess_two hR, l0, l1, l2, l3, Fin.mk_one]
      simp
      linarith
  have sL := hess_swap hL (liq v) (liq x)
  have sV := hess_swap hV (vap v) (vap x)
  rw [Fin.sum_univ_two, l0, l1] at sL
  rw [Fin.sum_univ_two, l2, l3] at sV
  have pL : ∑ k, liq x k * mv (psiHess m T (liq x)) (liq v) k = 0 := by
    rw [← sL]
    have : (∑ j, hessPsi m T (liq x) 0 j * liq x j) / p * v 0 + (∑ j, hessPsi m T (liq x) 1 j * liq x j) / p * v 1 = 0 := by linarith
    field_simp at this
    linarith
  have pV : ∑ k, vap x k * mv (psiHess m T (vap x)) (vap v) k = 0 := by
    rw [← sV]
    have : (∑ j, hessPsi m T (vap x) 0 j * vap x j) / p * v 2 + (∑ j, hessPsi m T (vap x) 1 j * vap x j) / p * v 3 = 0 := by linarith
    field_simp at this
    linarith
  simp only [← w, Fin.sum_univ_two] at pV
  rw [Fin.sum_univ_two] at pL
  generalize hw0 : mv (psiHess m T (liq x)) (liq v) 0 = w0 at pL pV
  generalize hw1 : mv (psiHess m T (liq x)) (liq v) 1 = w1 at pL pV
  have z0 : w0 = 0 := by
    have : (liq x 0 * vap x 1 - liq x 1 * vap x 0) * w0 = 0 := by linear_combination vap x 1 * pL - liq x 1 * pV
    exact (mul_eq_zero.1 this).resolve_left (sub_ne_zero.2 h3)
  have z1 : w1 = 0 := by
    have : (liq x 0 * vap x 1 - liq x 1 * vap x 0) * w1 = 0 := by linear_combination liq x 0 * pV - vap x 0 * pL
    exact (mul_eq_zero.1 this).resolve_left (sub_ne_zero.2 h3)
  have hw (i : Fin 2) : mv (psiHess m T (liq x)) (liq v) i = 0 := by
    fin_cases i
    · exact hw0.trans z0
    · exact hw1.trans z1
  have vL : liq v = 0 := phase_zero h1 hw
  have vV : vap v = 0 := phase_zero h2 fun i => (w i).symm.trans (hw i)
  funext i
  fin_cases i
  · exact congrFun vL 0
  · exact congrFun vL 1
  · exact congrFun vV 0
  · exact congrFun vV 1

/-- **C177** `mix_VLE_Tp`, started close to a coexisting pair of the given pressure whose phases differ in composition and are not at their limits of stability, at least
halves the error with every iteration it is allowed (though it never reports success). -/
theorem mix_Tp_converges {solve : Matrix (Fin 4) (Fin 4) ℝ → (Fin 4 → ℝ) → Option (Fin 4 → ℝ)} (hs : ExactSolve solve)
    (hL : SmoothAt m T (liq x)) (hV : SmoothAt m T (vap x)) (hR : ∀ y, m.R y = R) (hx : AllPos x) (hc : MixCoexist m.alphar R T (liq x) (vap x)) {p : ℝ} (hp : p ≠ 0)
    (hpx : mixP m.alphar R T (liq x) = p) (hreg : TpRegular m T (liq x) (vap x)) (hbig : ∃ i, dblMin < x i) :
    ∃ δ > 0, ∀ (maxiter : ℤ) (g : Fin 4 → ℝ), ‖g - x‖ < δ →
      ∃ r, ∃ y : Fin 4 → ℝ, mixVLETp m solve T p [g 0, g 1] [g 2, g 3] maxiter = .ok r ∧ r.rhovecL = [y 0, y 1] ∧ r.rhovecV = [y 2, y 3] ∧
        ‖y - x‖ ≤ (1 / 2) ^ maxiter.toNat * ‖g - x‖ := by
  have hzero := (tp_residual_zero_iff hL hV hR hx hp).2 ⟨hc, hpx⟩
  have hJ : ∀ᶠ y in 𝓝 x, ∀ (v : Fin 4 → ℝ) (e : Fin 4), HasDerivAt (fun u : ℝ => tpResid m T p (y + u • v) e) (∑ j, tpJac m T p y e j * v j) 0 := by
    filter_upwards [phases_near hL hV hx] with y hy v e
    have key : ∀ γ : ℝ → Fin 4 → ℝ, γ 0 = y → HasDerivAt γ v 0 →
        HasDerivAt (fun u => tpResid m T p (γ u) e) (∑ j, tpJac m T p y e j * v j) 0 := by
      intro γ h0 h
      have := tp_jacobian_exact (m := m) (T := T) (p := p) h (by rw [h0]; exact hy.1) (by rw [h0]; exact hy.2.1) hR (by rw [h0]; exact hy.2.2) e
      rw [h0] at this
      exact this
    exact key (fun u => y + u • v) (by simp) (line_at y v)
  obtain ⟨δ, hδ, K, hK, L, hLp, hg, -⟩ := good_of_regular hs (contDiffAt_tpResid hL hV hR hx p) hzero hJ (tp_regular hL hV hR hx hp hreg) hx hbig
  refine ⟨δ, hδ, fun maxiter g hgx => ?_⟩
  obtain ⟨y, e1, e2⟩ := tpLoop_converges hg maxiter.toNat g hgx
  have eg : ![g 0, g 1, g 2, g 3] = g := by
    funext i
    fin_cases i <;> rfl
  unfold mixVLETp
  rw [if_pos (show [g 0, g 1].length = [g 2, g 3].length from rfl)]
  simp only [eg]
  rw [e1, Outcome.bind_ok]
  exact ⟨_, y, rfl, rfl, rfl, e2⟩

end

/-! ## Pressure and composition, any number of components -/

section
variable {N : ℕ}

/-- The unknowns of `mixture_VLE_px` as one vector. -/
abbrev pxAll (s : PxState N) : PxVar N → ℝ := pxVec s.T s.L s.V

/-- The parts of such a vector. -/
def pxParts (u : PxVar N → ℝ) : PxState N := ⟨u (.inl ()), fun i => u (.inr (.inl i)), fun i => u (.inr (.inr i))⟩

theorem pxAll_parts (u : PxVar N → ℝ) : pxAll (pxParts u) = u := by
  funext j
  match j with
  | .inl () => rfl
  | .inr (.inl i) => rfl
  | .inr (.inr i) => rfl

theorem pxParts_all (s : PxState N) : pxParts (pxAll s) = s := rfl

/-- One pass near `P`. -/
def PxGood (resid : ℝ → (Fin N → ℝ) → (Fin N → ℝ) → PxEq N → ℝ) (jac : ℝ → (Fin N → ℝ) → (Fin N → ℝ) → PxEq N → PxVar N → ℝ)
    (solve : (PxEq N → PxVar N → ℝ) → (PxEq N → ℝ) → Option (PxVar N → ℝ)) (P : PxVar N → ℝ) (δ K L : ℝ) : Prop :=
  ∀ s : PxState N, ‖pxAll s - P‖ < δ → ∃ dx, ((∀ i, 0 < s.L i) ∧ ∀ i, 0 < s.V i) ∧ solve (jac s.T s.L s.V) (fun e => -resid s.T s.L s.V e) = some dx ∧
    ‖pxAll s + dx - P‖ ≤ 1 / 2 * ‖pxAll s - P‖ ∧ ‖pxAll s - P‖ ≤ K * ‖resid s.T s.L s.V‖ ∧ ‖resid s.T s.L s.V‖ ≤ L * ‖pxAll s - P‖ ∧ ∃ i, dblMin ≤ |s.L i|

section
variable {resid : ℝ → (Fin N → ℝ) → (Fin N → ℝ) → PxEq N → ℝ} {jac : ℝ → (Fin N → ℝ) → (Fin N → ℝ) → PxEq N → PxVar N → ℝ}
    {solve : (PxEq N → PxVar N → ℝ) → (PxEq N → ℝ) → Option (PxVar N → ℝ)} {P : PxVar N → ℝ} {δ K L : ℝ}

theorem pxVec_close {T0 : ℝ} {s : PxState N} (h0 : |T0 - P (.inl ())| < δ) (h : ‖pxAll s - P‖ < δ) : ‖pxVec T0 s.L s.V‖ ≤ ‖P‖ + δ := by
  have hδ : 0 < δ := (abs_nonneg _).trans_lt h0
  have hd : ‖pxVec T0 s.L s.V - P‖ ≤ δ := by
    refine (pi_norm_le_iff_of_nonneg hδ.le).2 fun j => ?_
    match j with
    | .inl () => exact h0.le
    | .inr (.inl i) => exact (norm_le_pi_norm (pxAll s - P) (.inr (.inl i))).trans h.le
    | .inr (.inr i) => exact (norm_le_pi_norm (pxAll s - P) (.inr (.inr i))).trans h.le
  have : pxVec T0 s.L s.V = P + (pxVec T0 s.L s.V - P) := by abel
  rw [this]
  exact (norm_add_le _ _).trans (by linarith)

theorem pxLoop_converges (hg : PxGood resid jac solve P δ K L) (hK : 0 < K) (hL : 0 < L) {T0 : ℝ} (hT : |T0 - P (.inl ())| < δ) {tol : VLETol} (ht : TolOk tol) (j : ℕ) :
    ∀ (n : ℕ) (s : PxState N), ‖pxAll s - P‖ < δ → L * ((1 / 2) ^ j * ‖pxAll s - P‖) < tol.atol → j + 1 ≤ n →
      ∃ c s', pxLoop resid jac solve tol T0 n s = .ok (c, s') ∧ (c = .xtolSatisfied ∨ c = .functolSatisfied) ∧
        ‖pxAll s' - P‖ ≤ tol.axtol + tol.relxtol * (‖P‖ + δ) + 2 * K * tol.atol := by
  induction j with
  | zero =>
    intro n s hx hl hn
    obtain ⟨n, rfl⟩ : ∃ n', n = n' + 1 := ⟨n - 1, by omega⟩
    obtain ⟨dx, e1, e2, e4, e5, e6, i, hi⟩ := hg s hx
    rw [pow_zero, one_mul] at hl
    have hs : ‖resid s.T s.L s.V‖ < tol.atol := by linarith
    rw [pxLoop, if_pos e1, e2]
    simp only
    obtain ⟨s', hs'⟩ : ∃ s' : PxState N, s' = ⟨s.T + dx (.inl ()), fun i => s.L i + dx (.inr (.inl i)), fun i => s.V i + dx (.inr (.inr i))⟩ := ⟨_, rfl⟩
    have e : pxAll s' = pxAll s + dx := by
      rw [hs']
      funext j
      match j with
      | .inl () => rfl
      | .inr (.inl i) => rfl
      | .inr (.inr i) => rfl
    have eL : (fun i => s.L i + dx (.inr (.inl i))) = s'.L := by rw [hs']
    have eV : (fun i => s.V i + dx (.inr (.inr i))) = s'.V := by rw [hs']
    rw [← hs', eL, eV]
    cases hv : vleTests tol (pxVec T0 s'.L s'.V) dx (resid s.T s.L s.V) with
    | none => exact absurd hv (vle_stops ht hs)
    | some c =>
      have hd := vle_decides ht hv ⟨.inr (.inl i), by rw [hs']; simpa [pxVec] using hi⟩
      refine ⟨c, s', rfl, hd.imp And.left And.left, ?_⟩
      have := norm_nonneg (pxAll s - P)
      rw [e]
      have := mul_nonneg ht.relxtol (add_nonneg (norm_nonneg P) (hx.le.trans' this))
      have : K * ‖resid s.T s.L s.V‖ ≤ K * tol.atol := mul_le_mul_of_nonneg_left hs.le hK.le
      linarith [ht.axtol, mul_pos hK ht.atol]
  | succ j ih =>
    intro n s hx hl hn
    obtain ⟨n, rfl⟩ : ∃ n', n = n' + 1 := ⟨n - 1, by omega⟩
    obtain ⟨dx, e1, e2, e4, e5, e6, i, hi⟩ := hg s hx
    have hx0 := norm_nonneg (pxAll s - P)
    rw [pxLoop, if_pos e1, e2]
    simp only
    obtain ⟨s', hs'⟩ : ∃ s' : PxState N, s' = ⟨s.T + dx (.inl ()), fun i => s.L i + dx (.inr (.inl i)), fun i => s.V i + dx (.inr (.inr i))⟩ := ⟨_, rfl⟩
    have e : pxAll s' = pxAll s + dx := by
      rw [hs']
      funext j
      match j with
      | .inl () => rfl
      | .inr (.inl i) => rfl
      | .inr (.inr i) => rfl
    have eL : (fun i => s.L i + dx (.inr (.inl i))) = s'.L := by rw [hs']
    have eV : (fun i => s.V i + dx (.inr (.inr i))) = s'.V := by rw [hs']
    rw [← hs', eL, eV]
    cases hv : vleTests tol (pxVec T0 s'.L s'.V) dx (resid s.T s.L s.V) with
    | none =>
      simp only
      rw [if_neg (by omega)]
      refine ih n _ (by rw [e]; linarith) ?_ (by omega)
      have : (1 / 2 : ℝ) ^ j * ‖pxAll s' - P‖ ≤ (1 / 2) ^ (j + 1) * ‖pxAll s - P‖ := by
        rw [pow_succ, mul_assoc, e]
        exact mul_le_mul_of_nonneg_left e4 (by positivity)
      have := mul_le_mul_of_nonneg_left this hL.le
      linarith
    | some c =>
      have hd := vle_decides ht hv ⟨.inr (.inl i), by rw [hs']; simpa [pxVec] using hi⟩
      refine ⟨c, s', rfl, hd.imp And.left And.left, ?_⟩
      have hpos := mul_nonneg ht.relxtol (add_nonneg (norm_nonneg P) (hx.le.trans' hx0))
      have hKa := mul_pos hK ht.atol
      rw [e]
      rcases hd with ⟨-, hd⟩ | ⟨-, hd⟩
      · have t1 : ‖pxAll s - P‖ ≤ ‖pxAll s + dx - P‖ + ‖dx‖ := by
          have : pxAll s - P = (pxAll s + dx - P) - dx := by abel
          rw [this]
          exact norm_sub_le _ _
        have t3 := mul_le_mul_of_nonneg_left (pxVec_close (s := s') hT (by rw [e]; linarith)) ht.relxtol
        linarith
      · have := mul_le_mul_of_nonneg_left hd hK.le
        linarith [ht.axtol]

end

variable {m : EOS (Fin N)} {T R p : ℝ} {L V z : Fin N → ℝ}

/-- The condition under which the system of `mixture_VLE_px` is regular: the vapor is not at its limit of stability, and the pressures of the two phases do not both
stay constant to first order when the liquid keeps its composition and the chemical potentials stay equal. -/
def PxRegular (m : EOS (Fin N)) (T : ℝ) (L V : Fin N → ℝ) : Prop :=
  (psiHess m T V).det ≠ 0 ∧
    (∑ i, V i * mv (psiHess m T L) L i) * dpdT m T L ≠ (∑ i, L i * mv (psiHess m T L) L i) * (dpdT m T V - ∑ i, V i * (dchempotdT m T V i - dchempotdT m T L i))

/-- A linear solve that is exact on systems with at most one solution. -/
def SolvesInj (solve : (PxEq N → PxVar N → ℝ) → (PxEq N → ℝ) → Option (PxVar N → ℝ)) : Prop :=
  ∀ A b, Inj A → ∃ d, solve A b = some d ∧ ∀ e, ∑ j, A e j * d j = b e

/-- Heads of the composition fixed: the liquid only scales. -/
theorem scales {v : Fin N → ℝ} (ht : rhotot L ≠ 0) (h : ∀ i : Fin (N - 1), (rhotot L * v (headIdx i) - L (headIdx i) * ∑ j, v j) = 0) :
    ∀ i, v i = (∑ j, v j) / rhotot L * L i := by
  have hh (i : Fin (N - 1)) : v (headIdx i) = (∑ j, v j) / rhotot L * L (headIdx i) := by
    field_simp
    linarith [h i]
  intro i
  rcases Nat.lt_or_ge i.1 (N - 1) with hi | hi
  · exact hh ⟨i.1, hi⟩
  · have hi' : i.1 = N - 1 := by have := i.2; omega
    have key : ∑ j, (v j - (∑ k, v k) / rhotot L * L j) = 0 := by
      rw [Finset.sum_sub_distrib, ← Finset.mul_sum, show ∑ j, L j = rhotot L from rfl]
      field_simp
      ring
    rw [Finset.sum_eq_single i] at key
    · linarith
    · intro b _ hb
      have hb' : b.1 < N - 1 := by
        have := b.2
        have : b.1 ≠ i.1 := fun h => hb (Fin.ext h)
        omega
      have := hh ⟨b.1, hb'⟩
      have e : headIdx (N := N) ⟨b.1, hb'⟩ = b := rfl
      rw [e] at this
      linarith
    · simp

theorem px_regular (hL : SmoothAt m T L) (hV : SmoothAt m T V) (hR : ∀ y, m.R y = R) (hLp : ∀ i, 0 < L i) (hVp : ∀ i, 0 < V i) (hp : p ≠ 0)
    (h : PxRegular m T L V) : Inj (pxJac m p z T L V) := by
  intro v hv
  obtain ⟨h1, h2⟩ := h
  obtain ⟨dT, dL, dV, rfl⟩ : ∃ dT dL dV, v = pxVec dT dL dV := ⟨_, _, _, (pxAll_parts v).symm⟩
  have hnL : ∀ i, L i ≠ 0 := fun i => (hLp i).ne'
  have hnV : ∀ i, V i ≠ 0 := fun i => (hVp i).ne'
  simp only [Fintype.sum_sum_type, Finset.univ_unique, Finset.sum_singleton] at hv
  -- chemical potentials
  have w (i : Fin N) : mv (psiHess m T V) dV i = mv (psiHess m T L) dL i - (dchempotdT m T V i - dchempotdT m T L i) * dT := by
    have r := hv (.inl i)
    simp only [pxJac, pxVec, hR, Real.log_div (hnL i) (hnV i)] at r
    simp only [mv, psiHess_apply, hessPsi, dchempotdT, hR, div_one]
    simp only [neg_mul, Finset.sum_neg_distrib] at r
    linear_combination -r
  have r0 := hv (.inr (.inl 0))
  have r1 := hv (.inr (.inl 1))
  simp only [pxJac, pxVec, hR, solverDp_eq hR hnL, solverDp_eq hR hnV, zero_mul, Finset.sum_const_zero, div_mul_eq_mul_div, ← Finset.sum_div] at r0 r1
  rw [hess_swap hL] at r0
  rw [hess_swap hV] at r1
  have r0' : dpdT m T L * dT + ∑ k, L k * mv (psiHess m T L) dL k = 0 := by
    have := r0
    field_simp at this
    linarith
  have r1' : dpdT m T V * dT + ∑ k, V k * mv (psiHess m T V) dV k = 0 := by
    have := r1
    field_simp at this
    linarith
  have sc := scales (v := dL) hL.tot fun i => by
    have r := hv (.inr (.inr i))
    have ht0 := hL.tot
    simp only [pxJac, pxVec, zero_mul, Finset.sum_const_zero, div_mul_eq_mul_div, ← Finset.sum_div, sub_mul,
      Finset.sum_sub_distrib, mul_ite, mul_one, mul_zero, ite_mul, Finset.sum_ite_eq, Finset.mem_univ, if_true, ← Finset.mul_sum] at r
    field_simp at r
    linarith
  generalize (∑ j, dL j) / rhotot L = t at sc
  have wt (i : Fin N) : mv (psiHess m T L) dL i = t * mv (psiHess m T L) L i := by
    simp only [mv, Finset.mul_sum]
    exact Finset.sum_congr rfl fun k _ => by rw [sc k]; ring
  have q0 : dpdT m T L * dT + t * ∑ k, L k * mv (psiHess m T L) L k = 0 := by
    rw [← r0', Finset.mul_sum]
    congr 1
    exact Finset.sum_congr rfl fun k _ => by rw [wt]; ring
  have q1 : (dpdT m T V - ∑ i, V i * (dchempotdT m T V i - dchempotdT m T L i)) * dT + t * ∑ i, V i * mv (psiHess m T L) L i = 0 := by
    rw [← r1', sub_mul, Finset.mul_sum, Finset.sum_mul, sub_add_eq_add_sub, add_sub_assoc, ← Finset.sum_sub_distrib]
    congr 1
    exact Finset.sum_congr rfl fun k _ => by rw [w, wt]; ring
  generalize dpdT m T L = pl at *
  generalize ∑ k, L k * mv (psiHess m T L) L k = b at *
  generalize ∑ k, V k * mv (psiHess m T L) L k = a at *
  generalize (dpdT m T V - ∑ i, V i * (dchempotdT m T V i - dchempotdT m T L i)) = c at *
  have hne : a * pl - b * c ≠ 0 := sub_ne_zero.2 h2
  have dT0 : dT = 0 := by
    have : (a * pl - b * c) * dT = 0 := by linear_combination a * q0 - b * q1
    exact (mul_eq_zero.1 this).resolve_left hne
  have t0 : t = 0 := by
    have : (a * pl - b * c) * t = 0 := by linear_combination pl * q1 - c * q0
    exact (mul_eq_zero.1 this).resolve_left hne
  have eL : dL = 0 := by
    funext i
    rw [sc, t0, zero_mul]
    rfl
  have eV : dV = 0 := by
    by_contra hne
    refine h1 (Matrix.exists_mulVec_eq_zero_iff.1 ⟨dV, hne, ?_⟩)
    funext i
    have := w i
    rw [wt, t0, dT0] at this
    simp only [zero_mul, mul_zero, sub_zero] at this
    exact this
  funext j
  match j with
  | .inl () => exact dT0
  | .inr (.inl i) => exact congrFun eL i
  | .inr (.inr i) => exact congrFun eV i

/-- The residual as a function of one vector. -/
noncomputable def pxFun (m : EOS (Fin N)) (p : ℝ) (z : Fin N → ℝ) (u : PxVar N → ℝ) : PxEq N → ℝ :=
  pxResid m p z (pxParts u).T (pxParts u).L (pxParts u).V

theorem contDiff_pxT : ContDiff ℝ 1 fun u : PxVar N → ℝ => (pxParts u).T := contDiff_apply ℝ ℝ _

theorem contDiff_pxL : ContDiff ℝ 1 fun u : PxVar N → ℝ => (pxParts u).L := contDiff_pi.2 fun _ => contDiff_apply ℝ ℝ _

theorem contDiff_pxV : ContDiff ℝ 1 fun u : PxVar N → ℝ => (pxParts u).V := contDiff_pi.2 fun _ => contDiff_apply ℝ ℝ _

theorem contDiffAt_pxFun {s : PxState N} (hL : SmoothAt m s.T s.L) (hV : SmoothAt m s.T s.V) (hR : ∀ y, m.R y = R) (hLp : ∀ i, 0 < s.L i) (hVp : ∀ i, 0 < s.V i) :
    ContDiffAt ℝ 1 (pxFun m p z) (pxAll s) := by
  have c1 : ContDiffAt ℝ 1 (fun u : PxVar N → ℝ => ((pxParts u).T, (pxParts u).L)) (pxAll s) := contDiff_pxT.contDiffAt.prodMk contDiff_pxL.contDiffAt
  have c2 : ContDiffAt ℝ 1 (fun u : PxVar N → ℝ => ((pxParts u).T, (pxParts u).V)) (pxAll s) := contDiff_pxT.contDiffAt.prodMk contDiff_pxV.contDiffAt
  rw [contDiffAt_pi]
  intro e
  match e with
  | .inl i =>
    simp only [pxFun, pxResid, hR]
    have d1 := (contDiffAt_mu hL R i (hLp i)).comp (pxAll s) (f := fun u : PxVar N → ℝ => ((pxParts u).T, (pxParts u).L)) c1
    have d2 := (contDiffAt_mu hV R i (hVp i)).comp (pxAll s) (f := fun u : PxVar N → ℝ => ((pxParts u).T, (pxParts u).V)) c2
    exact d1.sub d2
  | .inr (.inl 0) =>
    simp only [pxFun, pxResid, hR]
    have d1 := (contDiffAt_solverP hL R).comp (pxAll s) (f := fun u : PxVar N → ℝ => ((pxParts u).T, (pxParts u).L)) c1
    exact (d1.div_const p).sub contDiffAt_const
  | .inr (.inl 1) =>
    simp only [pxFun, pxResid, hR]
    have d1 := (contDiffAt_solverP hV R).comp (pxAll s) (f := fun u : PxVar N → ℝ => ((pxParts u).T, (pxParts u).V)) c2
    exact (d1.div_const p).sub contDiffAt_const
  | .inr (.inr i) =>
    simp only [pxFun, pxResid]
    have d1 : ContDiffAt ℝ 1 (fun u : PxVar N → ℝ => (pxParts u).L (headIdx i)) (pxAll s) := contDiff_apply ℝ ℝ _ |>.contDiffAt
    have d2 : ContDiffAt ℝ 1 (fun u : PxVar N → ℝ => rhotot (pxParts u).L) (pxAll s) :=
      contDiff_rhotot.contDiffAt.comp (pxAll s) (f := fun u : PxVar N → ℝ => (pxParts u).L) contDiff_pxL.contDiffAt
    exact (d1.div d2 hL.tot).sub contDiffAt_const

/-- **C177** `mixture_VLE_px`, for any number of components, started close to a regular coexisting pair of the given pressure and liquid composition, reports
convergence for all sensible tolerances within a number of iterations that depends on them alone; the temperature and all concentrations are then within a multiple of
the tolerances of the solution. -/
theorem mix_px_converges {solve : (PxEq N → PxVar N → ℝ) → (PxEq N → ℝ) → Option (PxVar N → ℝ)} (hs : SolvesInj solve)
    (hL : SmoothAt m T L) (hV : SmoothAt m T V) (hR : ∀ y, m.R y = R) (hLp : ∀ i, 0 < L i) (hVp : ∀ i, 0 < V i) (hc : MixCoexist m.alphar R T L V) (hp : p ≠ 0)
    (hpx : mixP m.alphar R T L = p) (hz : ∀ i, L i / ∑ k, L k = z i) (hreg : PxRegular m T L V) (hbig : ∃ i, dblMin < L i) :
    ∃ δ > 0, ∃ C > 0, ∀ tol, TolOk tol → ∃ k : ℕ, ∀ maxiter : ℤ, k ≤ maxiter → ∀ g : PxState N, ‖pxAll g - pxVec T L V‖ < δ →
      ∃ c, ∃ s : PxState N, mixVLEpx m solve p g.T (List.ofFn z) (List.ofFn g.L) (List.ofFn g.V) tol maxiter = .ok (c, s) ∧
        (c = .xtolSatisfied ∨ c = .functolSatisfied) ∧ ‖pxAll s - pxVec T L V‖ ≤ C * (tol.atol + tol.axtol + tol.relxtol) := by
  obtain ⟨P, hP⟩ : ∃ P, P = pxVec T L V := ⟨_, rfl⟩
  have hzs : ∑ i, z i = 1 := by
    simp only [← hz, ← Finset.sum_div]
    exact div_self hL.tot
  have hzero := (px_residual_zero_iff hL hV hR hLp hVp hp hzs).2 ⟨hc, hpx, hz⟩
  obtain ⟨i0, hi0⟩ := hbig
  have hcT : ContinuousAt (fun u : PxVar N → ℝ => ((pxParts u).T, (pxParts u).L)) (pxVec T L V) :=
    contDiff_pxT.continuous.continuousAt.prodMk contDiff_pxL.continuous.continuousAt
  have hcV : ContinuousAt (fun u : PxVar N → ℝ => ((pxParts u).T, (pxParts u).V)) (pxVec T L V) :=
    contDiff_pxT.continuous.continuousAt.prodMk contDiff_pxV.continuous.continuousAt
  have n1 := hcT.eventually hL.eventually_joint
  have n2 := hcV.eventually hV.eventually_joint
  have n3 : ∀ᶠ u in 𝓝 (pxVec T L V), ∀ i, 0 < (pxParts u).L i := by
    rw [eventually_all]
    exact fun i => (continuousAt_apply (Sum.inr (Sum.inl i)) (pxVec T L V)).eventually (lt_mem_nhds (hLp i))
  have n4 : ∀ᶠ u in 𝓝 (pxVec T L V), ∀ i, 0 < (pxParts u).V i := by
    rw [eventually_all]
    exact fun i => (continuousAt_apply (Sum.inr (Sum.inr i)) (pxVec T L V)).eventually (lt_mem_nhds (hVp i))
  have n5 : ∀ᶠ u in 𝓝 (pxVec T L V), dblMin < (pxParts u).L i0 :=
    (continuousAt_apply (Sum.inr (Sum.inl i0)) (pxVec T L V)).eventually (lt_mem_nhds hi0)
  have hJ : ∀ᶠ y in 𝓝 (pxVec T L V), ∀ (v : PxVar N → ℝ) (e : PxEq N), HasDerivAt (fun u : ℝ => pxFun m p z (y + u • v) e)
      (∑ j, pxJac m p z (pxParts y).T (pxParts y).L (pxParts y).V e j * v j) 0 := by
    filter_upwards [n1, n2, n3, n4] with y a b c d v e
    have key : ∀ γ : ℝ → PxVar N → ℝ, γ 0 = y → HasDerivAt γ v 0 →
        HasDerivAt (fun u => pxFun m p z (γ u) e) (∑ j, pxJac m p z (pxParts y).T (pxParts y).L (pxParts y).V e j * v j) 0 := by
      intro γ h0 h
      have g1 : HasDerivAt (fun u => (pxParts (γ u)).T) (pxParts v).T 0 := hasDerivAt_pi.1 h _
      have g2 : HasDerivAt (fun u => (pxParts (γ u)).L) (pxParts v).L 0 := hasDerivAt_pi.2 fun i => hasDerivAt_pi.1 h _
      have g3 : HasDerivAt (fun u => (pxParts (γ u)).V) (pxParts v).V 0 := hasDerivAt_pi.2 fun i => hasDerivAt_pi.1 h _
      have := px_jacobian_exact (m := m) (p := p) (z := z) g1 g2 g3 (by simp only [h0]; exact a) (by simp only [h0]; exact b) hR (by simp only [h0]; exact c) (by simp only [h0]; exact d) e
      simp only [h0] at this
      have e' : pxVec (pxParts v).T (pxParts v).L (pxParts v).V = v := pxAll_parts v
      rw [e'] at this
      exact this
    have hl : HasDerivAt (fun u : ℝ => y + u • v) v 0 := by
      have h1 : HasDerivAt (fun u : ℝ => u • v) ((1 : ℝ) • v) 0 := (hasDerivAt_id (0 : ℝ)).smul_const v
      rw [one_smul] at h1
      exact h1.const_add y
    exact key (fun u => y + u • v) (by simp) hl
  obtain ⟨δ, hδ, K, hK, Lc, hLc, h⟩ := newton_vec (F := pxFun m p z) (J := fun y e j => pxJac m p z (pxParts y).T (pxParts y).L (pxParts y).V e j)
    (p := pxVec T L V) (contDiffAt_pxFun (s := ⟨T, L, V⟩) hL hV hR hLp hVp) (funext hzero) hJ (px_regular hL hV hR hLp hVp hp hreg) ((n3.and n4).and n5)
  have hg : PxGood (pxResid m p z) (pxJac m p z) solve (pxVec T L V) δ K Lc := by
    intro s hx
    obtain ⟨⟨⟨q1, q1'⟩, q5⟩, q2, q3, q4⟩ := h (pxAll s) hx
    obtain ⟨dx, e1, e2⟩ := hs (pxJac m p z s.T s.L s.V) (fun e => -pxResid m p z s.T s.L s.V e) q2
    obtain ⟨g1, g2⟩ := q4 dx e2
    exact ⟨dx, ⟨q1, q1'⟩, e1, g1, g2, q3, i0, q5.le.trans (le_abs_self _)⟩
  refine ⟨δ, hδ, 1 + (‖pxVec T L V‖ + δ) + 2 * K, by positivity, fun tol ht => ?_⟩
  obtain ⟨k, hk⟩ := exists_pow_lt_of_lt_one (y := 1 / 2) (x := tol.atol / (Lc * δ)) (div_pos ht.atol (by positivity)) (by norm_num)
  refine ⟨k + 1, fun maxiter hm g hgx => ?_⟩
  have hl : Lc * ((1 / 2) ^ k * ‖pxAll g - pxVec T L V‖) < tol.atol := by
    rw [lt_div_iff₀ (by positivity)] at hk
    have : (1 / 2 : ℝ) ^ k * ‖pxAll g - pxVec T L V‖ ≤ (1 / 2) ^ k * δ := mul_le_mul_of_nonneg_left hgx.le (by positivity)
    have := mul_le_mul_of_nonneg_left this hLc.le
    linarith
  have hT0 : |g.T - pxVec T L V (.inl ())| < δ := (norm_le_pi_norm (pxAll g - pxVec T L V) (.inl ())).trans_lt hgx
  obtain ⟨c, s, e1, e2, e3⟩ := pxLoop_converges hg hK hLc hT0 ht k maxiter.toNat g hgx hl (by omega)
  obtain ⟨⟨⟨q1, q1'⟩, -⟩, -⟩ := h (pxAll g) hgx
  refine ⟨c, s, ?_, e2, e3.trans ?_⟩
  · unfold mixVLEpx
    rw [if_pos ⟨by simp, by simp⟩, if_neg, if_neg, dif_pos (by simp)]
    · have ez : (fun i : Fin N => (List.ofFn z)[i]?.getD 0) = z := by
        funext i
        simp
      have eL : ∀ h : (List.ofFn g.L).length = N, (fun i : Fin N => (List.ofFn g.L)[i]) = g.L := by
        intro _
        funext i
        simp
      have eV : (fun i : Fin N => (List.ofFn g.V)[i]?.getD 0) = g.V := by
        funext i
        simp
      simp only [ez, eV]
      refine Eq.trans ?_ e1
      congr 2
      funext i
      simp
    · rintro ⟨v, hv, h0⟩
      obtain ⟨i, rfl⟩ := (List.mem_ofFn' _ _).1 hv
      exact (q1 i).ne' h0
    · rintro ⟨v, hv, h0⟩
      obtain ⟨i, rfl⟩ := (List.mem_ofFn' _ _).1 hv
      exact (q1' i).ne' h0
  · have a := ht.atol
    have b := ht.axtol
    have d := ht.relxtol
    have n := norm_nonneg (pxVec T L V)
    nlinarith [mul_nonneg hK.le b, mul_nonneg hK.le d, mul_nonneg n a.le, mul_nonneg n b, mul_nonneg hδ.le a.le, mul_nonneg hδ.le b]

end

/-! ## A fluid meeting all hypotheses -/

section
open Teqp.Sample

theorem demix_liq : liq ![2, 1, 1, 2] = ![2, 1] := by funext i; fin_cases i <;> rfl

theorem demix_vap : vap ![2, 1, 1, 2] = ![1, 2] := by funext i; fin_cases i <;> rfl

theorem demix_state : SmoothAt demix 1 (liq ![2, 1, 1, 2]) ∧ SmoothAt demix 1 (vap ![2, 1, 1, 2]) ∧ AllPos ![2, 1, 1, 2] ∧
    MixCoexist demix.alphar 8 1 (liq ![2, 1, 1, 2]) (vap ![2, 1, 1, 2]) ∧ ∃ i, dblMin < (![2, 1, 1, 2] : Fin 4 → ℝ) i := by
  refine ⟨demix_smooth _ _ (by simp [rhotot, liq]; norm_num), demix_smooth _ _ (by simp [rhotot, vap]; norm_num), fun i => by fin_cases i <;> simp, ?_, 0, ?_⟩
  · rw [demix_liq, demix_vap]
    refine demix_coexist two_pos one_pos ?_
    rw [Real.log_one]; ring
  · have : dblMin ≤ 1 := by
      unfold dblMin
      exact inv_le_one_of_one_le₀ (one_le_pow₀ (by norm_num))
    simp only [Matrix.cons_val_zero]
    linarith

theorem log_two_sq : Real.log 2 ^ 2 < 1 / 2 := by
  have h1 := Real.log_two_lt_d9
  have h2 := Real.log_two_gt_d9
  nlinarith

theorem demix_hessL (i j : Fin 2) : psiHess demix 1 ![2, 1] i j = !![4, 8 * Real.log 2; 8 * Real.log 2, 8] i j := by
  have h : rhotot ![(2 : ℝ), 1] ≠ 0 := by simp [rhotot]; norm_num
  rw [psiHess_apply, hess_two demix_R, demix_hess _ _ h]
  fin_cases i <;> fin_cases j <;> simp <;> norm_num

theorem demix_hessV (i j : Fin 2) : psiHess demix 1 ![1, 2] i j = !![8, 8 * Real.log 2; 8 * Real.log 2, 4] i j := by
  have h : rhotot ![(1 : ℝ), 2] ≠ 0 := by simp [rhotot]; norm_num
  rw [psiHess_apply, hess_two demix_R, demix_hess _ _ h]
  fin_cases i <;> fin_cases j <;> simp <;> norm_num

theorem demix_detL : (psiHess demix 1 ![2, 1]).det ≠ 0 := by
  rw [Matrix.det_fin_two]
  simp only [demix_hessL]
  simp
  nlinarith [log_two_sq]

theorem demix_detV : (psiHess demix 1 ![1, 2]).det ≠ 0 := by
  rw [Matrix.det_fin_two]
  simp only [demix_hessV]
  simp
  nlinarith [log_two_sq]

theorem demix_TxRegular : TxRegular demix 1 (liq ![2, 1, 1, 2]) (vap ![2, 1, 1, 2]) := by
  rw [demix_liq, demix_vap]
  refine ⟨demix_detV, ?_⟩
  simp only [Fin.sum_univ_two, mv, demix_hessL]
  simp
  nlinarith [Real.log_two_gt_d9]

theorem demix_TpRegular : TpRegular demix 1 (liq ![2, 1, 1, 2]) (vap ![2, 1, 1, 2]) := by
  rw [demix_liq, demix_vap]
  exact ⟨demix_detL, demix_detV, by norm_num⟩

theorem exactSolve_inv {n : ℕ} : ExactSolve (n := n) fun A b => some (A⁻¹.mulVec b) := by
  intro A b h
  refine ⟨_, rfl, ?_⟩
  rw [Matrix.mulVec_mulVec, Matrix.mul_nonsing_inv _ (isUnit_iff_ne_zero.2 h), Matrix.one_mulVec]

/-- Two liquids of unlike repelling components: both solvers find the two phases. -/
example : ∃ δ > 0, ∃ C > 0, ∀ tol, TolOk tol → ∃ k : ℕ, ∀ maxiter : ℤ, k ≤ maxiter → ∀ g : Fin 4 → ℝ, ‖g - ![2, 1, 1, 2]‖ < δ →
      ∃ c, ∃ y : Fin 4 → ℝ, mixVLETx demix (fun A b => some (A⁻¹.mulVec b)) 1 [g 0, g 1] [g 2, g 3] [2 / 3, 1 / 3] tol maxiter = .ok (c, [y 0, y 1], [y 2, y 3]) ∧
        (c = .xtolSatisfied ∨ c = .functolSatisfied) ∧ ‖y - ![2, 1, 1, 2]‖ ≤ C * (tol.atol + tol.axtol + tol.relxtol) := by
  obtain ⟨h1, h2, h3, h4, h5⟩ := demix_state
  exact mix_Tx_converges exactSolve_inv h1 h2 demix_R h3 h4 (by simp; norm_num) (by norm_num) demix_TxRegular h5

example : ∃ p, ∃ δ > 0, ∀ (maxiter : ℤ) (g : Fin 4 → ℝ), ‖g - ![2, 1, 1, 2]‖ < δ →
      ∃ r, ∃ y : Fin 4 → ℝ, mixVLETp demix (fun A b => some (A⁻¹.mulVec b)) 1 p [g 0, g 1] [g 2, g 3] maxiter = .ok r ∧ r.rhovecL = [y 0, y 1] ∧ r.rhovecV = [y 2, y 3] ∧
        ‖y - ![2, 1, 1, 2]‖ ≤ (1 / 2) ^ maxiter.toNat * ‖g - ![2, 1, 1, 2]‖ := by
  obtain ⟨h1, h2, h3, h4, h5⟩ := demix_state
  refine ⟨_, mix_Tp_converges exactSolve_inv h1 h2 demix_R h3 h4 ?_ rfl demix_TpRegular h5⟩
  have ht : rhotot ![(2 : ℝ), 1] ≠ 0 := by simp [rhotot]; norm_num
  rw [mixP_eq h1 demix_R, demix_liq]
  simp only [solverP, demix_Psir 1 _ ht, demix_grad 1 _ ht, Fin.sum_univ_two, rhotot_two]
  simp
  nlinarith [Real.log_two_gt_d9]

/-- The same fluid with an athermal residual part: the isobars of the two phases are not parallel. -/
noncomputable def demixA : EOS (Fin 2) := ⟨fun _ ρ x => Real.log 2 * (ρ * (x 0 * x 1)), fun _ => 8⟩

theorem demixA_R (x : Fin 2 → ℝ) : demixA.R x = 8 := rfl

theorem demixA_one : demixA.alphar 1 = demix.alphar 1 := by
  funext ρ x
  simp [demixA, demix]

theorem demixA_Psir_one : Psir demixA 1 = Psir demix 1 := by
  funext ρ
  simp only [Psir, demixA_one]
  rfl

theorem demixA_smooth (T : ℝ) (ρ : Fin 2 → ℝ) (h : rhotot ρ ≠ 0) : SmoothAt demixA T ρ := by
  refine ⟨h, ?_, contDiffAt_const⟩
  have hx : ∀ i : Fin 2, ContDiffAt ℝ 2 (fun p : ℝ × ℝ × (Fin 2 → ℝ) => p.2.2 i) (T, rhotot ρ, molefrac ρ) := fun i =>
    ContDiffAt.comp (g := fun y : Fin 2 → ℝ => y i) _ (contDiff_apply ℝ ℝ i).contDiffAt
      (contDiffAt_snd.comp _ contDiffAt_snd)
  have hr : ContDiffAt ℝ 2 (fun p : ℝ × ℝ × (Fin 2 → ℝ) => p.2.1) (T, rhotot ρ, molefrac ρ) :=
    contDiffAt_fst.comp _ contDiffAt_snd
  exact contDiffAt_const.mul (hr.mul ((hx 0).mul (hx 1)))

theorem demixA_coexist : MixCoexist demixA.alphar 8 1 ![2, 1] ![1, 2] := by
  have h : MixCoexist demix.alphar 8 1 ![2, 1] ![1, 2] := by
    refine demix_coexist two_pos one_pos ?_
    rw [Real.log_one]; ring
  simpa only [MixCoexist, mixMu, psiTotal, mixP, totalPressure, pressure, helmholtz, demixA_one] using h

theorem demixA_Psir (T : ℝ) (ρ : Fin 2 → ℝ) (h : rhotot ρ ≠ 0) : Psir demixA T ρ = 8 * Real.log 2 * T * (ρ 0 * ρ 1) := by
  simp only [Psir, demixA, molefrac]
  field_simp

theorem demixA_dPsirdT (T : ℝ) (ρ : Fin 2 → ℝ) (h : rhotot ρ ≠ 0) : dPsirdT demixA T ρ = 8 * Real.log 2 * (ρ 0 * ρ 1) := by
  unfold dPsirdT
  have e : (fun T' : ℝ => rhotot ρ * demixA.R (molefrac ρ) * T' * demixA.alphar T' (rhotot ρ) (molefrac ρ)) = fun T' => 8 * Real.log 2 * (ρ 0 * ρ 1) * T' := by
    funext T'
    simp only [demixA, molefrac]
    field_simp
  rw [e]
  simpa using ((hasDerivAt_id T).const_mul (8 * Real.log 2 * (ρ 0 * ρ 1))).deriv

theorem demixA_mixed (T : ℝ) (ρ : Fin 2 → ℝ) (h : rhotot ρ ≠ 0) (i : Fin 2) : d2PsirdTdrhoi demixA T ρ i = 8 * Real.log 2 * ρ (1 - i) := by
  unfold d2PsirdTdrhoi
  have e : (fun T' : ℝ => deriv (fun ri => Psir demixA T' (Function.update ρ i ri)) (ρ i)) = fun T' => 8 * Real.log 2 * ρ (1 - i) * T' := by
    funext T'
    have hd : HasDerivAt (fun t : ℝ => 8 * Real.log 2 * T' * (t * ρ (1 - i))) (8 * Real.log 2 * T' * (1 * ρ (1 - i))) (ρ i) :=
      ((hasDerivAt_id (ρ i)).mul_const _).const_mul _
    have := (hd.congr_of_eventuallyEq (f₁ := fun ri => Psir demixA T' (Function.update ρ i ri)) ?_).deriv
    · rw [this]; ring
    · filter_upwards [rhotot_update_ne ρ h i] with t ht
      rw [demixA_Psir T' _ ht]
      fin_cases i <;> simp [Function.update, mul_comm]
  rw [e]
  simpa using ((hasDerivAt_id T).const_mul (8 * Real.log 2 * ρ (1 - i))).deriv

theorem demixA_hess_one (ρ : Fin 2 → ℝ) : psiHess demixA 1 ρ = psiHess demix 1 ρ := by
  funext i j
  simp only [psiHess_apply, hessPsi, hessPsir, demixA_Psir_one]
  rfl

theorem demixA_PxRegular : PxRegular demixA 1 ![2, 1] ![1, 2] := by
  have tL : rhotot ![(2 : ℝ), 1] ≠ 0 := by simp [rhotot]; norm_num
  have tV : rhotot ![(1 : ℝ), 2] ≠ 0 := by simp [rhotot]; norm_num
  simp only [PxRegular, demixA_hess_one]
  refine ⟨demix_detV, ?_⟩
  simp only [dpdT, dchempotdT, demixA_dPsirdT 1 _ tL, demixA_dPsirdT 1 _ tV, demixA_mixed 1 _ tL, demixA_mixed 1 _ tV, demixA_R, Fin.sum_univ_two, mv, demix_hessL, rhotot_two]
  simp
  have h1 := Real.log_two_gt_d9
  intro h
  have : (24 + 16 * Real.log 2) * (8 * Real.log 2) = 0 := by linear_combination h
  nlinarith [mul_pos (show (0 : ℝ) < 24 + 16 * Real.log 2 by linarith) (show (0 : ℝ) < 8 * Real.log 2 by linarith)]

open Classical in
/-- Such a solve exists for every number of components. -/
theorem solvesInj_exists {N : ℕ} (hN : 0 < N) : SolvesInj (N := N) fun A b =>
    if h : ∃ d : PxVar N → ℝ, ∀ e, ∑ j, A e j * d j = b e then some h.choose else none := by
  intro A b hA
  have hsur : ∃ d : PxVar N → ℝ, ∀ e, ∑ j, A e j * d j = b e := by
    let f : (PxVar N → ℝ) →ₗ[ℝ] (PxEq N → ℝ) :=
      { toFun := fun d e => ∑ j, A e j * d j
        map_add' := fun x y => by funext e; simp [mul_add, Finset.sum_add_distrib]
        map_smul' := fun c x => by
          funext e
          simp only [Pi.smul_apply, smul_eq_mul, RingHom.id_apply, Finset.mul_sum]
          exact Finset.sum_congr rfl fun j _ => by ring }
    have hi : Function.Injective f := by
      rw [injective_iff_map_eq_zero]
      exact fun v hv => hA v fun e => congrFun hv e
    have hd : Module.finrank ℝ (PxVar N → ℝ) = Module.finrank ℝ (PxEq N → ℝ) := by
      simp only [Module.finrank_fintype_fun_eq_card, Fintype.card_sum, Fintype.card_fin, Fintype.card_unit]
      omega
    obtain ⟨d, hd'⟩ := (LinearMap.injective_iff_surjective_of_finrank_eq_finrank hd).1 hi b
    exact ⟨d, fun e => congrFun hd' e⟩
  simp only
  rw [dif_pos hsur]
  exact ⟨_, rfl, hsur.choose_spec⟩

open Classical in
example : ∃ p, ∃ δ > 0, ∃ C > 0, ∀ tol, TolOk tol → ∃ k : ℕ, ∀ maxiter : ℤ, k ≤ maxiter → ∀ g : PxState 2, ‖pxAll g - pxVec 1 ![2, 1] ![1, 2]‖ < δ →
      ∃ c, ∃ s : PxState 2, mixVLEpx demixA (fun A b => if h : ∃ d : PxVar 2 → ℝ, ∀ e, ∑ j, A e j * d j = b e then some h.choose else none) p g.T
          (List.ofFn ![2 / 3, 1 / 3]) (List.ofFn g.L) (List.ofFn g.V) tol maxiter = .ok (c, s) ∧
        (c = .xtolSatisfied ∨ c = .functolSatisfied) ∧ ‖pxAll s - pxVec 1 ![2, 1] ![1, 2]‖ ≤ C * (tol.atol + tol.axtol + tol.relxtol) := by
  have tL : rhotot ![(2 : ℝ), 1] ≠ 0 := by simp [rhotot]; norm_num
  have tV : rhotot ![(1 : ℝ), 2] ≠ 0 := by simp [rhotot]; norm_num
  refine ⟨_, mix_px_converges (solvesInj_exists two_pos) (demixA_smooth 1 _ tL) (demixA_smooth 1 _ tV) demixA_R (fun i => by fin_cases i <;> simp) (fun i => by fin_cases i <;> simp)
    demixA_coexist ?_ rfl (fun i => by fin_cases i <;> simp <;> norm_num) demixA_PxRegular ⟨0, ?_⟩⟩
  · rw [mixP_eq (demixA_smooth 1 _ tL) demixA_R]
    simp only [solverP, gradPsir, demixA_Psir_one]
    have hg := demix_grad 1 _ tL
    simp only [gradPsir] at hg
    simp only [demix_Psir 1 _ tL, hg, Fin.sum_univ_two, rhotot_two]
    simp
    nlinarith [Real.log_two_gt_d9]
  · have : dblMin ≤ 1 := by
      unfold dblMin
      exact inv_le_one_of_one_le₀ (one_le_pow₀ (by norm_num))
    simp only [Matrix.cons_val_zero]
    linarith

end

end Teqp.Props
