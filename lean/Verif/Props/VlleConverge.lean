import Verif.Props.VLLE
import Verif.Props.MixConverge

/-! # C178: what the three-phase solvers do from good guesses -/

set_option autoImplicit false

namespace Teqp.Props
open Teqp Teqp.Model Teqp.Spec Teqp.Calc Teqp.Lemmas Teqp.MixVLE Teqp.Envelope Teqp.VLLE Filter Topology

/-! ## The stopping tests and the loop -/

section
variable {κ κ' : Type} [Fintype κ] [Fintype κ'] {tol : VLETol} {y dx : κ → ℝ} {r : κ' → ℝ}

theorem vlle_decides (ht : TolOk tol) {c : VLLECode} (h : vlleTests tol y dx r = some c) :
    c = .xtolSatisfied ∨ (c = .functolSatisfied ∧ ‖r‖ ≤ 2 * tol.atol) := by
  rcases vlleTests_spec tol y dx r _ h with ⟨e, -⟩ | ⟨e, h1, -⟩ | ⟨e, -⟩
  · exact .inl (Option.some.inj e)
  · refine .inr ⟨Option.some.inj e, (pi_norm_le_iff_of_nonneg (by linarith [ht.atol])).2 fun i => ?_⟩
    have := h1 i
    rw [Real.norm_eq_abs]
    nlinarith [ht.reltol_le, abs_nonneg (r i)]
  · cases e

theorem vlle_stops (ht : TolOk tol) (h : ‖r‖ < tol.atol) : vlleTests tol y dx r ≠ none := by
  intro h0
  rcases vlleTests_spec tol y dx r _ h0 with ⟨e, -⟩ | ⟨e, -⟩ | ⟨-, -, h1⟩
  · cases e
  · cases e
  · refine h1 fun i => ?_
    have h2 := norm_le_pi_norm r i
    rw [Real.norm_eq_abs] at h2
    nlinarith [ht.reltol, abs_nonneg (r i), mul_nonneg ht.reltol (abs_nonneg (r i))]

end

/-- One pass near the solution; `err` is the distance from it. -/
def PassGood {σ : Type} (pass : σ → Outcome (σ × Option VLLECode)) (err : σ → ℝ) (atol δ K L : ℝ) : Prop :=
  ∀ s, err s < δ → ∃ s' o, pass s = .ok (s', o) ∧ err s' ≤ 1 / 2 * err s ∧
    (o = none ∨ o = some .xtolSatisfied ∨ (o = some .functolSatisfied ∧ err s ≤ K * (2 * atol))) ∧ (L * err s < atol → o ≠ none)

/-- How a run from a good guess ends. -/
def EndsWell {σ : Type} (err : σ → ℝ) (tol : VLETol) (K L : ℝ) (n : ℕ) (s : σ) (c : VLLECode) (s' : σ) : Prop :=
  err s' ≤ 1 / 2 * err s ∧
    (c = .xtolSatisfied ∨ (c = .functolSatisfied ∧ err s' ≤ K * tol.atol) ∨ (c = .maxiterMet ∧ err s' ≤ (1 / 2) ^ n * err s ∧ tol.atol ≤ L * ((1 / 2) ^ (n - 1) * err s)))

theorem codeLoop_converges {σ : Type} {pass : σ → Outcome (σ × Option VLLECode)} {err : σ → ℝ} {tol : VLETol} {δ K L : ℝ} (he : ∀ s, 0 ≤ err s)
    (hg : PassGood pass err tol.atol δ K L) (hL : 0 < L) (n : ℕ) : ∀ s, err s < δ →
      ∃ c s', codeLoop pass .maxiterMet n s = .ok (c, s') ∧ EndsWell err tol K L (n + 1) s c s' := by
  induction n with
  | zero =>
    intro s hs
    obtain ⟨s', o, e1, e2, e3, e4⟩ := hg s hs
    refine ⟨o.getD .maxiterMet, s', ?_, e2, ?_⟩
    · simp only [codeLoop, e1, Outcome.bind_ok]
    · rcases e3 with rfl | rfl | ⟨rfl, e5⟩
      · refine .inr (.inr ⟨rfl, by simpa using e2, ?_⟩)
        by_contra hlt
        push Not at hlt
        exact e4 (by simpa using hlt) rfl
      · exact .inl rfl
      · exact .inr (.inl ⟨rfl, by linarith⟩)
  | succ n ih =>
    intro s hs
    obtain ⟨s', o, e1, e2, e3, e4⟩ := hg s hs
    have h0 := he s
    simp only [codeLoop, e1, Outcome.bind_ok]
    rcases e3 with rfl | rfl | ⟨rfl, e5⟩
    · obtain ⟨c, t, f1, f2, f3⟩ := ih s' (by linarith)
      have h1 := he s'
      refine ⟨c, t, f1, by linarith, f3.imp_right (Or.imp_right ?_)⟩
      rintro ⟨g1, g2, g3⟩
      refine ⟨g1, g2.trans ?_, g3.trans ?_⟩
      · rw [pow_succ _ (n + 1), mul_assoc]
        exact mul_le_mul_of_nonneg_left e2 (by positivity)
      · refine mul_le_mul_of_nonneg_left ?_ hL.le
        simp only [Nat.add_sub_cancel]
        rw [pow_succ, mul_assoc]
        exact mul_le_mul_of_nonneg_left e2 (by positivity)
    · exact ⟨_, s', rfl, e2, .inl rfl⟩
    · exact ⟨_, s', rfl, e2, .inr (.inl ⟨rfl, by linarith⟩)⟩

/-! ## The equations -/

section
variable {m : EOS (Fin 2)} {R T p : ℝ} {ph : Phases}

/-- The phases in a vector of unknowns. -/
def phOf (u : VlleVar → ℝ) : Phases := fun k i => u (k, i)

theorem phOf_phVec (ph : Phases) : phOf (phVec ph) = ph := rfl

theorem phVec_phOf (u : VlleVar → ℝ) : phVec (phOf u) = u := rfl

theorem phVec_phAdd (ph : Phases) (dx : VlleVar → ℝ) : phVec (phAdd ph dx) = phVec ph + dx := rfl

/-- The unknowns of `mix_VLLE_p` with their phases and temperature. -/
def phPart (u : VllePVar → ℝ) : Phases := fun k i => u (.inl (k, i))

theorem phVecT_parts (u : VllePVar → ℝ) : phVecT (u (.inr ())) (phPart u) = u := by
  funext q
  match q with
  | .inl q => rfl
  | .inr () => rfl

/-- The rates along a direction. -/
noncomputable def muRate (m : EOS (Fin 2)) (T : ℝ) (ph : Phases) (t : ℝ) (w : Phases) (k : Fin 3) (i : Fin 2) : ℝ :=
  t * phaseMuT m T (ph k) i + mv (psiHess m T (ph k)) (w k) i

noncomputable def pRate (m : EOS (Fin 2)) (T : ℝ) (ph : Phases) (t : ℝ) (w : Phases) (k : Fin 3) : ℝ :=
  t * dpdT m T (ph k) + ∑ j, ph k j * mv (psiHess m T (ph k)) (w k) j

theorem line_of {E : Type} [NormedAddCommGroup E] [NormedSpace ℝ E] (x v : E) : HasDerivAt (fun u : ℝ => x + u • v) v 0 := by
  have h1 : HasDerivAt (fun u : ℝ => u • v) ((1 : ℝ) • v) 0 := (hasDerivAt_id (0 : ℝ)).smul_const v
  rw [one_smul] at h1
  exact h1.const_add x

/-- The rows of the Jacobian times a direction. -/
theorem jac_rows (hR : ∀ x, m.R x = R) (hg : GoodPhases m T ph) (t : ℝ) (w : Phases) :
    (∀ (k i : Fin 2), ∑ q, vllePJac m T ph (.inl (.inl (k, i))) q * phVecT t w q = muRate m T ph t w k.castSucc i - muRate m T ph t w k.succ i) ∧
    (∀ k : Fin 2, ∑ q, vllePJac m T ph (.inl (.inr k)) q * phVecT t w q = pRate m T ph t w k.castSucc - pRate m T ph t w k.succ) ∧
    ∑ q, vllePJac m T ph (.inr ()) q * phVecT t w q = pRate m T ph t w 0 := by
  have key : ∀ (τ : ℝ → ℝ) (γ : ℝ → Phases), τ 0 = T → γ 0 = ph → HasDerivAt τ t 0 → HasDerivAt γ w 0 →
    (∀ (k i : Fin 2), ∑ q, vllePJac m T ph (.inl (.inl (k, i))) q * phVecT t w q = muRate m T ph t w k.castSucc i - muRate m T ph t w k.succ i) ∧
    (∀ k : Fin 2, ∑ q, vllePJac m T ph (.inl (.inr k)) q * phVecT t w q = pRate m T ph t w k.castSucc - pRate m T ph t w k.succ) ∧
    ∑ q, vllePJac m T ph (.inr ()) q * phVecT t w q = pRate m T ph t w 0 := by
    intro τ γ h1 h2 h3 h4
    subst h1
    subst h2
    have hk : ∀ k, HasDerivAt (fun u => γ u k) (w k) 0 := hasDerivAt_pi.1 h4
    have hmu (k : Fin 3) (i : Fin 2) : HasDerivAt (fun u => phaseMu m (τ u) (γ u k) i) (muRate m (τ 0) (γ 0) t w k i) 0 :=
      phaseMu_rate hR (hg.smooth k) h3 (hk k) (hg.pos k) i
    have hpp (k : Fin 3) : HasDerivAt (fun u => phaseP m (τ u) (γ u k)) (pRate m (τ 0) (γ 0) t w k) 0 := by
      refine (phaseP_rate hR (hg.smooth k) h3 (hk k)).congr_deriv ?_
      simp only [phaseRT, hR, solverDp_eq hR fun i => (hg.pos k i).ne']
      rw [hess_swap (hg.smooth k)]
      rfl
    have hJ := vllePJac_exact hR hg h3 h4 0
    refine ⟨fun k i => ?_, fun k => ?_, ?_⟩
    · exact (hJ (.inl (.inl (k, i)))).unique ((hmu k.castSucc i).sub (hmu k.succ i))
    · exact (hJ (.inl (.inr k))).unique ((hpp k.castSucc).sub (hpp k.succ))
    · exact (hJ (.inr ())).unique ((hpp 0).sub_const 0)
  exact key (fun u => T + u • t) (fun u => ph + u • w) (by simp) (by simp) (line_of T t) (line_of ph w)

/-- Three phases not on a line in the plane of the concentrations, none at its limit of stability. -/
def TriRegular (m : EOS (Fin 2)) (T : ℝ) (ph : Phases) : Prop :=
  (∀ k, (psiHess m T (ph k)).det ≠ 0) ∧ (ph 1 0 - ph 0 0) * (ph 2 1 - ph 0 1) ≠ (ph 2 0 - ph 0 0) * (ph 1 1 - ph 0 1)

theorem vlleJac_inj (hR : ∀ x, m.R x = R) (hg : GoodPhases m T ph) (h : TriRegular m T ph) : Inj (vlleJac m T ph) := by
  intro v hv
  have hrow (e : VlleEq) : ∑ q, vllePJac m T ph (.inl e) q * phVecT 0 (phOf v) q = 0 := by
    rw [Fintype.sum_sum_type]
    simp only [Fintype.sum_unique, phVecT, mul_zero, add_zero]
    exact hv e
  obtain ⟨r1, r2, -⟩ := jac_rows hR hg 0 (phOf v)
  have a (k i : Fin 2) : mv (psiHess m T (ph k.castSucc)) (phOf v k.castSucc) i = mv (psiHess m T (ph k.succ)) (phOf v k.succ) i := by
    have := (r1 k i).symm.trans (hrow (.inl (k, i)))
    simp only [muRate, zero_mul, zero_add] at this
    linarith
  have b (k : Fin 2) : ∑ j, ph k.castSucc j * mv (psiHess m T (ph k.castSucc)) (phOf v k.castSucc) j =
      ∑ j, ph k.succ j * mv (psiHess m T (ph k.succ)) (phOf v k.succ) j := by
    have := (r2 k).symm.trans (hrow (.inr k))
    simp only [pRate, zero_mul, zero_add] at this
    linarith
  have a0 (i : Fin 2) : mv (psiHess m T (ph 1)) (phOf v 1) i = mv (psiHess m T (ph 0)) (phOf v 0) i := (a 0 i).symm
  have a1 (i : Fin 2) : mv (psiHess m T (ph 2)) (phOf v 2) i = mv (psiHess m T (ph 0)) (phOf v 0) i := (a 1 i).symm.trans (a0 i)
  have b0 : ∑ j, ph 0 j * mv (psiHess m T (ph 0)) (phOf v 0) j = ∑ j, ph 1 j * mv (psiHess m T (ph 1)) (phOf v 1) j := b 0
  have b1 : ∑ j, ph 1 j * mv (psiHess m T (ph 1)) (phOf v 1) j = ∑ j, ph 2 j * mv (psiHess m T (ph 2)) (phOf v 2) j := b 1
  simp only [a0, a1, Fin.sum_univ_two] at b0 b1
  have w0 (i : Fin 2) : mv (psiHess m T (ph 0)) (phOf v 0) i = 0 := by
    have hne := sub_ne_zero.2 h.2
    generalize mv (psiHess m T (ph 0)) (phOf v 0) = w at *
    have q0 : w 0 = 0 := by
      refine (mul_eq_zero.1 (?_ : ((ph 1 0 - ph 0 0) * (ph 2 1 - ph 0 1) - (ph 2 0 - ph 0 0) * (ph 1 1 - ph 0 1)) * w 0 = 0)).resolve_left hne
      linear_combination (ph 1 1 - ph 0 1) * (b0 + b1) - (ph 2 1 - ph 0 1) * b0
    have q1 : w 1 = 0 := by
      refine (mul_eq_zero.1 (?_ : ((ph 1 0 - ph 0 0) * (ph 2 1 - ph 0 1) - (ph 2 0 - ph 0 0) * (ph 1 1 - ph 0 1)) * w 1 = 0)).resolve_left hne
      linear_combination (ph 2 0 - ph 0 0) * b0 - (ph 1 0 - ph 0 0) * (b0 + b1)
    fin_cases i
    · exact q0
    · exact q1
  have z0 : phOf v 0 = 0 := phase_zero (h.1 0) w0
  have z1 : phOf v 1 = 0 := phase_zero (h.1 1) fun i => (a0 i).trans (w0 i)
  have z2 : phOf v 2 = 0 := phase_zero (h.1 2) fun i => (a1 i).trans (w0 i)
  funext ⟨k, i⟩
  fin_cases k
  · exact congrFun z0 i
  · exact congrFun z1 i
  · exact congrFun z2 i

/-- The same with the temperature unknown: also the Clapeyron-type determinant is not zero. -/
def TriRegularP (m : EOS (Fin 2)) (T : ℝ) (ph : Phases) : Prop :=
  (∀ k, (psiHess m T (ph k)).det ≠ 0) ∧
    (Matrix.of fun k j : Fin 3 => ![ph k 0, ph k 1, dpdT m T (ph k) - (ph k 0 * phaseMuT m T (ph k) 0 + ph k 1 * phaseMuT m T (ph k) 1)] j).det ≠ 0

theorem vllePJac_inj (hR : ∀ x, m.R x = R) (hg : GoodPhases m T ph) (h : TriRegularP m T ph) : Inj (vllePJac m T ph) := by
  intro v hv
  obtain ⟨t, ht⟩ : ∃ t, t = v (.inr ()) := ⟨_, rfl⟩
  obtain ⟨w, hw⟩ : ∃ w, w = phPart v := ⟨_, rfl⟩
  have hvw : v = phVecT t w := by rw [ht, hw, phVecT_parts]
  rw [hvw] at hv ⊢
  obtain ⟨r1, r2, r3⟩ := jac_rows hR hg t w
  have a (k i : Fin 2) : muRate m T ph t w k.castSucc i = muRate m T ph t w k.succ i := by
    have := (r1 k i).symm.trans (hv _)
    linarith
  have b (k : Fin 2) : pRate m T ph t w k.castSucc = pRate m T ph t w k.succ := by
    have := (r2 k).symm.trans (hv _)
    linarith
  have c0 : pRate m T ph t w 0 = 0 := r3.symm.trans (hv _)
  have am (k : Fin 3) (i : Fin 2) : muRate m T ph t w k i = muRate m T ph t w 0 i := by
    fin_cases k
    · rfl
    · exact (a 0 i).symm
    · exact (a 1 i).symm.trans (a 0 i).symm
  have bm (k : Fin 3) : pRate m T ph t w k = 0 := by
    fin_cases k
    · exact c0
    · exact (b 0).symm.trans c0
    · exact ((b 1).symm.trans (b 0).symm).trans c0
  have hm (k : Fin 3) (i : Fin 2) : mv (psiHess m T (ph k)) (w k) i = muRate m T ph t w 0 i - t * phaseMuT m T (ph k) i := by
    rw [← am k i, muRate]
    ring
  have hz : (![muRate m T ph t w 0 0, muRate m T ph t w 0 1, t] : Fin 3 → ℝ) = 0 := by
    by_contra hne
    refine h.2 (Matrix.exists_mulVec_eq_zero_iff.1 ⟨_, hne, ?_⟩)
    funext k
    have := bm k
    rw [pRate] at this
    simp only [hm, Fin.sum_univ_two] at this
    simp only [Matrix.mulVec, dotProduct, Fin.sum_univ_three, Matrix.of_apply]
    simp only [Matrix.cons_val_zero, Matrix.cons_val_one, Matrix.cons_val, Pi.zero_apply]
    linarith
  have t0 : t = 0 := congrFun hz 2
  have m0 : muRate m T ph t w 0 0 = 0 := congrFun hz 0
  have m1 : muRate m T ph t w 0 1 = 0 := congrFun hz 1
  have hmm (i : Fin 2) : muRate m T ph t w 0 i = 0 := by
    fin_cases i
    · exact m0
    · exact m1
  have hw0 (k : Fin 3) : w k = 0 := phase_zero (h.1 k) fun i => by
    rw [hm, hmm, t0, zero_mul, sub_zero]
  funext q
  match q with
  | .inl (k, i) => exact congrFun (hw0 k) i
  | .inr () => exact t0

/-- The residual as a function of one vector. -/
noncomputable def vllePFun (m : EOS (Fin 2)) (p : ℝ) (u : VllePVar → ℝ) : VllePEq → ℝ := vllePResid m p (u (.inr ())) (phPart u)

theorem contDiffAt_vllePFun (hR : ∀ x, m.R x = R) (hg : GoodPhases m T ph) (p : ℝ) : ContDiffAt ℝ 1 (vllePFun m p) (phVecT T ph) := by
  have c (k : Fin 3) : ContDiffAt ℝ 1 (fun u : VllePVar → ℝ => (u (.inr ()), phPart u k)) (phVecT T ph) :=
    (contDiff_apply ℝ ℝ (Sum.inr ())).contDiffAt.prodMk (contDiff_pi.2 fun i => contDiff_apply ℝ ℝ (Sum.inl (k, i))).contDiffAt
  have d1 (k : Fin 3) (i : Fin 2) : ContDiffAt ℝ 1 (fun u : VllePVar → ℝ => phaseMu m (u (.inr ())) (phPart u k) i) (phVecT T ph) := by
    simp only [phaseMu, phaseRT, hR]
    exact (contDiffAt_mu (hg.smooth k) R i (hg.pos k i)).comp (phVecT T ph) (f := fun u : VllePVar → ℝ => (u (.inr ()), phPart u k)) (c k)
  have d2 (k : Fin 3) : ContDiffAt ℝ 1 (fun u : VllePVar → ℝ => phaseP m (u (.inr ())) (phPart u k)) (phVecT T ph) := by
    simp only [phaseP, phaseRT, hR]
    exact (contDiffAt_solverP (hg.smooth k) R).comp (phVecT T ph) (f := fun u : VllePVar → ℝ => (u (.inr ()), phPart u k)) (c k)
  rw [contDiffAt_pi]
  intro e
  match e with
  | .inl (.inl (k, i)) => exact (d1 k.castSucc i).sub (d1 k.succ i)
  | .inl (.inr k) => exact (d2 k.castSucc).sub (d2 k.succ)
  | .inr () => exact (d2 0).sub contDiffAt_const

theorem good_near (hg : GoodPhases m T ph) : ∀ᶠ u : VllePVar → ℝ in 𝓝 (phVecT T ph), GoodPhases m (u (.inr ())) (phPart u) := by
  have c (k : Fin 3) : ContinuousAt (fun u : VllePVar → ℝ => (u (.inr ()), phPart u k)) (phVecT T ph) :=
    (continuousAt_apply (Sum.inr ()) _).prodMk (continuousAt_pi.2 fun i => continuousAt_apply (Sum.inl (k, i)) _)
  have h1 : ∀ᶠ u : VllePVar → ℝ in 𝓝 (phVecT T ph), ∀ k, SmoothAt m (u (.inr ())) (phPart u k) :=
    eventually_all.2 fun k => (c k).eventually (hg.smooth k).eventually_joint
  have h2 : ∀ᶠ u : VllePVar → ℝ in 𝓝 (phVecT T ph), ∀ k i, 0 < phPart u k i :=
    eventually_all.2 fun k => eventually_all.2 fun i => (continuousAt_apply (Sum.inl (k, i)) (phVecT T ph)).eventually (lt_mem_nhds (hg.pos k i))
  filter_upwards [h1, h2] with u a b
  exact ⟨a, b⟩

theorem vllePFun_rate (hR : ∀ x, m.R x = R) {y : VllePVar → ℝ} (hg : GoodPhases m (y (.inr ())) (phPart y)) (p : ℝ) (v : VllePVar → ℝ) (e : VllePEq) :
    HasDerivAt (fun u : ℝ => vllePFun m p (y + u • v) e) (∑ j, vllePJac m (y (.inr ())) (phPart y) e j * v j) 0 := by
  have key : ∀ γ : ℝ → VllePVar → ℝ, γ 0 = y → HasDerivAt γ v 0 →
      HasDerivAt (fun u => vllePFun m p (γ u) e) (∑ j, vllePJac m (y (.inr ())) (phPart y) e j * v j) 0 := by
    intro γ h0 h
    have g1 : HasDerivAt (fun u => γ u (.inr ())) (v (.inr ())) 0 := hasDerivAt_pi.1 h _
    have g2 : HasDerivAt (fun u => phPart (γ u)) (phPart v) 0 := hasDerivAt_pi.2 fun k => hasDerivAt_pi.2 fun i => hasDerivAt_pi.1 h _
    have := vllePJac_exact hR (by simp only [h0]; exact hg) g1 g2 p e
    simp only [h0] at this
    rw [phVecT_parts] at this
    exact this
  exact key (fun u => y + u • v) (by simp) (line_of y v)

/-- The embedding of the unknowns at fixed temperature. -/
def atT (T : ℝ) (u : VlleVar → ℝ) : VllePVar → ℝ := phVecT T (phOf u)

theorem contDiff_atT : ContDiff ℝ 1 (atT T) := by
  rw [contDiff_pi]
  intro q
  match q with
  | .inl q => exact contDiff_apply ℝ ℝ q
  | .inr () => exact contDiff_const

theorem contDiffAt_vlleFun (hR : ∀ x, m.R x = R) (hg : GoodPhases m T ph) : ContDiffAt ℝ 1 (fun u => vlleResid m T (phOf u)) (phVec ph) := by
  have h := (contDiffAt_vllePFun hR hg 0).comp (phVec ph) (f := atT T) contDiff_atT.contDiffAt
  rw [contDiffAt_pi] at h ⊢
  exact fun e => h (.inl e)

theorem good_nearT (hg : GoodPhases m T ph) : ∀ᶠ u : VlleVar → ℝ in 𝓝 (phVec ph), GoodPhases m T (phOf u) :=
  (contDiff_atT (T := T)).continuous.continuousAt.eventually (good_near hg)

theorem vlleFun_rate (hR : ∀ x, m.R x = R) {y : VlleVar → ℝ} (hg : GoodPhases m T (phOf y)) (v : VlleVar → ℝ) (e : VlleEq) :
    HasDerivAt (fun u : ℝ => vlleResid m T (phOf (y + u • v)) e) (∑ j, vlleJac m T (phOf y) e j * v j) 0 := by
  have key : ∀ γ : ℝ → VlleVar → ℝ, γ 0 = y → HasDerivAt γ v 0 →
      HasDerivAt (fun u => vlleResid m T (phOf (γ u)) e) (∑ j, vlleJac m T (phOf y) e j * v j) 0 := by
    intro γ h0 h
    have g2 : HasDerivAt (fun u => phOf (γ u)) (phOf v) 0 := hasDerivAt_pi.2 fun k => hasDerivAt_pi.2 fun i => hasDerivAt_pi.1 h _
    have := vlleJac_exact hR (by simp only [h0]; exact hg) g2 e
    simp only [h0] at this
    exact this
  exact key (fun u => y + u • v) (by simp) (line_of y v)

/-! ## Temperature specified -/

/-- A linear solve that is exact on systems with at most one solution. -/
def SolvesT (solve : (VlleEq → VlleVar → ℝ) → (VlleEq → ℝ) → Option (VlleVar → ℝ)) : Prop :=
  ∀ A b, Inj A → ∃ d, solve A b = some d ∧ ∀ e, ∑ j, A e j * d j = b e

/-- What one Newton step does near the solution. -/
theorem vlleT_step {solve : (VlleEq → VlleVar → ℝ) → (VlleEq → ℝ) → Option (VlleVar → ℝ)} (hs : SolvesT solve) (hR : ∀ x, m.R x = R) (hg : GoodPhases m T ph)
    (hc : ThreeCoexist m.alphar R T ph) (hreg : TriRegular m T ph) :
    ∃ δ > 0, ∃ K > 0, ∃ L > 0, ∀ g : Phases, ‖phVec g - phVec ph‖ < δ → (∀ k i, 0 < g k i) ∧ ∃ dx, solve (vlleJac m T g) (fun e => -vlleResid m T g e) = some dx ∧
      (∀ e, ∑ j, vlleJac m T g e j * dx j = -vlleResid m T g e) ∧ ‖phVec (phAdd g dx) - phVec ph‖ ≤ 1 / 2 * ‖phVec g - phVec ph‖ ∧
      ‖phVec g - phVec ph‖ ≤ K * ‖vlleResid m T g‖ ∧ ‖vlleResid m T g‖ ≤ L * ‖phVec g - phVec ph‖ := by
  have hJ : ∀ᶠ y in 𝓝 (phVec ph), ∀ (v : VlleVar → ℝ) (e : VlleEq), HasDerivAt (fun u : ℝ => vlleResid m T (phOf (y + u • v)) e) (∑ j, vlleJac m T (phOf y) e j * v j) 0 := by
    filter_upwards [good_nearT hg] with y hy v e
    exact vlleFun_rate hR hy v e
  obtain ⟨δ, hδ, K, hK, L, hL, h⟩ := newton_vec (F := fun u => vlleResid m T (phOf u)) (J := fun u e j => vlleJac m T (phOf u) e j) (contDiffAt_vlleFun hR hg)
    (funext ((vlleResid_zero_iff hR hg).2 hc)) hJ (vlleJac_inj hR hg hreg) (good_nearT hg)
  refine ⟨δ, hδ, K, hK, L, hL, fun g hgx => ?_⟩
  obtain ⟨q1, q2, q3, q4⟩ := h (phVec g) hgx
  obtain ⟨dx, e1, e2⟩ := hs (vlleJac m T g) (fun e => -vlleResid m T g e) q2
  obtain ⟨g1, g2⟩ := q4 dx e2
  exact ⟨q1.pos, dx, e1, e2, g1, g2, q3⟩

/-- **C178** `mix_VLLE_T`, started close enough to three coexisting phases that do not lie on a line and are not at their limits of stability, returns phases at most half as
far from the solution as the guess.  If the residual test ended the run, the error is at most a multiple of `atol`; a run that used up its iterations halved the error with
every one of them, and with enough iterations this does not happen.  Missing for convergence: a bound when the step test ended the run; `vlleT_no_bound` shows there is none. -/
theorem vlleT_converges_partial {solve : (VlleEq → VlleVar → ℝ) → (VlleEq → ℝ) → Option (VlleVar → ℝ)} (hs : SolvesT solve) (hR : ∀ x, m.R x = R) (hg : GoodPhases m T ph)
    (hc : ThreeCoexist m.alphar R T ph) (hreg : TriRegular m T ph) :
    ∃ δ > 0, ∃ K > 0, ∀ tol, TolOk tol → (∀ (maxiter : ℤ) (g : Phases), 1 ≤ maxiter → ‖phVec g - phVec ph‖ < δ →
      ∃ c y, mixVLLET m solve T g tol maxiter = .ok (c, y) ∧ ‖phVec y - phVec ph‖ ≤ 1 / 2 * ‖phVec g - phVec ph‖ ∧
        (c = .xtolSatisfied ∨ (c = .functolSatisfied ∧ ‖phVec y - phVec ph‖ ≤ K * tol.atol) ∨
          (c = .maxiterMet ∧ ‖phVec y - phVec ph‖ ≤ (1 / 2) ^ maxiter.toNat * ‖phVec g - phVec ph‖))) ∧
      ∃ k : ℕ, ∀ (maxiter : ℤ) (g y : Phases), k ≤ maxiter → ‖phVec g - phVec ph‖ < δ → mixVLLET m solve T g tol maxiter ≠ .ok (.maxiterMet, y) := by
  obtain ⟨δ, hδ, K, hK, L, hL, h⟩ := vlleT_step hs hR hg hc hreg
  refine ⟨δ, hδ, K, hK, fun tol ht => ?_⟩
  have hp : PassGood (vllePass (vlleResid m T) (vlleJac m T) solve tol) (fun g => ‖phVec g - phVec ph‖) tol.atol δ K L := by
    intro g hgx
    obtain ⟨q1, dx, e1, -, e2, e3, e4⟩ := h g hgx
    refine ⟨phAdd g dx, vlleTests tol (phVec (phAdd g dx)) dx (vlleResid m T g), ?_, e2, ?_, ?_⟩
    · rw [vllePass, if_pos q1, e1]
    · cases hv : vlleTests tol (phVec (phAdd g dx)) dx (vlleResid m T g) with
      | none => exact .inl rfl
      | some c =>
        rcases vlle_decides ht hv with rfl | ⟨rfl, hr⟩
        · exact .inr (.inl rfl)
        · exact .inr (.inr ⟨rfl, e3.trans (mul_le_mul_of_nonneg_left hr hK.le)⟩)
    · exact fun hlt => vlle_stops ht (e4.trans_lt hlt)
  have run (n : ℕ) (g : Phases) (hgx : ‖phVec g - phVec ph‖ < δ) := codeLoop_converges (err := fun g => ‖phVec g - phVec ph‖) (tol := tol) (fun _ => norm_nonneg _) hp hL n g hgx
  refine ⟨fun maxiter g hm hgx => ?_, ?_⟩
  · obtain ⟨n, hn⟩ : ∃ n : ℕ, maxiter.toNat = n + 1 := ⟨maxiter.toNat - 1, by omega⟩
    obtain ⟨c, y, e1, e2, e3⟩ := run n g hgx
    refine ⟨c, y, ?_, e2, e3.imp_right (Or.imp_right fun h => ⟨h.1, by rw [hn]; exact h.2.1⟩)⟩
    rw [mixVLLET, hn, vlleLoop_eq, e1]
  · obtain ⟨k, hk⟩ := exists_pow_lt_of_lt_one (y := 1 / 2) (x := tol.atol / (L * δ)) (div_pos ht.atol (by positivity)) (by norm_num)
    refine ⟨k + 1, fun maxiter g y hm hgx hy => ?_⟩
    obtain ⟨n, hn⟩ : ∃ n : ℕ, maxiter.toNat = n + 1 := ⟨maxiter.toNat - 1, by omega⟩
    obtain ⟨c, y', e1, e2, e3⟩ := run n g hgx
    rw [mixVLLET, hn, vlleLoop_eq, e1] at hy
    obtain ⟨rfl, -⟩ := Prod.mk.inj (Outcome.ok.inj hy)
    rcases e3 with h | ⟨h, -⟩ | ⟨-, -, h⟩
    · cases h
    · cases h
    · simp only [Nat.add_sub_cancel] at h
      rw [lt_div_iff₀ (by positivity)] at hk
      have h1 : (1 / 2 : ℝ) ^ n ≤ (1 / 2) ^ k := pow_le_pow_of_le_one (by norm_num) (by norm_num) (by omega)
      have h2 : (1 / 2 : ℝ) ^ n * ‖phVec g - phVec ph‖ ≤ (1 / 2) ^ k * δ := mul_le_mul h1 hgx.le (norm_nonneg _) (by positivity)
      have := mul_le_mul_of_nonneg_left h2 hL.le
      linarith

/-- **C178**, negative result. From guesses with all concentrations too high by the same small amount the solver makes a single step and reports `xtol_satisfied`, whatever the
tolerances and the number of iterations: the test compares the step with its sign. -/
theorem vlleT_single_step {solve : (VlleEq → VlleVar → ℝ) → (VlleEq → ℝ) → Option (VlleVar → ℝ)} (hs : SolvesT solve) (hR : ∀ x, m.R x = R) (hg : GoodPhases m T ph)
    (hc : ThreeCoexist m.alphar R T ph) (hreg : TriRegular m T ph) :
    ∃ δ > 0, ∀ ε, 0 < ε → ε < δ → ∃ dx : VlleVar → ℝ, (∀ e, ∑ j, vlleJac m T (fun k i => ph k i + ε) e j * dx j = -vlleResid m T (fun k i => ph k i + ε) e) ∧
      ∀ (tol : VLETol) (maxiter : ℤ), 0 ≤ tol.axtol → 0 ≤ tol.relxtol → 1 ≤ maxiter →
        mixVLLET m solve T (fun k i => ph k i + ε) tol maxiter = .ok (.xtolSatisfied, phAdd (fun k i => ph k i + ε) dx) := by
  obtain ⟨δ, hδ, K, hK, L, hL, h⟩ := vlleT_step hs hR hg hc hreg
  refine ⟨δ, hδ, fun ε h0 h1 => ?_⟩
  have hn : ‖phVec (fun k i => ph k i + ε) - phVec ph‖ = ε := by
    have : phVec (fun k i => ph k i + ε) - phVec ph = fun _ => ε := by
      funext q
      simp [phVec]
    rw [this, pi_norm_const, Real.norm_eq_abs, abs_of_pos h0]
  obtain ⟨q1, dx, e1, e1', e2, -, -⟩ := h (fun k i => ph k i + ε) (by rw [hn]; exact h1)
  refine ⟨dx, e1', fun tol maxiter ha hr hm => ?_⟩
  have hneg : ∀ q, dx q < 0 := by
    intro q
    have := (norm_le_pi_norm (phVec (phAdd (fun k i => ph k i + ε) dx) - phVec ph) q).trans e2
    rw [hn, Real.norm_eq_abs] at this
    have h3 := (abs_le.1 this).2
    have : (phVec (phAdd (fun k i => ph k i + ε) dx) - phVec ph) q = ε + dx q := by
      simp [phVec, phAdd]
      ring
    rw [this] at h3
    linarith
  obtain ⟨n, hn'⟩ : ∃ n : ℕ, maxiter.toNat = n + 1 := ⟨maxiter.toNat - 1, by omega⟩
  rw [mixVLLET, hn', vlleLoop, if_pos q1, e1]
  have ht : vlleTests tol (phVec (phAdd (fun k i => ph k i + ε) dx)) dx (vlleResid m T fun k i => ph k i + ε) = some .xtolSatisfied := by
    unfold vlleTests
    rw [if_pos fun q => (hneg q).trans_le (add_nonneg ha (mul_nonneg hr (abs_nonneg _)))]
  simp only [ht]

/-! ## Pressure specified -/

/-- A linear solve that is exact on systems with at most one solution. -/
def SolvesP (solve : (VllePEq → VllePVar → ℝ) → (VllePEq → ℝ) → Option (VllePVar → ℝ)) : Prop :=
  ∀ A b, Inj A → ∃ d, solve A b = some d ∧ ∀ e, ∑ j, A e j * d j = b e

/-- What one Newton step does near the solution. -/
theorem vlleP_step {solve : (VllePEq → VllePVar → ℝ) → (VllePEq → ℝ) → Option (VllePVar → ℝ)} (hs : SolvesP solve) (hR : ∀ x, m.R x = R) (hg : GoodPhases m T ph)
    (hc : ThreeCoexist m.alphar R T ph) (hp : ∀ k, mixP m.alphar R T (ph k) = p) (hreg : TriRegularP m T ph) :
    ∃ δ > 0, ∃ K > 0, ∃ L > 0, ∀ (T0 : ℝ) (g : Phases), ‖phVecT T0 g - phVecT T ph‖ < δ → (∀ k i, 0 < g k i) ∧
      ∃ dx, solve (vllePJac m T0 g) (fun e => -vllePResid m p T0 g e) = some dx ∧ (∀ e, ∑ j, vllePJac m T0 g e j * dx j = -vllePResid m p T0 g e) ∧
      ‖phVecT (T0 + dx (.inr ())) (phAdd g fun q => dx (.inl q)) - phVecT T ph‖ ≤ 1 / 2 * ‖phVecT T0 g - phVecT T ph‖ ∧
      ‖phVecT T0 g - phVecT T ph‖ ≤ K * ‖vllePResid m p T0 g‖ ∧ ‖vllePResid m p T0 g‖ ≤ L * ‖phVecT T0 g - phVecT T ph‖ := by
  have hJ : ∀ᶠ y in 𝓝 (phVecT T ph), ∀ (v : VllePVar → ℝ) (e : VllePEq), HasDerivAt (fun u : ℝ => vllePFun m p (y + u • v) e)
      (∑ j, vllePJac m (y (.inr ())) (phPart y) e j * v j) 0 := by
    filter_upwards [good_near hg] with y hy v e
    exact vllePFun_rate hR hy p v e
  obtain ⟨δ, hδ, K, hK, L, hL, h⟩ := newton_vec (F := vllePFun m p) (J := fun u e j => vllePJac m (u (.inr ())) (phPart u) e j) (contDiffAt_vllePFun hR hg p)
    (funext ((vllePResid_zero_iff hR hg p).2 ⟨hc, hp⟩)) hJ (vllePJac_inj hR hg hreg) (good_near hg)
  refine ⟨δ, hδ, K, hK, L, hL, fun T0 g hgx => ?_⟩
  obtain ⟨q1, q2, q3, q4⟩ := h (phVecT T0 g) hgx
  obtain ⟨dx, e1, e2⟩ := hs (vllePJac m T0 g) (fun e => -vllePResid m p T0 g e) q2
  obtain ⟨g1, g2⟩ := q4 dx e2
  have eq : phVecT (T0 + dx (.inr ())) (phAdd g fun q => dx (.inl q)) = phVecT T0 g + dx := by
    funext q
    match q with
    | .inl q => rfl
    | .inr () => rfl
  exact ⟨q1.pos, dx, e1, e2, by rw [eq]; exact g1, g2, q3⟩

/-- **C178** The same for `mix_VLLE_p`, with the temperature among the unknowns; the same is missing. -/
theorem vlleP_converges_partial {solve : (VllePEq → VllePVar → ℝ) → (VllePEq → ℝ) → Option (VllePVar → ℝ)} (hs : SolvesP solve) (hR : ∀ x, m.R x = R) (hg : GoodPhases m T ph)
    (hc : ThreeCoexist m.alphar R T ph) (hp : ∀ k, mixP m.alphar R T (ph k) = p) (hreg : TriRegularP m T ph) :
    ∃ δ > 0, ∃ K > 0, ∀ tol, TolOk tol → (∀ (maxiter : ℤ) (T0 : ℝ) (g : Phases), 1 ≤ maxiter → ‖phVecT T0 g - phVecT T ph‖ < δ →
      ∃ c T' y, mixVLLEp m solve p T0 g tol maxiter = .ok (c, T', y) ∧ ‖phVecT T' y - phVecT T ph‖ ≤ 1 / 2 * ‖phVecT T0 g - phVecT T ph‖ ∧
        (c = .xtolSatisfied ∨ (c = .functolSatisfied ∧ ‖phVecT T' y - phVecT T ph‖ ≤ K * tol.atol) ∨
          (c = .maxiterMet ∧ ‖phVecT T' y - phVecT T ph‖ ≤ (1 / 2) ^ maxiter.toNat * ‖phVecT T0 g - phVecT T ph‖))) ∧
      ∃ k : ℕ, ∀ (maxiter : ℤ) (T0 : ℝ) (g : Phases) (r : ℝ × Phases), k ≤ maxiter → ‖phVecT T0 g - phVecT T ph‖ < δ → mixVLLEp m solve p T0 g tol maxiter ≠ .ok (.maxiterMet, r) := by
  obtain ⟨δ, hδ, K, hK, L, hL, h⟩ := vlleP_step hs hR hg hc hp hreg
  refine ⟨δ, hδ, K, hK, fun tol ht => ?_⟩
  have hpass : PassGood (vllePPass (vllePResid m p) (vllePJac m) solve tol) (fun x => ‖phVecT x.1 x.2 - phVecT T ph‖) tol.atol δ K L := by
    rintro ⟨T0, g⟩ hgx
    obtain ⟨q1, dx, e1, -, g1, g2, q3⟩ := h T0 g hgx
    refine ⟨(T0 + dx (.inr ()), phAdd g fun q => dx (.inl q)), vlleTests tol (phVecT (T0 + dx (.inr ())) (phAdd g fun q => dx (.inl q))) dx (vllePResid m p T0 g), ?_, ?_, ?_, ?_⟩
    · rw [vllePPass, if_pos (show ∀ k i, 0 < (T0, g).2 k i from q1)]
      simp only [e1]
    · exact g1
    · cases hv : vlleTests tol (phVecT (T0 + dx (.inr ())) (phAdd g fun q => dx (.inl q))) dx (vllePResid m p T0 g) with
      | none => exact .inl rfl
      | some c =>
        rcases vlle_decides ht hv with rfl | ⟨rfl, hr⟩
        · exact .inr (.inl rfl)
        · exact .inr (.inr ⟨rfl, g2.trans (mul_le_mul_of_nonneg_left hr hK.le)⟩)
    · exact fun hlt => vlle_stops ht (q3.trans_lt hlt)
  have run (n : ℕ) (x : ℝ × Phases) (hgx : ‖phVecT x.1 x.2 - phVecT T ph‖ < δ) :=
    codeLoop_converges (err := fun x : ℝ × Phases => ‖phVecT x.1 x.2 - phVecT T ph‖) (tol := tol) (fun _ => norm_nonneg _) hpass hL n x hgx
  refine ⟨fun maxiter T0 g hm hgx => ?_, ?_⟩
  · obtain ⟨n, hn⟩ : ∃ n : ℕ, maxiter.toNat = n + 1 := ⟨maxiter.toNat - 1, by omega⟩
    obtain ⟨c, y, e1, e2, e3⟩ := run n (T0, g) hgx
    refine ⟨c, y.1, y.2, ?_, e2, e3.imp_right (Or.imp_right fun h => ⟨h.1, by rw [hn]; exact h.2.1⟩)⟩
    rw [mixVLLEp, hn, vllePLoop_eq, e1]
  · obtain ⟨k, hk⟩ := exists_pow_lt_of_lt_one (y := 1 / 2) (x := tol.atol / (L * δ)) (div_pos ht.atol (by positivity)) (by norm_num)
    refine ⟨k + 1, fun maxiter T0 g y hm hgx hy => ?_⟩
    obtain ⟨n, hn⟩ : ∃ n : ℕ, maxiter.toNat = n + 1 := ⟨maxiter.toNat - 1, by omega⟩
    obtain ⟨c, y', e1, e2, e3⟩ := run n (T0, g) hgx
    rw [mixVLLEp, hn, vllePLoop_eq, e1] at hy
    obtain ⟨rfl, -⟩ := Prod.mk.inj (Outcome.ok.inj hy)
    rcases e3 with h | ⟨h, -⟩ | ⟨-, -, h⟩
    · cases h
    · cases h
    · simp only [Nat.add_sub_cancel] at h
      rw [lt_div_iff₀ (by positivity)] at hk
      have h1 : (1 / 2 : ℝ) ^ n ≤ (1 / 2) ^ k := pow_le_pow_of_le_one (by norm_num) (by norm_num) (by omega)
      have h2 : (1 / 2 : ℝ) ^ n * ‖phVecT T0 g - phVecT T ph‖ ≤ (1 / 2) ^ k * δ := mul_le_mul h1 hgx.le (norm_nonneg _) (by positivity)
      have := mul_le_mul_of_nonneg_left h2 hL.le
      linarith

/-- **C178**, negative result for `mix_VLLE_p`: from guesses with temperature and all concentrations too high by the same small amount it makes a single step. -/
theorem vlleP_single_step {solve : (VllePEq → VllePVar → ℝ) → (VllePEq → ℝ) → Option (VllePVar → ℝ)} (hs : SolvesP solve) (hR : ∀ x, m.R x = R) (hg : GoodPhases m T ph)
    (hc : ThreeCoexist m.alphar R T ph) (hp : ∀ k, mixP m.alphar R T (ph k) = p) (hreg : TriRegularP m T ph) :
    ∃ δ > 0, ∀ ε, 0 < ε → ε < δ → ∃ dx : VllePVar → ℝ, (∀ e, ∑ j, vllePJac m (T + ε) (fun k i => ph k i + ε) e j * dx j = -vllePResid m p (T + ε) (fun k i => ph k i + ε) e) ∧
      ∀ (tol : VLETol) (maxiter : ℤ), 0 ≤ tol.axtol → 0 ≤ tol.relxtol → 1 ≤ maxiter →
        mixVLLEp m solve p (T + ε) (fun k i => ph k i + ε) tol maxiter = .ok (.xtolSatisfied, T + ε + dx (.inr ()), fun k i => ph k i + ε + dx (.inl (k, i))) := by
  obtain ⟨δ, hδ, K, hK, L, hL, h⟩ := vlleP_step hs hR hg hc hp hreg
  refine ⟨δ, hδ, fun ε h0 h1 => ?_⟩
  have hn : ‖phVecT (T + ε) (fun k i => ph k i + ε) - phVecT T ph‖ = ε := by
    have : phVecT (T + ε) (fun k i => ph k i + ε) - phVecT T ph = fun _ => ε := by
      funext q
      match q with
      | .inl q => simp [phVecT]
      | .inr () => simp [phVecT]
    rw [this, pi_norm_const, Real.norm_eq_abs, abs_of_pos h0]
  obtain ⟨q1, dx, e1, e1', e2, -, -⟩ := h (T + ε) (fun k i => ph k i + ε) (by rw [hn]; exact h1)
  refine ⟨dx, e1', fun tol maxiter ha hr hm => ?_⟩
  have hneg : ∀ q, dx q < 0 := by
    intro q
    have := (norm_le_pi_norm (phVecT (T + ε + dx (.inr ())) (phAdd (fun k i => ph k i + ε) fun q => dx (.inl q)) - phVecT T ph) q).trans e2
    rw [hn, Real.norm_eq_abs] at this
    have h3 := (abs_le.1 this).2
    have : (phVecT (T + ε + dx (.inr ())) (phAdd (fun k i => ph k i + ε) fun q => dx (.inl q)) - phVecT T ph) q = ε + dx q := by
      match q with
      | .inl q => simp only [Pi.sub_apply, phVecT, phAdd]; ring
      | .inr () => simp only [Pi.sub_apply, phVecT]; ring
    rw [this] at h3
    linarith
  obtain ⟨n, hn'⟩ : ∃ n : ℕ, maxiter.toNat = n + 1 := ⟨maxiter.toNat - 1, by omega⟩
  rw [mixVLLEp, hn', vllePLoop, if_pos q1, e1]
  have ht : vlleTests tol (phVecT (T + ε + dx (.inr ())) (phAdd (fun k i => ph k i + ε) fun q => dx (.inl q))) dx (vllePResid m p (T + ε) fun k i => ph k i + ε) = some .xtolSatisfied := by
    unfold vlleTests
    rw [if_pos fun q => (hneg q).trans_le (add_nonneg ha (mul_nonneg hr (abs_nonneg _)))]
  simp only [ht]
  rfl

end

/-! ## A fluid with three phases -/

theorem wells_triRegular : TriRegular wells 1 (wellsPhases 1) := by
  refine ⟨fun k => ?_, ?_⟩
  · rw [wellsPhases_hess one_pos]
    simp
  · simp [wellsPhases]
    norm_num

theorem wells_three : ThreeCoexist wells.alphar 1 1 (wellsPhases 1) := wells_coexist one_pos

open Classical in
theorem solvesT_exists : SolvesT fun A b => if h : ∃ d : VlleVar → ℝ, ∀ e, ∑ j, A e j * d j = b e then some h.choose else none := by
  intro A b hA
  have hsur : ∃ d : VlleVar → ℝ, ∀ e, ∑ j, A e j * d j = b e := by
    let f : (VlleVar → ℝ) →ₗ[ℝ] (VlleEq → ℝ) :=
      { toFun := fun d e => ∑ j, A e j * d j
        map_add' := fun x y => by funext e; simp only [Pi.add_apply, mul_add, Finset.sum_add_distrib]
        map_smul' := fun c x => by
          funext e
          simp only [Pi.smul_apply, smul_eq_mul, RingHom.id_apply, Finset.mul_sum]
          exact Finset.sum_congr rfl fun j _ => by ring }
    have hi : Function.Injective f := by
      rw [injective_iff_map_eq_zero]
      exact fun v hv => hA v fun e => congrFun hv e
    have hd : Module.finrank ℝ (VlleVar → ℝ) = Module.finrank ℝ (VlleEq → ℝ) := by
      simp only [Module.finrank_fintype_fun_eq_card, Fintype.card_sum, Fintype.card_fin, Fintype.card_prod]
    obtain ⟨d, hd'⟩ := (LinearMap.injective_iff_surjective_of_finrank_eq_finrank hd).1 hi b
    exact ⟨d, fun e => congrFun hd' e⟩
  simp only
  rw [dif_pos hsur]
  exact ⟨_, rfl, hsur.choose_spec⟩

/-- **C178**, negative result. No multiple of the tolerances bounds the error of `mix_VLLE_T`, not even for guesses close to the solution and many iterations: a fluid with
three phases at concentrations 1 and 2. -/
theorem vlleT_no_bound {solve : (VlleEq → VlleVar → ℝ) → (VlleEq → ℝ) → Option (VlleVar → ℝ)} (hs : SolvesT solve) :
    ¬∃ δ > 0, ∃ C : ℝ, ∀ tol, TolOk tol → ∃ k : ℕ, ∀ maxiter : ℤ, k ≤ maxiter → ∀ g : Phases, ‖phVec g - phVec (wellsPhases 1)‖ < δ →
      ∃ c y, mixVLLET wells solve 1 g tol maxiter = .ok (c, y) ∧ ‖phVec y - phVec (wellsPhases 1)‖ ≤ C * (tol.atol + tol.axtol + tol.relxtol) := by
  rintro ⟨δ, hδ, C, h⟩
  obtain ⟨δ', hδ', h'⟩ := vlleT_single_step hs wells_R (wells_good one_pos) wells_three wells_triRegular
  obtain ⟨ε, h0, h1, h2⟩ : ∃ ε : ℝ, 0 < ε ∧ ε < δ ∧ ε < δ' := by
    refine ⟨min δ δ' / 2, by positivity, ?_, ?_⟩
    · have := min_le_left δ δ'
      have : 0 < min δ δ' := lt_min hδ hδ'
      linarith
    · have := min_le_right δ δ'
      have : 0 < min δ δ' := lt_min hδ hδ'
      linarith
  obtain ⟨dx, e1, e2⟩ := h' ε h0 h2
  obtain ⟨g, hgd⟩ : ∃ g : Phases, g = fun k i => wellsPhases 1 k i + ε := ⟨_, rfl⟩
  rw [← hgd] at e1 e2
  have hn : ‖phVec g - phVec (wellsPhases 1)‖ < δ := by
    have : phVec g - phVec (wellsPhases 1) = fun _ => ε := by
      rw [hgd]
      funext q
      simp [phVec]
    rw [this, pi_norm_const, Real.norm_eq_abs, abs_of_pos h0]
    exact h1
  -- the error of the answer does not depend on the tolerances
  have hle : ∀ a : ℝ, 0 < a → ‖phVec (phAdd g dx) - phVec (wellsPhases 1)‖ ≤ C * a := by
    intro a ha
    obtain ⟨k, hk⟩ := h ⟨a, 0, 0, 0⟩ ⟨ha, le_rfl, by norm_num, le_rfl, le_rfl⟩
    obtain ⟨c, y, f1, f2⟩ := hk (k + 1) (by omega) g hn
    rw [e2 _ _ le_rfl le_rfl (by omega)] at f1
    obtain ⟨-, rfl⟩ := Prod.mk.inj (Outcome.ok.inj f1)
    simpa using f2
  have hz : ‖phVec (phAdd g dx) - phVec (wellsPhases 1)‖ = 0 := by
    by_contra hne
    have hpos := lt_of_le_of_ne (norm_nonneg (phVec (phAdd g dx) - phVec (wellsPhases 1))) (Ne.symm hne)
    have hC : 0 < C := by
      have := hle 1 one_pos
      linarith
    have := hle (‖phVec (phAdd g dx) - phVec (wellsPhases 1)‖ / (2 * C)) (by positivity)
    rw [mul_div_assoc', mul_comm C, mul_div_mul_right _ _ hC.ne'] at this
    linarith
  -- but the step is not exact
  have hdx : dx = fun _ => -ε := by
    funext q
    have := congrFun (norm_eq_zero.1 hz) q
    rw [hgd] at this
    simp only [phVec, phAdd, Pi.sub_apply, Pi.zero_apply] at this
    have e : dx q = dx (q.1, q.2) := rfl
    linarith
  have hgp : ∀ k i, 0 < g k i := by
    intro k i
    rw [hgd]
    exact add_pos (wellsPhases_pos one_pos k i) h0
  have hgood : GoodPhases wells 1 g := ⟨fun k => wells_smooth one_ne_zero (hgp k), hgp⟩
  have row := (jac_rows wells_R hgood 0 (phOf dx)).1 0 0
  rw [Fintype.sum_sum_type] at row
  simp only [Fintype.sum_unique, phVecT, mul_zero, add_zero] at row
  have row' := row.symm.trans (e1 (.inl (0, 0)))
  simp only [muRate, zero_mul, zero_add, mv, psiHess_apply, Fin.sum_univ_two, vlleResid] at row'
  simp only [phaseMu_eq wells_R (hgood.smooth _) (hgood.pos _), wells_mu one_ne_zero (hgp _), wells_hess one_ne_zero (hgp _), hdx, phOf] at row'
  simp [hgd, wellsPhases, wellsMu] at row'
  have : ε ^ 2 = 0 := by nlinarith
  exact h0.ne' (pow_eq_zero_iff two_ne_zero |>.1 this)

/-! ## A fluid whose three-phase pressure rises with temperature -/

/-- The fluid: the entropy density is one unit larger than that of `wells`. -/
noncomputable def warm : EOS (Fin 2) := Teqp.Sample.ofTotal fun T a b => wellsP T a b - T

theorem warm_contDiff : ContDiff ℝ 2 fun p : ℝ × ℝ × ℝ => wellsP p.1 p.2.1 p.2.2 - p.1 := wells_contDiff.sub contDiff_fst

theorem warm_R (x : Fin 2 → ℝ) : warm.R x = 1 := rfl

theorem warm_smooth {T : ℝ} {ρ : Fin 2 → ℝ} (hT : T ≠ 0) (hρ : ∀ i, 0 < ρ i) : SmoothAt warm T ρ :=
  Teqp.Sample.ofTotal_smooth warm_contDiff hT hρ

theorem warm_mu {T : ℝ} {ρ : Fin 2 → ℝ} (hT : T ≠ 0) (hρ : ∀ i, 0 < ρ i) (i : Fin 2) : mixMu warm.alphar 1 T ρ i = wellsMu T ρ i := by
  refine ofTotal_mu hT hρ i (HasDerivAt.sub_const T ?_)
  fin_cases i
  · simp only [wellsP, Fin.zero_eta, Function.update_self, ne_eq, one_ne_zero, not_false_eq_true, Function.update_of_ne]
    have h := (hasDerivAt_id (ρ 0)).sub_const T
    have h1 := ((h.pow 2).mul ((h.sub_const 1).pow 2)).add_const ((ρ 1 - 1) ^ 2 * (ρ 1 - 2) ^ 2)
    refine h1.congr_deriv ?_
    simp [wellsMu]
    ring
  · simp only [wellsP, Fin.mk_one, Function.update_self, ne_eq, zero_ne_one, not_false_eq_true, Function.update_of_ne]
    have h := hasDerivAt_id (ρ 1)
    have h1 := (((h.sub_const 1).pow 2).mul ((h.sub_const 2).pow 2)).const_add ((ρ 0 - T) ^ 2 * (ρ 0 - T - 1) ^ 2)
    refine h1.congr_deriv ?_
    simp [wellsMu]
    ring

theorem warm_p {T : ℝ} {ρ : Fin 2 → ℝ} (hT : T ≠ 0) (hρ : ∀ i, 0 < ρ i) :
    mixP warm.alphar 1 T ρ = ∑ i, ρ i * wellsMu T ρ i - (wellsP T (ρ 0) (ρ 1) - T) := by
  have := ofTotal_p (P := fun T a b => wellsP T a b - T) warm_contDiff hT hρ
  rw [show (Teqp.Sample.ofTotal fun T a b => wellsP T a b - T) = warm from rfl] at this
  rw [this]
  simp only [warm_mu hT hρ]

theorem warm_hess {T : ℝ} {ρ : Fin 2 → ℝ} (hT : T ≠ 0) (hρ : ∀ i, 0 < ρ i) : psiHess warm T ρ = psiHess wells T ρ := by
  ext i j
  rw [psiHess_apply, psiHess_apply]
  refine ofTotal_hess warm_contDiff hT hρ i j ?_
  have hu : HasDerivAt (fun r => Function.update ρ j r) (Pi.single j (1 : ℝ)) (ρ j) := hasDerivAt_update ρ j (ρ j)
  have he : Function.update ρ j (ρ j) = ρ := Function.update_eq_self j ρ
  have h1 := phaseMu_rate wells_R (τ := fun _ => T) (γ := fun r => Function.update ρ j r) (s := ρ j) (by rw [he]; exact wells_smooth hT hρ) (hasDerivAt_const _ T) hu
    (by rw [he]; exact hρ) i
  rw [he] at h1
  have h2 : HasDerivAt (fun r => mixMu warm.alphar 1 T (Function.update ρ j r) i) _ (ρ j) := h1.congr_of_eventuallyEq (by
    filter_upwards [lt_mem_nhds (hρ j)] with r hr
    have hp : ∀ k, 0 < Function.update ρ j r k := fun k => by
      by_cases hk : k = j
      · subst hk; simpa using hr
      · rw [Function.update_of_ne hk]; exact hρ k
    rw [phaseMu_eq wells_R (wells_smooth hT hp) hp, wells_mu hT hp, warm_mu hT hp])
  refine h2.congr_deriv ?_
  simp [Pi.single_apply]

theorem warm_muT (k : Fin 3) (i : Fin 2) : phaseMuT warm 1 (wellsPhases 1 k) i = if i = 0 then -2 else 0 := by
  have hp := wellsPhases_pos one_pos k
  have h1 := phaseMu_rate warm_R (τ := fun u => u) (γ := fun _ => wellsPhases 1 k) (s := 1) (warm_smooth one_ne_zero hp) (hasDerivAt_id 1) (hasDerivAt_const _ _) hp i
  have h2 : HasDerivAt (fun u => wellsMu u (wellsPhases 1 k) i) _ 1 := h1.congr_of_eventuallyEq (by
    filter_upwards [lt_mem_nhds (one_pos (α := ℝ))] with u hu
    rw [phaseMu_eq warm_R (warm_smooth hu.ne' hp) hp, warm_mu hu.ne' hp])
  have h3 : HasDerivAt (fun u => wellsMu u (wellsPhases 1 k) i) (if i = 0 then -2 else 0) 1 := by
    fin_cases i
    · have h := (hasDerivAt_id (1 : ℝ)).const_sub (wellsPhases 1 k 0)
      have := (((h.const_mul 2).mul (h.sub_const 1))).mul ((h.const_mul 2).sub_const 1)
      refine HasDerivAt.congr_deriv this ?_
      fin_cases k <;> simp [wellsPhases] <;> norm_num
    · exact hasDerivAt_const _ _
  have := h2.unique h3
  simpa using this

theorem warm_dpdT (k : Fin 3) : dpdT warm 1 (wellsPhases 1 k) = 1 - 2 * wellsPhases 1 k 0 := by
  have hp := wellsPhases_pos one_pos k
  have h1 := phaseP_rate warm_R (τ := fun u => u) (γ := fun _ => wellsPhases 1 k) (s := 1) (warm_smooth one_ne_zero hp) (hasDerivAt_id 1) (hasDerivAt_const _ _)
  have h2 : HasDerivAt (fun u => ∑ i, wellsPhases 1 k i * wellsMu u (wellsPhases 1 k) i - (wellsP u (wellsPhases 1 k 0) (wellsPhases 1 k 1) - u)) _ 1 :=
    h1.congr_of_eventuallyEq (by
      filter_upwards [lt_mem_nhds (one_pos (α := ℝ))] with u hu
      rw [phaseP_eq warm_R (warm_smooth hu.ne' hp), warm_p hu.ne' hp])
  have h3 : HasDerivAt (fun u => ∑ i, wellsPhases 1 k i * wellsMu u (wellsPhases 1 k) i - (wellsP u (wellsPhases 1 k 0) (wellsPhases 1 k 1) - u)) (1 - 2 * wellsPhases 1 k 0) 1 := by
    have h := (hasDerivAt_id (1 : ℝ)).const_sub (wellsPhases 1 k 0)
    have a := ((((h.const_mul 2).mul (h.sub_const 1))).mul ((h.const_mul 2).sub_const 1)).const_mul (wellsPhases 1 k 0)
    have b := ((h.pow 2).mul ((h.sub_const 1).pow 2)).add_const ((wellsPhases 1 k 1 - 1) ^ 2 * (wellsPhases 1 k 1 - 2) ^ 2)
    have c := (a.add_const (wellsPhases 1 k 1 * (2 * (wellsPhases 1 k 1 - 1) * (wellsPhases 1 k 1 - 2) * (2 * wellsPhases 1 k 1 - 3)))).sub (b.sub (hasDerivAt_id 1))
    refine HasDerivAt.congr_of_eventuallyEq (HasDerivAt.congr_deriv c ?_) (Eventually.of_forall fun u => ?_)
    · fin_cases k <;> simp [wellsPhases] <;> norm_num
    · simp [wellsMu, wellsP, Fin.sum_univ_two]
  have := h2.unique h3
  simpa using this

theorem warm_triRegular : TriRegularP warm 1 (wellsPhases 1) := by
  refine ⟨fun k => ?_, ?_⟩
  · rw [warm_hess one_ne_zero (wellsPhases_pos one_pos k), wellsPhases_hess one_pos]
    simp
  · simp only [warm_muT, warm_dpdT]
    rw [Matrix.det_fin_three]
    simp [wellsPhases]
    norm_num

theorem warm_coexist : ThreeCoexist warm.alphar 1 1 (wellsPhases 1) := by
  intro k k'
  refine ⟨fun i => ?_, ?_⟩
  · rw [warm_mu one_ne_zero (wellsPhases_pos one_pos k), warm_mu one_ne_zero (wellsPhases_pos one_pos k'), wellsPhases_mu, wellsPhases_mu]
  · rw [warm_p one_ne_zero (wellsPhases_pos one_pos k), warm_p one_ne_zero (wellsPhases_pos one_pos k')]
    simp only [wellsPhases_mu, wellsPhases_psi]
    simp

open Classical in
theorem solvesP_exists : SolvesP fun A b => if h : ∃ d : VllePVar → ℝ, ∀ e, ∑ j, A e j * d j = b e then some h.choose else none := by
  intro A b hA
  have hsur : ∃ d : VllePVar → ℝ, ∀ e, ∑ j, A e j * d j = b e := by
    let f : (VllePVar → ℝ) →ₗ[ℝ] (VllePEq → ℝ) :=
      { toFun := fun d e => ∑ j, A e j * d j
        map_add' := fun x y => by funext e; simp only [Pi.add_apply, mul_add, Finset.sum_add_distrib]
        map_smul' := fun c x => by
          funext e
          simp only [Pi.smul_apply, smul_eq_mul, RingHom.id_apply, Finset.mul_sum]
          exact Finset.sum_congr rfl fun j _ => by ring }
    have hi : Function.Injective f := by
      rw [injective_iff_map_eq_zero]
      exact fun v hv => hA v fun e => congrFun hv e
    have hd : Module.finrank ℝ (VllePVar → ℝ) = Module.finrank ℝ (VllePEq → ℝ) := by
      simp only [Module.finrank_fintype_fun_eq_card, Fintype.card_sum, Fintype.card_fin, Fintype.card_prod]
    obtain ⟨d, hd'⟩ := (LinearMap.injective_iff_surjective_of_finrank_eq_finrank hd).1 hi b
    exact ⟨d, fun e => congrFun hd' e⟩
  simp only
  rw [dif_pos hsur]
  exact ⟨_, rfl, hsur.choose_spec⟩

/-- The hypotheses of both positive results hold. -/
example : (∃ solve, SolvesT solve) ∧ GoodPhases wells 1 (wellsPhases 1) ∧ ThreeCoexist wells.alphar 1 1 (wellsPhases 1) ∧ TriRegular wells 1 (wellsPhases 1) ∧
    TolOk ⟨1e-10, 1e-10, 1e-10, 1e-10⟩ :=
  ⟨⟨_, solvesT_exists⟩, wells_good one_pos, wells_three, wells_triRegular, ⟨by norm_num, by norm_num, by norm_num, by norm_num, by norm_num⟩⟩

open Classical in
/-- A run: the pressure is specified as one, the guess is off by up to `δ` in temperature and concentrations. -/
example : ∃ δ > 0, ∀ (T0 : ℝ) (g : Phases), ‖phVecT T0 g - phVecT 1 (wellsPhases 1)‖ < δ →
    ∃ c T' y, mixVLLEp warm (fun A b => if h : ∃ d : VllePVar → ℝ, ∀ e, ∑ j, A e j * d j = b e then some h.choose else none) 1 T0 g ⟨1e-10, 1e-10, 1e-10, 1e-10⟩ 10 = .ok (c, T', y) ∧
      ‖phVecT T' y - phVecT 1 (wellsPhases 1)‖ ≤ 1 / 2 * ‖phVecT T0 g - phVecT 1 (wellsPhases 1)‖ := by
  have hp (k : Fin 3) : mixP warm.alphar 1 1 (wellsPhases 1 k) = 1 := by
    rw [warm_p one_ne_zero (wellsPhases_pos one_pos k)]
    simp [wellsPhases_mu, wellsPhases_psi]
  obtain ⟨δ, hδ, K, -, h⟩ := vlleP_converges_partial solvesP_exists warm_R ⟨fun k => warm_smooth one_ne_zero (wellsPhases_pos one_pos k), wellsPhases_pos one_pos⟩ warm_coexist hp warm_triRegular
  refine ⟨δ, hδ, fun T0 g hg => ?_⟩
  obtain ⟨c, T', y, e1, e2, -⟩ := (h ⟨1e-10, 1e-10, 1e-10, 1e-10⟩ ⟨by norm_num, by norm_num, by norm_num, by norm_num, by norm_num⟩).1 10 T0 g (by norm_num) hg
  exact ⟨c, T', y, e1, e2⟩

end Teqp.Props
