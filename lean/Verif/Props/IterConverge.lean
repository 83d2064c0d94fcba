import Verif.Props.Iterate
import Verif.Lemmas.NewtonLocal

/-! # C176: the iterator for pairs of properties converges from good guesses -/

set_option autoImplicit false

namespace Teqp.Props
open Teqp Teqp.Model Teqp.Spec Teqp.Calc Teqp.Lemmas Filter Topology

/-! ## Smoothness of the state functions -/

theorem contDiffAt_dleft {F : ℝ → ℝ → ℝ} {a b : ℝ} (h : ContDiffAt ℝ 2 (unc F) (a, b)) :
    ContDiffAt ℝ 1 (unc fun t r => deriv (fun t' => F t' r) t) (a, b) := by
  have h1 : ContDiffAt ℝ 1 (fderiv ℝ (unc F)) (a, b) := h.fderiv_right (m := 1) (by norm_num)
  have h2 : ContDiffAt ℝ 1 (fun p => fderiv ℝ (unc F) p (1, 0)) (a, b) := h1.clm_apply contDiffAt_const
  refine h2.congr_of_eventuallyEq ?_
  filter_upwards [h.eventually (by simp)] with p hp
  exact (hasDerivAt_left (F := F) (a := p.1) (b := p.2) (hp.differentiableAt (by norm_num))).deriv

theorem stateFunction_smooth {c : Char} {α : ℝ → ℝ → ℝ} {R T ρ : ℝ} {f : ℝ → ℝ → ℝ} (hf : stateFunction c α R = some f) (hρ : ρ ≠ 0)
    (h : ContDiffAt ℝ 2 (unc α) (T, ρ)) : ContDiffAt ℝ 1 (unc f) (T, ρ) := by
  have i1 : ContDiffAt ℝ 2 (fun p : ℝ × ℝ => p.1) (T, ρ) := contDiffAt_fst
  have i2 : ContDiffAt ℝ 2 (fun p : ℝ × ℝ => p.2) (T, ρ) := contDiffAt_snd
  have hH : ContDiffAt ℝ 2 (unc (helmholtz α R)) (T, ρ) := (h.mul contDiffAt_const).mul i1
  have j1 : ContDiffAt ℝ 1 (fun p : ℝ × ℝ => p.1) (T, ρ) := contDiffAt_fst
  have j2 : ContDiffAt ℝ 1 (fun p : ℝ × ℝ => p.2) (T, ρ) := contDiffAt_snd
  have hP : ContDiffAt ℝ 1 (unc (pressure α R)) (T, ρ) := (j2.pow 2).mul (contDiffAt_dr (F := helmholtz α R) (n := 1) hH)
  have hS : ContDiffAt ℝ 1 (unc (entropy α R)) (T, ρ) := (contDiffAt_dleft hH).neg
  have hU : ContDiffAt ℝ 1 (unc (energy α R)) (T, ρ) := (hH.of_le (by norm_num)).add (j1.mul hS)
  have hE : ContDiffAt ℝ 1 (unc (enthalpy α R)) (T, ρ) := hU.add (hP.div j2 hρ)
  unfold stateFunction at hf
  split_ifs at hf <;> cases hf
  · exact j1
  · exact j2
  · exact hP
  · exact hS
  · exact hE
  · exact hU

/-! ## One pass -/

/-- The density as a function of the second unknown: itself or its logarithm. -/
noncomputable def densOf (log : Bool) (y : ℝ) : ℝ := if log then Real.exp y else y

/-- The second unknown. -/
noncomputable def unkOf (log : Bool) (ρ : ℝ) : ℝ := if log then Real.log ρ else ρ

theorem densOf_unkOf (log : Bool) {ρ : ℝ} (h : 0 < ρ) : densOf log (unkOf log ρ) = ρ := by
  cases log
  · rfl
  · exact Real.exp_log h

/-- The error of a state: in temperature, and in density or its logarithm. -/
noncomputable def stateGap (log : Bool) (x : Fin 2 → ℝ) (T ρ : ℝ) : ℝ := max |x 0 - T| |unkOf log (x 1) - unkOf log ρ|

/-- The Jacobian determinant of two state functions. -/
noncomputable def stateDet (fa fb : ℝ → ℝ → ℝ) (T ρ : ℝ) : ℝ :=
  deriv (fun t => fa t ρ) T * deriv (fb T) ρ - deriv (fa T) ρ * deriv (fun t => fb t ρ) T

theorem iter_pass {p : NRIter} {a b : Char} (hv : p.vars = [a, b]) (hsol : SolvesPair p) {α : ℝ → ℝ → ℝ} {T ρ : ℝ} (hT : 0 < T) (hρ : 0 < ρ)
    (hA : ∀ T ρ, p.A T ρ = fun i j => Lambda α i j T ρ) (hα : ContDiffAt ℝ 2 (unc α) (T, ρ)) {fa fb : ℝ → ℝ → ℝ}
    (ha : stateFunction a α p.R = some fa) (hb : stateFunction b α p.R = some fb) (hs : ∀ i, relScale p i ≠ 0)
    (h0 : fa T ρ = p.vals 0) (h1 : fb T ρ = p.vals 1) (hdet : stateDet fa fb T ρ ≠ 0) (log : Bool) :
    ∃ δ > 0, ∃ K > 0, ∃ L > 0, ∀ x : Fin 2 → ℝ, 0 < x 1 → stateGap log x T ρ < δ → 0 < x 0 ∧ ∃ dx r : Fin 2 → ℝ,
      stepData p log (some x) = .ok (some dx, some r) ∧ 0 < x 1 + dx 1 ∧
      stateGap log (fun i => x i + dx i) T ρ ≤ 1 / 2 * stateGap log x T ρ ∧
      stateGap log x T ρ ≤ K * max |r 0| |r 1| ∧ max |r 0| |r 1| ≤ L * stateGap log x T ρ := by
  set P : ℝ × ℝ := (T, unkOf log ρ) with hP
  set c := densOf log with hc
  have hcP : c P.2 = ρ := densOf_unkOf log hρ
  have hcs : ∀ y, ContDiffAt ℝ 2 c y := by
    intro y
    rw [hc]
    cases log
    · exact contDiffAt_id
    · exact Real.contDiff_exp.contDiffAt
  have hcc : ContinuousAt (fun u : ℝ × ℝ => (u.1, c u.2)) P :=
    continuousAt_fst.prodMk ((hcs P.2).continuousAt.comp (f := fun u : ℝ × ℝ => u.2) continuousAt_snd)
  have hval : (fun u : ℝ × ℝ => (u.1, c u.2)) P = (T, ρ) := by
    show (T, c P.2) = (T, ρ)
    rw [hcP]
  have hmap : ContDiffAt ℝ 1 (fun u : ℝ × ℝ => (u.1, c u.2)) P := by
    have i1 : ContDiffAt ℝ 1 (fun u : ℝ × ℝ => u.1) P := contDiffAt_fst
    have i2 : ContDiffAt ℝ 1 (fun u : ℝ × ℝ => c u.2) P := ((hcs P.2).of_le (by norm_num)).comp P (f := fun u : ℝ × ℝ => u.2) contDiffAt_snd
    exact i1.prodMk i2
  have sa : ContDiffAt ℝ 1 (fun u : ℝ × ℝ => fa u.1 (c u.2)) P := by
    have := stateFunction_smooth ha hρ.ne' hα
    rw [← hval] at this
    exact this.comp P (f := fun u : ℝ × ℝ => (u.1, c u.2)) hmap
  have sb : ContDiffAt ℝ 1 (fun u : ℝ × ℝ => fb u.1 (c u.2)) P := by
    have := stateFunction_smooth hb hρ.ne' hα
    rw [← hval] at this
    exact this.comp P (f := fun u : ℝ × ℝ => (u.1, c u.2)) hmap
  let G : ℝ × ℝ → ℝ × ℝ := fun u => ((fa u.1 (c u.2) - p.vals 0) / relScale p 0, (fb u.1 (c u.2) - p.vals 1) / relScale p 1)
  have hG : ContDiffAt ℝ 1 G P := ((sa.sub contDiffAt_const).div_const _).prodMk ((sb.sub contDiffAt_const).div_const _)
  have hG0 : G P = 0 := by
    show ((fa T (c P.2) - p.vals 0) / relScale p 0, (fb T (c P.2) - p.vals 1) / relScale p 1) = 0
    rw [hcP, h0, h1]
    simp
  let JJ : ℝ × ℝ → Matrix (Fin 2) (Fin 2) ℝ := fun u =>
    match calcSystem p log (some ![u.1, c u.2]) with
    | .ok (some (_, J)) => J
    | _ => 0
  let M : ℝ × ℝ → M2 := fun u => ⟨JJ u 0 0, JJ u 0 1, JJ u 1 0, JJ u 1 1⟩
  have hgood : ∀ᶠ u in 𝓝 P, 0 < u.1 ∧ 0 < c u.2 ∧ ContDiffAt ℝ 2 (unc α) (u.1, c u.2) := by
    have e1 : ∀ᶠ u : ℝ × ℝ in 𝓝 P, 0 < u.1 := continuousAt_const.eventually_lt continuousAt_fst hT
    have e3 : ∀ᶠ q : ℝ × ℝ in 𝓝 (T, ρ), 0 < q.2 ∧ ContDiffAt ℝ 2 (unc α) q :=
      (continuousAt_const.eventually_lt continuousAt_snd hρ).and (hα.eventually (by simp))
    have e4 := hcc.eventually (by rw [hval]; exact e3)
    filter_upwards [e1, e4] with u g1 g2
    exact ⟨g1, g2.1, g2.2⟩
  have hsys : ∀ᶠ u in 𝓝 P, 0 < u.1 ∧ 0 < c u.2 ∧ calcSystem p log (some ![u.1, c u.2]) = .ok (some (![(G u).1, (G u).2], JJ u)) ∧
      HasDerivAt (fun x => G (x, u.2)) ((M u).a00, (M u).a10) u.1 ∧ HasDerivAt (fun y => G (u.1, y)) ((M u).a01, (M u).a11) u.2 := by
    filter_upwards [hgood] with u hu
    obtain ⟨g1, g2, g3⟩ := hu
    obtain ⟨r, J, k1, k2, k3, k4, k5⟩ := calcSystem_exact hv (x := ![u.1, c u.2]) (α := α) ⟨hA _ _, g1.ne', g2.ne', g3⟩ ha hb hs g2 log
    have hJ : JJ u = J := by
      show (match calcSystem p log (some ![u.1, c u.2]) with | .ok (some (_, J)) => J | _ => 0) = J
      rw [k1]
    have hr : r = ![(G u).1, (G u).2] := by
      funext i
      rw [k2]
      fin_cases i <;> rfl
    refine ⟨g1, g2, by rw [k1, hJ, hr], ?_, ?_⟩
    · show HasDerivAt _ (JJ u 0 0, JJ u 1 0) _
      rw [hJ]
      exact (k3 0).prodMk (k3 1)
    · show HasDerivAt _ (JJ u 0 1, JJ u 1 1) _
      rw [hJ]
      cases log
      · exact (k4 rfl 0).prodMk (k4 rfl 1)
      · have d0 := k5 rfl 0
        have d1 := k5 rfl 1
        have : Real.log (![u.1, c u.2] 1) = u.2 := Real.log_exp u.2
        rw [this] at d0 d1
        exact d0.prodMk d1
  have hdetM : (M P).a00 * (M P).a11 - (M P).a01 * (M P).a10 ≠ 0 := by
    obtain ⟨-, -, -, k1, k2⟩ := hsys.self_of_nhds
    have da : DifferentiableAt ℝ (unc fa) (T, ρ) := (stateFunction_smooth ha hρ.ne' hα).differentiableAt (by norm_num)
    have db : DifferentiableAt ℝ (unc fb) (T, ρ) := (stateFunction_smooth hb hρ.ne' hα).differentiableAt (by norm_num)
    obtain ⟨m, hm, hcd⟩ : ∃ m : ℝ, m ≠ 0 ∧ HasDerivAt c m P.2 := by
      rw [hc]
      cases log
      · exact ⟨1, one_ne_zero, hasDerivAt_id _⟩
      · exact ⟨_, (Real.exp_pos _).ne', Real.hasDerivAt_exp _⟩
    have la : HasDerivAt (fun t => fa t ρ) (deriv (fun t => fa t ρ) T) T := (hasDerivAt_left da).differentiableAt.hasDerivAt
    have lb : HasDerivAt (fun t => fb t ρ) (deriv (fun t => fb t ρ) T) T := (hasDerivAt_left db).differentiableAt.hasDerivAt
    have ra : HasDerivAt (fa T) (deriv (fa T) ρ) ρ := (hasDerivAt_right da).differentiableAt.hasDerivAt
    have rb : HasDerivAt (fb T) (deriv (fb T) ρ) ρ := (hasDerivAt_right db).differentiableAt.hasDerivAt
    have c1 : HasDerivAt (fun x => G (x, P.2)) (deriv (fun t => fa t ρ) T / relScale p 0, deriv (fun t => fb t ρ) T / relScale p 1) T := by
      show HasDerivAt (fun x => ((fa x (c P.2) - p.vals 0) / relScale p 0, (fb x (c P.2) - p.vals 1) / relScale p 1)) _ _
      rw [hcP]
      exact ((la.sub_const _).div_const _).prodMk ((lb.sub_const _).div_const _)
    have ra' : HasDerivAt (fun y => fa T (c y)) (deriv (fa T) ρ * m) P.2 := by
      rw [← hcP] at ra ⊢
      exact ra.comp P.2 hcd
    have rb' : HasDerivAt (fun y => fb T (c y)) (deriv (fb T) ρ * m) P.2 := by
      rw [← hcP] at rb ⊢
      exact rb.comp P.2 hcd
    have c2 : HasDerivAt (fun y => G (P.1, y)) (deriv (fa T) ρ * m / relScale p 0, deriv (fb T) ρ * m / relScale p 1) P.2 :=
      ((ra'.sub_const _).div_const _).prodMk ((rb'.sub_const _).div_const _)
    have q1 := Prod.ext_iff.1 (k1.unique c1)
    have q2 := Prod.ext_iff.1 (k2.unique c2)
    simp only at q1 q2
    rw [q1.1, q1.2, q2.1, q2.2]
    have s0 := hs 0
    have s1 := hs 1
    have : deriv (fun t => fa t ρ) T / relScale p 0 * (deriv (fb T) ρ * m / relScale p 1) - deriv (fa T) ρ * m / relScale p 0 * (deriv (fun t => fb t ρ) T / relScale p 1) =
        stateDet fa fb T ρ * m / (relScale p 0 * relScale p 1) := by
      rw [stateDet]
      field_simp
    rw [this]
    exact div_ne_zero (mul_ne_zero hdet hm) (mul_ne_zero s0 s1)
  obtain ⟨K, hK, hnew⟩ := newton_plane hG hG0 (hsys.mono fun u h => ⟨h.2.2.2.1, h.2.2.2.2⟩) hdetM (q := 1 / 2) (by norm_num)
  obtain ⟨L, hL, hlip⟩ := ((hG.differentiableAt (by norm_num)).hasFDerivAt.isBigO_sub).exists_pos
  obtain ⟨δ, hδ, hb'⟩ := Metric.eventually_nhds_iff.1 ((hnew.and hsys).and hlip.bound)
  refine ⟨δ, hδ, 2 * K, by positivity, L, hL, fun x hx hg => ?_⟩
  set u : ℝ × ℝ := (x 0, unkOf log (x 1)) with hu
  have hux : ![u.1, c u.2] = x := by
    funext i
    fin_cases i
    · rfl
    · exact densOf_unkOf log hx
  have hnorm : ‖u - P‖ = stateGap log x T ρ := by
    rw [Prod.norm_def]; rfl
  obtain ⟨⟨⟨d1, d2⟩, g1, g2, g3, -⟩, g4⟩ := hb' (y := u) (by rw [dist_eq_norm, hnorm]; exact hg)
  rw [hux] at g3
  have hJdet : (JJ u).det ≠ 0 := by
    rw [Matrix.det_fin_two]
    exact d1
  obtain ⟨v, hv1, hv2⟩ := hsol (JJ u) (fun i => -(![(G u).1, (G u).2] i)) hJdet
  obtain ⟨e1, e2⟩ := d2 (v 0, v 1) (hv2 0) (hv2 1)
  have hGn : ‖G u‖ = max |(![(G u).1, (G u).2] : Fin 2 → ℝ) 0| |(![(G u).1, (G u).2] : Fin 2 → ℝ) 1| := by
    rw [Prod.norm_def]; rfl
  rw [hG0, sub_zero, hnorm, hGn] at g4
  rw [hGn] at e2
  rw [hnorm] at e1
  have hhalf : stateGap log x T ρ ≤ 2 * K * max |(![(G u).1, (G u).2] : Fin 2 → ℝ) 0| |(![(G u).1, (G u).2] : Fin 2 → ℝ) 1| := by
    have h3 : ‖u - P‖ ≤ ‖u + (v 0, v 1) - P‖ + ‖((v 0, v 1) : ℝ × ℝ)‖ := by
      have : u - P = (u + (v 0, v 1) - P) - (v 0, v 1) := by abel
      rw [this]
      exact norm_sub_le _ _
    rw [hnorm] at h3
    linarith
  refine ⟨g1, (if log then ![v 0, x 1 * (Real.exp (v 1) - 1)] else v), ![(G u).1, (G u).2], ?_, ?_, ?_, hhalf, g4⟩
  · unfold stepData
    rw [g3, Outcome.bind_ok]
    simp only [calcStep]
    rw [hv1]
  · have g2' := hb' (y := u + (v 0, v 1)) (by rw [dist_eq_norm]; have := norm_nonneg (u - P); rw [hnorm] at this; linarith)
    have : x 1 + (if log then ![v 0, x 1 * (Real.exp (v 1) - 1)] else v) 1 = c ((u + (v 0, v 1)).2) := by
      cases log
      · rfl
      · show x 1 + x 1 * (Real.exp (v 1) - 1) = Real.exp (Real.log (x 1) + v 1)
        rw [Real.exp_add, Real.exp_log hx]
        ring
    rw [this]
    exact g2'.1.2.2.1
  · refine le_of_eq_of_le ?_ e1
    rw [Prod.norm_def]
    cases log
    · rfl
    · show max |x 0 + v 0 - T| |Real.log (x 1 + x 1 * (Real.exp (v 1) - 1)) - Real.log ρ| = max |x 0 + v 0 - T| |Real.log (x 1) + v 1 - Real.log ρ|
      have : x 1 + x 1 * (Real.exp (v 1) - 1) = x 1 * Real.exp (v 1) := by ring
      rw [this, Real.log_mul hx.ne' (Real.exp_pos _).ne', Real.log_exp]

/-! ## The loop -/

/-- The stopping conditions considered: the residual condition with the given threshold, and the two that detect failures. -/
def PlainConds (thr : ℝ) (cs : List StopCond) : Prop :=
  .maxAbs thr ∈ cs ∧ ∀ c ∈ cs, c = .maxAbs thr ∨ c = .nanXDX ∨ c = .negativeX

theorem plain_stop {thr : ℝ} {cs : List StopCond} (h : PlainConds thr cs) {N : ℤ} {x dx r : Fin 2 → ℝ} {free : List (Fin 2)} (hx : 0 < x 0) (hx1 : 0 < x 1) :
    (max |r 0| |r 1| < thr → firstStop ⟨N, some x, some dx, some r, free⟩ cs = some (.success, "MaxAbsErrorCondition")) ∧
      (¬ max |r 0| |r 1| < thr → firstStop ⟨N, some x, some dx, some r, free⟩ cs = none) := by
  have k1 : (StopCond.nanXDX).stop ⟨N, some x, some dx, some r, free⟩ = .keepGoing := by simp [StopCond.stop]
  have k2 : (StopCond.negativeX).stop ⟨N, some x, some dx, some r, free⟩ = .keepGoing := by
    simp only [StopCond.stop]
    rw [if_neg]
    rintro ⟨i, -, hi⟩
    fin_cases i
    · exact absurd hi (not_lt.2 hx.le)
    · exact absurd hi (not_lt.2 hx1.le)
  constructor
  · intro hr
    have k3 : (StopCond.maxAbs thr).stop ⟨N, some x, some dx, some r, free⟩ = .success := by
      simp only [StopCond.stop]
      rw [if_pos hr]
    cases hf : firstStop ⟨N, some x, some dx, some r, free⟩ cs with
    | none =>
      have := firstStop_none.1 hf _ h.1
      rw [k3] at this
      cases this
    | some q =>
      obtain ⟨reason, msg⟩ := q
      obtain ⟨pre, c, post, e1, -, e2, e3, e4⟩ := firstStop_some hf
      have hc := h.2 c (by rw [e1]; simp)
      rcases hc with rfl | rfl | rfl
      · rw [k3] at e2
        rw [← e2, e4]
        rfl
      · rw [k1] at e2; exact absurd e2.symm e3
      · rw [k2] at e2; exact absurd e2.symm e3
  · intro hr
    refine firstStop_none.2 fun c hc => ?_
    rcases h.2 c hc with rfl | rfl | rfl
    · simp only [StopCond.stop]
      rw [if_neg hr]
    · exact k1
    · exact k2

/-- **C176** From a guess close enough to a state with the prescribed properties, at which the Jacobian of the two properties is regular, both versions of the iterator
report success for every threshold, after a number of steps that depends on the threshold alone, at a state within a multiple of the threshold of the one sought. -/
theorem iterator_converges {p : NRIter} {a b : Char} (hv : p.vars = [a, b]) (hab : ¬((a = 'T' ∨ b = 'T') ∧ (a = 'D' ∨ b = 'D'))) (hsol : SolvesPair p)
    {α : ℝ → ℝ → ℝ} {T ρ : ℝ} (hT : 0 < T) (hρ : 0 < ρ) (hA : ∀ T ρ, p.A T ρ = fun i j => Lambda α i j T ρ) (hα : ContDiffAt ℝ 2 (unc α) (T, ρ))
    {fa fb : ℝ → ℝ → ℝ} (ha : stateFunction a α p.R = some fa) (hb : stateFunction b α p.R = some fb) (hs : ∀ i, relScale p i ≠ 0)
    (h0 : fa T ρ = p.vals 0) (h1 : fb T ρ = p.vals 1) (hdet : stateDet fa fb T ρ ≠ 0) (log : Bool) :
    ∃ δ > 0, ∃ C > 0, ∀ thr > 0, ∃ k : ℕ, ∀ cs, PlainConds thr cs → ∀ N : ℤ, k ≤ N → ∀ (x : Fin 2 → ℝ) (n : ℕ) (msg : String), 0 < x 1 → stateGap log x T ρ < δ →
      ∃ y : Fin 2 → ℝ, ∃ m ≤ k, takeSteps { p with conds := cs } log N ⟨some x, n, msg⟩ = .ok (⟨some y, n + m, "MaxAbsErrorCondition"⟩, .success) ∧
        0 < y 1 ∧ stateGap log y T ρ ≤ C * thr := by
  obtain ⟨δ, hδ, K, hK, L, hL, hst⟩ := iter_pass hv hsol hT hρ hA hα ha hb hs h0 h1 hdet log
  refine ⟨δ, hδ, K, hK, fun thr ht => ?_⟩
  have hfree : ∃ free, freeIndices p.vars = .ok free ∧ free ≠ [] := by
    rw [hv]
    refine ⟨_, rfl, ?_⟩
    by_cases q1 : a = 'T' ∨ b = 'T' <;> by_cases q2 : a = 'D' ∨ b = 'D' <;> simp [q1, q2]
    exact hab ⟨q1, q2⟩
  obtain ⟨free, hf1, hf2⟩ := hfree
  obtain ⟨k0, hk0⟩ := exists_pow_lt_of_lt_one (y := 1 / 2) (x := thr / (L * δ)) (by positivity) (by norm_num)
  have hk0' : L * ((1 / 2) ^ k0 * δ) < thr := by
    rw [lt_div_iff₀ (by positivity)] at hk0
    linarith
  refine ⟨k0 + 1, fun cs hcs N hN x n msg hx hg => ?_⟩
  have key (j : ℕ) : ∀ (i : ℕ) (x : Fin 2 → ℝ) (n : ℕ), 0 < x 1 → stateGap log x T ρ ≤ δ → stateGap log x T ρ < δ → L * ((1 / 2) ^ j * stateGap log x T ρ) < thr → j + 1 ≤ i →
      ∃ y : Fin 2 → ℝ, ∃ m ≤ j + 1, stepLoop { p with conds := cs } free log N i ⟨some x, n, msg⟩ = .ok (⟨some y, n + m, "MaxAbsErrorCondition"⟩, .success) ∧
        0 < y 1 ∧ stateGap log y T ρ ≤ K * thr := by
    induction j with
    | zero =>
      intro i x n hx _ hg hl hi
      obtain ⟨i, rfl⟩ : ∃ i', i = i' + 1 := ⟨i - 1, by omega⟩
      obtain ⟨x0, dx, r, e1, e2, e3, e4, e5⟩ := hst x hx hg
      have hsd : stepData { p with conds := cs } log (some x) = .ok (some dx, some r) := e1
      have hlt : max |r 0| |r 1| < thr := by
        rw [pow_zero, one_mul] at hl
        linarith
      refine ⟨fun i => x i + dx i, 1, le_rfl, ?_, e2, ?_⟩
      · rw [stepLoop, hsd, Outcome.bind_ok, if_neg hf2, (plain_stop hcs x0 hx).1 hlt]
        rfl
      · have := mul_lt_mul_of_pos_left hlt hK
        have g0 : 0 ≤ stateGap log x T ρ := (abs_nonneg _).trans (le_max_left _ _)
        linarith
    | succ j ih =>
      intro i x n hx _ hg hl hi
      obtain ⟨i, rfl⟩ : ∃ i', i = i' + 1 := ⟨i - 1, by omega⟩
      obtain ⟨x0, dx, r, e1, e2, e3, e4, e5⟩ := hst x hx hg
      have hsd : stepData { p with conds := cs } log (some x) = .ok (some dx, some r) := e1
      have g0 : 0 ≤ stateGap log x T ρ := (abs_nonneg _).trans (le_max_left _ _)
      by_cases hlt : max |r 0| |r 1| < thr
      · refine ⟨fun i => x i + dx i, 1, by omega, ?_, e2, ?_⟩
        · rw [stepLoop, hsd, Outcome.bind_ok, if_neg hf2, (plain_stop hcs x0 hx).1 hlt]
          rfl
        · have := mul_lt_mul_of_pos_left hlt hK
          linarith
      · obtain ⟨y, m, hm, l1, l2, l3⟩ := ih i (fun i => x i + dx i) (n + 1) e2 (by linarith) (by linarith) (by
          have : (1 / 2 : ℝ) ^ j * stateGap log (fun i => x i + dx i) T ρ ≤ (1 / 2) ^ (j + 1) * stateGap log x T ρ := by
            rw [pow_succ, mul_assoc]
            exact mul_le_mul_of_nonneg_left e3 (by positivity)
          have := mul_le_mul_of_nonneg_left this hL.le
          linarith) (by omega)
        refine ⟨y, m + 1, by omega, ?_, l2, l3⟩
        rw [stepLoop, hsd, Outcome.bind_ok, if_neg hf2, (plain_stop hcs x0 hx).2 hlt]
        show stepLoop { p with conds := cs } free log N i ⟨some fun i => x i + dx i, n + 1, msg⟩ = _
        rw [l1, Nat.add_assoc, Nat.add_comm 1 m]
  obtain ⟨y, m, hm, l1, l2, l3⟩ := key k0 N.toNat x n hx hg.le hg (by
    have : (1 / 2 : ℝ) ^ k0 * stateGap log x T ρ ≤ (1 / 2) ^ k0 * δ := mul_le_mul_of_nonneg_left hg.le (by positivity)
    have := mul_le_mul_of_nonneg_left this hL.le
    linarith) (by omega)
  refine ⟨y, m, hm, ?_, l2, l3⟩
  unfold takeSteps
  show (freeIndices p.vars).bind _ = _
  rw [hf1, Outcome.bind_ok, if_neg (by omega)]
  exact l1

/-! ## Stable states -/

/-- The pairs of properties that determine a stable state locally, whatever the fluid. -/
def StablePair (a b : Char) : Prop :=
  (a, b) ∈ [('T', 'P'), ('P', 'T'), ('P', 'S'), ('S', 'P'), ('P', 'H'), ('H', 'P'), ('S', 'H'), ('H', 'S'), ('D', 'S'), ('S', 'D'), ('D', 'U'), ('U', 'D')]

theorem stateDet_swap (fa fb : ℝ → ℝ → ℝ) (T ρ : ℝ) : stateDet fb fa T ρ = -stateDet fa fb T ρ := by
  simp only [stateDet]
  ring

/-- **C176** At a mechanically and thermally stable state the Jacobian of each of these pairs is regular. -/
theorem stable_pair_regular {a b : Char} (hab : StablePair a b) {α : ℝ → ℝ → ℝ} {R T ρ : ℝ} (hT : 0 < T) (hρ : 0 < ρ) (hα : ContDiffAt ℝ 2 (unc α) (T, ρ))
    (hcv : 0 < deriv (fun t => energy α R t ρ) T) (hp : 0 < deriv (pressure α R T) ρ) {fa fb : ℝ → ℝ → ℝ} (ha : stateFunction a α R = some fa)
    (hb : stateFunction b α R = some fb) : stateDet fa fb T ρ ≠ 0 := by
  have P := partials hT.ne' hα
  have uT := (energy_dT R hT.ne' P).deriv
  have ur : deriv (energy α R T) ρ = _ := (energy_drho R hT.ne' P).deriv
  have pT := (pressure_dT R hT.ne' P).deriv
  have pr : deriv (pressure α R T) ρ = _ := (pressure_drho R P).deriv
  have sT := (entropy_dT R hT.ne' P).deriv
  have sr : deriv (entropy α R T) ρ = _ := (entropy_drho R hT.ne' P).deriv
  have hT' := (enthalpy_dT R hT.ne' P).deriv
  have hr : deriv (enthalpy α R T) ρ = _ := (enthalpy_drho R hT.ne' hρ.ne' P).deriv
  have tT : deriv (fun t : ℝ => t) T = 1 := deriv_id T
  rw [uT] at hcv
  rw [pr] at hp
  obtain ⟨A, hA⟩ : ∃ A, A = -(R * P.ftt) := ⟨_, rfl⟩
  have hApos : 0 < A := by
    have e : -(R * (1 / T) ^ 2 * P.ftt) * T ^ 2 = A := by rw [hA]; field_simp
    rw [← e]
    positivity
  obtain ⟨B, hB⟩ : ∃ B, B = R * (2 * P.fr + ρ * P.frr) := ⟨_, rfl⟩
  have hBpos : 0 < B := by
    have e : 2 * ρ * (P.fr * R * T) + ρ ^ 2 * (P.frr * R * T) = ρ * T * B := by rw [hB]; ring
    rw [e] at hp
    exact (mul_pos_iff_of_pos_left (by positivity)).1 hp
  obtain ⟨Q, hQ⟩ : ∃ Q, Q = R * (P.fr - P.ftr / T) := ⟨_, rfl⟩
  have detPS : stateDet (pressure α R) (entropy α R) T ρ = -(ρ ^ 2 * Q ^ 2 + ρ * B * A / T ^ 2) := by
    rw [stateDet, pT, sr, show deriv (pressure α R T) ρ = _ from pr, sT, hQ, hB, hA]
    field_simp
    ring
  have hPS : stateDet (pressure α R) (entropy α R) T ρ < 0 := by
    rw [detPS]
    have : 0 < ρ * B * A / T ^ 2 := by positivity
    nlinarith [sq_nonneg (ρ * Q)]
  have detPH : stateDet (pressure α R) (enthalpy α R) T ρ = T * stateDet (pressure α R) (entropy α R) T ρ := by
    rw [detPS, stateDet, pT, hr, show deriv (pressure α R T) ρ = _ from pr, hT', hQ, hB, hA]
    field_simp
    ring
  have detSH : stateDet (entropy α R) (enthalpy α R) T ρ = -stateDet (pressure α R) (entropy α R) T ρ / ρ := by
    rw [detPS, stateDet, sT, hr, sr, hT', hQ, hB, hA]
    field_simp
    ring
  have detTP : stateDet (fun T _ => T) (pressure α R) T ρ = ρ * T * B := by
    rw [stateDet, show deriv (pressure α R T) ρ = _ from pr]
    simp only [deriv_const, zero_mul, sub_zero, tT]
    rw [hB]
    ring
  have dD : deriv (fun r : ℝ => r) ρ = 1 := deriv_id ρ
  have detDS : stateDet (fun _ ρ => ρ) (entropy α R) T ρ = -(A / T ^ 3) := by
    rw [stateDet, sT]
    simp only [deriv_const, zero_mul, zero_sub, dD, one_mul]
    rw [hA]
    field_simp
  have detDU : stateDet (fun _ ρ => ρ) (energy α R) T ρ = -(A / T ^ 2) := by
    rw [stateDet, uT]
    simp only [deriv_const, zero_mul, zero_sub, dD, one_mul]
    rw [hA]
    field_simp
  have n1 : stateDet (pressure α R) (enthalpy α R) T ρ ≠ 0 := by
    rw [detPH]; exact mul_ne_zero hT.ne' hPS.ne
  have n2 : stateDet (entropy α R) (enthalpy α R) T ρ ≠ 0 := by
    rw [detSH]; exact div_ne_zero (neg_ne_zero.2 hPS.ne) hρ.ne'
  have n3 : stateDet (fun T _ => T) (pressure α R) T ρ ≠ 0 := by
    rw [detTP]; positivity
  have n4 : stateDet (fun _ ρ => ρ) (entropy α R) T ρ ≠ 0 := by
    rw [detDS]; exact neg_ne_zero.2 (by positivity)
  have n5 : stateDet (fun _ ρ => ρ) (energy α R) T ρ ≠ 0 := by
    rw [detDU]; exact neg_ne_zero.2 (by positivity)
  simp only [StablePair, List.mem_cons, Prod.mk.injEq, List.not_mem_nil, or_false] at hab
  rcases hab with ⟨rfl, rfl⟩ | ⟨rfl, rfl⟩ | ⟨rfl, rfl⟩ | ⟨rfl, rfl⟩ | ⟨rfl, rfl⟩ | ⟨rfl, rfl⟩ | ⟨rfl, rfl⟩ | ⟨rfl, rfl⟩ | ⟨rfl, rfl⟩ | ⟨rfl, rfl⟩ | ⟨rfl, rfl⟩ | ⟨rfl, rfl⟩ <;>
    simp [stateFunction] at ha hb <;> subst ha <;> subst hb <;> first
      | assumption
      | exact hPS.ne
      | (rw [stateDet_swap]; exact neg_ne_zero.2 (by first | assumption | exact hPS.ne))

/-- **C176** Near a stable state both versions of the iterator find the state from each of these pairs of properties. -/
theorem stable_iterator_converges {p : NRIter} {a b : Char} (hv : p.vars = [a, b]) (hab : StablePair a b) (hsol : SolvesPair p)
    {α : ℝ → ℝ → ℝ} {T ρ : ℝ} (hT : 0 < T) (hρ : 0 < ρ) (hA : ∀ T ρ, p.A T ρ = fun i j => Lambda α i j T ρ) (hα : ContDiffAt ℝ 2 (unc α) (T, ρ))
    (hcv : 0 < deriv (fun t => energy α p.R t ρ) T) (hp : 0 < deriv (pressure α p.R T) ρ) {fa fb : ℝ → ℝ → ℝ}
    (ha : stateFunction a α p.R = some fa) (hb : stateFunction b α p.R = some fb) (hs : ∀ i, relScale p i ≠ 0)
    (h0 : fa T ρ = p.vals 0) (h1 : fb T ρ = p.vals 1) (log : Bool) :
    ∃ δ > 0, ∃ C > 0, ∀ thr > 0, ∃ k : ℕ, ∀ cs, PlainConds thr cs → ∀ N : ℤ, k ≤ N → ∀ (x : Fin 2 → ℝ) (n : ℕ) (msg : String), 0 < x 1 → stateGap log x T ρ < δ →
      ∃ y : Fin 2 → ℝ, ∃ m ≤ k, takeSteps { p with conds := cs } log N ⟨some x, n, msg⟩ = .ok (⟨some y, n + m, "MaxAbsErrorCondition"⟩, .success) ∧
        0 < y 1 ∧ stateGap log y T ρ ≤ C * thr := by
  refine iterator_converges hv ?_ hsol hT hρ hA hα ha hb hs h0 h1 (stable_pair_regular hab hT hρ hα hcv hp ha hb) log
  simp only [StablePair, List.mem_cons, Prod.mk.injEq, List.not_mem_nil, or_false] at hab
  rcases hab with ⟨rfl, rfl⟩ | ⟨rfl, rfl⟩ | ⟨rfl, rfl⟩ | ⟨rfl, rfl⟩ | ⟨rfl, rfl⟩ | ⟨rfl, rfl⟩ | ⟨rfl, rfl⟩ | ⟨rfl, rfl⟩ | ⟨rfl, rfl⟩ | ⟨rfl, rfl⟩ | ⟨rfl, rfl⟩ | ⟨rfl, rfl⟩ <;> decide

/-- A gas with `α = ln ρ − (3/2) ln T`. -/
noncomputable def monatomic : ℝ → ℝ → ℝ := fun T ρ => Real.log ρ - 3 / 2 * Real.log T

theorem monatomic_smooth {T ρ : ℝ} (hT : 0 < T) (hρ : 0 < ρ) : ContDiffAt ℝ 2 (unc monatomic) (T, ρ) := by
  have i1 : ContDiffAt ℝ 2 (fun p : ℝ × ℝ => p.1) (T, ρ) := contDiffAt_fst
  have i2 : ContDiffAt ℝ 2 (fun p : ℝ × ℝ => p.2) (T, ρ) := contDiffAt_snd
  exact (i2.log hρ.ne').sub (contDiffAt_const.mul (i1.log hT.ne'))

theorem monatomic_stable {R T ρ : ℝ} (hR : 0 < R) (hT : 0 < T) (hρ : 0 < ρ) :
    0 < deriv (fun t => energy monatomic R t ρ) T ∧ 0 < deriv (pressure monatomic R T) ρ := by
  have hs : ∀ t, 0 < t → ∀ r, entropy monatomic R t r = -(Real.log r * R - 3 / 2 * R * (Real.log t + 1)) := by
    intro t ht r
    rw [entropy]
    have hd : HasDerivAt (fun T' => helmholtz monatomic R T' r) (Real.log r * R - 3 / 2 * R * (Real.log t + 1)) t := by
      have h1 : HasDerivAt (fun T' : ℝ => (Real.log r - 3 / 2 * Real.log T') * R * T') _ t :=
        ((((Real.hasDerivAt_log ht.ne').const_mul (3 / 2)).const_sub (Real.log r)).mul_const R).mul (hasDerivAt_id t)
      refine h1.congr_deriv ?_
      field_simp
      ring
    rw [hd.deriv]
  have hu : (fun t => energy monatomic R t ρ) =ᶠ[𝓝 T] fun t => 3 / 2 * R * t := by
    filter_upwards [lt_mem_nhds hT] with t ht
    rw [energy, hs t ht, helmholtz, monatomic]
    ring
  have hpp : pressure monatomic R T =ᶠ[𝓝 ρ] fun r => R * T * r := by
    filter_upwards [lt_mem_nhds hρ] with r hr
    rw [pressure]
    have hd : HasDerivAt (fun r' => helmholtz monatomic R T r') (r⁻¹ * R * T) r :=
      ((((Real.hasDerivAt_log hr.ne').sub_const _).mul_const R).mul_const T)
    rw [hd.deriv]
    field_simp
  rw [hu.deriv_eq, hpp.deriv_eq]
  have e1 : deriv (fun t : ℝ => 3 / 2 * R * t) T = 3 / 2 * R := by
    simpa only [id, mul_one] using ((hasDerivAt_id T).const_mul (3 / 2 * R)).deriv
  have e2 : deriv (fun r : ℝ => R * T * r) ρ = R * T := by
    simpa only [id, mul_one] using ((hasDerivAt_id ρ).const_mul (R * T)).deriv
  rw [e1, e2]
  constructor <;> positivity

/-- The hypotheses are met: the state of a gas at 300 K and 40 mol/m³ is found from its enthalpy and entropy. -/
example (cs : List StopCond) (hcs : PlainConds (1 / 10 ^ 8) cs) (log : Bool) :
    let p : NRIter := ⟨['H', 'S'], ![enthalpy monatomic 8 300 40, entropy monatomic 8 300 40], (false, false), cs, fun T ρ i j => Lambda monatomic i j T ρ, 8, cramer2⟩
    ∃ δ > 0, ∃ k : ℕ, ∀ N : ℤ, k ≤ N → ∀ x : Fin 2 → ℝ, 0 < x 1 → stateGap log x 300 40 < δ → ∃ s, takeSteps p log N ⟨some x, 0, ""⟩ = .ok (s, .success) := by
  intro p
  obtain ⟨c1, c2⟩ := monatomic_stable (R := 8) (T := 300) (ρ := 40) (by norm_num) (by norm_num) (by norm_num)
  obtain ⟨δ, hδ, C, -, h⟩ := stable_iterator_converges (p := p) (a := 'H') (b := 'S') rfl (by simp [StablePair]) (cramer2_solves rfl) (α := monatomic) (T := 300) (ρ := 40)
    (by norm_num) (by norm_num) (fun _ _ => rfl) (monatomic_smooth (by norm_num) (by norm_num)) c1 c2 (fa := enthalpy monatomic 8) (fb := entropy monatomic 8)
    (by simp [stateFunction, p]) (by simp [stateFunction, p]) (by intro i; fin_cases i <;> simp [relScale, p]) rfl rfl log
  obtain ⟨k, hk⟩ := h (1 / 10 ^ 8) (by norm_num)
  refine ⟨δ, hδ, k, fun N hN x hx hg => ?_⟩
  obtain ⟨y, m, -, e, -⟩ := hk cs hcs N hN x 0 "" hx hg
  exact ⟨_, e⟩

example : PlainConds (1 / 10 ^ 8) [.nanXDX, .negativeX, .maxAbs (1 / 10 ^ 8)] := by
  refine ⟨by simp, fun c hc => ?_⟩
  simp at hc
  rcases hc with rfl | rfl | rfl <;> simp

end Teqp.Props
