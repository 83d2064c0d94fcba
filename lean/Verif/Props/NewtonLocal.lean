import Verif.Props.SatCurve
import Verif.Props.PureCritical
import Verif.Lemmas.NewtonLocal

/-! # C175: convergence of the pure-fluid solvers from good guesses -/

set_option autoImplicit false

namespace Teqp.Props
open Teqp Teqp.Model Teqp.Spec Teqp.Calc Teqp.PureVLE Teqp.Lemmas Filter Topology Set

/-- The contract of `colPivHouseholderQr().solve` used here: regular systems are solved. -/
def RegularSolve (solve : M2 → V2 → Option V2) : Prop :=
  ∀ J b, J.a00 * J.a11 - J.a01 * J.a10 ≠ 0 → ∃ v, solve J b = some v ∧ J.a00 * v.x + J.a01 * v.y = b.x ∧ J.a10 * v.x + J.a11 * v.y = b.y

/-- Cramer's rule. -/
noncomputable def cramerSolve (J : M2) (b : V2) : Option V2 :=
  if J.a00 * J.a11 - J.a01 * J.a10 = 0 then none
  else some ⟨(b.x * J.a11 - J.a01 * b.y) / (J.a00 * J.a11 - J.a01 * J.a10), (J.a00 * b.y - b.x * J.a10) / (J.a00 * J.a11 - J.a01 * J.a10)⟩

theorem cramerSolve_regular : RegularSolve cramerSolve := by
  intro J b h
  refine ⟨_, if_neg h, ?_, ?_⟩
  · simp only
    generalize hd : J.a00 * J.a11 - J.a01 * J.a10 = d at h
    field_simp
    rw [← hd]
    ring
  · simp only
    generalize hd : J.a00 * J.a11 - J.a01 * J.a10 = d at h
    field_simp
    rw [← hd]
    ring

/-- The larger of the two errors. -/
noncomputable def gap (r p : V2) : ℝ := max |r.x - p.x| |r.y - p.y|

/-- A system of equations with a regular zero at `p` and its exact Jacobian near it. -/
structure RegularZero (sys : V2 → Option (V2 × M2)) (F : ℝ × ℝ → ℝ × ℝ) (M : ℝ × ℝ → M2) (p : V2) : Prop where
  sys_eq : ∀ᶠ r in 𝓝 (p.x, p.y), sys ⟨r.1, r.2⟩ = some (⟨(F r).1, (F r).2⟩, M r)
  smooth : ContDiffAt ℝ 1 F (p.x, p.y)
  zero : F (p.x, p.y) = 0
  jac : ∀ᶠ r in 𝓝 (p.x, p.y), HasDerivAt (fun x => F (x, r.2)) ((M r).a00, (M r).a10) r.1 ∧ HasDerivAt (fun y => F (r.1, y)) ((M r).a01, (M r).a11) r.2
  det : (M (p.x, p.y)).a00 * (M (p.x, p.y)).a11 - (M (p.x, p.y)).a01 * (M (p.x, p.y)).a10 ≠ 0

variable {sys : V2 → Option (V2 × M2)} {F : ℝ × ℝ → ℝ × ℝ} {M : ℝ × ℝ → M2} {p : V2} {solve : M2 → V2 → Option V2}

theorem regular_step (H : RegularZero sys F M p) (hs : RegularSolve solve) {q : ℝ} (hq : 0 < q) :
    ∃ δ > 0, ∃ K > 0, ∀ r, gap r p < δ → ∃ r0 J v, sys r = some (r0, J) ∧ solve J ⟨-r0.x, -r0.y⟩ = some v ∧
      gap ⟨r.x + v.x, r.y + v.y⟩ p ≤ q * gap r p ∧ max |v.x| |v.y| ≤ K * max |r0.x| |r0.y| := by
  obtain ⟨K, hK, hev⟩ := newton_plane H.smooth H.zero H.jac H.det hq
  obtain ⟨δ, hδ, hb⟩ := Metric.eventually_nhds_iff.1 (hev.and H.sys_eq)
  refine ⟨δ, hδ, K, hK, fun r hr => ?_⟩
  have hr' : dist (r.x, r.y) (p.x, p.y) < δ := by
    rw [dist_eq_norm, Prod.norm_def]
    exact hr
  obtain ⟨⟨hd, hv⟩, hsys⟩ := hb hr'
  obtain ⟨v, e, e1, e2⟩ := hs (M (r.x, r.y)) ⟨-(F (r.x, r.y)).1, -(F (r.x, r.y)).2⟩ hd
  obtain ⟨g1, g2⟩ := hv (v.x, v.y) e1 e2
  rw [Prod.norm_def, Prod.norm_def] at g1 g2
  exact ⟨_, _, v, hsys, e, g1, g2⟩

/-- **Saturation loop.** From a guess near a regular zero the loop never fails; the error halves with every pass, down to a multiple of the tolerance. -/
theorem vleLoop_converges (H : RegularZero sys F M p) (hs : RegularSolve solve) :
    ∃ δ > 0, ∃ C > 0, ∀ eps > 0, ∀ (n : ℕ) (r : V2), gap r p < δ → ∃ s, vleLoop sys solve eps n r = .ok s ∧ gap s p ≤ max (C * eps) ((1 / 2) ^ n * gap r p) := by
  obtain ⟨δ, hδ, K, hK, hst⟩ := regular_step H hs (q := 1 / 2) (by norm_num)
  refine ⟨δ, hδ, 2 + 2 * K, by positivity, fun eps he n => ?_⟩
  induction n with
  | zero => exact fun r _ => ⟨r, rfl, by rw [pow_zero, one_mul]; exact le_max_right _ _⟩
  | succ n ih =>
    intro r hr
    obtain ⟨r0, J, v, e1, e2, e3, e4⟩ := hst r hr
    have hg : 0 ≤ gap r p := (abs_nonneg _).trans (le_max_left _ _)
    have htri : gap r p ≤ 2 * max |v.x| |v.y| := by
      have t1 : |r.x - p.x| ≤ gap ⟨r.x + v.x, r.y + v.y⟩ p + max |v.x| |v.y| := by
        have : r.x - p.x = (r.x + v.x - p.x) - v.x := by ring
        rw [this]
        exact (abs_sub _ _).trans (add_le_add (le_max_left _ _) (le_max_left _ _))
      have t2 : |r.y - p.y| ≤ gap ⟨r.x + v.x, r.y + v.y⟩ p + max |v.x| |v.y| := by
        have : r.y - p.y = (r.y + v.y - p.y) - v.y := by ring
        rw [this]
        exact (abs_sub _ _).trans (add_le_add (le_max_right _ _) (le_max_right _ _))
      have : gap r p ≤ gap ⟨r.x + v.x, r.y + v.y⟩ p + max |v.x| |v.y| := max_le t1 t2
      linarith
    rw [vleLoop, e1]
    simp only [e2, add_sub_cancel_left]
    by_cases c1 : |v.x| < eps ∧ |v.y| < eps
    · rw [if_pos c1]
      refine ⟨r, rfl, le_max_of_le_left ?_⟩
      have := max_lt c1.1 c1.2
      nlinarith [mul_pos hK he]
    · rw [if_neg c1]
      by_cases c2 : |r0.x| < eps ∧ |r0.y| < eps
      · rw [if_pos c2]
        refine ⟨r, rfl, le_max_of_le_left ?_⟩
        have := mul_lt_mul_of_pos_left (max_lt c2.1 c2.2) hK
        nlinarith
      · rw [if_neg c2]
        obtain ⟨s, h1, h2⟩ := ih ⟨r.x + v.x, r.y + v.y⟩ (by linarith)
        refine ⟨s, h1, h2.trans (max_le_max le_rfl ?_)⟩
        rw [pow_succ, mul_assoc]
        exact mul_le_mul_of_nonneg_left e3 (by positivity)

/-- **Critical-point loop.** The loop makes all its steps; the error falls by any given factor with each. -/
theorem critLoop_converges (H : RegularZero sys F M p) (hs : RegularSolve solve) {q : ℝ} (hq : 0 < q) (hq1 : q ≤ 1) :
    ∃ δ > 0, ∀ (n : ℕ) (r : V2), gap r p < δ → ∃ s, critLoop sys solve n r = .ok s ∧ gap s p ≤ q ^ n * gap r p := by
  obtain ⟨δ, hδ, K, -, hst⟩ := regular_step H hs hq
  refine ⟨δ, hδ, fun n => ?_⟩
  induction n with
  | zero => exact fun r _ => ⟨r, rfl, by rw [pow_zero, one_mul]⟩
  | succ n ih =>
    intro r hr
    obtain ⟨r0, J, v, e1, e2, e3, -⟩ := hst r hr
    have hg : 0 ≤ gap r p := (abs_nonneg _).trans (le_max_left _ _)
    rw [critLoop, e1]
    simp only [e2]
    obtain ⟨s, h1, h2⟩ := ih ⟨r.x + v.x, r.y + v.y⟩ (e3.trans_lt ((mul_le_of_le_one_left hg hq1).trans_lt hr))
    refine ⟨s, h1, h2.trans ?_⟩
    rw [pow_succ, mul_assoc]
    exact mul_le_mul_of_nonneg_left e3 (by positivity)

/-! ## Saturation -/

theorem vle_regular {α : ℝ → ℝ → ℝ} {R T : ℝ} {p : V2} (hR : R ≠ 0) (hL : 0 < p.x) (hV : 0 < p.y) (dL : ContDiffAt ℝ 2 (α T) p.x) (dV : ContDiffAt ℝ 2 (α T) p.y)
    (h0 : vleResid α R T p = ⟨0, 0⟩) (hd : (vleJac α R T p).a00 * (vleJac α R T p).a11 - (vleJac α R T p).a01 * (vleJac α R T p).a10 ≠ 0) :
    RegularZero (vleSys α R T) (fun r => ((vleResid α R T ⟨r.1, r.2⟩).x, (vleResid α R T ⟨r.1, r.2⟩).y)) (fun r => vleJac α R T ⟨r.1, r.2⟩) p := by
  refine ⟨?_, ?_, ?_, ?_, hd⟩
  · have h1 : ∀ᶠ r : ℝ × ℝ in 𝓝 (p.x, p.y), 0 < r.1 := continuousAt_const.eventually_lt continuousAt_fst hL
    have h2 : ∀ᶠ r : ℝ × ℝ in 𝓝 (p.x, p.y), 0 < r.2 := continuousAt_const.eventually_lt continuousAt_snd hV
    filter_upwards [h1, h2] with r a b
    exact if_neg (by simp only [not_or, not_le]; exact ⟨hR, a, b⟩)
  · have key (ρ : ℝ) (hρ : 0 < ρ) (d : ContDiffAt ℝ 2 (α T) ρ) : ContDiffAt ℝ 1 (fun r => (vlePhase α R T r).1.1) ρ ∧ ContDiffAt ℝ 1 (fun r => (vlePhase α R T r).2.1) ρ := by
      simp only [phase_eq hR]
      have d1 : ContDiffAt ℝ 1 (drn α 1 T) ρ := contDiff_drn_iso (n := 1) (j := 1) d
      have d0 : ContDiffAt ℝ 1 (α T) ρ := d.of_le (by norm_num)
      have i : ContDiffAt ℝ 1 (fun r : ℝ => r) ρ := contDiffAt_id
      exact ⟨i.add ((i.pow 2).mul d1), ((i.mul d1).add d0).add (i.log hρ.ne')⟩
    obtain ⟨a1, a2⟩ := key _ hL dL
    obtain ⟨b1, b2⟩ := key _ hV dV
    have c1 : ContDiffAt ℝ 1 (fun r : ℝ × ℝ => r.1) (p.x, p.y) := contDiffAt_fst
    have c2 : ContDiffAt ℝ 1 (fun r : ℝ × ℝ => r.2) (p.x, p.y) := contDiffAt_snd
    exact ((ContDiffAt.comp (p.x, p.y) a1 c1).sub (ContDiffAt.comp (p.x, p.y) b1 c2)).prodMk ((ContDiffAt.comp (p.x, p.y) a2 c1).sub (ContDiffAt.comp (p.x, p.y) b2 c2))
  · show ((vleResid α R T p).x, (vleResid α R T p).y) = 0
    rw [h0]
    rfl
  · have h1 : ∀ᶠ r : ℝ × ℝ in 𝓝 (p.x, p.y), ContDiffAt ℝ 2 (α T) r.1 ∧ r.1 ≠ 0 :=
      (continuousAt_fst (p := (p.x, p.y))).eventually ((eventually_iso (n := 2) dL).and (isOpen_ne.mem_nhds hL.ne'))
    have h2 : ∀ᶠ r : ℝ × ℝ in 𝓝 (p.x, p.y), ContDiffAt ℝ 2 (α T) r.2 ∧ r.2 ≠ 0 :=
      (continuousAt_snd (p := (p.x, p.y))).eventually ((eventually_iso (n := 2) dV).and (isOpen_ne.mem_nhds hV.ne'))
    filter_upwards [h1, h2] with r a b
    obtain ⟨e1, e2, e3, e4⟩ := vle_jacobian_exact α R T r.1 r.2 hR a.2 b.2 a.1 b.1
    exact ⟨e1.prodMk e3, e2.prodMk e4⟩

/-- **`pure_VLE_T` converges from guesses near a regular saturation state**, for any fluid that is smooth there. -/
theorem pure_vle_converges {α : ℝ → ℝ → ℝ} {R T : ℝ} {p : V2} (hs : RegularSolve solve) (hR : R ≠ 0) (hL : 0 < p.x) (hV : 0 < p.y)
    (dL : ContDiffAt ℝ 2 (α T) p.x) (dV : ContDiffAt ℝ 2 (α T) p.y) (h0 : vleResid α R T p = ⟨0, 0⟩)
    (hd : (vleJac α R T p).a00 * (vleJac α R T p).a11 - (vleJac α R T p).a01 * (vleJac α R T p).a10 ≠ 0) :
    ∃ δ > 0, ∃ C > 0, ∀ eps > 0, ∀ (n : ℕ) (r : V2), gap r p < δ → ∃ s, pureVLE α R solve eps T n r = .ok s ∧ gap s p ≤ max (C * eps) ((1 / 2) ^ n * gap r p) :=
  vleLoop_converges (vle_regular hR hL hV dL dV h0 hd) hs

/-- The same for any of the isotherms with a loop of C173, at its saturation state. -/
theorem loop_vle_converges {α : ℝ → ℝ → ℝ} {R T b : ℝ} (L : Loop α R T (1 / b)) (hs : RegularSolve solve) (hR : 0 < R) (hT : 0 < T) (hb : 0 < b) {p : ℝ × ℝ} (hp : SatZero α R T b p) :
    ∃ δ > 0, ∃ C > 0, ∀ eps > 0, ∀ (n : ℕ) (r : V2), gap r ⟨p.2, p.1⟩ < δ →
      ∃ s, pureVLE α R solve eps T n r = .ok s ∧ gap s ⟨p.2, p.1⟩ ≤ max (C * eps) ((1 / 2) ^ n * gap r ⟨p.2, p.1⟩) := by
  have hmem (ρ : ℝ) : ρ < 1 / b ↔ b * ρ < 1 := by rw [lt_div_iff₀ hb, mul_comm]
  have hl := (hmem _).2 hp.2.2.1
  have h2 := hp.1.trans hp.2.1
  exact pure_vle_converges (p := ⟨p.2, p.1⟩) hs hR.ne' h2 hp.1 (L.smooth _ ⟨h2, hl⟩) (L.smooth _ ⟨hp.1, hp.2.1.trans hl⟩) hp.2.2.2
    (loop_state L (fun _ => 0) hR hT hb hp).2.2.2.2.ne

variable {ι : Type} [Fintype ι] [DecidableEq ι]

/-- Soave-Redlich-Kwong: at every temperature below the critical one the solver finds the saturation state. -/
theorem srk_vle_converges (Tc pc ω : ι → ℝ) (k : ι → ι → ℝ) (R T : ℝ) (i : ι) (hs : RegularSolve solve) (hR : 0 < R) (hT : 0 < T) (hTc : 0 < Tc i) (hp : 0 < pc i) (hk : k i i = 0)
    (h0 : 0 ≤ mSRK (ω i)) (h : T < Tc i) :
    ∃ p, SatZero (fun T r => (canonicalSRK Tc pc ω k R).alphar T r (Pi.single i 1)) R T (OmegaB_SRK * R * Tc i / pc i) p ∧
      ∃ δ > 0, ∃ C > 0, ∀ eps > 0, ∀ (n : ℕ) (r : V2), gap r ⟨p.2, p.1⟩ < δ →
        ∃ s, pureVLE (fun T r => (canonicalSRK Tc pc ω k R).alphar T r (Pi.single i 1)) R solve eps T n r = .ok s ∧ gap s ⟨p.2, p.1⟩ ≤ max (C * eps) ((1 / 2) ^ n * gap r ⟨p.2, p.1⟩) := by
  obtain ⟨hb, L, -, -⟩ := srk_pure_loop Tc pc ω k R T i hR hT hTc hp hk
  obtain ⟨q, hq, -⟩ := srk_pure_saturation Tc pc ω k R T i hR hT hTc hp hk (by linarith) h
  exact ⟨q, hq, loop_vle_converges L hs hR hT hb hq⟩

/-- Peng-Robinson. -/
theorem pr_vle_converges (Tc pc ω : ι → ℝ) (k : ι → ι → ℝ) (R T : ℝ) (i : ι) (hs : RegularSolve solve) (hR : 0 < R) (hT : 0 < T) (hTc : 0 < Tc i) (hp : 0 < pc i) (hk : k i i = 0)
    (h0 : 0 ≤ mPR (ω i)) (h : (1 + 1e-18) * T < Tc i) :
    ∃ p, SatZero (fun T r => (prModel Tc pc ω k R).alphar T r (Pi.single i 1)) R T (OmegaB_PR * R * Tc i / pc i) p ∧
      ∃ δ > 0, ∃ C > 0, ∀ eps > 0, ∀ (n : ℕ) (r : V2), gap r ⟨p.2, p.1⟩ < δ →
        ∃ s, pureVLE (fun T r => (prModel Tc pc ω k R).alphar T r (Pi.single i 1)) R solve eps T n r = .ok s ∧ gap s ⟨p.2, p.1⟩ ≤ max (C * eps) ((1 / 2) ^ n * gap r ⟨p.2, p.1⟩) := by
  obtain ⟨hb, L⟩ := pr_pure_loop Tc pc ω k R T i hR hT hTc hp
  obtain ⟨q, hq, -⟩ := pr_pure_saturation Tc pc ω k R T i hR hT hTc hp hk h0 h
  exact ⟨q, hq, loop_vle_converges L hs hR hT hb hq⟩

example : ∃ p, SatZero (fun T r => (canonicalSRK (ι := Fin 2) ![190.5, 305.3] ![4.6e6, 4.87e6] ![0.011, 0.099] (fun _ _ => 0) 8.314).alphar T r (Pi.single 1 1)) 8.314 250
      (OmegaB_SRK * 8.314 * 305.3 / 4.87e6) p ∧
    ∃ δ > 0, ∃ C > 0, ∀ eps > 0, ∀ (n : ℕ) (r : V2), gap r ⟨p.2, p.1⟩ < δ →
      ∃ s, pureVLE (fun T r => (canonicalSRK (ι := Fin 2) ![190.5, 305.3] ![4.6e6, 4.87e6] ![0.011, 0.099] (fun _ _ => 0) 8.314).alphar T r (Pi.single 1 1)) 8.314 cramerSolve eps 250 n r = .ok s ∧
        gap s ⟨p.2, p.1⟩ ≤ max (C * eps) ((1 / 2) ^ n * gap r ⟨p.2, p.1⟩) :=
  srk_vle_converges (ι := Fin 2) ![190.5, 305.3] ![4.6e6, 4.87e6] ![0.011, 0.099] (fun _ _ => 0) 8.314 250 1 cramerSolve_regular (by norm_num) (by norm_num) (by norm_num) (by norm_num) rfl
    (by norm_num [mSRK]) (by norm_num)

/-! ## Critical points -/

theorem crit_regular {α : ℝ → ℝ → ℝ} {R : ℝ} {p : V2} (hT : p.x ≠ 0) (hρ : p.y ≠ 0) (h : ContDiffAt ℝ 4 (unc α) (p.x, p.y)) (h0 : critResid α R p = ⟨0, 0⟩)
    (hd : (critJac α R p).a00 * (critJac α R p).a11 - (critJac α R p).a01 * (critJac α R p).a10 ≠ 0) :
    RegularZero (pureCritSys α R) (fun r => ((critResid α R ⟨r.1, r.2⟩).x, (critResid α R ⟨r.1, r.2⟩).y)) (fun r => critJac α R ⟨r.1, r.2⟩) p := by
  have n1 : ∀ᶠ r : ℝ × ℝ in 𝓝 (p.x, p.y), r.1 ≠ 0 := continuousAt_fst.eventually_ne hT
  have n2 : ∀ᶠ r : ℝ × ℝ in 𝓝 (p.x, p.y), r.2 ≠ 0 := continuousAt_snd.eventually_ne hρ
  refine ⟨?_, ?_, ?_, ?_, hd⟩
  · filter_upwards [n1, n2] with r a b
    exact if_neg (by simp only [not_or]; exact ⟨a, b⟩)
  · simp only [critResid, Ar0]
    have d1 : ContDiffAt ℝ 1 (fun r : ℝ × ℝ => drn α 1 r.1 r.2) (p.x, p.y) := contDiffAt_drn (n := 1) (j := 1) (h.of_le (by norm_num))
    have d2 : ContDiffAt ℝ 1 (fun r : ℝ × ℝ => drn α 2 r.1 r.2) (p.x, p.y) := contDiffAt_drn (n := 1) (j := 2) (h.of_le (by norm_num))
    have d3 : ContDiffAt ℝ 1 (fun r : ℝ × ℝ => drn α 3 r.1 r.2) (p.x, p.y) := contDiffAt_drn (n := 1) (j := 3) h
    have c1 : ContDiffAt ℝ 1 (fun r : ℝ × ℝ => r.1) (p.x, p.y) := contDiffAt_fst
    have c2 : ContDiffAt ℝ 1 (fun r : ℝ × ℝ => r.2) (p.x, p.y) := contDiffAt_snd
    have e1 := (c2.pow 1).mul d1
    have e2 := (c2.pow 2).mul d2
    have e3 := (c2.pow 3).mul d3
    exact ((contDiffAt_const.mul c1).mul ((contDiffAt_const.add (contDiffAt_const.mul e1)).add e2)).prodMk
      (((contDiffAt_const.mul c1).div c2 hρ).mul (((contDiffAt_const.mul e1).add (contDiffAt_const.mul e2)).add e3))
  · show ((critResid α R p).x, (critResid α R p).y) = 0
    rw [h0]
    rfl
  · have hs : ∀ᶠ r : ℝ × ℝ in 𝓝 (p.x, p.y), ContDiffAt ℝ 4 (unc α) r := h.eventually (by norm_num)
    filter_upwards [n1, n2, hs] with r a b c
    obtain ⟨e1, e2, e3, e4⟩ := crit_jacobian_exact α R r.1 r.2 a b c
    have hx : ∀ᶠ x in 𝓝 r.1, ContDiffAt ℝ 4 (unc α) (x, r.2) := eventually_left (n := 4) c
    have hy : ∀ᶠ y in 𝓝 r.2, ContDiffAt ℝ 4 (α r.1) y ∧ y ≠ 0 := (eventually_iso (n := 4) (iso_of_joint (n := 4) c)).and (isOpen_ne.mem_nhds b)
    have hx' : ∀ᶠ x in 𝓝 r.1, (critResid α R ⟨x, r.2⟩).x = deriv (totalPressure α R x) r.2 ∧ (critResid α R ⟨x, r.2⟩).y = deriv (deriv (totalPressure α R x)) r.2 := by
      filter_upwards [hx] with x hx
      obtain ⟨g1, g2⟩ := crit_residual_is_derivs α R x r.2 b ((iso_of_joint (n := 4) hx).of_le (by norm_num))
      exact ⟨g1.deriv.symm, g2.deriv.symm⟩
    have hy' : ∀ᶠ y in 𝓝 r.2, (critResid α R ⟨r.1, y⟩).x = deriv (totalPressure α R r.1) y ∧ (critResid α R ⟨r.1, y⟩).y = deriv (deriv (totalPressure α R r.1)) y := by
      filter_upwards [hy] with y hy
      obtain ⟨g1, g2⟩ := crit_residual_is_derivs α R r.1 y hy.2 (hy.1.of_le (by norm_num))
      exact ⟨g1.deriv.symm, g2.deriv.symm⟩
    exact ⟨(e1.congr_of_eventuallyEq (hx'.mono fun _ h => h.1)).prodMk (e3.congr_of_eventuallyEq (hx'.mono fun _ h => h.2)),
      (e2.congr_of_eventuallyEq (hy'.mono fun _ h => h.1)).prodMk (e4.congr_of_eventuallyEq (hy'.mono fun _ h => h.2))⟩

/-- **`solve_pure_critical` converges from guesses near a regular critical point**: the error falls by any given factor with every step.  `z` are the mole fractions
belonging to the flags. -/
theorem pure_critical_converges {fluid : List ℝ → (ℝ → ℝ → ℝ) × ℝ} {α : ℝ → ℝ → ℝ} {R : ℝ} {p : V2} {index length : Option ℤ} {z : List ℝ}
    (hz : ∃ f, critFlags index length = .ok f ∧ critMoleFracs f.1 f.2 = .ok z) (hf : fluid z = (α, R)) (hs : RegularSolve solve) (hT : p.x ≠ 0) (hρ : p.y ≠ 0)
    (h : ContDiffAt ℝ 4 (unc α) (p.x, p.y)) (h0 : critResid α R p = ⟨0, 0⟩)
    (hd : (critJac α R p).a00 * (critJac α R p).a11 - (critJac α R p).a01 * (critJac α R p).a10 ≠ 0) {q : ℝ} (hq : 0 < q) (hq1 : q ≤ 1) :
    ∃ δ > 0, ∀ (n : ℕ) (r : V2), gap r p < δ → ∃ s, solvePureCritical fluid solve n index length r = .ok s ∧ gap s p ≤ q ^ n * gap r p := by
  obtain ⟨δ, hδ, hc⟩ := critLoop_converges (crit_regular hT hρ h h0 hd) hs hq hq1
  obtain ⟨f, hf1, hf2⟩ := hz
  refine ⟨δ, hδ, fun n r hr => ?_⟩
  obtain ⟨s, h1, h2⟩ := hc n r hr
  refine ⟨s, ?_, h2⟩
  cases n with
  | zero =>
    simp only [critLoop] at h1
    simp [solvePureCritical, hf1, Outcome.bind, h1]
  | succ n =>
    have hn : ¬ ((n : ℤ) + 1 ≤ 0) := by omega
    have hn' : ((n : ℤ) + 1).toNat = n + 1 := by omega
    simp only [solvePureCritical, hf1, hf2, hf, Outcome.bind, Nat.cast_add, Nat.cast_one, if_neg hn, hn']
    exact h1

/-- Third derivative of the pressure with the attraction `a ρ² / (1 + D b ρ)`. -/
theorem cubicP2_slope {RT a b D ρ : ℝ} (h1 : 1 - b * ρ ≠ 0) (h2 : 1 + D * b * ρ ≠ 0) :
    HasDerivAt (cubicP2 RT a b D 0) (6 * RT * b ^ 2 / (1 - b * ρ) ^ 4 + 6 * a * (D * b) / (1 + D * b * ρ) ^ 4) ρ := by
  have e1 : HasDerivAt (fun r : ℝ => 1 - b * r) (-b) ρ := by simpa using ((hasDerivAt_id ρ).const_mul b).const_sub 1
  have e2 : HasDerivAt (fun r : ℝ => 1 + D * b * r) (D * b) ρ := by simpa using ((hasDerivAt_id ρ).const_mul (D * b)).const_add 1
  have e3 : HasDerivAt (fun r : ℝ => 2 * RT * b / (1 - b * r) ^ 3 - 2 * a / (1 + D * b * r) ^ 3) _ ρ :=
    ((hasDerivAt_const ρ (2 * RT * b)).div (e1.pow 3) (pow_ne_zero 3 h1)).sub ((hasDerivAt_const ρ (2 * a)).div (e2.pow 3) (pow_ne_zero 3 h2))
  have hev : cubicP2 RT a b D 0 =ᶠ[𝓝 ρ] fun r : ℝ => 2 * RT * b / (1 - b * r) ^ 3 - 2 * a / (1 + D * b * r) ^ 3 := by
    have hc : ContinuousAt (fun r : ℝ => 1 + D * b * r) ρ := by fun_prop
    filter_upwards [hc.eventually_ne h2] with r hr
    unfold cubicP2
    rw [show (1 + D * b * r + 0 * b ^ 2 * r ^ 2 : ℝ) = 1 + D * b * r by ring]
    congr 1
    field_simp
    ring
  refine (e3.congr_of_eventuallyEq hev).congr_deriv ?_
  simp only [Pi.pow_apply]
  generalize 1 + D * b * ρ = u at h2 ⊢
  generalize 1 - b * ρ = w at h1 ⊢
  field_simp
  ring

/-- Critical points of such equations are regular when the attraction does not grow with temperature. -/
theorem cubic_crit_regular {α : ℝ → ℝ → ℝ} {R b D T ρ pc : ℝ} {A : ℝ → ℝ} (hR : 0 < R) (hT : 0 < T) (hb : 0 < b) (hD : 0 ≤ D) (h0 : 0 < ρ) (h1 : b * ρ < 1)
    (hp : ∀ T' r, 0 < T' → 0 < r → b * r < 1 → totalPressure α R T' r = cubicP (R * T') (A T') b D 0 r) (hA : 0 ≤ A T) (dA : DifferentiableAt ℝ A T) (hA' : deriv A T ≤ 0)
    (h : ContDiffAt ℝ 4 (unc α) (T, ρ)) (hc : IsCriticalPoint (totalPressure α R T) ρ pc) :
    critResid α R ⟨T, ρ⟩ = ⟨0, 0⟩ ∧ 0 < (critJac α R ⟨T, ρ⟩).a00 * (critJac α R ⟨T, ρ⟩).a11 - (critJac α R ⟨T, ρ⟩).a01 * (critJac α R ⟨T, ρ⟩).a10 := by
  have u1 : 0 < 1 - b * ρ := by linarith
  have u2 : 0 < 1 + D * b * ρ := by positivity
  obtain ⟨e1, e2, -, e4⟩ := crit_jacobian_exact α R T ρ hT.ne' h0.ne' h
  have hin : ∀ᶠ r in 𝓝 ρ, 0 < r ∧ b * r < 1 := (lt_mem_nhds h0).and (ContinuousAt.eventually_lt (f := fun r => b * r) (by fun_prop) continuousAt_const h1)
  have nz (r : ℝ) (hr : 0 < r ∧ b * r < 1) : 1 - b * r ≠ 0 ∧ 1 + D * b * r + 0 * b ^ 2 * r ^ 2 ≠ 0 := by
    have := hr.1
    exact ⟨by linarith [hr.2], by positivity⟩
  have dP (T' : ℝ) (hT' : 0 < T') (r : ℝ) (hr : 0 < r ∧ b * r < 1) : deriv (totalPressure α R T') r = cubicP1 (R * T') (A T') b D 0 r := by
    have hev : totalPressure α R T' =ᶠ[𝓝 r] cubicP (R * T') (A T') b D 0 := by
      filter_upwards [(lt_mem_nhds hr.1).and (ContinuousAt.eventually_lt (f := fun r => b * r) (by fun_prop) continuousAt_const hr.2)] with s hs
      exact hp T' s hT' hs.1 hs.2
    rw [hev.deriv_eq]
    exact (hasDerivAt_cubicP (nz r hr).1 (nz r hr).2).deriv
  have dP2 (r : ℝ) (hr : 0 < r ∧ b * r < 1) : deriv (deriv (totalPressure α R T)) r = cubicP2 (R * T) (A T) b D 0 r := by
    have hev : deriv (totalPressure α R T) =ᶠ[𝓝 r] cubicP1 (R * T) (A T) b D 0 := by
      filter_upwards [(lt_mem_nhds hr.1).and (ContinuousAt.eventually_lt (f := fun r => b * r) (by fun_prop) continuousAt_const hr.2)] with s hs
      exact dP T hT s hs
    rw [hev.deriv_eq]
    exact (hasDerivAt_cubicP1 (nz r hr).1 (nz r hr).2).deriv
  have a01 : (critJac α R ⟨T, ρ⟩).a01 = 0 := e2.unique hc.2.2
  have a11 : (critJac α R ⟨T, ρ⟩).a11 = 6 * (R * T) * b ^ 2 / (1 - b * ρ) ^ 4 + 6 * A T * (D * b) / (1 + D * b * ρ) ^ 4 :=
    e4.unique ((cubicP2_slope u1.ne' u2.ne').congr_of_eventuallyEq (hin.mono fun r hr => dP2 r hr))
  have a00 : (critJac α R ⟨T, ρ⟩).a00 = R / (1 - b * ρ) ^ 2 - deriv A T * ((2 * ρ + D * b * ρ ^ 2) / (1 + D * b * ρ) ^ 2) := by
    have hd : HasDerivAt (fun T' => T' * (R / (1 - b * ρ) ^ 2) - A T' * ((2 * ρ + D * b * ρ ^ 2) / (1 + D * b * ρ) ^ 2))
        (1 * (R / (1 - b * ρ) ^ 2) - deriv A T * ((2 * ρ + D * b * ρ ^ 2) / (1 + D * b * ρ) ^ 2)) T := ((hasDerivAt_id T).mul_const _).sub (dA.hasDerivAt.mul_const _)
    have hev : (fun T' => deriv (totalPressure α R T') ρ) =ᶠ[𝓝 T] fun T' => T' * (R / (1 - b * ρ) ^ 2) - A T' * ((2 * ρ + D * b * ρ ^ 2) / (1 + D * b * ρ) ^ 2) := by
      filter_upwards [lt_mem_nhds hT] with T' hT'
      rw [dP T' hT' ρ ⟨h0, h1⟩]
      unfold cubicP1
      rw [show (1 + D * b * ρ + 0 * b ^ 2 * ρ ^ 2 : ℝ) = 1 + D * b * ρ by ring]
      ring
    rw [e1.unique (hd.congr_of_eventuallyEq hev), one_mul]
  refine ⟨?_, ?_⟩
  · refine (crit_residual_zero_iff α R T ρ h0.ne' ((iso_of_joint (n := 4) h).of_le (by norm_num))).2 ⟨rfl, hc.2⟩
  · rw [a01, zero_mul, sub_zero, a00, a11]
    have : deriv A T * ((2 * ρ + D * b * ρ ^ 2) / (1 + D * b * ρ) ^ 2) ≤ 0 := mul_nonpos_of_nonpos_of_nonneg hA' (by positivity)
    have g1 : 0 < R / (1 - b * ρ) ^ 2 := by positivity
    have g2 : 0 < 6 * (R * T) * b ^ 2 / (1 - b * ρ) ^ 4 := by positivity
    have g3 : 0 ≤ 6 * A T * (D * b) / (1 + D * b * ρ) ^ 4 := by positivity
    exact mul_pos (by linarith) (by linarith)

/-- van der Waals: the solver finds the critical temperature given to the constructor. -/
theorem vdw_critical_converges (Tc pc : ι → ℝ) (i : ι) (hTc : 0 < Tc i) (hp : 0 < pc i) (hs : RegularSolve solve) {fluid : List ℝ → (ℝ → ℝ → ℝ) × ℝ} {index length : Option ℤ} {z : List ℝ}
    (hz : ∃ f, critFlags index length = .ok f ∧ critMoleFracs f.1 f.2 = .ok z) (hf : fluid z = (fun T r => (VdWMix.ofCritical Tc pc).alphar T r (Pi.single i 1), RuvdW))
    {q : ℝ} (hq : 0 < q) (hq1 : q ≤ 1) :
    ∃ δ > 0, ∀ (n : ℕ) (r : V2), gap r ⟨Tc i, 1 / (3 * (VdWMix.ofCritical Tc pc).bi i)⟩ < δ →
      ∃ s, solvePureCritical fluid solve n index length r = .ok s ∧ gap s ⟨Tc i, 1 / (3 * (VdWMix.ofCritical Tc pc).bi i)⟩ ≤ q ^ n * gap r ⟨Tc i, 1 / (3 * (VdWMix.ofCritical Tc pc).bi i)⟩ := by
  have hR := RuvdW_pos
  have hb : (VdWMix.ofCritical Tc pc).bi i = 1 / 8 * RuvdW * Tc i / pc i := rfl
  have hbp : 0 < (VdWMix.ofCritical Tc pc).bi i := by rw [hb]; positivity
  have hb1 : (VdWMix.ofCritical Tc pc).bi i * (1 / (3 * (VdWMix.ofCritical Tc pc).bi i)) < 1 := by
    have : (VdWMix.ofCritical Tc pc).bi i * (1 / (3 * (VdWMix.ofCritical Tc pc).bi i)) = 1 / 3 := by field_simp
    rw [this]; norm_num
  have hA : (VdWMix.ofCritical Tc pc).a (Pi.single i 1) = 27 / 64 * (RuvdW * Tc i) ^ 2 / pc i := by
    rw [vdWMix_a_single, Real.sqrt_mul_self]
    · simp [VdWMix.ofCritical]
    · simp only [VdWMix.ofCritical]; positivity
  have H : Attract (fun T r => (VdWMix.ofCritical Tc pc).alphar T r (Pi.single i 1)) RuvdW ((VdWMix.ofCritical Tc pc).bi i)
      (fun _ => (VdWMix.ofCritical Tc pc).a (Pi.single i 1)) (fun ρ => ρ) :=
    ⟨fun T ρ _ => by unfold VdWMix.alphar; rw [vdWMix_b_single], fun _ _ _ => contDiffAt_id, fun _ _ _ h _ => h.le, fun _ _ => contDiffAt_const⟩
  have sm := H.joint hR hTc (show 0 < 1 / (3 * (VdWMix.ofCritical Tc pc).bi i) by positivity) hb1
  obtain ⟨e, d⟩ := cubic_crit_regular (D := 0) hR hTc hbp le_rfl (show 0 < 1 / (3 * (VdWMix.ofCritical Tc pc).bi i) by positivity) hb1
    (A := fun _ => (VdWMix.ofCritical Tc pc).a (Pi.single i 1)) (fun T' r hT' h0 h1 => by
      have := totalPressure_vdW (RR := RuvdW) (a := (VdWMix.ofCritical Tc pc).a (Pi.single i 1)) (b := (VdWMix.ofCritical Tc pc).bi i) (ρ := r) hR.ne' hT'.ne' (sub_ne_zero.mpr h1.ne')
      simp only [VdWMix.alphar, vdWMix_b_single]
      exact this) (by simp only [hA]; positivity) (differentiableAt_const _) (by simp) sm (vdWMix_critical Tc pc i hTc hp)
  exact pure_critical_converges (p := ⟨Tc i, 1 / (3 * (VdWMix.ofCritical Tc pc).bi i)⟩) hz hf hs hTc.ne' (by positivity) sm e d.ne' hq hq1

/-- Soave-Redlich-Kwong. -/
theorem srk_critical_converges (Tc pc ω : ι → ℝ) (k : ι → ι → ℝ) (R : ℝ) (i : ι) (hR : 0 < R) (hTc : 0 < Tc i) (hp : 0 < pc i) (hk : k i i = 0) (h0 : 0 ≤ mSRK (ω i)) (hs : RegularSolve solve)
    {fluid : List ℝ → (ℝ → ℝ → ℝ) × ℝ} {index length : Option ℤ} {z : List ℝ} (hz : ∃ f, critFlags index length = .ok f ∧ critMoleFracs f.1 f.2 = .ok z)
    (hf : fluid z = (fun T r => (canonicalSRK Tc pc ω k R).alphar T r (Pi.single i 1), R)) {q : ℝ} (hq : 0 < q) (hq1 : q ≤ 1) :
    ∃ δ > 0, ∀ (n : ℕ) (r : V2), gap r ⟨Tc i, 3 * pc i / (R * Tc i)⟩ < δ →
      ∃ s, solvePureCritical fluid solve n index length r = .ok s ∧ gap s ⟨Tc i, 3 * pc i / (R * Tc i)⟩ ≤ q ^ n * gap r ⟨Tc i, 3 * pc i / (R * Tc i)⟩ := by
  obtain ⟨hu0, hu1, -⟩ := srkU_facts
  have hA : OmegaA_SRK = 1 / (9 * srkU) := rfl
  have hAp : 0 ≤ OmegaA_SRK * (R * Tc i) ^ 2 / pc i := by rw [hA]; positivity
  have hb : (canonicalSRK Tc pc ω k R).get_b (Pi.single i 1) = OmegaB_SRK * R * Tc i / pc i := cubic_b_single _ i
  have ha (T : ℝ) (hT : 0 < T) : (canonicalSRK Tc pc ω k R).get_a T (Pi.single i 1) = OmegaA_SRK * (R * Tc i) ^ 2 / pc i * (AlphaFn.basic (Tc i) (mSRK (ω i))).eval T :=
    cubic_pure_a Tc pc 1 0 OmegaA_SRK OmegaB_SRK R (fun i => .basic (Tc i) (mSRK (ω i))) k i T (by rw [hA]; positivity) hp hT.le hTc.le hk
  have hbp : 0 < OmegaB_SRK * R * Tc i / pc i := (srk_pure_loop Tc pc ω k R 1 i hR one_pos hTc hp hk).1
  have H := cubic_attract (canonicalSRK Tc pc ω k R) (Pi.single i 1) (fun T => OmegaA_SRK * (R * Tc i) ^ 2 / pc i * (AlphaFn.basic (Tc i) (mSRK (ω i))).eval T)
    (by rw [hb]; exact hbp) (by norm_num [canonicalSRK, Cubic.build]) (by norm_num [canonicalSRK, Cubic.build]) (by norm_num [canonicalSRK, Cubic.build]) ha
    (fun T hT => contDiffAt_const.mul (soave_slope hTc hT).1)
  rw [hb] at H
  have hr0 : 0 < 3 * pc i / (R * Tc i) := by positivity
  have hb1 : OmegaB_SRK * R * Tc i / pc i * (3 * pc i / (R * Tc i)) < 1 := by
    have : OmegaB_SRK * R * Tc i / pc i * (3 * pc i / (R * Tc i)) = 3 * OmegaB_SRK := by field_simp
    have hB : OmegaB_SRK = srkU / 3 := rfl
    rw [this, hB]
    linarith
  have sm := H.joint hR hTc hr0 hb1
  obtain ⟨e, d⟩ := cubic_crit_regular (D := 1) hR hTc hbp zero_le_one hr0 hb1 (A := fun T => OmegaA_SRK * (R * Tc i) ^ 2 / pc i * (AlphaFn.basic (Tc i) (mSRK (ω i))).eval T)
    (fun T' r hT' g0 g1 => by
      have := totalPressure_cubicAlphar (D1 := 1) (D2 := 0) (a := OmegaA_SRK * (R * Tc i) ^ 2 / pc i * (AlphaFn.basic (Tc i) (mSRK (ω i))).eval T') hR.ne' hT'.ne' hbp.ne'
        (by norm_num) (sub_ne_zero.mpr g1.ne') (by positivity) (by norm_num)
      rw [add_zero, mul_zero] at this
      rw [← this]
      simp only [totalPressure, pressure, helmholtz]
      congr 3
      funext r
      show cubicAlphar R ((canonicalSRK Tc pc ω k R).get_a T' (Pi.single i 1)) ((canonicalSRK Tc pc ω k R).get_b (Pi.single i 1)) 1 0 T' r * R * T' = _
      rw [ha T' hT', hb])
    (mul_nonneg hAp (alpha_nonneg _ _ hTc.le hTc.le)) (((contDiffAt_const.mul (soave_slope hTc hTc).1).differentiableAt (by norm_num)))
    (by rw [deriv_const_mul_field]; exact mul_nonpos_of_nonneg_of_nonpos hAp ((soave_slope hTc hTc).2 h0 le_rfl)) sm (SRK_critical Tc pc ω k R i hR hTc hp hk)
  exact pure_critical_converges (p := ⟨Tc i, 3 * pc i / (R * Tc i)⟩) hz hf hs hTc.ne' hr0.ne' sm e d.ne' hq hq1

/-- The first component of a van der Waals model, asked for by its index in a mixture of two. -/
example : ∃ δ > 0, ∀ (n : ℕ) (r : V2), gap r ⟨150, 1 / (3 * (VdWMix.ofCritical (ι := Fin 2) ![150, 300] ![4e6, 5e6]).bi 0)⟩ < δ →
    ∃ s, solvePureCritical (fun z => (fun T r => (VdWMix.ofCritical (ι := Fin 2) ![150, 300] ![4e6, 5e6]).alphar T r fun j => z.getD j 0, RuvdW)) cramerSolve n (some 0) (some 2) r = .ok s ∧
      gap s ⟨150, 1 / (3 * (VdWMix.ofCritical (ι := Fin 2) ![150, 300] ![4e6, 5e6]).bi 0)⟩
        ≤ (1 / 100) ^ n * gap r ⟨150, 1 / (3 * (VdWMix.ofCritical (ι := Fin 2) ![150, 300] ![4e6, 5e6]).bi 0)⟩ := by
  refine vdw_critical_converges (ι := Fin 2) ![150, 300] ![4e6, 5e6] 0 (by norm_num) (by norm_num) cramerSolve_regular (z := [1, 0]) ⟨(some 0, some 2), ?_, ?_⟩ ?_ (by norm_num) (by norm_num)
  · simp [critFlags, critFlag, Outcome.bind]
  · simp [critMoleFracs, List.range_succ]
  · have : (fun j : Fin 2 => ([1, 0] : List ℝ).getD j 0) = Pi.single 0 1 := by
      funext j
      fin_cases j <;> simp
    simp only [this]

example : ∃ δ > 0, ∀ (n : ℕ) (r : V2), gap r ⟨305.3, 3 * 4.87e6 / (8.314 * 305.3)⟩ < δ →
    ∃ s, solvePureCritical (fun _ => (fun T r => (canonicalSRK (ι := Fin 1) ![305.3] ![4.87e6] ![0.099] (fun _ _ => 0) 8.314).alphar T r (Pi.single 0 1), 8.314)) cramerSolve n none none r = .ok s ∧
      gap s ⟨305.3, 3 * 4.87e6 / (8.314 * 305.3)⟩ ≤ (1 / 2) ^ n * gap r ⟨305.3, 3 * 4.87e6 / (8.314 * 305.3)⟩ :=
  srk_critical_converges (ι := Fin 1) ![305.3] ![4.87e6] ![0.099] (fun _ _ => 0) 8.314 0 (by norm_num) (by norm_num) (by norm_num) rfl (by norm_num [mSRK]) cramerSolve_regular (z := [1])
    ⟨(none, none), rfl, rfl⟩ rfl (by norm_num) (by norm_num)

end Teqp.Props
