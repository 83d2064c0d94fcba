import Verif.Model.AdvPR
import Verif.Props.Cubic
import Verif.Props.Activity
import Verif.Props.AssocSites
import Verif.Spec.PureVLE
import Mathlib.Data.List.GetD
import Mathlib.Analysis.Calculus.Deriv.Comp
import Mathlib.Tactic

/-! # Peng-Robinson with excess-energy mixing rules, generalised cubics from documents, saturated densities of cubics -/

set_option autoImplicit false

namespace Teqp.Spec

/-- The covolume of Jaubert and co-workers: powers `1/s` are averaged. -/
noncomputable def powerMeanB (N : ℕ) (s : ℝ) (l : ℕ → ℕ → ℝ) (b x : ℕ → ℝ) : ℝ :=
  ∑ i ∈ Finset.range N, ∑ j ∈ Finset.range N, x i * x j * ((1 - l i j) * ((b i ^ (1 / s) + b j ^ (1 / s)) / 2) ^ s)

/-- The attractive part of the residual Helmholtz energy of a Peng-Robinson fluid at close packing, `bρ = 1`. -/
noncomputable def packedAttraction (R a b T : ℝ) : ℝ :=
  -(a / (R * T)) * (Real.log (((1 + Real.sqrt 2) * 1 + 1) / ((1 - Real.sqrt 2) * 1 + 1)) / (b * (2 * Real.sqrt 2)))

end Teqp.Spec

namespace Teqp.Props
open Teqp.Model Teqp.Spec Finset

/-- A model for `N` components with positive covolumes. -/
structure AdvFits (m : AdvPR) (N : ℕ) : Prop where
  ai : m.ai.length = N
  bi : m.bi.length = N
  al : m.alphas.length = N
  rows : N ≤ m.lmat.rows
  cols : N ≤ m.lmat.cols
  pos : ∀ i < N, 0 < el m.bi i
  s : m.o.s ≠ 0
  C : m.o.CEoS ≠ 0

/-- Both mixing rules for the covolume. -/
theorem adv_b (m : AdvPR) (x : List ℝ) (h : AdvFits m x.length) :
    (m.o.brule = .quadratic → m.getB x = .ok (powerMeanB x.length m.o.s m.lmat.get (el m.bi) (el x))) ∧
    (m.o.brule = .linear → m.getB x = .ok (∑ i ∈ range x.length, el x i * el m.bi i)) ∧
    (m.o.brule = .notSpecified → m.getB x = .throws .invalidArgument) := by
  refine ⟨fun hb => ?_, fun hb => ?_, fun hb => ?_⟩
  · unfold AdvPR.getB
    rw [hb]
    simp only
    rw [if_neg (by rintro (h1 | h1 | h1); exacts [absurd h.bi (by omega), absurd h.rows (by omega), absurd h.cols (by omega)]),
      if_neg (by rintro (⟨-, h1⟩ | ⟨i, hi, h1⟩); exacts [h.s h1, absurd (h.pos i hi) (not_lt.2 h1.le)])]
    rfl
  · unfold AdvPR.getB
    rw [hb]
    simp only
    rw [if_neg (by rw [h.bi]; exact lt_irrefl _)]
  · unfold AdvPR.getB
    rw [hb]

/-- With the exponent one and no interaction the quadratic rule is the linear one. -/
theorem adv_b_linear (N : ℕ) (b x : ℕ → ℝ) (hx : ∑ i ∈ range N, x i = 1) :
    powerMeanB N 1 (fun _ _ => 0) b x = ∑ i ∈ range N, x i * b i := by
  unfold powerMeanB
  have e : ∀ i j, x i * x j * ((1 - 0) * ((b i ^ (1 / 1 : ℝ) + b j ^ (1 / 1 : ℝ)) / 2) ^ (1 : ℝ)) = x j * (x i * b i) / 2 + x i * (x j * b j) / 2 := by
    intro i j
    rw [div_one, Real.rpow_one, Real.rpow_one, Real.rpow_one]; ring
  simp only [e]
  simp only [sum_add_distrib, ← sum_div, ← sum_mul, ← mul_sum, hx]
  ring

/-- The quadratic rule has the covolume of the component in the pure limit, for any exponent. -/
theorem adv_b_pure (N : ℕ) (s : ℝ) (hs : s ≠ 0) (l : ℕ → ℕ → ℝ) (b x : ℕ → ℝ) (k : ℕ) (hk : k < N) (hl : l k k = 0) (hb : 0 < b k)
    (hx : ∀ i < N, x i = if i = k then 1 else 0) : powerMeanB N s l b x = b k := by
  unfold powerMeanB
  rw [sum_eq_single k, sum_eq_single k]
  · rw [hx k hk, if_pos rfl, hl, add_self_div_two, ← Real.rpow_mul hb.le, one_div_mul_cancel hs, Real.rpow_one]; ring
  · intro j hj hjk; rw [hx j (mem_range.1 hj), if_neg hjk]; ring
  · intro h; exact absurd (mem_range.2 hk) h
  · intro i hi hik
    refine sum_eq_zero fun j _ => ?_
    rw [hx i (mem_range.1 hi), if_neg hik]; ring
  · intro h; exact absurd (mem_range.2 hk) h

/-- The value of an evaluation: the Peng-Robinson expression with the mixture parameters. -/
theorem adv_value (m : AdvPR) (T rho : ℝ) (x : List ℝ) (h : AdvFits m x.length) (b e : ℝ) (hb : m.getB x = .ok b) (he : m.ares.eval T x = .ok e)
    (hb0 : 0 < b) (hr0 : 0 ≤ rho) (hr : b * rho < 1) (hRT : m.o.R * T ≠ 0) :
    m.alphar T rho x = .ok (cubicAlphar m.o.R ((e * m.o.R * T / m.o.CEoS + ∑ i ∈ range x.length, el x i * m.aOf T i / el m.bi i) * b) b
      (1 + Real.sqrt 2) (1 - Real.sqrt 2) T rho) := by
  have h2 : Real.sqrt 2 < 1.5 := by
    rw [Real.sqrt_lt' (by norm_num)]; norm_num
  have hbr : 0 ≤ b * rho := mul_nonneg hb0.le hr0
  have hs := Real.sqrt_nonneg 2
  unfold AdvPR.alphar AdvPR.amOverBm
  rw [if_neg (by rw [h.al]; simp), hb, Outcome.bind_ok, he, Outcome.bind_ok,
    if_neg (by rintro (h1 | h1 | h1); exacts [absurd h.ai (by omega), absurd h.bi (by omega), absurd h.al (by omega)]),
    if_neg (by rintro (h1 | ⟨i, hi, h1⟩); exacts [h.C h1, (h.pos i hi).ne' h1]), Outcome.bind_ok, if_neg]
  rintro (h1 | h1 | h1 | h1)
  · exact hb0.ne' h1
  · exact hRT h1
  · linarith
  · have p1 : 0 < (1 + Real.sqrt 2) * b * rho + 1 := by nlinarith
    have p2 : 0 < (1 - Real.sqrt 2) * b * rho + 1 := by nlinarith
    exact absurd (div_pos p1 p2) (not_lt.2 h1)

/-- The pressure is that of the Peng-Robinson equation with the mixture parameters. -/
theorem adv_pressure (m : AdvPR) (T rho : ℝ) (x : List ℝ) (h : AdvFits m x.length) (b e : ℝ) (hb : m.getB x = .ok b) (he : m.ares.eval T x = .ok e)
    (hb0 : 0 < b) (hr0 : 0 < rho) (hr : b * rho < 1) (hR : 0 < m.o.R) (hT : 0 < T) :
    ∃ f : ℝ → ℝ, (∀ r, 0 ≤ r → b * r < 1 → m.alphar T r x = .ok (f r)) ∧
      totalPressure (fun _ r => f r) m.o.R T rho = cubicPressure m.o.R
        ((e * m.o.R * T / m.o.CEoS + ∑ i ∈ range x.length, el x i * m.aOf T i / el m.bi i) * b) b (1 + Real.sqrt 2) (1 - Real.sqrt 2) T (1 / rho) := by
  refine ⟨fun r => cubicAlphar m.o.R ((e * m.o.R * T / m.o.CEoS + ∑ i ∈ range x.length, el x i * m.aOf T i / el m.bi i) * b) b
      (1 + Real.sqrt 2) (1 - Real.sqrt 2) T r, fun r h0 h1 => adv_value m T r x h b e hb he hb0 h0 h1 (mul_pos hR hT).ne', ?_⟩
  have h2 : Real.sqrt 2 < 1.5 := by
    rw [Real.sqrt_lt' (by norm_num)]; norm_num
  have hs : 0 < Real.sqrt 2 := by positivity
  rw [← cubic_pressure_core hR hT hb0 hr0 hr (by intro h; linarith) (by linarith) (by linarith)]
  rfl

/-- In the pure limit the model is the Peng-Robinson equation of the component. -/
theorem adv_pure (m : AdvPR) (T rho : ℝ) (x : List ℝ) (h : AdvFits m x.length) (k : ℕ) (hk : k < x.length)
    (hx : ∀ i < x.length, el x i = if i = k then 1 else 0) (hbr : m.o.brule ≠ .notSpecified) (hl : m.lmat.get k k = 0) (he : m.ares.eval T x = .ok 0)
    (hr0 : 0 ≤ rho) (hr : el m.bi k * rho < 1) (hRT : m.o.R * T ≠ 0) :
    m.getB x = .ok (el m.bi k) ∧
    m.alphar T rho x = .ok (cubicAlphar m.o.R (m.aOf T k) (el m.bi k) (1 + Real.sqrt 2) (1 - Real.sqrt 2) T rho) := by
  have hb : m.getB x = .ok (el m.bi k) := by
    cases hrule : m.o.brule with
    | notSpecified => exact absurd hrule hbr
    | linear =>
      rw [(adv_b m x h).2.1 hrule]
      congr 1
      rw [sum_eq_single k]
      · rw [hx k hk, if_pos rfl, one_mul]
      · intro i hi hik; rw [hx i (mem_range.1 hi), if_neg hik, zero_mul]
      · intro h; exact absurd (mem_range.2 hk) h
    | quadratic =>
      rw [(adv_b m x h).1 hrule, adv_b_pure _ _ h.s _ _ _ k hk hl (h.pos k hk) hx]
  refine ⟨hb, ?_⟩
  rw [adv_value m T rho x h _ 0 hb he (h.pos k hk) hr0 hr hRT]
  congr 2
  have : ∑ i ∈ range x.length, el x i * m.aOf T i / el m.bi i = m.aOf T k / el m.bi k := by
    rw [sum_eq_single k]
    · rw [hx k hk, if_pos rfl, one_mul]
    · intro i hi hik; rw [hx i (mem_range.1 hi), if_neg hik, zero_mul, zero_div]
    · intro h; exact absurd (mem_range.2 hk) h
  rw [this]
  have := (h.pos k hk).ne'
  field_simp
  ring

/-- The constant of the options is minus the attraction of a packed Peng-Robinson fluid. -/
theorem adv_constant : Real.log (((1 + Real.sqrt 2) * 1 + 1) / ((1 - Real.sqrt 2) * 1 + 1)) / (2 * Real.sqrt 2) = -(-Real.sqrt 2 / 2 * Real.log (1 + Real.sqrt 2)) := by
  have hs : 0 < Real.sqrt 2 := by positivity
  have hq : Real.sqrt 2 ^ 2 = 2 := Real.sq_sqrt (by norm_num)
  have h2 : Real.sqrt 2 < 1.5 := by
    rw [Real.sqrt_lt' (by norm_num)]; norm_num
  have e : ((1 + Real.sqrt 2) * 1 + 1) / ((1 - Real.sqrt 2) * 1 + 1) = (1 + Real.sqrt 2) ^ 2 := by
    rw [div_eq_iff (by linarith)]
    nlinarith
  rw [e, Real.log_pow]
  field_simp
  push_cast
  rw [hq]

/-- The rule of the model: with the default constant, the excess of the attractive part at close packing over that of the pure components is the excess energy
of the activity-coefficient model. -/
theorem adv_huron_vidal (m : AdvPR) (T : ℝ) (x : List ℝ) (h : AdvFits m x.length) (ab b e : ℝ) (hab : m.amOverBm T x = .ok ab) (he : m.ares.eval T x = .ok e)
    (hC : m.o.CEoS = ({} : AdvOptions).CEoS) (hb0 : b ≠ 0) (hRT : m.o.R * T ≠ 0) :
    packedAttraction m.o.R (ab * b) b T - ∑ i ∈ range x.length, el x i * packedAttraction m.o.R (m.aOf T i) (el m.bi i) T = e := by
  replace hC : m.o.CEoS = -Real.sqrt 2 / 2 * Real.log (1 + Real.sqrt 2) := hC
  have hv : ab = e * m.o.R * T / m.o.CEoS + ∑ i ∈ range x.length, el x i * m.aOf T i / el m.bi i := by
    unfold AdvPR.amOverBm at hab
    rw [he, Outcome.bind_ok] at hab
    split_ifs at hab
    injection hab with hab
    exact hab.symm
  have pk : ∀ a b : ℝ, b ≠ 0 → packedAttraction m.o.R a b T = m.o.CEoS * (a / b) / (m.o.R * T) := by
    intro a b hb
    unfold packedAttraction
    rw [show ∀ L : ℝ, L / (b * (2 * Real.sqrt 2)) = L / (2 * Real.sqrt 2) / b from fun L => by rw [div_div, mul_comm b], adv_constant, hC]
    field_simp
  have hsum : ∑ i ∈ range x.length, el x i * packedAttraction m.o.R (m.aOf T i) (el m.bi i) T
      = m.o.CEoS / (m.o.R * T) * ∑ i ∈ range x.length, el x i * m.aOf T i / el m.bi i := by
    rw [mul_sum]
    refine sum_congr rfl fun i hi => ?_
    rw [pk _ _ (h.pos i (mem_range.1 hi)).ne']
    ring
  rw [pk _ _ hb0, hsum, hv]
  have hR : m.o.R ≠ 0 := left_ne_zero_of_mul hRT
  have hT : T ≠ 0 := right_ne_zero_of_mul hRT
  have hC0 := h.C
  field_simp
  ring

/-- The Wilson model does not change when all of its covolumes are multiplied by one factor. -/
theorem wilson_scale (w : Wilson) (c T : ℝ) (hc : 0 < c) (x : List ℝ) (hw : WilsonFits w x.length) (hx : IsComp x) (hT : T ≠ 0) :
    Wilson.eval ⟨w.b.map (c * ·), w.m, w.n⟩ T x = w.eval T x := by
  have hel : ∀ i < x.length, el (w.b.map (c * ·)) i = c * el w.b i := by
    intro i hi
    unfold el
    rw [List.getD_eq_getElem _ _ (by simpa [hw.b] using hi), List.getD_eq_getElem _ _ (by rw [hw.b]; exact hi)]
    simp
  have hw' : WilsonFits ⟨w.b.map (c * ·), w.m, w.n⟩ x.length :=
    ⟨by simp [hw.b], hw.m, hw.n, fun i hi => by simp only; rw [hel i hi]; exact mul_pos hc (hw.pos i hi)⟩
  rw [wilson_value _ T x hw' hx hT, wilson_value w T x hw hx hT]
  congr 1
  unfold wilsonResidual
  congr 1
  refine sum_congr rfl fun i _ => ?_
  congr 2
  refine sum_congr rfl fun j _ => ?_
  congr 1
  simp only
  have hk : ∑ k : Fin x.length, el x k * el (w.b.map (c * ·)) k = c * ∑ k : Fin x.length, el x k * el w.b k := by
    rw [mul_sum]
    refine sum_congr rfl fun k _ => ?_
    rw [hel k k.2]; ring
  rw [hel j j.2, hk]
  have : ∑ k : Fin x.length, el x k * el w.b k ≠ 0 := by
    have := comp_weight_pos x hx (el w.b) hw.pos
    rw [sum_range] at this
    exact this.ne'
  field_simp

/-- A document gives a model only for two components: for any other number the fixed matrix has the wrong size. -/
theorem adv_two_components (j : JTree) (m : AdvPR) (h : advFactory j = .ok m) :
    ∃ Tc pc : List ℝ, (j.at "Tcrit / K").bind JTree.toRow = .ok Tc ∧ (j.at "pcrit / Pa").bind JTree.toRow = .ok pc ∧ Tc.length = 2 ∧ 2 ≤ pc.length ∧
      m.alphas.length = 2 ∧ m.lmat = Mat.zero 2 ∧ m.bi = List.zipWith (fun t p => 0.077796073903888455972 * m.o.R * t / p) Tc pc := by
  unfold advFactory at h
  obtain ⟨Tc, hTc, h⟩ := Outcome.bind_eq_ok.1 h
  obtain ⟨pc, hpc, h⟩ := Outcome.bind_eq_ok.1 h
  obtain ⟨al, hal, h⟩ := Outcome.bind_eq_ok.1 h
  obtain ⟨ar, har, h⟩ := Outcome.bind_eq_ok.1 h
  obtain ⟨o, ho, h⟩ := Outcome.bind_eq_ok.1 h
  unfold AdvPR.make at h
  split_ifs at h with hp
  obtain ⟨l, hl, h⟩ := Outcome.bind_eq_ok.1 h
  injection h with h
  unfold checkKmat at hl
  split_ifs at hl with h1 h2 h3
  · exact absurd h2 (by simp [Mat.zero])
  have hN : Tc.length = 2 := by
    simp only [Mat.zero, ne_eq, not_not] at h3
    exact h3.symm
  injection hl with hl
  obtain ⟨e, -, hal⟩ := Outcome.bind_eq_ok.1 hal
  unfold buildAlphasJson at hal
  split_ifs at hal with hs
  have hlen := (mapOutcome_get _ _ _ hal).1
  have hitems : e.items.length = 2 := by
    rw [← hN]
    simp only [ne_eq, not_not] at hs
    rw [← hs]
    cases e <;> simp [JTree.items, JTree.size]
  refine ⟨Tc, pc, hTc, hpc, hN, by omega, ?_, ?_, ?_⟩
  · rw [← h]
    simp only
    rw [hlen, List.length_zip, hN, hitems]
    rfl
  · rw [← h]; exact hl.symm
  · rw [← h]; rfl

/-- The activity model of a document is Wilson's, with covolumes from the constant of 2017 whatever the gas constant of the options. -/
theorem adv_ares (Tc pc : List ℝ) (j : JTree) (a : ActivityModel) (h : advAres Tc pc j = .ok a) :
    ∃ mw nw, a = .wilson ⟨List.zipWith (fun t p => 0.077796073903888455972 * 8.31446261815324 * t / p) Tc pc, mw, nw⟩ ∧
      (j.at "m").bind buildSquareMatrix = .ok mw ∧ (j.at "n").bind buildSquareMatrix = .ok nw := by
  unfold advAres at h
  obtain ⟨t, -, h⟩ := Outcome.bind_eq_ok.1 h
  split_ifs at h
  obtain ⟨mw, hm, h⟩ := Outcome.bind_eq_ok.1 h
  obtain ⟨nw, hn, h⟩ := Outcome.bind_eq_ok.1 h
  injection h with h
  exact ⟨mw, nw, h.symm, hm, hn⟩

/-- A wrong number of fractions is refused, and so is a rule that is not listed. -/
theorem adv_refuses (m : AdvPR) (T rho : ℝ) (x : List ℝ) :
    (x.length ≠ m.alphas.length → m.alphar T rho x = .throws .stdInvalidArgument) ∧
    (x.length = m.alphas.length → m.o.brule = .notSpecified → m.alphar T rho x = .throws .invalidArgument) := by
  unfold AdvPR.alphar
  refine ⟨fun h => by rw [if_pos h], fun h hb => ?_⟩
  rw [if_neg (not_not.2 h)]
  unfold AdvPR.getB
  rw [hb]
  rfl

/-- What the options of a document are. -/
theorem adv_options (j : JTree) (o : AdvOptions) (h : advOptions j = .ok o) :
    (j.at "s").bind JTree.toDouble = .ok o.s ∧ (j.at "CEoS").bind JTree.toDouble = .ok o.CEoS ∧
    (∃ b, j.at "brule" = .ok b ∧ ∀ s, b = .str s → (s = "Linear" → o.brule = .linear) ∧ (s = "Quadratic" → o.brule = .quadratic) ∧
      (s ≠ "Linear" → s ≠ "Quadratic" → o.brule = .notSpecified)) ∧
    (j.contains "R / J/mol/K" = false → o.R = 8.31446261815324) := by
  unfold advOptions at h
  obtain ⟨b, hb, h⟩ := Outcome.bind_eq_ok.1 h
  obtain ⟨s, hs, h⟩ := Outcome.bind_eq_ok.1 h
  obtain ⟨c, hc, h⟩ := Outcome.bind_eq_ok.1 h
  obtain ⟨R, hR, h⟩ := Outcome.bind_eq_ok.1 h
  injection h with h
  subst h
  refine ⟨hs, hc, ⟨b, hb, fun s' e => ?_⟩, fun hn => ?_⟩
  · subst e
    refine ⟨fun e => by subst e; simp [BRule.ofJson], fun e => by subst e; simp [BRule.ofJson], fun h1 h2 => by simp [BRule.ofJson, h1, h2]⟩
  · unfold optEntry at hR
    rw [hn] at hR
    simp only [Bool.false_eq_true, if_false] at hR
    injection hR with hR
    subst hR
    rfl

/-- A binary model with the default options. -/
noncomputable def advDemo : AdvPR where
  ai := [2, 3]
  bi := [4e-5, 9e-5]
  alphas := [.basic 300 0.5, .basic 400 0.6]
  ares := .wilson ⟨[4e-5, 9e-5], ⟨2, fun _ _ => 0⟩, ⟨2, fun i j => if i = j then 0 else 100⟩⟩
  lmat := Mat.zero 2
  o := {}

theorem advDemo_fits : AdvFits advDemo 2 where
  ai := rfl
  bi := rfl
  al := rfl
  rows := le_rfl
  cols := le_rfl
  pos := fun i hi => by
    have : i = 0 ∨ i = 1 := by omega
    rcases this with rfl | rfl <;> simp [el, advDemo] <;> norm_num
  s := by simp [advDemo]
  C := by
    have hs : 0 < Real.sqrt 2 := by positivity
    have : 0 < Real.log (1 + Real.sqrt 2) := Real.log_pos (by linarith)
    simp only [advDemo]
    intro h
    nlinarith [mul_pos hs this]

example : advDemo.alphar 350 1000 [1, 0] = .ok (cubicAlphar RCodata2017 (advDemo.aOf 350 0) 4e-5 (1 + Real.sqrt 2) (1 - Real.sqrt 2) 350 1000) := by
  have hx : ∀ i < ([1, 0] : List ℝ).length, el [1, 0] i = if i = 0 then 1 else 0 := fun i hi => by
    have : i = 0 ∨ i = 1 := by simp at hi; omega
    rcases this with rfl | rfl <;> simp [el]
  have hw := wilson_pure ⟨[4e-5, 9e-5], ⟨2, fun _ _ => 0⟩, ⟨2, fun i j => if i = j then 0 else 100⟩⟩ 350 [1, 0] 0 (by simp)
    ⟨rfl, rfl, rfl, advDemo_fits.pos⟩ hx (by norm_num)
  have := (adv_pure advDemo 350 1000 [1, 0] advDemo_fits 0 (by simp) hx (by simp [advDemo]) rfl
    (by change Wilson.eval _ _ _ = _; rw [hw]; simp) (by norm_num) (by simp [el, advDemo]; norm_num) (by norm_num [advDemo, RCodata2017])).2
  exact this

example : advDemo.getB [0.5, 0.5] = .ok (powerMeanB 2 2 (fun _ _ => 0) (el [4e-5, 9e-5]) (el [0.5, 0.5])) :=
  (adv_b advDemo [0.5, 0.5] advDemo_fits).1 rfl

end Teqp.Props
