import Verif.Props.SVRLimits
import Verif.Props.GERGMix
import Mathlib.Order.Interval.Finset.Fin
import Mathlib.Data.List.OfFn

/-! # C110, C111: mixtures and pair parameters of SAFT-VR-Mie -/

set_option autoImplicit false

namespace Teqp.Props
open Model Spec Finset

variable {n k : ℕ}

/-- The mixture whose components are copies of the components of another one. -/
def SVR.pull (p : SVR n) (f : Fin k → Fin n) : SVR k :=
  { m := fun i => p.m (f i), eps := fun i => p.eps (f i), sigma := fun i => p.sigma (f i), lr := fun i => p.lr (f i)
    la := fun i => p.la (f i), k := fun i j => p.k (f i) (f j), lb := p.lb }

/-! ## Symmetry of the pair parameters -/

theorem svrLam_symm (a b : ℝ) : svrLam a b = svrLam b a := by
  unfold svrLam
  rw [mul_comm]

/-- C111. For equal exponents above three the combining rule returns that exponent; the combined exponent lies between the two
and above three. -/
theorem svrLam_bounds (a b : ℝ) (ha : 3 < a) (hb : a ≤ b) : svrLam a a = a ∧ a ≤ svrLam a b ∧ svrLam a b ≤ b := by
  have h1 : 0 ≤ a - 3 := by linarith
  have h2 : 0 ≤ b - 3 := by linarith
  refine ⟨?_, ?_, ?_⟩
  · unfold svrLam
    rw [Real.sqrt_mul_self h1]
    ring
  · unfold svrLam
    have : a - 3 ≤ Real.sqrt ((a - 3) * (b - 3)) := Real.le_sqrt_of_sq_le (by nlinarith)
    linarith
  · unfold svrLam
    have : Real.sqrt ((a - 3) * (b - 3)) ≤ b - 3 := Real.sqrt_le_iff.2 ⟨h2, by nlinarith⟩
    linarith

theorem svr_eps_symm (p : SVR n) (i j : Fin n) : p.epsIJ i j = p.epsIJ j i := by
  unfold SVR.epsIJ
  rw [min_comm, max_comm]

/-- C111. All pair parameters are symmetric, for every interaction matrix. -/
theorem svr_pair_symm (p : SVR n) (i j : Fin n) : p.pair i j = p.pair j i := by
  unfold SVR.pair
  rw [svrLam_symm (p.lr i), svrLam_symm (p.la i), svr_eps_symm, show p.sigmaIJ i j = p.sigmaIJ j i by unfold SVR.sigmaIJ; ring]

/-- C111. The entries of the interaction matrix below its diagonal have no effect on any pair. -/
theorem svr_kmat_lower (p q : SVR n) (hm : p.eps = q.eps ∧ p.sigma = q.sigma ∧ p.lr = q.lr ∧ p.la = q.la ∧ p.lb = q.lb)
    (hk : ∀ i j, i ≤ j → p.k i j = q.k i j) (i j : Fin n) : p.pair i j = q.pair i j := by
  obtain ⟨h1, h2, h3, h4, h5⟩ := hm
  unfold SVR.pair SVR.epsIJ SVR.sigmaIJ
  simp only [h1, h2, h3, h4, h5, hk _ _ (min_le_max (a := i) (b := j))]

/-- C111. A pair of a component with itself has the parameters of the component, when it does not interact with itself. -/
theorem svr_pair_diag (p : SVR n) (i : Fin n) (hk : p.k i i = 0) (he : 0 ≤ p.eps i) (hs : 0 < p.sigma i) (ha : 3 ≤ p.la i) (hr : 3 ≤ p.lr i) :
    p.pair i i = ⟨p.lr i, p.la i, p.eps i, p.sigma i⟩ := by
  have hl : ∀ a : ℝ, 3 ≤ a → svrLam a a = a := by
    intro a h
    unfold svrLam
    rw [Real.sqrt_mul_self (by linarith)]
    ring
  unfold SVR.pair SVR.epsIJ SVR.sigmaIJ
  simp only [min_self, max_self, hk, sub_zero, one_mul, hl _ ha, hl _ hr, add_self_div_two]
  congr 1
  split
  · exact Real.sqrt_mul_self he
  · rw [show p.sigma i ^ 3 * p.sigma i ^ 3 * p.eps i * p.eps i = (p.sigma i ^ 3 * p.eps i) * (p.sigma i ^ 3 * p.eps i) by ring,
      Real.sqrt_mul_self (by positivity)]
    field_simp

/-- C111. For pairs of unlike sizes the default rule gives a shallower well than the geometric mean, and the two rules agree for
equal sizes. -/
theorem svr_rules (p : SVR n) (i j : Fin n) (hk : p.k (min i j) (max i j) ≤ 1) (hs : ∀ i, 0 < p.sigma i) (he : ∀ i, 0 ≤ p.eps i) :
    ({ p with lb := false } : SVR n).epsIJ i j ≤ ({ p with lb := true } : SVR n).epsIJ i j ∧
      (p.sigma i = p.sigma j → ({ p with lb := false } : SVR n).epsIJ i j = ({ p with lb := true } : SVR n).epsIJ i j) := by
  unfold SVR.epsIJ SVR.sigmaIJ
  simp only [if_true, Bool.false_eq_true, if_false, add_self_div_two]
  have key : ∀ a b : Fin n, p.k a b ≤ 1 →
      (1 - p.k a b) * Real.sqrt (p.sigma a ^ 3 * p.sigma b ^ 3 * p.eps a * p.eps b) / ((p.sigma a + p.sigma b) / 2) ^ 3 ≤
        (1 - p.k a b) * Real.sqrt (p.eps a * p.eps b) ∧
      (p.sigma a = p.sigma b → (1 - p.k a b) * Real.sqrt (p.sigma a ^ 3 * p.sigma b ^ 3 * p.eps a * p.eps b) / ((p.sigma a + p.sigma b) / 2) ^ 3 =
        (1 - p.k a b) * Real.sqrt (p.eps a * p.eps b)) := by
    intro a b hk
    have hA := hs a
    have hB := hs b
    have e : Real.sqrt (p.sigma a ^ 3 * p.sigma b ^ 3 * p.eps a * p.eps b) = Real.sqrt (p.sigma a * p.sigma b) ^ 3 * Real.sqrt (p.eps a * p.eps b) := by
      rw [show p.sigma a ^ 3 * p.sigma b ^ 3 * p.eps a * p.eps b = (p.sigma a * p.sigma b) ^ 3 * (p.eps a * p.eps b) by ring,
        Real.sqrt_mul (by positivity)]
      congr 1
      rw [Real.sqrt_eq_iff_mul_self_eq (by positivity) (by positivity)]
      have := Real.mul_self_sqrt (show 0 ≤ p.sigma a * p.sigma b by positivity)
      refine Eq.symm ?_
      calc Real.sqrt (p.sigma a * p.sigma b) ^ 3 * Real.sqrt (p.sigma a * p.sigma b) ^ 3
          = (Real.sqrt (p.sigma a * p.sigma b) * Real.sqrt (p.sigma a * p.sigma b)) ^ 3 := by ring
        _ = (p.sigma a * p.sigma b) ^ 3 := by rw [this]
    have hq : 0 ≤ Real.sqrt (p.eps a * p.eps b) := Real.sqrt_nonneg _
    have hg : Real.sqrt (p.sigma a * p.sigma b) ≤ (p.sigma a + p.sigma b) / 2 :=
      Real.sqrt_le_iff.2 ⟨by positivity, by nlinarith [sq_nonneg (p.sigma a - p.sigma b)]⟩
    have hg3 : Real.sqrt (p.sigma a * p.sigma b) ^ 3 ≤ ((p.sigma a + p.sigma b) / 2) ^ 3 := pow_le_pow_left₀ (Real.sqrt_nonneg _) hg 3
    rw [e]
    constructor
    · rw [div_le_iff₀ (by positivity)]
      have h1 : 0 ≤ (1 - p.k a b) * Real.sqrt (p.eps a * p.eps b) := mul_nonneg (by linarith) hq
      nlinarith [mul_le_mul_of_nonneg_left hg3 h1]
    · intro h
      rw [← h, Real.sqrt_mul_self hA.le, add_self_div_two]
      field_simp
  refine ⟨(key _ _ hk).1, fun h => (key _ _ hk).2 ?_⟩
  rcases le_total i j with hij | hij
  · rw [min_eq_left hij, max_eq_right hij, h]
  · rw [min_eq_right hij, max_eq_left hij, h]

/-- C111. The well of the potential of which the diameter is calculated has the depth `epsilon/k` of the component, at the
exponents of the component. -/
theorem svr_depth (p : SVR n) (i : Fin n) (ha : 3 ≤ p.la i) (hr : p.la i < p.lr i) (hs : 0 < p.sigma i) (he : 0 ≤ p.eps i) :
    (∀ r, 0 < r → -p.eps i ≤ p.u i r) ∧ p.u i (p.sigma i * (p.lr i / p.la i) ^ (1 / (p.lr i - p.la i))) = -p.eps i := by
  have hl : ∀ a : ℝ, 3 ≤ a → svrLam a a = a := by
    intro a h
    unfold svrLam
    rw [Real.sqrt_mul_self (by linarith)]
    ring
  have hu : ∀ y, 0 < y → p.u i (p.sigma i * y) = p.eps i * mieU (p.lr i) (p.la i) y := by
    intro y hy
    unfold SVR.u mieU SVRPair.C mieC SVR.pair
    simp only [hl _ ha, hl _ (ha.trans hr.le)]
    rw [div_mul_eq_div_div, div_self hs.ne', one_div, Real.inv_rpow hy.le, Real.inv_rpow hy.le, ← Real.rpow_neg hy.le, ← Real.rpow_neg hy.le]
    ring
  obtain ⟨h1, h2⟩ := mie_depth (p.lr i) (p.la i) (by linarith) hr
  constructor
  · intro r h
    have := hu (r / p.sigma i) (by positivity)
    rw [mul_div_cancel₀ _ hs.ne'] at this
    rw [this]
    nlinarith [h1 (r / p.sigma i) (by positivity)]
  · have : 0 < p.lr i / p.la i := div_pos (by linarith) (by linarith)
    rw [hu _ (Real.rpow_pos_of_pos this _), h2]
    ring

/-! ## Mixtures -/

theorem svr_dIJ (d : Fin n → ℝ) (i j : Fin n) : SVR.dIJ d i j = (d i + d j) / 2 := by
  unfold SVR.dIJ
  split
  · next h => rw [h, add_self_div_two]
  · rcases le_total i j with h | h
    · rw [min_eq_left h, max_eq_right h]
    · rw [min_eq_right h, max_eq_left h, add_comm]

/-- The loop over `j >= i` with its factors is the sum over all ordered pairs. -/
theorem svr_pairSum (p : SVR n) (x : Fin n → ℝ) (f : Fin n → Fin n → ℝ) (hf : ∀ i j, f i j = f j i) :
    p.pairSum x f = ∑ i, ∑ j, p.xs x i * p.xs x j * f i j := by
  classical
  unfold SVR.pairSum
  have h1 : ∀ i, ∑ j ∈ univ.filter (i ≤ ·), p.xs x i * p.xs x j * f i j * (if i = j then 1 else 2) =
      ∑ j ∈ univ.filter (i ≤ ·), p.xs x i * p.xs x j * f i j + ∑ j ∈ univ.filter (i < ·), p.xs x i * p.xs x j * f i j := by
    intro i
    have e : univ.filter (fun j : Fin n => i < j) = (univ.filter (fun j : Fin n => i ≤ j)).filter (fun j => i ≠ j) := by
      ext j
      simp only [mem_filter, mem_univ, true_and]
      exact lt_iff_le_and_ne
    rw [e, Finset.sum_filter (fun j => i ≠ j), ← Finset.sum_add_distrib]
    refine Finset.sum_congr rfl fun j _ => ?_
    by_cases h : i = j
    · simp [h]
    · simp [h]
      ring
  simp only [h1, Finset.sum_add_distrib]
  have h2 : ∑ i, ∑ j ∈ univ.filter (fun j => i < j), p.xs x i * p.xs x j * f i j =
      ∑ i, ∑ j ∈ univ.filter (fun j => j < i), p.xs x i * p.xs x j * f i j := by
    simp only [Finset.sum_filter]
    rw [Finset.sum_comm]
    refine Finset.sum_congr rfl fun i _ => Finset.sum_congr rfl fun j _ => ?_
    rw [hf j i, mul_comm (p.xs x j)]
  rw [h2, ← Finset.sum_add_distrib]
  refine Finset.sum_congr rfl fun i _ => ?_
  rw [← Finset.sum_filter_add_sum_filter_not univ (fun j => i ≤ j) (fun j => p.xs x i * p.xs x j * f i j)]
  simp only [not_le]

theorem svr_eps_pull (p : SVR n) (f : Fin k → Fin n) (hk : ∀ i j, p.k i j = p.k j i) (i j : Fin k) :
    (SVR.pull p f).epsIJ i j = p.epsIJ (f i) (f j) := by
  have key : ∀ (m : ℕ) (q : SVR m), (∀ i j, q.k i j = q.k j i) → ∀ i j, q.epsIJ i j =
      if q.lb then (1 - q.k i j) * Real.sqrt (q.eps i * q.eps j)
      else (1 - q.k i j) * Real.sqrt (q.sigma i ^ 3 * q.sigma j ^ 3 * q.eps i * q.eps j) / ((q.sigma i + q.sigma j) / 2) ^ 3 := by
    intro m q hq i j
    unfold SVR.epsIJ SVR.sigmaIJ
    simp only [add_self_div_two]
    rcases le_total i j with h | h
    · rw [min_eq_left h, max_eq_right h]
    · rw [min_eq_right h, max_eq_left h, hq j i, mul_comm (q.eps j), add_comm (q.sigma j)]
      congr 4
      ring
  rw [key k _ (fun i j => hk _ _), key n p hk]
  rfl

theorem svr_pair_pull (p : SVR n) (f : Fin k → Fin n) (hk : ∀ i j, p.k i j = p.k j i) (i j : Fin k) :
    (SVR.pull p f).pair i j = p.pair (f i) (f j) := by
  unfold SVR.pair
  rw [svr_eps_pull p f hk]
  rfl

/-- The contributions of a mixture of copies. -/
theorem svr_copies_terms (p : SVR n) (f : Fin k → Fin n) (d x : Fin n → ℝ) (y : Fin k → ℝ) (T rhos : ℝ) (hk : ∀ i j, p.k i j = p.k j i)
    (h : ∀ i, x i = ∑ c ∈ univ.filter (fun c => f c = i), y c) :
    (SVR.pull p f).mbar y = p.mbar x ∧ (SVR.pull p f).D (d ∘ f) y = p.D d x ∧ (SVR.pull p f).zetaX (d ∘ f) y rhos = p.zetaX d x rhos ∧
      (SVR.pull p f).mono (d ∘ f) T rhos y = p.mono d T rhos x ∧ (SVR.pull p f).chain (d ∘ f) T rhos y = p.chain d T rhos x := by
  have hs := sum_pull f x y fun i => (h i).trans (Finset.sum_congr (by ext; simp) fun _ _ => rfl)
  have hm : (SVR.pull p f).mbar y = p.mbar x := hs p.m
  have hx : ∀ g : Fin n → ℝ, ∑ i, (SVR.pull p f).xs y i * g (f i) = ∑ i, p.xs x i * g i := by
    intro g
    unfold SVR.xs
    rw [hm]
    have := hs fun i => p.m i / p.mbar x * g i
    refine Eq.trans ?_ (this.trans ?_)
    · exact Finset.sum_congr rfl fun i _ => by simp only [SVR.pull]; ring
    · exact Finset.sum_congr rfl fun i _ => by ring
  have hD : (SVR.pull p f).D (d ∘ f) y = p.D d x := by
    funext l
    unfold SVR.D
    rw [← hx fun i => d i ^ l]
    rfl
  have hxx : ∀ g : Fin n → Fin n → ℝ, ∑ i, ∑ j, (SVR.pull p f).xs y i * (SVR.pull p f).xs y j * g (f i) (f j) = ∑ i, ∑ j, p.xs x i * p.xs x j * g i j := by
    intro g
    simp only [mul_assoc, ← Finset.mul_sum]
    rw [← hx fun i => ∑ j, p.xs x j * g i j]
    exact Finset.sum_congr rfl fun i _ => by rw [hx fun j => g (f i) j]
  have hz : (SVR.pull p f).zetaX (d ∘ f) y rhos = p.zetaX d x rhos := by
    unfold SVR.zetaX
    simp only [svr_dIJ]
    congr 1
    have := hxx fun i j => ((d i + d j) / 2) ^ 3 * rhos
    simpa only [mul_assoc, Function.comp] using this
  have hb : (SVR.pull p f).zetaBar y rhos = p.zetaBar x rhos := by
    unfold SVR.zetaBar
    congr 1
    exact hxx fun i j => p.sigmaIJ i j ^ 3
  have hp : ∀ g : SVRPair → ℝ → ℝ, (SVR.pull p f).pairSum y (fun i j => g ((SVR.pull p f).pair i j) (SVR.dIJ (d ∘ f) i j)) =
      p.pairSum x (fun i j => g (p.pair i j) (SVR.dIJ d i j)) := by
    intro g
    have sy : ∀ (m : ℕ) (q : SVR m) (e : Fin m → ℝ) (i j : Fin m), g (q.pair i j) (SVR.dIJ e i j) = g (q.pair j i) (SVR.dIJ e j i) := by
      intro m q e i j
      rw [svr_pair_symm, svr_dIJ, svr_dIJ, add_comm]
    rw [svr_pairSum _ _ _ (sy k _ _), svr_pairSum _ _ _ (sy n _ _)]
    simp only [svr_pair_pull p f hk, svr_dIJ]
    exact hxx fun i j => g (p.pair i j) ((d i + d j) / 2)
  refine ⟨hm, hD, hz, ?_, ?_⟩
  · unfold SVR.mono
    simp only [hm, hD, hz, hb]
    rw [hp fun q e => q.a1 e (p.zetaX d x rhos) rhos, hp fun q e => q.a2 e (p.zetaX d x rhos) (p.zetaBar x rhos) rhos,
      hp fun q _ => q.a3 (p.zetaBar x rhos)]
  · unfold SVR.chain
    rw [hz, hb]
    congr 1
    simp only [svr_pair_pull p f hk, mul_assoc]
    exact hs fun i => (p.m i - 1) * Real.log ((p.pair i i).g T (d i) (p.zetaX d x rhos) (p.zetaBar x rhos))

theorem finLoop_inv {α : Type} : ∀ {n : ℕ} (f : Fin n → Outcome α) (g : Fin n → α), finLoop f = .ok g → ∀ i, f i = .ok (g i)
  | 0, _, _, _, i => i.elim0
  | m + 1, f, g, h, i => by
    unfold finLoop at h
    cases h0 : f 0 with
    | ok a =>
      rw [h0, Outcome.bind_ok] at h
      cases h1 : finLoop (fun i : Fin m => f i.succ) with
      | ok gs =>
        rw [h1, Outcome.bind_ok] at h
        have hg := Outcome.ok.inj h
        subst hg
        refine Fin.cases ?_ (fun j => ?_) i
        · rw [h0, Fin.cons_zero]
        · rw [finLoop_inv _ _ h1 j, Fin.cons_succ]
      | throws e => rw [h1] at h; cases h
      | ub => rw [h1] at h; cases h
      | nonFinite => rw [h1] at h; cases h
    | throws e => rw [h0] at h; cases h
    | ub => rw [h0] at h; cases h
    | nonFinite => rw [h0] at h; cases h

theorem svr_dii_pull (p : SVR n) (f : Fin k → Fin n) (hk : ∀ i j, p.k i j = p.k j i) (EPS T : ℝ) (i : Fin k) :
    (SVR.pull p f).dii EPS i T = p.dii EPS (f i) T := by
  unfold SVR.dii SVR.u
  rw [svr_pair_pull p f hk, svr_eps_pull p f hk]
  rfl

/-- C110. If the components of one mixture are copies of components of another one, the fractions of the copies adding up to the
fraction of the original, the evaluation gives the same packing fraction and the same residual Helmholtz energy.  This covers
relabelling the components, adding components that are absent, splitting a component into identical parts, and the limit of a
pure component; the interaction matrix has to be symmetric. -/
theorem svr_copies (p : SVR n) (f : Fin k → Fin n) (NA EPS T rho : ℝ) (x : Fin n → ℝ) (y : Fin k → ℝ) (v : ℝ × ℝ) (hk : ∀ i j, p.k i j = p.k j i)
    (h : ∀ i, x i = ∑ c ∈ univ.filter (fun c => f c = i), y c) (hv : p.core NA EPS T rho (List.ofFn x) = .ok v) :
    (SVR.pull p f).core NA EPS T rho (List.ofFn y) = .ok v := by
  unfold SVR.core at hv ⊢
  rw [dif_pos (List.length_ofFn)] at hv ⊢
  cases hd : finLoop (fun i => p.dii EPS i T) with
  | ok d =>
    have hd' : finLoop (fun i => (SVR.pull p f).dii EPS i T) = .ok (d ∘ f) := by
      refine finLoop_ok _ _ fun i => ?_
      rw [svr_dii_pull p f hk, finLoop_inv _ _ hd (f i)]
      rfl
    rw [hd, Outcome.bind_ok] at hv
    rw [hd', Outcome.bind_ok]
    dsimp only at hv ⊢
    rw [show (fun i => (List.ofFn x).get (Fin.cast List.length_ofFn.symm i)) = x by funext i; simp] at hv
    rw [show (fun i => (List.ofFn y).get (Fin.cast List.length_ofFn.symm i)) = y by funext i; simp]
    obtain ⟨h1, h2, h3, h4, h5⟩ := svr_copies_terms p f d x y T (p.rhos NA rho x) hk h
    have hr : (SVR.pull p f).rhos NA rho y = p.rhos NA rho x := by
      unfold SVR.rhos
      rw [h1]
    rw [hr, h2, h4, h5]
    split at hv
    · next hF =>
      rw [if_pos ?_]
      · exact hv
      · obtain ⟨f1, f2, f3, f4, f5, f6⟩ := hF
        refine ⟨f1, by rw [h1]; exact f2, by rw [h2]; exact f3, by rw [h2]; exact f4, by rw [h2]; exact f5, fun i j => ?_⟩
        have := f6 (f i) (f j)
        rw [h3, svr_pair_pull p f hk, svr_dIJ]
        rw [svr_dIJ] at this
        exact this
    · cases hv
  | throws e => rw [hd] at hv; cases hv
  | ub => rw [hd] at hv; cases hv
  | nonFinite => rw [hd] at hv; cases hv

/-- C110. Exchanging the two components of a binary mixture, with a symmetric interaction matrix, changes nothing; the same holds
backwards, so the two evaluations succeed together. -/
theorem svr_swap (p : SVR 2) (NA EPS T rho a b : ℝ) (v : ℝ × ℝ) (hk : ∀ i j, p.k i j = p.k j i) :
    (SVR.pull p (Equiv.swap 0 1)).core NA EPS T rho [b, a] = .ok v ↔ p.core NA EPS T rho [a, b] = .ok v := by
  have e : SVR.pull (SVR.pull p (Equiv.swap 0 1)) (Equiv.swap (0 : Fin 2) 1) = p := by
    unfold SVR.pull
    simp only [Equiv.swap_apply_self]
  have l : ∀ a b : ℝ, ([a, b] : List ℝ) = List.ofFn ![a, b] := by
    intro a b
    simp [List.ofFn_succ]
  constructor
  · intro h
    have := svr_copies (SVR.pull p (Equiv.swap 0 1)) (Equiv.swap (0 : Fin 2) 1) NA EPS T rho ![b, a] ![a, b] v (fun i j => hk _ _)
      (by intro i; fin_cases i <;> simp [Finset.sum_filter, Fin.sum_univ_two]) (by rw [← l]; exact h)
    rw [e, ← l] at this
    exact this
  · intro h
    rw [l]
    exact svr_copies p (Equiv.swap (0 : Fin 2) 1) NA EPS T rho ![a, b] ![b, a] v hk
      (by intro i; fin_cases i <;> simp [Finset.sum_filter, Fin.sum_univ_two]) (by rw [← l]; exact h)

/-- C110. A mixture in which only one component is present gives the result of that component alone. -/
theorem svr_pure_limit (p : SVR n) (i : Fin n) (NA EPS T rho : ℝ) (v : ℝ × ℝ) (hk : ∀ i j, p.k i j = p.k j i)
    (hv : p.core NA EPS T rho (List.ofFn fun j => if j = i then 1 else 0) = .ok v) :
    (⟨fun _ => p.m i, fun _ => p.eps i, fun _ => p.sigma i, fun _ => p.lr i, fun _ => p.la i, fun _ _ => p.k i i, p.lb⟩ : SVR 1).core NA EPS T rho [1] = .ok v := by
  have := svr_copies p (fun _ : Fin 1 => i) NA EPS T rho (fun j => if j = i then 1 else 0) (fun _ => 1) v hk
    (fun j => by by_cases h : j = i <;> simp [h, Finset.sum_filter, Ne.symm, eq_comm (a := i)]) hv
  simpa [List.ofFn_succ, SVR.pull] using this

/-- C111. With an interaction matrix that is not symmetric the order of the components matters: after the exchange the other of the two
entries is used. -/
theorem svr_swap_asymmetric (p : SVR 2) :
    (1 - p.k 1 0) * p.epsIJ 0 1 = (1 - p.k 0 1) * (SVR.pull p (Equiv.swap 0 1)).epsIJ 0 1 := by
  unfold SVR.epsIJ SVR.sigmaIJ SVR.pull
  have h1 : min (0 : Fin 2) 1 = 0 := rfl
  have h2 : max (0 : Fin 2) 1 = 1 := rfl
  simp only [h1, h2, Equiv.swap_apply_left, Equiv.swap_apply_right, add_self_div_two]
  rw [mul_comm (p.eps 1) (p.eps 0), add_comm (p.sigma 1) (p.sigma 0),
    show p.sigma 1 ^ 3 * p.sigma 0 ^ 3 * p.eps 1 * p.eps 0 = p.sigma 0 ^ 3 * p.sigma 1 ^ 3 * p.eps 0 * p.eps 1 by ring]
  split <;> ring

/-! ## Inputs outside of the range of the theory -/

/-- C111. Three and four are excluded as exponents of a pair, as are exponents whose double or sum is three or four: there the
integrals divide by zero, and the result is not a number. -/
theorem svr_exponent_excluded (p : SVR n) (NA EPS T rho : ℝ) (x : Fin n → ℝ) (d : Fin n → ℝ) (hd : finLoop (fun i => p.dii EPS i T) = .ok d)
    (i j : Fin n) (l : ℝ) (hl : l ∈ (p.pair i j).exponents) (h : l = 3 ∨ l = 4) : p.core NA EPS T rho (List.ofFn x) = .nonFinite := by
  unfold SVR.core
  rw [dif_pos (List.length_ofFn), hd, Outcome.bind_ok]
  refine if_neg fun hF => ?_
  have := ((hF.2.2.2.2.2 i j).2.2.2.2.2.2.2.2.2.2.1 l hl)
  rcases h with h | h
  · exact this.1 h
  · exact this.2.1 h

/-- C111. The number of mole fractions has to be that of the components. -/
theorem svr_size (p : SVR n) (NA EPS T rho : ℝ) (x : List ℝ) (h : x.length ≠ n) : p.alphar NA EPS T rho x = .throws .invalidArgument := by
  unfold SVR.alphar SVR.core
  rw [dif_neg h]
  rfl

/-! A mixture of two chains of Lennard-Jones segments. -/

/-- The sample. -/
noncomputable def svrBin : SVR 2 :=
  { m := ![1, 2], eps := ![150, 200], sigma := ![1, 1.2], lr := fun _ => 12, la := fun _ => 6, k := ![![0, 0.1], ![0.1, 0]], lb := false }

theorem svrBin_pair (i j : Fin 2) : (svrBin.pair i j).lr = 12 ∧ (svrBin.pair i j).la = 6 := by
  unfold SVR.pair svrBin svrLam
  constructor
  · show 3 + Real.sqrt ((12 - 3) * (12 - 3)) = 12
    rw [Real.sqrt_mul_self (by norm_num)]
    norm_num
  · show 3 + Real.sqrt ((6 - 3) * (6 - 3)) = 6
    rw [Real.sqrt_mul_self (by norm_num)]
    norm_num

theorem svrBin_fine_of (d : Fin 2 → ℝ) (hd : ∀ i, 0 < d i) (T : ℝ) (hT : T ≠ 0) : svrBin.Fine d T 0 ![1 / 4, 3 / 4] := by
  have hm : svrBin.mbar ![1 / 4, 3 / 4] = 7 / 4 := by
    norm_num [SVR.mbar, svrBin, Fin.sum_univ_two]
  have hD : ∀ l, 0 < svrBin.D d ![1 / 4, 3 / 4] l := by
    intro l
    have : 0 < ∑ i, svrBin.xs ![1 / 4, 3 / 4] i * d i ^ l := by
      rw [Fin.sum_univ_two]
      unfold SVR.xs
      rw [hm]
      have h1 : (0 : ℝ) < d 0 ^ l := pow_pos (hd 0) l
      have h2 : (0 : ℝ) < d 1 ^ l := pow_pos (hd 1) l
      simp [svrBin]
      positivity
    unfold SVR.D
    positivity
  refine ⟨hT, by rw [hm]; norm_num, by simp, (hD 3).ne', (hD 0).ne', fun i j => ?_⟩
  obtain ⟨e1, e2⟩ := svrBin_pair i j
  have hz : svrBin.zetaX d ![1 / 4, 3 / 4] 0 = 0 := by simp [SVR.zetaX]
  have hC : (svrBin.pair i j).alpha = 8 / 9 := by
    unfold SVRPair.alpha SVRPair.C
    rw [e1, e2]
    norm_num
  refine ⟨by norm_num [svrBin], by norm_num [svrBin], ?_, ?_, ?_⟩
  · fin_cases i <;> fin_cases j <;> norm_num [svrBin]
  · fin_cases i <;> norm_num [svrBin]
  · refine ⟨by rw [e2]; norm_num, by rw [e1]; norm_num, by rw [e1, e2]; norm_num, ?_, by rw [hz]; norm_num, by rw [hz]; norm_num [svrK], ?_, ?_⟩
    · rw [svr_dIJ]
      show 0 < svrBin.sigmaIJ i j / _
      unfold SVR.sigmaIJ
      have := hd i
      have := hd j
      refine div_pos ?_ (by linarith)
      fin_cases i <;> fin_cases j <;> norm_num [svrBin]
    · intro l hl
      rw [hz, svrZeff_zero]
      unfold SVRPair.exponents at hl
      rw [e1, e2] at hl
      simp only [List.mem_cons, List.not_mem_nil, or_false] at hl
      rcases hl with rfl | rfl | rfl | rfl | rfl <;> norm_num
    · intro k hk
      rw [hC]
      simp only [List.mem_cons, List.not_mem_nil, or_false] at hk
      rcases hk with rfl | rfl | rfl | rfl | rfl | rfl <;> norm_num [svrPhiAt, svrPhi]

theorem svrBin_fine : svrBin.Fine ![0.99, 1.19] 300 0 ![1 / 4, 3 / 4] :=
  svrBin_fine_of _ (by intro i; fin_cases i <;> norm_num) 300 (by norm_num)

example : svrBin.mono ![0.99, 1.19] 300 0 ![1 / 4, 3 / 4] = 0 := (svr_zero_density svrBin _ 300 _ svrBin_fine).1
example (NA EPS T rho a b : ℝ) (v : ℝ × ℝ) : (SVR.pull svrBin (Equiv.swap 0 1)).core NA EPS T rho [b, a] = .ok v ↔ svrBin.core NA EPS T rho [a, b] = .ok v :=
  svr_swap svrBin NA EPS T rho a b v (by intro i j; fin_cases i <;> fin_cases j <;> rfl)
example (NA EPS T rho : ℝ) : svrBin.alphar NA EPS T rho [1] = .throws .invalidArgument := svr_size _ _ _ _ _ _ (by simp)
example : svrBin.pair 0 0 = ⟨12, 6, 150, 1⟩ := svr_pair_diag svrBin 0 rfl (by norm_num [svrBin]) (by norm_num [svrBin]) (by norm_num [svrBin]) (by norm_num [svrBin])
example : svrLam 8 12 ≤ 12 := (svrLam_bounds 8 12 (by norm_num) (by norm_num)).2.2
example (NA EPS T rho : ℝ) (x d : Fin 1 → ℝ) (p : SVR 1) (hp : p.la 0 = 4) (hd : finLoop (fun i => p.dii EPS i T) = .ok d) :
    p.core NA EPS T rho (List.ofFn x) = .nonFinite :=
  svr_exponent_excluded p NA EPS T rho x d hd 0 0 4 (by
    have : (p.pair 0 0).la = 4 := by
      show svrLam (p.la 0) (p.la 0) = 4
      rw [hp]
      exact (svrLam_bounds 4 4 (by norm_num) le_rfl).1
    simp [SVRPair.exponents, this]) (Or.inr rfl)

end Teqp.Props
