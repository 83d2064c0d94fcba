import Verif.Lemmas.Reducing
import Mathlib.Tactic.NormNum
import Mathlib.Tactic.Positivity

/-! # C25, C26, C32: reducing functions -/

set_option autoImplicit false

namespace Teqp.Props
open Teqp Teqp.Model Teqp.Lemmas.Red

/-- The same mixture with its components listed in another order. -/
def RedFn.relabel {n : ℕ} (r : RedFn n) (σ : Equiv.Perm (Fin n)) : RedFn n where
  betaT i j := r.betaT (σ i) (σ j)
  gammaT i j := r.gammaT (σ i) (σ j)
  betaV i j := r.betaV (σ i) (σ j)
  gammaV i j := r.gammaV (σ i) (σ j)
  Tc i := r.Tc (σ i)
  vc i := r.vc (σ i)

/-- Parameter matrices as the library fills them: `beta` positive and reciprocal, `gamma` symmetric. -/
structure Regular {n : ℕ} (r : RedFn n) : Prop where
  betaT_pos : ∀ i j, i ≠ j → 0 < r.betaT i j
  betaV_pos : ∀ i j, i ≠ j → 0 < r.betaV i j
  betaT_inv : ∀ i j, i ≠ j → r.betaT j i = 1 / r.betaT i j
  betaV_inv : ∀ i j, i ≠ j → r.betaV j i = 1 / r.betaV i j
  gammaT_symm : ∀ i j, r.gammaT j i = r.gammaT i j
  gammaV_symm : ∀ i j, r.gammaV j i = r.gammaV i j

theorem redY_relabel {n : ℕ} (z Yc : Fin n → ℝ) (beta Yij : Fin n → Fin n → ℝ)
    (hs : ∀ i j, i ≠ j → redTerm (z i) (z j) (beta i j) (Yij i j) = redTerm (z j) (z i) (beta j i) (Yij j i))
    (σ : Equiv.Perm (Fin n)) :
    redY (fun i => z (σ i)) (fun i => Yc (σ i)) (fun i j => beta (σ i) (σ j)) (fun i j => Yij (σ i) (σ j))
      = redY z Yc beta Yij := by
  unfold redY
  rw [Equiv.sum_comp σ (fun i => z i ^ 2 * Yc i)]
  congr 1
  exact upper_sum_perm (fun i j => redTerm (z i) (z j) (beta i j) (Yij i j)) hs σ

theorem YT_relabel {n : ℕ} (r : RedFn n) (σ : Equiv.Perm (Fin n)) :
    (RedFn.relabel r σ).YT = fun i j => r.YT (σ i) (σ j) := by
  funext i j
  simp [RedFn.YT, RedFn.relabel]

theorem Yv_relabel {n : ℕ} (r : RedFn n) (σ : Equiv.Perm (Fin n)) :
    (RedFn.relabel r σ).Yv = fun i j => r.Yv (σ i) (σ j) := by
  funext i j
  simp [RedFn.Yv, RedFn.relabel]

/-- C25. Relabelling the components changes neither the reducing temperature nor the reducing density. -/
theorem reducing_relabel {n : ℕ} (r : RedFn n) (hr : Regular r) (z : Fin n → ℝ) (hz : ∀ i, 0 ≤ z i)
    (σ : Equiv.Perm (Fin n)) :
    (RedFn.relabel r σ).Tr (fun i => z (σ i)) = r.Tr z ∧
    (RedFn.relabel r σ).rhor (fun i => z (σ i)) = r.rhor z := by
  constructor
  · unfold RedFn.Tr
    rw [YT_relabel]
    refine redY_relabel z r.Tc r.betaT r.YT (fun i j hij => ?_) σ
    have e1 : r.YT i j = r.betaT i j * (2 * r.gammaT i j) * Real.sqrt (r.Tc i * r.Tc j) := by
      simp only [RedFn.YT, if_neg hij]; ring
    have e2 : r.YT j i = 1 / r.betaT i j * (2 * r.gammaT i j) * Real.sqrt (r.Tc i * r.Tc j) := by
      simp only [RedFn.YT, if_neg hij.symm, hr.betaT_inv i j hij, hr.gammaT_symm i j, mul_comm (r.Tc j)]
      ring
    rw [e1, e2, hr.betaT_inv i j hij]
    exact redTerm_swap _ _ _ _ _ (hr.betaT_pos i j hij) (hz i) (hz j)
  · unfold RedFn.rhor
    rw [Yv_relabel]
    congr 1
    refine redY_relabel z r.vc r.betaV r.Yv (fun i j hij => ?_) σ
    have e1 : r.Yv i j = r.betaV i j * (2 * 1 / 8 * r.gammaV i j) * (cbrt (r.vc i) + cbrt (r.vc j)) ^ 3 := by
      simp only [RedFn.Yv, if_neg hij]; ring
    have e2 : r.Yv j i = 1 / r.betaV i j * (2 * 1 / 8 * r.gammaV i j) * (cbrt (r.vc i) + cbrt (r.vc j)) ^ 3 := by
      simp only [RedFn.Yv, if_neg hij.symm, hr.betaV_inv i j hij, hr.gammaV_symm i j, add_comm (cbrt (r.vc j))]
      ring
    rw [e1, e2, hr.betaV_inv i j hij]
    exact redTerm_swap _ _ _ _ _ (hr.betaV_pos i j hij) (hz i) (hz j)

/-- A regular binary mixture with unequal parameters. -/
noncomputable def sampleRed : RedFn 2 where
  betaT i j := if i < j then 2 else 1 / 2
  gammaT _ _ := 3
  betaV i j := if i < j then 4 else 1 / 4
  gammaV _ _ := 5
  Tc i := if i = 0 then 100 else 400
  vc i := if i = 0 then 1 else 8

theorem sampleRed_regular : Regular sampleRed where
  betaT_pos i j _ := by simp only [sampleRed]; split <;> norm_num
  betaV_pos i j _ := by simp only [sampleRed]; split <;> norm_num
  betaT_inv i j hij := by
    fin_cases i <;> fin_cases j <;> simp_all [sampleRed]
  betaV_inv i j hij := by
    fin_cases i <;> fin_cases j <;> simp_all [sampleRed]
  gammaT_symm i j := rfl
  gammaV_symm i j := rfl

example : (RedFn.relabel sampleRed (Equiv.swap 0 1)).Tr (fun i => (![0.25, 0.75] : Fin 2 → ℝ) (Equiv.swap 0 1 i))
    = sampleRed.Tr ![0.25, 0.75] :=
  (reducing_relabel sampleRed sampleRed_regular ![0.25, 0.75]
    (fun i => by fin_cases i <;> norm_num) (Equiv.swap 0 1)).1

/-- A term of two different components vanishes when at most one of them is present. -/
theorem redTerm_pure (zi zj b g s : ℝ) (h : zi * zj = 0) : redTerm zi zj b (b * g * s) = 0 := by
  unfold redTerm
  by_cases hd : b * b * zi + zj = 0
  · rw [if_neg (not_not.mpr hd), h]
    rcases mul_eq_zero.mp h with hz | hz
    · rw [hz]; ring
    · rw [hz, add_zero] at hd
      rcases mul_eq_zero.mp hd with hb | hz'
      · rw [mul_self_eq_zero.mp hb]; ring
      · rw [hz']; ring
  · rw [if_pos hd, h]; ring

theorem redY_pure {n : ℕ} (Yc : Fin n → ℝ) (beta g s : Fin n → Fin n → ℝ) (Yij : Fin n → Fin n → ℝ)
    (hY : ∀ i j, i ≠ j → Yij i j = beta i j * g i j * s i j) (k : Fin n) :
    redY (Pi.single k 1) Yc beta Yij = Yc k := by
  unfold redY
  have h1 : ∑ i, (Pi.single k 1 : Fin n → ℝ) i ^ 2 * Yc i = Yc k := by
    rw [Finset.sum_eq_single k]
    · simp
    · intro i _ hi; simp [Pi.single_eq_of_ne hi]
    · simp
  rw [h1]
  have h2 : ∑ i, ∑ j ∈ Finset.univ.filter (i < ·),
      redTerm ((Pi.single k 1 : Fin n → ℝ) i) ((Pi.single k 1 : Fin n → ℝ) j) (beta i j) (Yij i j) = 0 := by
    refine Finset.sum_eq_zero fun i _ => Finset.sum_eq_zero fun j hj => ?_
    have hij : i ≠ j := (Finset.mem_filter.mp hj).2.ne
    rw [hY i j hij]
    apply redTerm_pure
    by_cases hi : i = k
    · have : j ≠ k := fun h => hij (by rw [hi, h])
      simp [Pi.single_eq_of_ne this]
    · simp [Pi.single_eq_of_ne hi]
  rw [h2, add_zero]

/-- C25. At a pure composition the reducing temperature and density are the critical values of that
component, whatever the interaction parameters are. -/
theorem reducing_pure {n : ℕ} (r : RedFn n) (k : Fin n) :
    r.Tr (Pi.single k 1) = r.Tc k ∧ r.rhor (Pi.single k 1) = 1 / r.vc k := by
  constructor
  · exact redY_pure r.Tc r.betaT (fun i j => 2 * r.gammaT i j) (fun i j => Real.sqrt (r.Tc i * r.Tc j)) r.YT
      (fun i j hij => by simp only [RedFn.YT, if_neg hij]; ring) k
  · unfold RedFn.rhor
    rw [redY_pure r.vc r.betaV (fun i j => 2 * 1 / 8 * r.gammaV i j)
      (fun i j => (cbrt (r.vc i) + cbrt (r.vc j)) ^ 3) r.Yv
      (fun i j hij => by simp only [RedFn.Yv, if_neg hij]; ring) k]

example : sampleRed.Tr (Pi.single 1 1) = 400 ∧ sampleRed.rhor (Pi.single 1 1) = 1 / 8 := by
  have := reducing_pure sampleRed 1
  simpa [sampleRed] using this

theorem redY_pos {n : ℕ} (z Yc : Fin n → ℝ) (beta Yij : Fin n → Fin n → ℝ) (hz : ∀ i, 0 ≤ z i)
    (h1 : ∃ i, z i ≠ 0) (hc : ∀ i, 0 < Yc i) (hb : ∀ i j, i ≠ j → 0 < beta i j)
    (hY : ∀ i j, i ≠ j → 0 ≤ Yij i j) : 0 < redY z Yc beta Yij := by
  unfold redY
  obtain ⟨k, hk⟩ := h1
  refine add_pos_of_pos_of_nonneg ?_ ?_
  · refine Finset.sum_pos' (fun i _ => mul_nonneg (sq_nonneg _) (hc i).le) ⟨k, Finset.mem_univ k, ?_⟩
    have := hc k
    positivity
  · refine Finset.sum_nonneg fun i _ => Finset.sum_nonneg fun j hj => ?_
    have hij : i ≠ j := (Finset.mem_filter.mp hj).2.ne
    exact redTerm_nonneg _ _ _ _ (hb i j hij) (hz i) (hz j) (hY i j hij)

theorem cbrt_nonneg {x : ℝ} (hx : 0 ≤ x) : 0 ≤ cbrt x := by
  rcases hx.eq_or_lt with h | h
  · rw [← h, cbrt_zero]
  · exact (cbrt_pos h).le

/-- C25. With positive parameters the reducing temperature and density are positive (so the density is
not `1/0`) at every composition, including those with absent components. -/
theorem reducing_pos {n : ℕ} (r : RedFn n) (hr : Regular r) (hT : ∀ i, 0 < r.Tc i) (hv : ∀ i, 0 < r.vc i)
    (hgT : ∀ i j, 0 ≤ r.gammaT i j) (hgV : ∀ i j, 0 ≤ r.gammaV i j) (z : Fin n → ℝ) (hz : ∀ i, 0 ≤ z i)
    (h1 : ∑ i, z i = 1) : 0 < r.Tr z ∧ redY z r.vc r.betaV r.Yv ≠ 0 ∧ 0 < r.rhor z := by
  have hk : ∃ i, z i ≠ 0 := by
    by_contra h
    push Not at h
    simp [h] at h1
  have hv' : 0 < redY z r.vc r.betaV r.Yv := by
    refine redY_pos z r.vc r.betaV r.Yv hz hk hv hr.betaV_pos fun i j hij => ?_
    simp only [RedFn.Yv, if_neg hij]
    have h1 := (hr.betaV_pos i j hij).le
    have h2 := hgV i j
    have h3 := cbrt_nonneg (hv i).le
    have h4 := cbrt_nonneg (hv j).le
    positivity
  refine ⟨?_, hv'.ne', by unfold RedFn.rhor; positivity⟩
  refine redY_pos z r.Tc r.betaT r.YT hz hk hT hr.betaT_pos fun i j hij => ?_
  simp only [RedFn.YT, if_neg hij]
  have h1 := (hr.betaT_pos i j hij).le
  have h2 := hgT i j
  positivity

example : 0 < sampleRed.Tr ![0, 1] :=
  (reducing_pos sampleRed sampleRed_regular (fun i => by fin_cases i <;> norm_num [sampleRed])
    (fun i => by fin_cases i <;> norm_num [sampleRed]) (fun _ _ => by norm_num [sampleRed])
    (fun _ _ => by norm_num [sampleRed]) ![0, 1] (fun i => by fin_cases i <;> norm_num)
    (by simp [Fin.sum_univ_two])).1

theorem redTerm_continuousOn {n : ℕ} (i j : Fin n) (b Y : ℝ) (hb : 0 < b) :
    ContinuousOn (fun z : Fin n → ℝ => redTerm (z i) (z j) b Y) {z | ∀ i, 0 ≤ z i} := by
  intro z hz
  have hb2 : 0 < b * b := mul_pos hb hb
  by_cases hd : b * b * z i + z j = 0
  · have hzz : b * b * z i = 0 ∧ z j = 0 := by
      constructor <;> nlinarith [mul_nonneg hb2.le (hz i), hz j]
    have hv : redTerm (z i) (z j) b Y = 0 := by
      have := redTerm_le (z i) (z j) b Y hb (hz i) (hz j)
      rw [hzz.2] at this ⊢
      simpa using this
    unfold ContinuousWithinAt
    simp only [hv]
    refine squeeze_zero_norm' (a := fun z : Fin n → ℝ => (1 + 1 / (b * b)) * |Y| * (z i * z j)) ?_ ?_
    · filter_upwards [self_mem_nhdsWithin] with y hy
      rw [Real.norm_eq_abs]
      exact redTerm_le _ _ _ _ hb (hy i) (hy j)
    · have hc : Continuous fun z : Fin n → ℝ => (1 + 1 / (b * b)) * |Y| * (z i * z j) := by fun_prop
      have := hc.tendsto z
      simp only [hzz.2, mul_zero] at this
      exact this.mono_left nhdsWithin_le_nhds
  · have hev : ∀ᶠ y : Fin n → ℝ in nhds z, b * b * y i + y j ≠ 0 := by
      have hc : Continuous fun y : Fin n → ℝ => b * b * y i + y j := by fun_prop
      exact hc.continuousAt.eventually_ne hd
    have hc : ContinuousAt (fun z : Fin n → ℝ => z i * z j * (z i + z j) / (b * b * z i + z j) * Y) z := by
      refine ContinuousAt.mul (ContinuousAt.div ?_ ?_ hd) continuousAt_const
      · exact Continuous.continuousAt (by fun_prop)
      · exact Continuous.continuousAt (by fun_prop)
    refine (hc.congr ?_).continuousWithinAt
    filter_upwards [hev] with y hy
    simp only [redTerm, if_pos hy]

theorem redY_continuousOn {n : ℕ} (Yc : Fin n → ℝ) (beta Yij : Fin n → Fin n → ℝ)
    (hb : ∀ i j, i ≠ j → 0 < beta i j) :
    ContinuousOn (fun z => redY z Yc beta Yij) {z | ∀ i, 0 ≤ z i} := by
  unfold redY
  refine ContinuousOn.add (Continuous.continuousOn (by fun_prop)) ?_
  refine continuousOn_finsetSum _ fun i _ => continuousOn_finsetSum _ fun j hj => ?_
  exact redTerm_continuousOn i j _ _ (hb i j (Finset.mem_filter.mp hj).2.ne)

/-- C25. The reducing functions are continuous over the closed composition simplex: the special branch
for a vanishing denominator is the limit of the ordinary one. -/
theorem reducing_continuous {n : ℕ} (r : RedFn n) (hr : Regular r) (hv : ∀ i, 0 < r.vc i)
    (hgV : ∀ i j, 0 ≤ r.gammaV i j) :
    ContinuousOn r.Tr {z | ∀ i, 0 ≤ z i} ∧
    ContinuousOn r.rhor {z | (∀ i, 0 ≤ z i) ∧ ∑ i, z i = 1} := by
  refine ⟨redY_continuousOn r.Tc r.betaT r.YT hr.betaT_pos, ?_⟩
  refine ContinuousOn.div continuousOn_const
    ((redY_continuousOn r.vc r.betaV r.Yv hr.betaV_pos).mono fun z hz => hz.1) fun z hz => ?_
  have hk : ∃ i, z i ≠ 0 := by
    by_contra h
    push Not at h
    have := hz.2
    simp [h] at this
  refine (redY_pos z r.vc r.betaV r.Yv hz.1 hk hv hr.betaV_pos fun i j hij => ?_).ne'
  simp only [RedFn.Yv, if_neg hij]
  have h1 := (hr.betaV_pos i j hij).le
  have h2 := hgV i j
  have h3 := cbrt_nonneg (hv i).le
  have h4 := cbrt_nonneg (hv j).le
  positivity

example : ContinuousOn sampleRed.Tr {z | ∀ i, 0 ≤ z i} :=
  (reducing_continuous sampleRed sampleRed_regular (fun i => by fin_cases i <;> norm_num [sampleRed])
    (fun _ _ => by norm_num [sampleRed])).1

/-- C25. The invariant form with `phi + lambda = 1` on the diagonal also has the pure limits, and does
not depend on the order of the components. -/
theorem invariant_reducing {n : ℕ} (r : InvFn n) (z : Fin n → ℝ) (σ : Equiv.Perm (Fin n)) :
    (InvFn.Tr ⟨fun i j => r.phiT (σ i) (σ j), fun i j => r.lambdaT (σ i) (σ j),
        fun i j => r.phiV (σ i) (σ j), fun i j => r.lambdaV (σ i) (σ j), fun i => r.Tc (σ i),
        fun i => r.vc (σ i)⟩ (fun i => z (σ i)) = r.Tr z) ∧
    (InvFn.rhor ⟨fun i j => r.phiT (σ i) (σ j), fun i j => r.lambdaT (σ i) (σ j),
        fun i j => r.phiV (σ i) (σ j), fun i j => r.lambdaV (σ i) (σ j), fun i => r.Tc (σ i),
        fun i => r.vc (σ i)⟩ (fun i => z (σ i)) = r.rhor z) := by
  have key : ∀ phi lam Y : Fin n → Fin n → ℝ,
      invY (fun i => z (σ i)) (fun i j => phi (σ i) (σ j)) (fun i j => lam (σ i) (σ j))
        (fun i j => Y (σ i) (σ j)) = invY z phi lam Y := by
    intro phi lam Y
    unfold invY
    rw [← Equiv.sum_comp σ (fun i => z i * (∑ j, z j * phi i j * Y i j +
      (∑ j, z j * cbrt (lam i j) * cbrt (Y i j)) ^ 3))]
    refine Finset.sum_congr rfl fun i _ => ?_
    rw [← Equiv.sum_comp σ (fun j => z j * phi (σ i) j * Y (σ i) j),
      ← Equiv.sum_comp σ (fun j => z j * cbrt (lam (σ i) j) * cbrt (Y (σ i) j))]
  constructor
  · exact key r.phiT r.lambdaT fun i j => Real.sqrt (r.Tc i * r.Tc j)
  · unfold InvFn.rhor
    congr 1
    exact key r.phiV r.lambdaV fun i j => 1 / 8 * (cbrt (r.vc i) + cbrt (r.vc j)) ^ 3

example : InvFn.Tr ⟨fun i j => (![![1, 2], ![3, 4]] : Fin 2 → Fin 2 → ℝ) (Equiv.swap 0 1 i) (Equiv.swap 0 1 j),
      fun i j => (![![0, 2], ![-2, 0]] : Fin 2 → Fin 2 → ℝ) (Equiv.swap 0 1 i) (Equiv.swap 0 1 j),
      fun _ _ => 1, fun _ _ => 0, fun i => ![100, 400] (Equiv.swap 0 1 i), fun i => ![1, 8] (Equiv.swap 0 1 i)⟩
      (fun i => ![0.25, 0.75] (Equiv.swap 0 1 i))
    = InvFn.Tr ⟨![![1, 2], ![3, 4]], ![![0, 2], ![-2, 0]], fun _ _ => 1, fun _ _ => 0, ![100, 400], ![1, 8]⟩
        ![0.25, 0.75] :=
  (invariant_reducing (n := 2) ⟨![![1, 2], ![3, 4]], ![![0, 2], ![-2, 0]], fun _ _ => 1, fun _ _ => 0,
    ![100, 400], ![1, 8]⟩ ![0.25, 0.75] (Equiv.swap 0 1)).1

theorem invY_pure {n : ℕ} (phi lam Y : Fin n → Fin n → ℝ) (k : Fin n) :
    invY (Pi.single k 1) phi lam Y = (phi k k + lam k k) * Y k k := by
  unfold invY
  rw [Finset.sum_eq_single k]
  · have h1 : ∑ j, (Pi.single k 1 : Fin n → ℝ) j * phi k j * Y k j = phi k k * Y k k := by
      rw [Finset.sum_eq_single k]
      · simp
      · intro j _ hj; simp [Pi.single_eq_of_ne hj]
      · simp
    have h2 : ∑ j, (Pi.single k 1 : Fin n → ℝ) j * cbrt (lam k j) * cbrt (Y k j)
        = cbrt (lam k k) * cbrt (Y k k) := by
      rw [Finset.sum_eq_single k]
      · simp
      · intro j _ hj; simp [Pi.single_eq_of_ne hj]
      · simp
    rw [h1, h2, mul_pow, cbrt_cube, cbrt_cube]
    simp
    ring
  · intro i _ hi; simp [Pi.single_eq_of_ne hi]
  · simp

/-- C25. Pure limits of the invariant form: exactly `phi + lambda` on the diagonal times the critical
values. -/
theorem invariant_pure {n : ℕ} (r : InvFn n) (k : Fin n) (hT : 0 ≤ r.Tc k) :
    r.Tr (Pi.single k 1) = (r.phiT k k + r.lambdaT k k) * r.Tc k ∧
    r.rhor (Pi.single k 1) = 1 / ((r.phiV k k + r.lambdaV k k) * r.vc k) := by
  constructor
  · unfold InvFn.Tr
    rw [invY_pure, Real.sqrt_mul_self hT]
  · unfold InvFn.rhor
    rw [invY_pure]
    have : (cbrt (r.vc k) + cbrt (r.vc k)) ^ 3 = 8 * r.vc k := by
      have := cbrt_cube (r.vc k)
      calc _ = 8 * cbrt (r.vc k) ^ 3 := by ring
        _ = _ := by rw [this]
    rw [this]
    congr 2
    ring

example : (InvFn.mk (n := 2) (fun _ _ => 1) (fun _ _ => 0) (fun _ _ => 1) (fun _ _ => 0) ![100, 400] ![1, 8]).Tr
    (Pi.single 1 1) = 400 := by
  rw [(invariant_pure _ 1 (by norm_num)).1]; norm_num

/-- C32. The mutation interface with `beta`/`gamma` parameters keeps the pure limits, for all
parameters. -/
theorem mutantGERG_pure {n : ℕ} (Tc vc : Fin n → ℝ) (p : Fin n → Fin n → MutBIP) (k : Fin n) :
    (mutantGERG Tc vc p).Tr (Pi.single k 1) = Tc k ∧
    (mutantGERG Tc vc p).rhor (Pi.single k 1) = 1 / vc k :=
  reducing_pure (mutantGERG Tc vc p) k

example : (mutantGERG (n := 3) ![100, 200, 300] ![1, 2, 3] fun _ _ => { betaT := 1.1, gammaT := 0.9 }).Tr
    (Pi.single 2 1) = 300 := by
  rw [(mutantGERG_pure _ _ _ 2).1]; simp

/-- C32. The matrices of the mutated `beta`/`gamma` form are regular, so relabelling, positivity and
continuity apply to it. -/
theorem mutantGERG_regular {n : ℕ} (Tc vc : Fin n → ℝ) (p : Fin n → Fin n → MutBIP)
    (h : ∀ i j, i < j → 0 < (p i j).betaT ∧ 0 < (p i j).betaV) : Regular (mutantGERG Tc vc p) where
  betaT_pos i j hij := by
    simp only [mutantGERG]
    rcases lt_or_gt_of_ne hij with h' | h'
    · rw [if_pos h']; exact (h i j h').1
    · rw [if_neg h'.not_gt, if_pos h']; exact one_div_pos.mpr (h j i h').1
  betaV_pos i j hij := by
    simp only [mutantGERG]
    rcases lt_or_gt_of_ne hij with h' | h'
    · rw [if_pos h']; exact (h i j h').2
    · rw [if_neg h'.not_gt, if_pos h']; exact one_div_pos.mpr (h j i h').2
  betaT_inv i j hij := by
    simp only [mutantGERG]
    rcases lt_or_gt_of_ne hij with h' | h'
    · rw [if_neg h'.not_gt, if_pos h', if_pos h']
    · rw [if_pos h', if_neg h'.not_gt, if_pos h', one_div_one_div]
  betaV_inv i j hij := by
    simp only [mutantGERG]
    rcases lt_or_gt_of_ne hij with h' | h'
    · rw [if_neg h'.not_gt, if_pos h', if_pos h']
    · rw [if_pos h', if_neg h'.not_gt, if_pos h', one_div_one_div]
  gammaT_symm i j := by
    simp only [mutantGERG]
    rcases lt_trichotomy i j with h' | h' | h'
    · rw [if_neg h'.not_gt, if_pos h', if_pos h']
    · rw [h']
    · rw [if_pos h', if_neg h'.not_gt, if_pos h']
  gammaV_symm i j := by
    simp only [mutantGERG]
    rcases lt_trichotomy i j with h' | h' | h'
    · rw [if_neg h'.not_gt, if_pos h', if_pos h']
    · rw [h']
    · rw [if_pos h', if_neg h'.not_gt, if_pos h']

example : Regular (mutantGERG (n := 3) ![100, 200, 300] ![1, 2, 3] fun _ _ => { betaT := 1.1, betaV := 0.9 }) :=
  mutantGERG_regular _ _ _ fun _ _ _ => by norm_num

/-- C32 is false for the `invariant` type: the diagonals of `phi` are left at zero, so the pure limit of
the reducing temperature is zero and the reducing density is `1/0`. -/
theorem mutantInvariant_pure_fails {n : ℕ} (Tc vc : Fin n → ℝ) (p : Fin n → Fin n → MutBIP) (k : Fin n)
    (hT : 0 < Tc k) :
    (mutantInvariant Tc vc p).Tr (Pi.single k 1) = 0 ∧ (mutantInvariant Tc vc p).Tr (Pi.single k 1) ≠ Tc k ∧
    invY (Pi.single k 1) (mutantInvariant Tc vc p).phiV (mutantInvariant Tc vc p).lambdaV
      (fun i j => 1 / 8 * (cbrt (vc i) + cbrt (vc j)) ^ 3) = 0 := by
  have h := (invariant_pure (mutantInvariant Tc vc p) k hT.le).1
  have e : (mutantInvariant Tc vc p).Tr (Pi.single k 1) = 0 := by
    rw [h]; simp [mutantInvariant]
  refine ⟨e, by rw [e]; exact hT.ne, ?_⟩
  rw [invY_pure]
  simp [mutantInvariant]

example : (mutantInvariant (n := 2) ![100, 200] ![1, 2] fun _ _ => { phiT := 1, phiV := 1 }).Tr (Pi.single 0 1)
    ≠ 100 := by
  simpa using (mutantInvariant_pure_fails ![100, 200] ![1, 2] (fun _ _ => { phiT := 1, phiV := 1 }) 0
    (by norm_num)).2.1

/-- The binary mixture that `get_binary_interaction` makes from an entry with `xi`, `zeta`. -/
noncomputable def xiZetaRed (p : BIP) (Tc vc : Fin 2 → ℝ) : RedFn 2 where
  betaT i j := if i < j then p.betaT else 1 / p.betaT
  gammaT _ _ := p.gammaT
  betaV i j := if i < j then p.betaV else 1 / p.betaV
  gammaV _ _ := p.gammaV
  Tc := Tc
  vc := vc

theorem xiZetaRed_values (gT gV : ℝ) (Tc vc : Fin 2 → ℝ) (x : ℝ) :
    (xiZetaRed ⟨1, gT, 1, gV⟩ Tc vc).Tr ![x, 1 - x]
      = x ^ 2 * Tc 0 + (1 - x) ^ 2 * Tc 1 + x * (1 - x) * (2 * gT * Real.sqrt (Tc 0 * Tc 1)) ∧
    (xiZetaRed ⟨1, gT, 1, gV⟩ Tc vc).rhor ![x, 1 - x]
      = 1 / (x ^ 2 * vc 0 + (1 - x) ^ 2 * vc 1 +
          x * (1 - x) * (2 * 1 / 8 * gV * (cbrt (vc 0) + cbrt (vc 1)) ^ 3)) := by
  have hu : (Finset.univ.filter ((0 : Fin 2) < ·)) = {1} := by decide
  have hu' : (Finset.univ.filter ((1 : Fin 2) < ·)) = ∅ := by decide
  have hd : (1 : ℝ) * 1 * x + (1 - x) ≠ 0 := by ring_nf; norm_num
  have hd' : (1 : ℝ) * 1 * x + (1 - x) = 1 := by ring
  constructor
  · simp only [RedFn.Tr, redY, Fin.sum_univ_two, hu, hu', Finset.sum_singleton, Finset.sum_empty, add_zero,
      xiZetaRed, RedFn.YT, redTerm, Matrix.cons_val_zero, Matrix.cons_val_one, Fin.zero_lt_one, if_true]
    rw [if_pos hd, hd', if_neg (by decide)]
    ring
  · simp only [RedFn.rhor, redY, Fin.sum_univ_two, hu, hu', Finset.sum_singleton, Finset.sum_empty, add_zero,
      xiZetaRed, RedFn.Yv, redTerm, Matrix.cons_val_zero, Matrix.cons_val_one, Fin.zero_lt_one, if_true]
    rw [if_pos hd, hd', if_neg (by decide)]
    congr 1
    ring

/-- C26. The `gamma` values which reproduce the original mixing model
`Tr = Σ x Tc + x₀ x₁ ξ`, `vr = Σ x vc + x₀ x₁ ζ`, and which the code should use. -/
theorem xiZeta_intended (T0 T1 v0 v1 xi zeta x : ℝ) (hT0 : 0 < T0) (hT1 : 0 < T1) (hv0 : 0 < v0) (hv1 : 0 < v1) :
    (xiZetaRed ⟨1, 0.5 * (T0 + T1 + xi) / Real.sqrt (T0 * T1), 1,
        4 * (v0 + v1 + zeta) / (cbrt v0 + cbrt v1) ^ 3⟩ ![T0, T1] ![v0, v1]).Tr ![x, 1 - x]
      = x * T0 + (1 - x) * T1 + x * (1 - x) * xi ∧
    (xiZetaRed ⟨1, 0.5 * (T0 + T1 + xi) / Real.sqrt (T0 * T1), 1,
        4 * (v0 + v1 + zeta) / (cbrt v0 + cbrt v1) ^ 3⟩ ![T0, T1] ![v0, v1]).rhor ![x, 1 - x]
      = 1 / (x * v0 + (1 - x) * v1 + x * (1 - x) * zeta) := by
  obtain ⟨h1, h2⟩ := xiZetaRed_values (0.5 * (T0 + T1 + xi) / Real.sqrt (T0 * T1))
    (4 * (v0 + v1 + zeta) / (cbrt v0 + cbrt v1) ^ 3) ![T0, T1] ![v0, v1] x
  rw [h1, h2]
  simp only [Matrix.cons_val_zero, Matrix.cons_val_one]
  have hs : Real.sqrt (T0 * T1) ≠ 0 := (Real.sqrt_pos.mpr (mul_pos hT0 hT1)).ne'
  have hc : (cbrt v0 + cbrt v1) ^ 3 ≠ 0 := (pow_pos (add_pos (cbrt_pos hv0) (cbrt_pos hv1)) 3).ne'
  constructor
  · generalize Real.sqrt (T0 * T1) = s at hs
    field_simp
    norm_num
    ring
  · congr 1
    generalize (cbrt v0 + cbrt v1) ^ 3 = s at hc
    field_simp
    ring

example : (xiZetaRed ⟨1, 0.5 * (100 + 400 + 10) / Real.sqrt (100 * 400), 1,
        4 * (1 + 8 + 2) / (cbrt 1 + cbrt 8) ^ 3⟩ ![100, 400] ![1, 8]).Tr ![0.5, 1 - 0.5]
      = 0.5 * 100 + (1 - 0.5) * 400 + 0.5 * (1 - 0.5) * 10 :=
  (xiZeta_intended 100 400 1 8 10 2 0.5 (by norm_num) (by norm_num) (by norm_num) (by norm_num)).1

/-- C26 is false of the code: for an entry with `xi` and `zeta` the `gamma` values used are half and four
times those of the original mixing model. -/
theorem xiZeta_wrong (el : BIPEntry) (xi zeta T0 T1 v0 v1 : ℝ) (s : Bool) (h1 : el.xi = some xi)
    (h2 : el.zeta = some zeta) (h3 : el.betaT = none) (hT0 : 0 < T0) (hT1 : 0 < T1) (hv0 : 0 < v0)
    (hv1 : 0 < v1) :
    bipOfEntry el s T0 T1 v0 v1 = .ok ⟨1, (0.5 * (T0 + T1 + xi) / Real.sqrt (T0 * T1)) / 2, 1,
      4 * (4 * (v0 + v1 + zeta) / (cbrt v0 + cbrt v1) ^ 3)⟩ := by
  have hcb : ∀ v : ℝ, 0 < v → 1 / (1 / v) ^ (1 / 3 : ℝ) = cbrt v := by
    intro v hv
    unfold cbrt
    rw [sign_pos hv, abs_of_pos hv, one_div v, Real.inv_rpow hv.le, one_div, inv_inv]
    simp
  unfold bipOfEntry
  rw [h3, h1, h2]
  simp only
  rw [hcb v0 hv0, hcb v1 hv1]
  have hs : Real.sqrt (T0 * T1) ≠ 0 := (Real.sqrt_pos.mpr (mul_pos hT0 hT1)).ne'
  have hc : (cbrt v0 + cbrt v1) ^ 3 ≠ 0 := (pow_pos (add_pos (cbrt_pos hv0) (cbrt_pos hv1)) 3).ne'
  congr 2
  · generalize Real.sqrt (T0 * T1) = s at hs
    field_simp
  · generalize (cbrt v0 + cbrt v1) ^ 3 = s at hc
    field_simp
    norm_num
    ring

/-- C26. Witness: two identical fluids with `xi = zeta = 0` do not mix ideally; `gammaT` is one half and
`gammaV` is four. -/
theorem xiZeta_identical (T v : ℝ) (hT : 0 < T) (hv : 0 < v) (s : Bool) :
    bipOfEntry { xi := some 0, zeta := some 0 } s T T v v = .ok ⟨1, 1 / 2, 1, 4⟩ := by
  rw [xiZeta_wrong { xi := some 0, zeta := some 0 } 0 0 T T v v s rfl rfl rfl hT hT hv hv,
    Real.sqrt_mul_self hT.le]
  have : (cbrt v + cbrt v) ^ 3 = 8 * v := by
    have := cbrt_cube v
    calc _ = 8 * cbrt v ^ 3 := by ring
      _ = _ := by rw [this]
  rw [this]
  congr 2
  · field_simp; norm_num; ring
  · field_simp; norm_num; ring

example : bipOfEntry { xi := some 0, zeta := some 0 } false 300 300 2 2 = .ok ⟨1, 1 / 2, 1, 4⟩ :=
  xiZeta_identical 300 2 (by norm_num) (by norm_num) false

/-- C26. What remains true of the code: the temperature part is right exactly when half the requested
parameter is the right one, that is only for `ξ = -(T₀ + T₁)`. -/
theorem xiZeta_partial (T0 T1 xi : ℝ) (hT0 : 0 < T0) (hT1 : 0 < T1) :
    0.5 * (T0 + T1 + xi) / (2 * Real.sqrt (T0 * T1)) = 0.5 * (T0 + T1 + xi) / Real.sqrt (T0 * T1)
      ↔ xi = -(T0 + T1) := by
  have hs : Real.sqrt (T0 * T1) ≠ 0 := (Real.sqrt_pos.mpr (mul_pos hT0 hT1)).ne'
  rw [div_eq_div_iff (by positivity) hs]
  constructor
  · intro h
    have : 0.5 * (T0 + T1 + xi) * Real.sqrt (T0 * T1) = 0 := by linarith
    rcases mul_eq_zero.mp this with h | h
    · linarith
    · exact absurd h hs
  · rintro rfl; ring

example : ¬(0.5 * ((100 : ℝ) + 100 + 0) / (2 * Real.sqrt (100 * 100)) = 0.5 * (100 + 100 + 0) / Real.sqrt (100 * 100)) := by
  rw [xiZeta_partial 100 100 0 (by norm_num) (by norm_num)]; norm_num

end Teqp.Props
