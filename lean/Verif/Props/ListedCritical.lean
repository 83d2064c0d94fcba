import Verif.Props.ListedTwice
import Verif.Props.CritEigen

/-! # C189: intrinsic stability and critical states of a mixture with a component listed several times -/

set_option autoImplicit false

namespace Teqp.Props
open Teqp Teqp.Model Teqp.Spec Teqp.Calc Teqp.Sample Teqp.Lemmas Teqp.CritTrace Finset

section
variable {κ ι : Type} [Fintype κ] [Fintype ι] [DecidableEq ι] {f : κ → ι}

/-- The change of the densities as written that keeps the shares of the copies. -/
noncomputable def spread (f : κ → ι) (ρ : κ → ℝ) (w : ι → ℝ) (k : κ) : ℝ := ρ k * (w (f k) / gathered f ρ (f k))

theorem gathered_spread {ρ : κ → ℝ} (hg : ∀ i, gathered f ρ i ≠ 0) (w : ι → ℝ) : gathered f (spread f ρ w) = w := by
  funext i
  have : gathered f (spread f ρ w) i = gathered f ρ i * (w i / gathered f ρ i) := by
    rw [gathered, gathered, sum_mul]
    refine sum_congr rfl fun k hk => ?_
    rw [spread, (mem_filter.1 hk).2, gathered]
  rw [this, mul_div_cancel₀ _ (hg i)]

theorem gathered_add (x y : κ → ℝ) (s : ℝ) : gathered f (fun k => x k + s * y k) = fun i => gathered f x i + s * gathered f y i := by
  funext i
  simp only [gathered, sum_add_distrib, mul_sum]

/-- Splitting a component costs ideal-gas curvature exactly for the change of the shares. -/
theorem ideal_two_split {ρ : κ → ℝ} (hρ : ∀ k, 0 < ρ k) (hg : ∀ i, gathered f ρ i ≠ 0) (v : κ → ℝ) :
    ∑ k, v k ^ 2 / ρ k = ∑ i, gathered f v i ^ 2 / gathered f ρ i + ∑ k, ρ k * (v k / ρ k - gathered f v (f k) / gathered f ρ (f k)) ^ 2 := by
  have h1 := gathered_sum f v fun i => gathered f v i / gathered f ρ i
  have h2 := gathered_sum f ρ fun i => (gathered f v i / gathered f ρ i) ^ 2
  have h3 : ∑ i, gathered f ρ i * (gathered f v i / gathered f ρ i) ^ 2 = ∑ i, gathered f v i * (gathered f v i / gathered f ρ i) :=
    sum_congr rfl fun i _ => by
      have := hg i
      field_simp
  have h4 : ∑ i, gathered f v i ^ 2 / gathered f ρ i = ∑ i, gathered f v i * (gathered f v i / gathered f ρ i) := sum_congr rfl fun i _ => by ring
  have h5 : ∑ k, ρ k * (v k / ρ k - gathered f v (f k) / gathered f ρ (f k)) ^ 2 = ∑ k, v k ^ 2 / ρ k - 2 * ∑ k, v k * (gathered f v (f k) / gathered f ρ (f k)) +
      ∑ k, ρ k * (gathered f v (f k) / gathered f ρ (f k)) ^ 2 := by
    rw [mul_sum, ← sum_sub_distrib, ← sum_add_distrib]
    refine sum_congr rfl fun k _ => ?_
    have := (hρ k).ne'
    generalize gathered f v (f k) / gathered f ρ (f k) = c
    field_simp
    ring
  rw [h5, h1, h2, h3, h4]
  ring

theorem ideal_three_spread {ρ : κ → ℝ} (hρ : ∀ k, 0 < ρ k) (hg : ∀ i, gathered f ρ i ≠ 0) (w : ι → ℝ) :
    ∑ k, spread f ρ w k ^ 3 / ρ k ^ 2 = ∑ i, w i ^ 3 / gathered f ρ i ^ 2 := by
  have h2 := gathered_sum f ρ fun i => (w i / gathered f ρ i) ^ 3
  have e : ∑ k, spread f ρ w k ^ 3 / ρ k ^ 2 = ∑ k, ρ k * (w (f k) / gathered f ρ (f k)) ^ 3 := sum_congr rfl fun k _ => by
    have := (hρ k).ne'
    unfold spread
    generalize w (f k) / gathered f ρ (f k) = c
    field_simp
  rw [e, h2]
  refine sum_congr rfl fun i _ => ?_
  have := hg i
  field_simp
end

section
variable {p q : ℕ} {f : Fin (p + 2) → Fin (q + 2)} {m' : EOS (Fin (p + 2))} {m : EOS (Fin (q + 2))} {T R : ℝ} {ρ : Fin (p + 2) → ℝ}

theorem gathered_pos (hf : Function.Surjective f) (hρ : ∀ k, 0 < ρ k) (i : Fin (q + 2)) : 0 < gathered f ρ i := by
  obtain ⟨k, hk⟩ := hf i
  exact sum_pos (fun l _ => hρ l) ⟨k, mem_filter.2 ⟨mem_univ k, hk⟩⟩

theorem SameEOS.line (h : SameEOS f m' m) (T : ℝ) (ρ v : Fin (p + 2) → ℝ) :
    (fun σ : ℝ => Model.Psir m' T fun k => ρ k + σ * v k) = fun σ : ℝ => Model.Psir m T fun i => gathered f ρ i + σ * gathered f v i := by
  funext σ
  rw [h.Psir, gathered_add]

theorem dir_ideal {n k : ℕ} {m : EOS (Fin (n + 2))} {ρ : Fin (n + 2) → ℝ} (hR : ∀ x, m.R x = R) (hρ : ∀ i, 0 < ρ i) (v : Fin (n + 2) → ℝ) (hk : 2 ≤ k) (hk4 : k ≤ 4)
    (hs : ContDiffAt ℝ k (fun σ : ℝ => Psir m T (fun i => ρ i + σ * v i)) 0) :
    dirDeriv (psiTotal m.alphar R T) ρ v k = psi0Deriv R T ρ v k + PsirSigmaDeriv m T ρ v k := by
  rw [dirDeriv, ← psiTot_eq hR hρ hk hk4 hs, psiTot, hR]

theorem psi0_two {n : ℕ} {ρ : Fin (n + 2) → ℝ} (hρ : ∀ i, 0 < ρ i) (v : Fin (n + 2) → ℝ) : psi0Deriv R T ρ v 2 = R * T * ∑ i, v i ^ 2 / ρ i := by
  rw [psi0Deriv, mul_sum]
  refine sum_congr rfl fun i _ => ?_
  rw [if_pos (hρ i).ne']
  ring

theorem psi0_three {n : ℕ} {ρ : Fin (n + 2) → ℝ} (hρ : ∀ i, 0 < ρ i) (v : Fin (n + 2) → ℝ) : psi0Deriv R T ρ v 3 = -(R * T) * ∑ i, v i ^ 3 / ρ i ^ 2 := by
  rw [psi0Deriv, mul_sum]
  refine sum_congr rfl fun i _ => ?_
  rw [if_pos (hρ i).ne']
  ring

/-- The state is three times differentiable along every line through the merged densities. -/
def Lines3 {n : ℕ} (m : EOS (Fin (n + 2))) (T : ℝ) (ρ : Fin (n + 2) → ℝ) : Prop :=
  ∀ w : Fin (n + 2) → ℝ, ContDiffAt ℝ (3 : ℕ) (fun σ : ℝ => Psir m T (fun i => ρ i + σ * w i)) 0

theorem lines_listed (h : SameEOS f m' m) (hs : Lines3 m T (gathered f ρ)) : Lines3 m' T ρ := fun v => by
  rw [h.line]
  exact hs (gathered f v)

/-- **C189, the curvature**: the listing adds the curvature of mixing the copies and nothing else. -/
theorem listing_curvature (h : SameEOS f m' m) (hf : Function.Surjective f) (hR : ∀ x, m.R x = R) (hρ : ∀ k, 0 < ρ k) (hs : Lines3 m T (gathered f ρ)) (v : Fin (p + 2) → ℝ) :
    dirDeriv (psiTotal m'.alphar R T) ρ v 2 = dirDeriv (psiTotal m.alphar R T) (gathered f ρ) (gathered f v) 2 +
      R * T * ∑ k, ρ k * (v k / ρ k - gathered f v (f k) / gathered f ρ (f k)) ^ 2 := by
  have hg := gathered_pos hf hρ
  have hR' : ∀ x, m'.R x = R := fun x => by rw [h.R, hR]
  have hs' := lines_listed h hs
  rw [dir_ideal hR' hρ v le_rfl (by norm_num) ((hs' v).of_le (by norm_num)), dir_ideal hR hg _ le_rfl (by norm_num) ((hs _).of_le (by norm_num)), psi0_two hρ, psi0_two hg,
    PsirSigmaDeriv, PsirSigmaDeriv, h.line, ideal_two_split hρ fun i => (hg i).ne']
  ring

theorem spread_two (h : SameEOS f m' m) (hf : Function.Surjective f) (hR : ∀ x, m.R x = R) (hρ : ∀ k, 0 < ρ k) (hs : Lines3 m T (gathered f ρ)) (w : Fin (q + 2) → ℝ) :
    dirDeriv (psiTotal m'.alphar R T) ρ (spread f ρ w) 2 = dirDeriv (psiTotal m.alphar R T) (gathered f ρ) w 2 := by
  rw [listing_curvature h hf hR hρ hs, gathered_spread fun i => (gathered_pos hf hρ i).ne', sum_eq_zero, mul_zero, add_zero]
  intro k _
  rw [spread, mul_div_cancel_left₀ _ (hρ k).ne', sub_self]
  ring

theorem spread_three (h : SameEOS f m' m) (hf : Function.Surjective f) (hR : ∀ x, m.R x = R) (hρ : ∀ k, 0 < ρ k) (hs : Lines3 m T (gathered f ρ)) (w : Fin (q + 2) → ℝ) :
    dirDeriv (psiTotal m'.alphar R T) ρ (spread f ρ w) 3 = dirDeriv (psiTotal m.alphar R T) (gathered f ρ) w 3 := by
  have hg := gathered_pos hf hρ
  have hR' : ∀ x, m'.R x = R := fun x => by rw [h.R, hR]
  have hs' := lines_listed h hs
  rw [dir_ideal hR' hρ _ (by norm_num) (by norm_num) (hs' _), dir_ideal hR hg _ (by norm_num) (by norm_num) (hs w), psi0_three hρ, psi0_three hg,
    PsirSigmaDeriv, PsirSigmaDeriv, h.line, gathered_spread fun i => (hg i).ne', ideal_three_spread hρ fun i => (hg i).ne']

/-- A direction without curvature keeps the shares. -/
theorem flat_spread (h : SameEOS f m' m) (hf : Function.Surjective f) (hR : ∀ x, m.R x = R) (hRT : 0 < R * T) (hρ : ∀ k, 0 < ρ k) (hs : Lines3 m T (gathered f ρ))
    (hpos : ∀ w, 0 ≤ dirDeriv (psiTotal m.alphar R T) (gathered f ρ) w 2) {v : Fin (p + 2) → ℝ} (hv : dirDeriv (psiTotal m'.alphar R T) ρ v 2 = 0) :
    v = spread f ρ (gathered f v) ∧ dirDeriv (psiTotal m.alphar R T) (gathered f ρ) (gathered f v) 2 = 0 := by
  rw [listing_curvature h hf hR hρ hs] at hv
  have h1 := hpos (gathered f v)
  have h2 : 0 ≤ ∑ k, ρ k * (v k / ρ k - gathered f v (f k) / gathered f ρ (f k)) ^ 2 := sum_nonneg fun k _ => mul_nonneg (hρ k).le (sq_nonneg _)
  have h3 := mul_nonneg hRT.le h2
  have h4 : ∑ k, ρ k * (v k / ρ k - gathered f v (f k) / gathered f ρ (f k)) ^ 2 = 0 := by
    have : R * T * ∑ k, ρ k * (v k / ρ k - gathered f v (f k) / gathered f ρ (f k)) ^ 2 = 0 := by linarith
    exact (mul_eq_zero.1 this).resolve_left hRT.ne'
  refine ⟨funext fun k => ?_, by linarith⟩
  have h5 := (sum_eq_zero_iff_of_nonneg fun k _ => mul_nonneg (hρ k).le (sq_nonneg _)).1 h4 k (mem_univ k)
  have h6 := sub_eq_zero.1 (pow_eq_zero_iff two_ne_zero |>.1 ((mul_eq_zero.1 h5).resolve_left (hρ k).ne'))
  rw [spread, ← h6, mul_div_cancel₀ _ (hρ k).ne']

theorem spread_ne {w : Fin (q + 2) → ℝ} (hf : Function.Surjective f) (hρ : ∀ k, 0 < ρ k) (hw : ∃ i, w i ≠ 0) : ∃ k, spread f ρ w k ≠ 0 := by
  by_contra hn
  push Not at hn
  obtain ⟨i, hi⟩ := hw
  have := congrFun (gathered_spread (f := f) (ρ := ρ) (fun i => (gathered_pos hf hρ i).ne') w) i
  rw [gathered, sum_eq_zero fun k _ => hn k] at this
  exact hi this.symm

/-- **C189, intrinsic stability**: the energy is convex for the mixture as written exactly when it is for the merged one; the same with strict convexity. -/
theorem listing_stable (h : SameEOS f m' m) (hf : Function.Surjective f) (hR : ∀ x, m.R x = R) (hRT : 0 < R * T) (hρ : ∀ k, 0 < ρ k) (hs : Lines3 m T (gathered f ρ)) :
    ((∀ v, 0 ≤ dirDeriv (psiTotal m'.alphar R T) ρ v 2) ↔ ∀ w, 0 ≤ dirDeriv (psiTotal m.alphar R T) (gathered f ρ) w 2) ∧
    ((∀ v, (∃ k, v k ≠ 0) → 0 < dirDeriv (psiTotal m'.alphar R T) ρ v 2) ↔ ∀ w, (∃ i, w i ≠ 0) → 0 < dirDeriv (psiTotal m.alphar R T) (gathered f ρ) w 2) := by
  have conv : (∀ v, 0 ≤ dirDeriv (psiTotal m'.alphar R T) ρ v 2) ↔ ∀ w, 0 ≤ dirDeriv (psiTotal m.alphar R T) (gathered f ρ) w 2 := by
    constructor
    · intro hv w
      rw [← spread_two h hf hR hρ hs]
      exact hv _
    · intro hw v
      rw [listing_curvature h hf hR hρ hs]
      exact add_nonneg (hw _) (mul_nonneg hRT.le (sum_nonneg fun k _ => mul_nonneg (hρ k).le (sq_nonneg _)))
  refine ⟨conv, ?_, ?_⟩
  · intro hv w hw
    rw [← spread_two h hf hR hρ hs]
    exact hv _ (spread_ne hf hρ hw)
  · intro hw v hv
    have hpos : ∀ w, 0 ≤ dirDeriv (psiTotal m.alphar R T) (gathered f ρ) w 2 := fun w => by
      by_cases hz : ∃ i, w i ≠ 0
      · exact (hw w hz).le
      · push Not at hz
        have e : w = fun _ => 0 := funext hz
        rw [e, dirDeriv]
        simp [iteratedDeriv_const]
    refine lt_of_le_of_ne (conv.2 hpos v) fun hz => ?_
    obtain ⟨e, h0⟩ := flat_spread h hf hR hRT hρ hs hpos hz.symm
    have hw0 : ¬ ∃ i, gathered f v i ≠ 0 := fun hn => (hw _ hn).ne' h0
    push Not at hw0
    obtain ⟨k, hk⟩ := hv
    rw [e, spread, hw0] at hk
    simp at hk

/-- **C189, critical states**: a state is critical for the mixture as written exactly when the merged state is. -/
theorem listing_critical (h : SameEOS f m' m) (hf : Function.Surjective f) (hR : ∀ x, m.R x = R) (hRT : 0 < R * T) (hρ : ∀ k, 0 < ρ k) (hs : Lines3 m T (gathered f ρ)) :
    IsCritical (psiTotal m'.alphar R) T ρ ↔ IsCritical (psiTotal m.alphar R) T (gathered f ρ) := by
  have conv := (listing_stable h hf hR hRT hρ hs).1
  constructor
  · rintro ⟨hp, v, ⟨k, hk⟩, h2, h3⟩
    obtain ⟨e, h0⟩ := flat_spread h hf hR hRT hρ hs (conv.1 hp) h2
    refine ⟨conv.1 hp, gathered f v, ⟨f k, fun hz => ?_⟩, h0, ?_⟩
    · rw [e, spread, hz] at hk
      simp at hk
    · rw [← spread_three h hf hR hρ hs, ← e, h3]
  · rintro ⟨hp, w, hw, h2, h3⟩
    exact ⟨conv.2 hp, spread f ρ w, spread_ne hf hρ hw, by rw [spread_two h hf hR hρ hs, h2], by rw [spread_three h hf hR hρ hs, h3]⟩

theorem smooth_listed (h : SameEOS f m' m) (hR : ∀ x, m.R x = R) (hsm : SmoothAt m T (gathered f ρ)) : SmoothAt m' T ρ := by
  refine ⟨rhotot_gathered (f := f) ρ ▸ hsm.tot, ?_, ?_⟩
  · have e : (fun z : ℝ × ℝ × (Fin (p + 2) → ℝ) => m'.alphar z.1 z.2.1 z.2.2) =
        (fun z : ℝ × ℝ × (Fin (q + 2) → ℝ) => m.alphar z.1 z.2.1 z.2.2) ∘ fun z : ℝ × ℝ × (Fin (p + 2) → ℝ) => (z.1, z.2.1, gathered f z.2.2) := by
      funext z
      exact h.alphar _ _ _
    rw [e]
    refine ContDiffAt.comp _ ?_ ?_
    · have := hsm.hα
      rw [rhotot_gathered, molefrac_gathered] at this
      exact this
    · have hg : ContDiff ℝ 2 fun x : Fin (p + 2) → ℝ => gathered f x := contDiff_pi.2 fun i => by
        unfold gathered
        exact ContDiff.sum fun k _ => contDiff_apply ℝ ℝ k
      exact (contDiff_fst.prodMk ((contDiff_fst.comp contDiff_snd).prodMk (hg.comp (contDiff_snd.comp contDiff_snd)))).contDiffAt
  · have : m'.R = fun _ => R := funext fun x => by rw [h.R, hR]
    rw [this]
    exact contDiffAt_const

/-- **C189, the criticality conditions**: they vanish for the mixture as written exactly when they vanish for the merged one, where there is one critical direction. -/
theorem listing_conditions {eig : EigSolver} (he : EigContract eig) (h : SameEOS f m' m) (hf : Function.Surjective f) (hR : ∀ x, m.R x = R) (hRT : 0 < R * T) (hρ : ∀ k, 0 < ρ k)
    (hsm : SmoothAt m T (gathered f ρ)) (hs : Lines3 m T (gathered f ρ))
    (h1d : ∀ w w', dirDeriv (psiTotal m.alphar R T) (gathered f ρ) w 2 = 0 → dirDeriv (psiTotal m.alphar R T) (gathered f ρ) w' 2 = 0 → (∃ i, w i ≠ 0) → ∃ μ : ℝ, ∀ i, w' i = μ * w i) :
    critConditions m' eig T ρ = .ok (0, 0) ↔ critConditions m eig T (gathered f ρ) = .ok (0, 0) := by
  have hg := gathered_pos hf hρ
  have hR' : ∀ x, m'.R x = R := fun x => by rw [h.R, hR]
  have hs' := lines_listed h hs
  have hsm' := smooth_listed h hR hsm
  constructor
  · intro hc
    exact critConditions_complete he hsm hR hg hs ((listing_critical h hf hR hRT hρ hs).1 (critConditions_sound he hsm' hR' hρ hs' hc)) h1d
  · intro hc
    have hcr := critConditions_sound he hsm hR hg hs hc
    refine critConditions_complete he hsm' hR' hρ hs' ((listing_critical h hf hR hRT hρ hs).2 hcr) fun v v' hv hv' hne => ?_
    obtain ⟨e, h0⟩ := flat_spread h hf hR hRT hρ hs hcr.1 hv
    obtain ⟨e', h0'⟩ := flat_spread h hf hR hRT hρ hs hcr.1 hv'
    have hn : ∃ i, gathered f v i ≠ 0 := by
      obtain ⟨k, hk⟩ := hne
      refine ⟨f k, fun hz => ?_⟩
      rw [e, spread, hz] at hk
      simp at hk
    obtain ⟨μ, hμ⟩ := h1d _ _ h0 h0' hn
    refine ⟨μ, fun k => ?_⟩
    rw [e', congrFun e k, spread, spread, hμ]
    ring
end

/-! ## The sample fluid with its first component listed twice -/

/-- The sample fluid of C42 with the first component listed twice. -/
noncomputable def bendTwice : EOS (Fin 3) := ⟨fun T r x => bend.alphar T r (gathered (![0, 1, 0] : Fin 3 → Fin 2) x), fun _ => 1⟩

theorem bendTwice_same : SameEOS (![0, 1, 0] : Fin 3 → Fin 2) bendTwice bend := ⟨fun _ _ _ => rfl, fun _ => rfl⟩

theorem bendTwice_onto : Function.Surjective (![0, 1, 0] : Fin 3 → Fin 2) := fun i => by fin_cases i; exacts [⟨0, rfl⟩, ⟨1, rfl⟩]

theorem bendTwice_densities : gathered (![0, 1, 0] : Fin 3 → Fin 2) ![1 / 8, 1 / 2, 3 / 8] = fun _ => 2 - 3 / 2 := by
  funext i
  rw [gathered, sum_filter, Fin.sum_univ_three]
  fin_cases i <;> simp <;> norm_num

theorem bendTwice_pos : ∀ k : Fin 3, (0 : ℝ) < (![1 / 8, 1 / 2, 3 / 8] : Fin 3 → ℝ) k := fun k => by fin_cases k <;> norm_num

/-- The state with shares 1 : 3 of the copies is critical. -/
theorem bendTwice_critical : IsCritical (psiTotal bendTwice.alphar 1) (3 / 2) ![1 / 8, 1 / 2, 3 / 8] := by
  refine (listing_critical (p := 1) (q := 0) (R := 1) bendTwice_same bendTwice_onto (fun _ => rfl) (by norm_num) bendTwice_pos ?_).2 ?_
  · rw [bendTwice_densities]
    exact bend_line3 _ (by norm_num) fun _ => by norm_num
  · rw [bendTwice_densities]
    exact bend_critical (by norm_num) (by norm_num)

example : ∀ v, 0 ≤ dirDeriv (psiTotal bendTwice.alphar 1 (3 / 2)) ![1 / 8, 1 / 2, 3 / 8] v 2 := bendTwice_critical.1

/-- Along a change of the shares alone the curvature is that of an ideal mixture. -/
example : dirDeriv (psiTotal bendTwice.alphar 1 (3 / 2)) ![1 / 8, 1 / 2, 3 / 8] ![1, 0, -1] 2 = 16 := by
  have hg : gathered (![0, 1, 0] : Fin 3 → Fin 2) (![1, 0, -1] : Fin 3 → ℝ) = fun _ => 0 := by
    funext i
    rw [gathered, sum_filter, Fin.sum_univ_three]
    fin_cases i <;> simp
  rw [listing_curvature (p := 1) (q := 0) (R := 1) bendTwice_same bendTwice_onto (fun _ => rfl) bendTwice_pos ?_, hg, Fin.sum_univ_three, dirDeriv]
  · simp [iteratedDeriv_const]
    norm_num
  · rw [bendTwice_densities]
    exact bend_line3 _ (by norm_num) fun _ => by norm_num

example : critConditions (n := 1) bendTwice spectralEig (3 / 2) ![1 / 8, 1 / 2, 3 / 8] = .ok (0, 0) := by
  have hd := bendTwice_densities
  have hρ : ∀ i : Fin 2, 0 < (fun _ : Fin 2 => (2 : ℝ) - 3 / 2) i := fun _ => by norm_num
  refine (listing_conditions (p := 1) (q := 0) (R := 1) spectralEig_contract bendTwice_same bendTwice_onto (fun _ => rfl) (by norm_num) bendTwice_pos ?_ ?_ ?_).2 ?_
  · rw [hd]
    exact bend_smooth (by norm_num) hρ
  · rw [hd]
    exact bend_line3 _ (by norm_num) hρ
  · rw [hd]
    intro w w' hw hw' hne
    rw [bend_dir (by norm_num) hρ _ (by norm_num)] at hw hw'
    simp only [bendD] at hw hw'
    have h1 : w 1 = (1 / 2) * w 0 := by nlinarith [sq_nonneg (w 1 - (1 / 2) * w 0)]
    have h1' : w' 1 = (1 / 2) * w' 0 := by nlinarith [sq_nonneg (w' 1 - (1 / 2) * w' 0)]
    have hw0 : w 0 ≠ 0 := by
      intro hz
      obtain ⟨i, hi⟩ := hne
      fin_cases i
      · exact hi hz
      · simp [hz] at h1
        exact hi h1
    refine ⟨w' 0 / w 0, fun i => ?_⟩
    fin_cases i
    · simp; field_simp
    · simp only [Fin.mk_one, h1, h1']
      field_simp
  · rw [hd]
    exact bend_conditions (by norm_num) (by norm_num)

end Teqp.Props
