import Mathlib.Analysis.Calculus.Deriv.Basic
import Mathlib.Analysis.Calculus.Deriv.Add
import Mathlib.Analysis.Calculus.DerivativeTest
import Mathlib.Analysis.Calculus.LocalExtr.Basic
import Mathlib.Analysis.Calculus.LocalExtr.Rolle
import Mathlib.Analysis.Calculus.Deriv.MeanValue
import Mathlib.Topology.Order.IntermediateValue
import Mathlib.Topology.Order.Compact
import Mathlib.Topology.MetricSpace.Lipschitz
import Mathlib.Tactic.Linarith
import Mathlib.Tactic.Positivity
import Mathlib.Tactic.FunProp

/-! # Common tangents of a function with a concave point -/

set_option autoImplicit false

namespace Teqp.Lemmas
open Filter Topology Set

/-- A function on `[0, B)` that falls vertically at zero, grows without bound at `B` and has a point `s` without a supporting line, has a line that touches it on both sides of `s`. -/
theorem common_tangent (Ψ : ℝ → ℝ) (B s : ℝ) (h0s : 0 < s) (hsB : s < B) (hc : ContinuousOn Ψ (Ico 0 B)) (hd : ∀ ρ ∈ Ioo 0 B, DifferentiableAt ℝ Ψ ρ)
    (hz : ∀ M, ∃ ρ ∈ Ioo 0 s, Ψ ρ < Ψ 0 + M * ρ) (ht : Tendsto Ψ (𝓝[<] B) atTop) (hn : ∀ μ, ∃ ρ ∈ Ico 0 B, Ψ ρ < Ψ s + μ * (ρ - s)) :
    ∃ v l, 0 < v ∧ v < s ∧ s < l ∧ l < B ∧ deriv Ψ v = deriv Ψ l ∧ Ψ v - v * deriv Ψ v = Ψ l - l * deriv Ψ l ∧
      ∀ ρ ∈ Ico 0 B, Ψ v + deriv Ψ v * (ρ - v) ≤ Ψ ρ := by
  have hB : 0 < B := h0s.trans hsB
  have hsub1 : Icc 0 s ⊆ Ico 0 B := fun ρ h => ⟨h.1, h.2.trans_lt hsB⟩
  -- minimisers left and right of the point, for every slope
  have left (μ : ℝ) : ∃ v ∈ Icc 0 s, ∀ ρ ∈ Icc 0 s, Ψ v - μ * v ≤ Ψ ρ - μ * ρ := by
    have hc1 : ContinuousOn (fun ρ => Ψ ρ - μ * ρ) (Icc 0 s) := (hc.mono hsub1).sub (by fun_prop)
    obtain ⟨v, hv, hm⟩ := isCompact_Icc.exists_isMinOn ⟨0, left_mem_Icc.2 h0s.le⟩ hc1
    exact ⟨v, hv, fun ρ hρ => hm hρ⟩
  have right (μ : ℝ) : ∃ l ∈ Ico s B, ∀ ρ ∈ Ico s B, Ψ l - μ * l ≤ Ψ ρ - μ * ρ := by
    have e := ht.eventually_ge_atTop (Ψ s - μ * s + |μ| * B)
    have e2 : ∀ᶠ ρ in 𝓝[<] B, ρ ∈ Ioo s B := Ioo_mem_nhdsLT hsB
    obtain ⟨L, hL, hLB⟩ := (mem_nhdsLT_iff_exists_Ioo_subset' hsB).1 (inter_mem e e2)
    have hLB : ∀ ρ ∈ Ioo L B, Ψ s - μ * s + |μ| * B ≤ Ψ ρ := fun ρ hρ => (hLB hρ).1
    have hL' : L < B := hL
    have hcc : ContinuousOn (fun ρ => Ψ ρ - μ * ρ) (Icc s (max s L)) := by
      refine (hc.mono fun ρ h => ⟨h0s.le.trans h.1, h.2.trans_lt (max_lt hsB hL')⟩).sub (by fun_prop)
    obtain ⟨l, hl, hm⟩ := isCompact_Icc.exists_isMinOn ⟨s, left_mem_Icc.2 (le_max_left s L)⟩ hcc
    refine ⟨l, ⟨hl.1, hl.2.trans_lt (max_lt hsB hL')⟩, fun ρ hρ => ?_⟩
    by_cases h : ρ ≤ max s L
    · exact hm ⟨hρ.1, h⟩
    · push Not at h
      have h1 := hLB ρ ⟨(le_max_right s L).trans_lt h, hρ.2⟩
      have h2 : Ψ l - μ * l ≤ Ψ s - μ * s := hm ⟨le_rfl, le_max_left s L⟩
      have h3 : μ * ρ ≤ |μ| * B := by
        calc μ * ρ ≤ |μ| * ρ := mul_le_mul_of_nonneg_right (le_abs_self μ) (h0s.le.trans hρ.1)
          _ ≤ |μ| * B := mul_le_mul_of_nonneg_left hρ.2.le (abs_nonneg μ)
      linarith
  choose v hv hvm using left
  choose l hl hlm using right
  have lip {I : Set ℝ} (hI : I ⊆ Ico 0 B) (w : ℝ → ℝ) (hw : ∀ μ, w μ ∈ I) (hwm : ∀ μ, ∀ ρ ∈ I, Ψ (w μ) - μ * w μ ≤ Ψ ρ - μ * ρ) :
      Continuous fun μ => Ψ (w μ) - μ * w μ := by
    have one (μ ν : ℝ) : (Ψ (w μ) - μ * w μ) - (Ψ (w ν) - ν * w ν) ≤ B * |μ - ν| := by
      have h1 := hwm μ (w ν) (hw ν)
      have h2 := hI (hw ν)
      have h3 : (ν - μ) * w ν ≤ |μ - ν| * B := by
        calc (ν - μ) * w ν ≤ |μ - ν| * w ν := mul_le_mul_of_nonneg_right (by rw [abs_sub_comm]; exact le_abs_self _) h2.1
          _ ≤ |μ - ν| * B := mul_le_mul_of_nonneg_left h2.2.le (abs_nonneg _)
      nlinarith
    have : LipschitzWith ⟨B, hB.le⟩ fun μ => Ψ (w μ) - μ * w μ := by
      refine LipschitzWith.of_dist_le_mul fun μ ν => ?_
      rw [Real.dist_eq, Real.dist_eq, abs_le]
      have h1 := one μ ν
      have h2 := one ν μ
      rw [abs_sub_comm] at h2
      refine ⟨?_, ?_⟩
      · change -(B * |μ - ν|) ≤ _
        linarith
      · exact h1
    exact this.continuous
  have c1 := lip hsub1 v hv hvm
  have c2 := lip (I := Ico s B) (fun ρ h => ⟨h0s.le.trans h.1, h.2⟩) l hl hlm
  -- a lower bound of the function right and left
  have b1 := hvm 0 
  have b2 := hlm 0
  simp only [zero_mul, sub_zero] at b1 b2
  -- for a steep negative slope the left minimum is lower, for a steep positive one the right
  have hneg : ∃ μ, (Ψ (v μ) - μ * v μ) - (Ψ (l μ) - μ * l μ) ≤ 0 := by
    refine ⟨-((|Ψ 0 - Ψ (l 0)|) / s), ?_⟩
    set μ := -((|Ψ 0 - Ψ (l 0)|) / s)
    have h1 := hvm μ 0 ⟨le_rfl, h0s.le⟩
    have h2 := b2 (l μ) (hl μ)
    have h3 : -μ * s ≤ -μ * l μ := mul_le_mul_of_nonneg_left (hl μ).1 (by simp only [μ, neg_neg]; positivity)
    have h4 : -μ * s = |Ψ 0 - Ψ (l 0)| := by simp only [μ, neg_neg]; field_simp
    have := le_abs_self (Ψ 0 - Ψ (l 0))
    nlinarith
  have hpos : ∃ μ, 0 ≤ (Ψ (v μ) - μ * v μ) - (Ψ (l μ) - μ * l μ) := by
    set c := (s + B) / 2 with hcd
    have hc1 : c ∈ Ico s B := ⟨by rw [hcd]; linarith, by rw [hcd]; linarith⟩
    have hcs : 0 < c - s := by rw [hcd]; linarith
    refine ⟨|Ψ c - Ψ (v 0)| / (c - s), ?_⟩
    set μ := |Ψ c - Ψ (v 0)| / (c - s)
    have h1 := hlm μ c hc1
    have h2 := b1 (v μ) (hv μ)
    have hμ : 0 ≤ μ := by positivity
    have h3 : μ * v μ ≤ μ * s := mul_le_mul_of_nonneg_left (hv μ).2 hμ
    have h4 : μ * (c - s) = |Ψ c - Ψ (v 0)| := by simp only [μ]; field_simp
    have := le_abs_self (Ψ c - Ψ (v 0))
    nlinarith
  obtain ⟨μa, ha⟩ := hneg
  obtain ⟨μb, hb⟩ := hpos
  obtain ⟨μ, hμ⟩ := mem_range_of_exists_le_of_exists_ge (c1.sub c2) ⟨μa, ha⟩ ⟨μb, hb⟩
  have hμ : (Ψ (v μ) - μ * v μ) - (Ψ (l μ) - μ * l μ) = 0 := hμ
  have hall (ρ : ℝ) (hρ : ρ ∈ Ico 0 B) : Ψ (v μ) - μ * v μ ≤ Ψ ρ - μ * ρ := by
    rcases le_total ρ s with h | h
    · exact hvm μ ρ ⟨hρ.1, h⟩
    · have := hlm μ ρ ⟨h, hρ.2⟩
      linarith
  have nos (w : ℝ) (hw : Ψ w - μ * w = Ψ (v μ) - μ * v μ) : w ≠ s := by
    rintro rfl
    obtain ⟨ρ, hρ, hlt⟩ := hn μ
    have := hall ρ hρ
    linarith
  have hvs : v μ < s := lt_of_le_of_ne (hv μ).2 (nos _ rfl)
  have hsl : s < l μ := lt_of_le_of_ne (hl μ).1 (nos _ (by linarith)).symm
  have hv0 : 0 < v μ := by
    refine lt_of_le_of_ne (hv μ).1 fun e => ?_
    obtain ⟨ρ, hρ, hlt⟩ := hz μ
    have := hvm μ ρ ⟨hρ.1.le, hρ.2.le⟩
    rw [← e] at this
    linarith
  have der (w : ℝ) (hw : w ∈ Ioo 0 B) (hwe : Ψ w - μ * w = Ψ (v μ) - μ * v μ) : deriv Ψ w = μ := by
    have hmin : IsLocalMin (fun ρ => Ψ ρ - μ * ρ) w := by
      filter_upwards [Ioo_mem_nhds hw.1 hw.2] with ρ hρ
      rw [hwe]
      exact hall ρ ⟨hρ.1.le, hρ.2⟩
    have hd1 : HasDerivAt (fun ρ => Ψ ρ - μ * ρ) (deriv Ψ w - μ) w := by
      have h2 : HasDerivAt (fun ρ : ℝ => μ * ρ) μ w := by simpa using (hasDerivAt_id w).const_mul μ
      exact (hd w hw).hasDerivAt.sub h2
    have := hmin.hasDerivAt_eq_zero hd1
    linarith
  have dv := der (v μ) ⟨hv0, hvs.trans hsB⟩ rfl
  have dl := der (l μ) ⟨h0s.trans hsl, (hl μ).2⟩ (by linarith)
  refine ⟨v μ, l μ, hv0, hvs, hsl, (hl μ).2, by rw [dv, dl], ?_, fun ρ hρ => ?_⟩
  · rw [dv, dl]
    linarith
  · have := hall ρ hρ
    rw [dv]
    linarith

/-- At a point with negative second derivative there is no supporting line. -/
theorem no_support (Ψ : ℝ → ℝ) (B s : ℝ) (h0s : 0 < s) (hsB : s < B) (hd : ∀ ρ ∈ Ioo 0 B, DifferentiableAt ℝ Ψ ρ) (hneg : deriv (deriv Ψ) s < 0) (μ : ℝ) :
    ∃ ρ ∈ Ico 0 B, Ψ ρ < Ψ s + μ * (ρ - s) := by
  by_contra hcon
  push Not at hcon
  have hnb : Ioo 0 B ∈ 𝓝 s := Ioo_mem_nhds h0s hsB
  have hmin : IsLocalMin (fun ρ => Ψ ρ - μ * ρ) s := by
    filter_upwards [hnb] with ρ hρ
    have := hcon ρ ⟨hρ.1.le, hρ.2⟩
    linarith
  have hder (w : ℝ) (hw : w ∈ Ioo 0 B) : HasDerivAt (fun ρ => Ψ ρ - μ * ρ) (deriv Ψ w - μ) w := by
    have h2 : HasDerivAt (fun ρ : ℝ => μ * ρ) μ w := by simpa using (hasDerivAt_id w).const_mul μ
    exact (hd w hw).hasDerivAt.sub h2
  have hev : deriv (fun ρ => Ψ ρ - μ * ρ) =ᶠ[𝓝 s] fun w => deriv Ψ w - μ := by
    filter_upwards [hnb] with w hw
    exact (hder w hw).deriv
  have hd0 := hmin.deriv_eq_zero
  have hdd : deriv (deriv fun ρ => Ψ ρ - μ * ρ) s < 0 := by
    rw [hev.deriv_eq, deriv_sub_const]
    exact hneg
  have hmax := isLocalMax_of_deriv_deriv_neg hdd hd0 (hder s ⟨h0s, hsB⟩).continuousAt
  have hconst : (fun ρ => Ψ ρ - μ * ρ) =ᶠ[𝓝 s] fun _ => Ψ s - μ * s := by
    filter_upwards [hmin, hmax] with ρ h1 h2
    exact le_antisymm h2 h1
  have h1 : deriv (fun ρ => Ψ ρ - μ * ρ) =ᶠ[𝓝 s] fun _ => 0 := by
    have := hconst.deriv
    simpa using this
  rw [h1.deriv_eq, deriv_const] at hdd
  exact lt_irrefl _ hdd

section unique
variable {Ψ Ψ1 Ψ2 : ℝ → ℝ} {B : ℝ}

/-- Between two points of contact of a tangent there are two inflection points. -/
theorem tangent_spinodals (hd : ∀ ρ ∈ Ioo 0 B, HasDerivAt Ψ (Ψ1 ρ) ρ) (hd2 : ∀ ρ ∈ Ioo 0 B, HasDerivAt Ψ1 (Ψ2 ρ) ρ) {v l : ℝ} (hv : 0 < v) (hvl : v < l) (hl : l < B)
    (h1 : Ψ1 v = Ψ1 l) (h2 : Ψ v - v * Ψ1 v = Ψ l - l * Ψ1 l) : ∃ a b, v < a ∧ a < b ∧ b < l ∧ Ψ2 a = 0 ∧ Ψ2 b = 0 := by
  have hsub : Icc v l ⊆ Ioo 0 B := fun ρ h => ⟨hv.trans_le h.1, h.2.trans_lt hl⟩
  have hlin (ρ : ℝ) (hρ : ρ ∈ Ioo 0 B) : HasDerivAt (fun r => Ψ r - Ψ1 v * r) (Ψ1 ρ - Ψ1 v) ρ := by
    have h2 : HasDerivAt (fun ρ : ℝ => Ψ1 v * ρ) (Ψ1 v) ρ := by simpa using (hasDerivAt_id ρ).const_mul (Ψ1 v)
    exact (hd ρ hρ).sub h2
  obtain ⟨w, hw, hw0⟩ := exists_hasDerivAt_eq_zero (f := fun r => Ψ r - Ψ1 v * r) hvl
    (fun ρ hρ => (hlin ρ (hsub hρ)).continuousAt.continuousWithinAt)
    (by rw [← h1] at h2; linarith) (fun ρ hρ => hlin ρ (hsub (Ioo_subset_Icc_self hρ)))
  have hw0 : Ψ1 w = Ψ1 v := by linarith
  have ww := hsub (Ioo_subset_Icc_self hw)
  obtain ⟨a, ha, ha0⟩ := exists_hasDerivAt_eq_zero (f := Ψ1) hw.1
    (fun ρ hρ => (hd2 ρ (hsub ⟨hρ.1, hρ.2.trans hw.2.le⟩)).continuousAt.continuousWithinAt) hw0.symm (fun ρ hρ => hd2 ρ (hsub ⟨hρ.1.le, (hρ.2.trans hw.2).le⟩))
  obtain ⟨b, hb, hb0⟩ := exists_hasDerivAt_eq_zero (f := Ψ1) hw.2
    (fun ρ hρ => (hd2 ρ (hsub ⟨hw.1.le.trans hρ.1, hρ.2⟩)).continuousAt.continuousWithinAt) (hw0.trans h1) (fun ρ hρ => hd2 ρ (hsub ⟨(hw.1.trans hρ.1).le, hρ.2.le⟩))
  exact ⟨a, b, ha.1, ha.2.trans hb.1, hb.2, ha0, hb0⟩

/-- Where the curvature is positive to one side of a point, tangents lie below and the slope is strictly increasing. -/
theorem tangent_below (hd : ∀ ρ ∈ Ioo 0 B, HasDerivAt Ψ (Ψ1 ρ) ρ) (hd2 : ∀ ρ ∈ Ioo 0 B, HasDerivAt Ψ1 (Ψ2 ρ) ρ) {x y : ℝ} (hx : 0 < x) (hy : y < B)
    (hp : ∀ ρ ∈ Ioo x y, 0 < Ψ2 ρ) (hxy : x < y) : Ψ1 x < Ψ1 y ∧ Ψ x + Ψ1 x * (y - x) ≤ Ψ y ∧ Ψ y + Ψ1 y * (x - y) ≤ Ψ x := by
  have hsub : Icc x y ⊆ Ioo 0 B := fun ρ h => ⟨hx.trans_le h.1, h.2.trans_lt hy⟩
  have hmono : StrictMonoOn Ψ1 (Icc x y) := by
    refine strictMonoOn_of_deriv_pos (convex_Icc x y) (fun ρ hρ => (hd2 ρ (hsub hρ)).continuousAt.continuousWithinAt) fun ρ hρ => ?_
    rw [interior_Icc] at hρ
    rw [(hd2 ρ (hsub (Ioo_subset_Icc_self hρ))).deriv]
    exact hp ρ hρ
  obtain ⟨z, hz, he⟩ := exists_hasDerivAt_eq_slope Ψ Ψ1 hxy (fun ρ hρ => (hd ρ (hsub hρ)).continuousAt.continuousWithinAt) (fun ρ hρ => hd ρ (hsub (Ioo_subset_Icc_self hρ)))
  have hz' := Ioo_subset_Icc_self hz
  have hxm : x ∈ Icc x y := left_mem_Icc.2 hxy.le
  have hym : y ∈ Icc x y := right_mem_Icc.2 hxy.le
  have h1 := hmono hxm hz' hz.1
  have h2 := hmono hz' hym hz.2
  rw [eq_div_iff (sub_pos.2 hxy).ne'] at he
  have hp := sub_pos.2 hxy
  refine ⟨h1.trans h2, ?_, ?_⟩ <;> nlinarith

/-- When the curvature is negative between any two points where it is not positive, there is one line with two points of contact. -/
theorem tangent_unique (hd : ∀ ρ ∈ Ioo 0 B, HasDerivAt Ψ (Ψ1 ρ) ρ) (hd2 : ∀ ρ ∈ Ioo 0 B, HasDerivAt Ψ1 (Ψ2 ρ) ρ)
    (hq : ∀ x y z, 0 < x → x < y → y < z → z < B → Ψ2 x ≤ 0 → Ψ2 z ≤ 0 → Ψ2 y < 0) {v l v' l' : ℝ}
    (hv : 0 < v) (hvl : v < l) (hl : l < B) (h1 : Ψ1 v = Ψ1 l) (h2 : Ψ v - v * Ψ1 v = Ψ l - l * Ψ1 l)
    (hv' : 0 < v') (hvl' : v' < l') (hl' : l' < B) (h1' : Ψ1 v' = Ψ1 l') (h2' : Ψ v' - v' * Ψ1 v' = Ψ l' - l' * Ψ1 l') : v = v' ∧ l = l' := by
  obtain ⟨a, b, hva, hab, hbl, ha, hb⟩ := tangent_spinodals hd hd2 hv hvl hl h1 h2
  obtain ⟨a', b', hva', hab', hbl', ha', hb'⟩ := tangent_spinodals hd hd2 hv' hvl' hl' h1' h2'
  have ha0 := hv.trans hva
  have hbB := hbl.trans hl
  have left (ρ : ℝ) (h0 : 0 < ρ) (h : ρ < a) : 0 < Ψ2 ρ := by
    by_contra hc
    push Not at hc
    exact (hq ρ a b h0 h hab hbB hc hb.le).ne ha
  have right (ρ : ℝ) (h : b < ρ) (hB : ρ < B) : 0 < Ψ2 ρ := by
    by_contra hc
    push Not at hc
    exact (hq a b ρ ha0 hab h hB ha.le hc).ne hb
  have mid (ρ : ℝ) (h : a < ρ) (h' : ρ < b) : Ψ2 ρ < 0 := hq a ρ b ha0 h h' hbB ha.le hb.le
  have two (ρ : ℝ) (h0 : 0 < ρ) (hB : ρ < B) (hz : Ψ2 ρ = 0) : ρ = a ∨ ρ = b := by
    rcases lt_trichotomy ρ a with h | h | h
    · exact absurd hz (left ρ h0 h).ne'
    · exact Or.inl h
    · rcases lt_trichotomy ρ b with h' | h' | h'
      · exact absurd hz (mid ρ h h').ne
      · exact Or.inr h'
      · exact absurd hz (right ρ h' hB).ne'
  have ea : a' = a := by
    rcases two a' (hv'.trans hva') (hab'.trans (hbl'.trans hl')) ha' with h | h
    · exact h
    · rcases two b' ((hv'.trans hva').trans hab') (hbl'.trans hl') hb' with h' | h' <;> linarith
  have eb : b' = b := by
    rcases two b' ((hv'.trans hva').trans hab') (hbl'.trans hl') hb' with h | h
    · linarith
    · exact h
  rw [ea] at hva'
  rw [eb] at hbl'
  -- tangents lie below on both outer pieces
  have onL (x y : ℝ) (hx : 0 < x) (hy : 0 < y) (hxa : x < a) (hya : y < a) : Ψ x + Ψ1 x * (y - x) ≤ Ψ y := by
    rcases lt_trichotomy x y with h | h | h
    · exact (tangent_below hd hd2 hx (hya.trans (hab.trans hbB)) (fun ρ hρ => left ρ (hx.trans hρ.1) (hρ.2.trans hya)) h).2.1
    · rw [h]; simp
    · exact (tangent_below hd hd2 hy (hxa.trans (hab.trans hbB)) (fun ρ hρ => left ρ (hy.trans hρ.1) (hρ.2.trans hxa)) h).2.2
  have onR (x y : ℝ) (hx : b < x) (hy : b < y) (hxB : x < B) (hyB : y < B) : Ψ x + Ψ1 x * (y - x) ≤ Ψ y := by
    have hb0 := ha0.trans hab
    rcases lt_trichotomy x y with h | h | h
    · exact (tangent_below hd hd2 (hb0.trans hx) hyB (fun ρ hρ => right ρ (hx.trans hρ.1) (hρ.2.trans hyB)) h).2.1
    · rw [h]; simp
    · exact (tangent_below hd hd2 (hb0.trans hy) hxB (fun ρ hρ => right ρ (hy.trans hρ.1) (hρ.2.trans hxB)) h).2.2
  have hμ : Ψ1 v = Ψ1 v' := by
    have e1 := onL v v' hv hv' hva hva'
    have e2 := onL v' v hv' hv hva' hva
    have e3 := onR l l' hbl hbl' hl hl'
    have e4 := onR l' l hbl' hbl hl' hl
    rw [← h1] at e3 h2
    rw [← h1'] at e4 h2'
    rcases lt_trichotomy (Ψ1 v) (Ψ1 v') with h | h | h
    · nlinarith [mul_pos (sub_pos.2 h) (show 0 < l - v' by linarith)]
    · exact h
    · nlinarith [mul_pos (sub_pos.2 h) (show 0 < l' - v by linarith)]
  refine ⟨?_, ?_⟩
  · rcases lt_trichotomy v v' with h | h | h
    · exact absurd hμ (tangent_below hd hd2 hv (hva'.trans (hab.trans hbB)) (fun ρ hρ => left ρ (hv.trans hρ.1) (hρ.2.trans hva')) h).1.ne
    · exact h
    · exact absurd hμ (tangent_below hd hd2 hv' (hva.trans (hab.trans hbB)) (fun ρ hρ => left ρ (hv'.trans hρ.1) (hρ.2.trans hva)) h).1.ne'
  · have hb0 := ha0.trans hab
    rw [h1, h1'] at hμ
    rcases lt_trichotomy l l' with h | h | h
    · exact absurd hμ (tangent_below hd hd2 (hb0.trans hbl) hl' (fun ρ hρ => right ρ (hbl.trans hρ.1) (hρ.2.trans hl')) h).1.ne
    · exact h
    · exact absurd hμ (tangent_below hd hd2 (hb0.trans hbl') hl (fun ρ hρ => right ρ (hbl'.trans hρ.1) (hρ.2.trans hl)) h).1.ne'

end unique

end Teqp.Lemmas
