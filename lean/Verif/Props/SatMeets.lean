import Verif.Props.SatDensities

/-! # C182: the saturation curve of cubic models ends at the critical point -/

set_option autoImplicit false

namespace Teqp.Props
open Teqp Teqp.Model Teqp.Spec Teqp.Calc Teqp.PureVLE Teqp.Lemmas Filter Topology Set

theorem contDiffAt_deriv_of_succ {f : ℝ → ℝ} {x : ℝ} {n m : ℕ} (h : ContDiffAt ℝ n f x) (hm : m + 1 ≤ n) : ContDiffAt ℝ m (deriv f) x := by
  have e : deriv f = fun r => fderiv ℝ f r 1 := by funext r; exact (fderiv_apply_one_eq_deriv).symm
  rw [e]
  exact (h.fderiv_right (m := m) (by exact_mod_cast hm)).clm_apply contDiffAt_const

/-- The conditions of coexistence are a zero of the residual. -/
theorem satMap_zero {α : ℝ → ℝ → ℝ} {R T b v l : ℝ} (L : Loop α R T (1 / b)) (hR : 0 < R) (hT : 0 < T) (hb : 0 < b) (hv : 0 < v) (hvl : v < l) (hl : b * l < 1) :
    satMap α (T, v, l) = (0, 0) ↔ SatZero α R T b (v, l) := by
  have hmem (ρ : ℝ) : ρ < 1 / b ↔ b * ρ < 1 := by rw [lt_div_iff₀ hb, mul_comm]
  have hl' := (hmem _).2 hl
  have hint : satMap α (T, v, l) = (0, 0) ↔ volA1 α T v = volA1 α T l ∧ volA α T v - v * volA1 α T v = volA α T l - l * volA1 α T l := by
    have hv (r : ℝ) : volA α T r - r * volA1 α T r = -(r + r ^ 2 * drn α 1 T r) := by unfold volA volA1; ring
    rw [hv, hv]
    simp only [satMap, Prod.mk.injEq, sub_eq_zero, neg_inj]
    constructor
    · rintro ⟨h1, h2⟩; exact ⟨h2.symm, h1.symm⟩
    · rintro ⟨h1, h2⟩; exact ⟨h2.symm, h1.symm⟩
  rw [hint, ← coexist_volA (c := fun _ => 0) hR hT hv (hv.trans hvl) (L.smooth _ ⟨hv, hvl.trans hl'⟩) (L.smooth _ ⟨hv.trans hvl, hl'⟩), loop_satZero L (fun _ => 0) hR hT hb]
  exact ⟨fun h => ⟨hv, hvl, hl, h⟩, fun h => h.2.2.2⟩

namespace Attract
variable {α : ℝ → ℝ → ℝ} {R b : ℝ} {A g : ℝ → ℝ} (H : Attract α R b A g)
include H

theorem press_ρ (hR : 0 < R) {T ρ : ℝ} (hT : 0 < T) (h0 : 0 < ρ) (h1 : b * ρ < 1) :
    deriv (totalPressure α R T) ρ = R * T / (1 - b * ρ) ^ 2 - A T * deriv (fun r => r ^ 2 * deriv g r) ρ := by
  have h1' : 1 - b * ρ ≠ 0 := by linarith
  have hG : HasDerivAt (fun r => r ^ 2 * deriv g r) (deriv (fun r => r ^ 2 * deriv g r) ρ) ρ :=
    ((differentiableAt_id.pow 2).mul ((contDiffAt_deriv_of_succ (n := 4) (m := 3) (H.gsm ρ h0 h1) (by norm_num)).differentiableAt (by norm_num))).hasDerivAt
  have r1 : HasDerivAt (fun r : ℝ => 1 - b * r) (-b) ρ := by simpa using ((hasDerivAt_id ρ).const_mul b).const_sub 1
  have r2 : HasDerivAt (fun r : ℝ => R * T * r / (1 - b * r) - A T * (r ^ 2 * deriv g r)) (R * T / (1 - b * ρ) ^ 2 - A T * deriv (fun r => r ^ 2 * deriv g r) ρ) ρ := by
    have e : HasDerivAt (fun r : ℝ => R * T * r) (R * T) ρ := by simpa using (hasDerivAt_id ρ).const_mul (R * T)
    refine ((e.div r1 h1').sub (hG.const_mul (A T))).congr_deriv ?_
    field_simp
    ring
  have near : ∀ᶠ r in 𝓝 ρ, 0 < r ∧ b * r < 1 :=
    (lt_mem_nhds h0).and ((continuousAt_const.mul continuousAt_id).eventually_lt continuousAt_const h1)
  refine HasDerivAt.deriv (r2.congr_of_eventuallyEq ?_)
  filter_upwards [near] with r hr
  exact H.press hR hT hr.1 hr.2

end Attract

/-- What is claimed at the end of the saturation curve, the critical density `ρc` at the temperature `Tc`: both densities tend to it, the vapour pressure to the critical pressure and the heat
of vaporisation to zero, whatever the ideal gas. -/
def SatMeets (α : ℝ → ℝ → ℝ) (R Tc ρc pc : ℝ) (p : ℝ → ℝ × ℝ) : Prop :=
  Tendsto p (𝓝[<] Tc) (𝓝 (ρc, ρc)) ∧ Tendsto (fun T => totalPressure α R T (p T).2) (𝓝[<] Tc) (𝓝 pc) ∧
  ∀ c : ℝ → ℝ, (∀ T, 0 < T → DifferentiableAt ℝ c T) →
    Tendsto (fun T => enthalpy (totalAlpha α c) R T (p T).1 - enthalpy (totalAlpha α c) R T (p T).2) (𝓝[<] Tc) (𝓝 0)

/-- **C182** for a curve whose densities are monotone and that ends at a stable isotherm with a point of zero slope. -/
theorem sat_meets {α : ℝ → ℝ → ℝ} {R b Tc ρc : ℝ} {A g : ℝ → ℝ} (H : Attract α R b A g) (hR : 0 < R) (hb : 0 < b) (hTc : 0 < Tc) (hL : ∀ T, 0 < T → Loop α R T (1 / b))
    {p : ℝ → ℝ × ℝ} (hp : SatCurve α R b Tc p) (hq : SatShrinks α R Tc p) (hS : ∀ s, 0 < s → b * s < 1 → 0 ≤ deriv (totalPressure α R Tc) s)
    (hc0 : 0 < ρc) (hc1 : b * ρc < 1) (hc : deriv (totalPressure α R Tc) ρc = 0) : SatMeets α R Tc ρc (totalPressure α R Tc ρc) p := by
  obtain ⟨-, hmono, hanti⟩ := hq
  have P (T : ℝ) (h0 : 0 < T) (h1 : T < Tc) : SatZero α R T b (p T) := ((hp.1 T h0 h1).1 (p T)).2 rfl
  have hmid : Tc / 2 ∈ Ioo 0 Tc := ⟨by linarith, by linarith⟩
  have hmem (ρ : ℝ) : ρ < 1 / b ↔ b * ρ < 1 := by rw [lt_div_iff₀ hb, mul_comm]
  have near : ∀ᶠ T in 𝓝[<] Tc, Tc / 2 < T ∧ T < Tc := by
    have h1 : ∀ᶠ T in 𝓝[<] Tc, Tc / 2 < T := (lt_mem_nhds (show Tc / 2 < Tc by linarith)).filter_mono nhdsWithin_le_nhds
    filter_upwards [h1, self_mem_nhdsWithin] with T h h'
    exact ⟨h, h'⟩
  have near0 : ∀ᶠ T in 𝓝[<] Tc, 0 < T ∧ T < Tc := near.mono fun T h => ⟨hmid.1.trans h.1, h.2⟩
  -- limits of both densities
  obtain ⟨v, hv⟩ : ∃ v, Tendsto (fun T => (p T).1) (𝓝[<] Tc) (𝓝 v) := by
    refine ⟨_, MonotoneOn.tendsto_nhdsWithin_Ioo_left ⟨_, hmid⟩ hmono.monotoneOn ⟨1 / b, ?_⟩⟩
    rintro _ ⟨T, hT, rfl⟩
    have := P T hT.1 hT.2
    exact (this.2.1.trans ((hmem _).2 this.2.2.1)).le
  obtain ⟨l, hl⟩ : ∃ l, Tendsto (fun T => (p T).2) (𝓝[<] Tc) (𝓝 l) := by
    refine ⟨_, AntitoneOn.tendsto_nhdsWithin_Ioo_left ⟨_, hmid⟩ hanti.antitoneOn ⟨0, ?_⟩⟩
    rintro _ ⟨T, hT, rfl⟩
    have := P T hT.1 hT.2
    exact (this.1.trans this.2.1).le
  have v0 : 0 < v := by
    have h : (p (Tc / 2)).1 ≤ v := ge_of_tendsto hv (near.mono fun T h => (hmono hmid ⟨hmid.1.trans h.1, h.2⟩ h.1).le)
    exact (P _ hmid.1 hmid.2).1.trans_le h
  have l1 : b * l < 1 := by
    have h : l ≤ (p (Tc / 2)).2 := le_of_tendsto hl (near.mono fun T h => (hanti hmid ⟨hmid.1.trans h.1, h.2⟩ h.1).le)
    exact (mul_le_mul_of_nonneg_left h hb.le).trans_lt (P _ hmid.1 hmid.2).2.2.1
  have vl : v ≤ l := le_of_tendsto_of_tendsto hv hl (near0.mono fun T h => (P T h.1 h.2).2.1.le)
  have l0 := v0.trans_le vl
  have v1 : b * v < 1 := (mul_le_mul_of_nonneg_left vl hb.le).trans_lt l1
  have hid : Tendsto (fun T : ℝ => T) (𝓝[<] Tc) (𝓝 Tc) := tendsto_id.mono_left nhdsWithin_le_nhds
  -- they agree
  have hvl : v = l := by
    by_contra hne
    have hlt := lt_of_le_of_ne vl hne
    have sm := (satMap_smooth v0.ne' l0.ne' ((H.joint hR hTc v0 v1).of_le (by norm_num)) ((H.joint hR hTc l0 l1).of_le (by norm_num))).continuousAt
    have h1 : Tendsto (fun T => satMap α (T, (p T).1, (p T).2)) (𝓝[<] Tc) (𝓝 (satMap α (Tc, v, l))) := sm.tendsto.comp (hid.prodMk_nhds (hv.prodMk_nhds hl))
    have h2 : Tendsto (fun T => satMap α (T, (p T).1, (p T).2)) (𝓝[<] Tc) (𝓝 (0, 0)) := by
      refine tendsto_const_nhds.congr' (near0.mono fun T h => ?_)
      have hz := P T h.1 h.2
      exact ((satMap_zero (hL T h.1) hR h.1 hb hz.1 hz.2.1 hz.2.2.1).2 hz).symm
    exact loop_none (hL Tc hTc) hR hTc hb hS _ ((satMap_zero (hL Tc hTc) hR hTc hb v0 hlt l1).1 (tendsto_nhds_unique h1 h2))
  subst hvl
  -- the slope of the pressure vanishes there
  have ex (T : ℝ) : ∃ s, 0 < T ∧ T < Tc → (p T).1 < s ∧ s < (p T).2 ∧ deriv (totalPressure α R T) s < 0 := by
    by_cases h : 0 < T ∧ T < Tc
    · have hz := P T h.1 h.2
      have hco := ((loop_satZero (hL T h.1) (fun _ => 0) hR h.1 hb _).1 hz).2.2.2
      obtain ⟨-, -, s, h1, h2, h3⟩ := (hL T h.1).sat_slopes (fun _ => 0) hR h.1 hz.1 hz.2.1 ((hmem _).2 hz.2.2.1) hco
      exact ⟨s, fun _ => ⟨h1, h2, h3⟩⟩
    · exact ⟨0, fun h' => absurd h' h⟩
  choose s hs using ex
  have hsv : Tendsto s (𝓝[<] Tc) (𝓝 v) :=
    tendsto_of_tendsto_of_tendsto_of_le_of_le' hv hl (near0.mono fun T h => (hs T h).1.le) (near0.mono fun T h => (hs T h).2.1.le)
  have hz : deriv (totalPressure α R Tc) v = 0 := by
    refine le_antisymm ?_ (hS v v0 v1)
    have hGc : ContinuousAt (deriv fun r => r ^ 2 * deriv g r) v := by
      have h3 : ContDiffAt ℝ 3 (fun r => r ^ 2 * deriv g r) v := (contDiffAt_id.pow 2).mul (contDiffAt_deriv_of_succ (n := 4) (m := 3) (H.gsm v v0 v1) (by norm_num))
      exact (contDiffAt_deriv_of_succ (n := 3) (m := 2) h3 (by norm_num)).continuousAt
    have hA : Tendsto A (𝓝[<] Tc) (𝓝 (A Tc)) := (H.Asm Tc hTc).continuousAt.tendsto.mono_left nhdsWithin_le_nhds
    have hlim : Tendsto (fun T => R * T / (1 - b * s T) ^ 2 - A T * deriv (fun r => r ^ 2 * deriv g r) (s T)) (𝓝[<] Tc)
        (𝓝 (R * Tc / (1 - b * v) ^ 2 - A Tc * deriv (fun r => r ^ 2 * deriv g r) v)) :=
      ((tendsto_const_nhds.mul hid).div ((tendsto_const_nhds.sub (tendsto_const_nhds.mul hsv)).pow 2) (pow_ne_zero 2 (by linarith))).sub (hA.mul (hGc.tendsto.comp hsv))
    rw [H.press_ρ hR hTc v0 v1]
    refine le_of_tendsto hlim (near0.mono fun T h => ?_)
    have hz := P T h.1 h.2
    obtain ⟨h1, h2, h3⟩ := hs T h
    have s0 := hz.1.trans h1
    rw [← H.press_ρ hR h.1 s0 ((mul_lt_mul_of_pos_left h2 hb).trans hz.2.2.1)]
    exact h3.le
  -- and only there
  have hvc : v = ρc := by
    have no (x z : ℝ) (hx : 0 < x) (hxz : x < z) (hz1 : b * z < 1) (e1 : deriv (totalPressure α R Tc) x = 0) (e2 : deriv (totalPressure α R Tc) z = 0) : False := by
      have := (hL Tc hTc).single x ((x + z) / 2) z hx (by linarith) (by linarith) ((hmem z).2 hz1) e1.le e2.le
      have h := hS ((x + z) / 2) (by linarith) (by nlinarith)
      linarith
    rcases lt_trichotomy v ρc with h | h | h
    · exact (no v ρc v0 h hc1 hz hc).elim
    · exact h
    · exact (no ρc v hc0 h v1 hc hz).elim
  subst hvc
  refine ⟨hv.prodMk_nhds hl, ?_, fun c dc => ?_⟩
  · have hG : ContinuousAt (fun r => r ^ 2 * deriv g r) v :=
      (continuousAt_id.pow 2).mul (contDiffAt_deriv_of_succ (n := 4) (m := 3) (H.gsm v v0 v1) (by norm_num)).continuousAt
    have hA : Tendsto A (𝓝[<] Tc) (𝓝 (A Tc)) := (H.Asm Tc hTc).continuousAt.tendsto.mono_left nhdsWithin_le_nhds
    have hlim : Tendsto (fun T => R * T * (p T).2 / (1 - b * (p T).2) - A T * ((p T).2 ^ 2 * deriv g (p T).2)) (𝓝[<] Tc)
        (𝓝 (R * Tc * v / (1 - b * v) - A Tc * (v ^ 2 * deriv g v))) :=
      (((tendsto_const_nhds.mul hid).mul hl).div (tendsto_const_nhds.sub (tendsto_const_nhds.mul hl)) (by linarith)).sub (hA.mul (hG.tendsto.comp hl))
    rw [H.press hR hTc v0 v1]
    refine hlim.congr' (near0.mono fun T h => ?_)
    have hz := P T h.1 h.2
    exact (H.press hR h.1 (hz.1.trans hz.2.1) hz.2.2.1).symm
  · have hg : ContinuousAt g v := (H.gsm v v0 v1).continuousAt
    have hA' : Tendsto (deriv A) (𝓝[<] Tc) (𝓝 (deriv A Tc)) :=
      (contDiffAt_deriv_of_succ (n := 4) (m := 3) (H.Asm Tc hTc) (by norm_num)).continuousAt.tendsto.mono_left nhdsWithin_le_nhds
    have ent {q : ℝ → ℝ} (hq : Tendsto q (𝓝[<] Tc) (𝓝 v)) : Tendsto (fun T => -(R * (Real.log (q T) - Real.log (1 - b * q T))) + deriv A T * g (q T)) (𝓝[<] Tc)
        (𝓝 (-(R * (Real.log v - Real.log (1 - b * v))) + deriv A Tc * g v)) :=
      ((tendsto_const_nhds.mul ((hq.log v0.ne').sub ((tendsto_const_nhds.sub (tendsto_const_nhds.mul hq)).log (by linarith)))).neg).add (hA'.mul (hg.tendsto.comp hq))
    have hlim := hid.mul ((ent hv).sub (ent hl))
    rw [sub_self, mul_zero] at hlim
    refine hlim.congr' (near0.mono fun T h => ?_)
    have hz := P T h.1 h.2
    have h2 := hz.1.trans hz.2.1
    have bl1 : b * (p T).1 < 1 := (mul_lt_mul_of_pos_left hz.2.1 hb).trans hz.2.2.1
    have sv : ContDiffAt ℝ 2 (unc α) (T, (p T).1) := (H.joint hR h.1 hz.1 bl1).of_le (by norm_num)
    have sl : ContDiffAt ℝ 2 (unc α) (T, (p T).2) := (H.joint hR h.1 h2 hz.2.2.1).of_le (by norm_num)
    have hco := ((loop_satZero (hL T h.1) (fun _ => 0) hR h.1 hb _).1 hz).2.2.2
    have e1 := dpsatdT_clapeyron α (fun _ => 0) R T (p T).2 (p T).1 h.1.ne' hR.ne' h2 hz.1 sl sv (differentiableAt_const _) hco.2 hz.2.1.ne'
    have e2 := e1.symm.trans (dpsatdT_enthalpy α c R T (p T).2 (p T).1 h.1.ne' h2 hz.1 sl sv (dc T h.1) hz.2.1.ne')
    have e3 : (entropy (totalAlpha α fun _ => 0) R T (p T).1 - entropy (totalAlpha α fun _ => 0) R T (p T).2) / (1 / (p T).1 - 1 / (p T).2) =
      (enthalpy (totalAlpha α c) R T (p T).1 - enthalpy (totalAlpha α c) R T (p T).2) / (T * (1 / (p T).1 - 1 / (p T).2)) := by injection e2
    have hw : 0 < 1 / (p T).1 - 1 / (p T).2 := sub_pos.2 (one_div_lt_one_div_of_lt hz.1 hz.2.1)
    rw [div_eq_div_iff hw.ne' (mul_pos h.1 hw).ne', H.entropy_form hR h.1, H.entropy_form hR h.1] at e3
    refine mul_right_cancel₀ hw.ne' ?_
    linarith

variable {ι : Type} [Fintype ι] [DecidableEq ι]

/-- **C182 van der Waals**: the saturation curve ends at the critical density `1 / (3 b)` and the critical pressure of the constructor. -/
theorem vdw_sat_meets (Tc pc : ι → ℝ) (i : ι) (hTc : 0 < Tc i) (hp : 0 < pc i) :
    ∃ p, SatCurve (fun T r => (VdWMix.ofCritical Tc pc).alphar T r (Pi.single i 1)) RuvdW ((VdWMix.ofCritical Tc pc).bi i) (Tc i) p ∧
      SatMeets (fun T r => (VdWMix.ofCritical Tc pc).alphar T r (Pi.single i 1)) RuvdW (Tc i) (8 * pc i / (3 * RuvdW * Tc i)) (pc i) p := by
  obtain ⟨p, hc, hs⟩ := vdw_sat_shrinks Tc pc i hTc hp
  have hR := RuvdW_pos
  have hb : (VdWMix.ofCritical Tc pc).bi i = 1 / 8 * RuvdW * Tc i / pc i := rfl
  have hbp : 0 < (VdWMix.ofCritical Tc pc).bi i := by rw [hb]; positivity
  have H : Attract (fun T r => (VdWMix.ofCritical Tc pc).alphar T r (Pi.single i 1)) RuvdW ((VdWMix.ofCritical Tc pc).bi i)
      (fun _ => (VdWMix.ofCritical Tc pc).a (Pi.single i 1)) (fun ρ => ρ) :=
    ⟨fun T ρ _ => by unfold VdWMix.alphar; rw [vdWMix_b_single], fun _ _ _ => contDiffAt_id, fun _ _ _ h _ => h.le, fun _ _ => contDiffAt_const⟩
  have hL (T : ℝ) (hT : 0 < T) : Loop (fun T r => (VdWMix.ofCritical Tc pc).alphar T r (Pi.single i 1)) RuvdW T (1 / (VdWMix.ofCritical Tc pc).bi i) := by
    have := (vdw_loop (VdWMix.ofCritical Tc pc) (Pi.single i 1) T hT (by rw [vdWMix_b_single]; exact hbp)).1
    rwa [vdWMix_b_single] at this
  obtain ⟨c1, c2, -⟩ := vdWMix_critical Tc pc i hTc hp
  have er : 1 / (3 * (VdWMix.ofCritical Tc pc).bi i) = 8 * pc i / (3 * RuvdW * Tc i) := by rw [hb]; field_simp
  have hS (s : ℝ) (h0 : 0 < s) (h1 : (VdWMix.ofCritical Tc pc).bi i * s < 1) :
      0 ≤ deriv (totalPressure (fun T r => (VdWMix.ofCritical Tc pc).alphar T r (Pi.single i 1)) RuvdW (Tc i)) s := by
    by_contra hn
    push Not at hn
    obtain ⟨q, hq, -⟩ := loop_saturation (hL _ hTc) hR hTc hbp ⟨s, h0, h1, hn⟩
    exact (vdw_pure_saturation Tc pc i (Tc i) hTc hTc hp).2 le_rfl q hq
  have := sat_meets H hR hbp hTc hL hc hs hS (ρc := 1 / (3 * (VdWMix.ofCritical Tc pc).bi i)) (by positivity) (by field_simp; norm_num) c2.deriv
  have c1' := c1
  beta_reduce at c1'
  rw [c1', er] at this
  exact ⟨p, hc, this⟩

/-- **C182 Soave-Redlich-Kwong**: the saturation curve ends at the compressibility factor 1/3 and the critical pressure of the constructor. -/
theorem srk_sat_meets (Tc pc ω : ι → ℝ) (k : ι → ι → ℝ) (R : ℝ) (i : ι) (hR : 0 < R) (hTc : 0 < Tc i) (hp : 0 < pc i) (hk : k i i = 0) (h0 : 0 ≤ mSRK (ω i)) :
    ∃ p, SatCurve (fun T r => (canonicalSRK Tc pc ω k R).alphar T r (Pi.single i 1)) R (OmegaB_SRK * R * Tc i / pc i) (Tc i) p ∧
      SatMeets (fun T r => (canonicalSRK Tc pc ω k R).alphar T r (Pi.single i 1)) R (Tc i) (3 * pc i / (R * Tc i)) (pc i) p := by
  obtain ⟨p, hc, hs⟩ := srk_sat_shrinks Tc pc ω k R i hR hTc hp hk h0
  have hA : OmegaA_SRK = 1 / (9 * srkU) := rfl
  have hu := srkU_facts
  have hb : (canonicalSRK Tc pc ω k R).get_b (Pi.single i 1) = OmegaB_SRK * R * Tc i / pc i := cubic_b_single _ i
  have ha (T : ℝ) (hT : 0 < T) : (canonicalSRK Tc pc ω k R).get_a T (Pi.single i 1) = OmegaA_SRK * (R * Tc i) ^ 2 / pc i * (AlphaFn.basic (Tc i) (mSRK (ω i))).eval T :=
    cubic_pure_a Tc pc 1 0 OmegaA_SRK OmegaB_SRK R (fun i => .basic (Tc i) (mSRK (ω i))) k i T (by rw [hA]; have := hu.1; positivity) hp hT.le hTc.le hk
  obtain ⟨hbp, -, hU⟩ := srk_pure_loop Tc pc ω k R (Tc i) i hR hTc hTc hp hk
  have H := cubic_attract (canonicalSRK Tc pc ω k R) (Pi.single i 1) (fun T => OmegaA_SRK * (R * Tc i) ^ 2 / pc i * (AlphaFn.basic (Tc i) (mSRK (ω i))).eval T)
    (by rw [hb]; exact hbp) (by norm_num [canonicalSRK, Cubic.build]) (by norm_num [canonicalSRK, Cubic.build]) (by norm_num [canonicalSRK, Cubic.build]) ha
    (fun T hT => contDiffAt_const.mul (soave_slope hTc hT).1)
  rw [hb] at H
  obtain ⟨c1, c2, -⟩ := SRK_critical Tc pc ω k R i hR hTc hp hk
  have h1 : OmegaB_SRK * R * Tc i / pc i * (3 * pc i / (R * Tc i)) < 1 := by
    have : OmegaB_SRK * R * Tc i / pc i * (3 * pc i / (R * Tc i)) = srkU := by
      rw [show OmegaB_SRK = srkU / 3 from rfl]; field_simp
    rw [this]; exact hu.2.1
  have hS (s : ℝ) (s0 : 0 < s) (s1 : OmegaB_SRK * R * Tc i / pc i * s < 1) :
      0 ≤ deriv (totalPressure (fun T r => (canonicalSRK Tc pc ω k R).alphar T r (Pi.single i 1)) R (Tc i)) s := by
    by_contra hn
    push Not at hn
    have := hU.1 ⟨s, s0, s1, hn⟩
    simp [AlphaFn.eval, hTc.ne'] at this
  have := sat_meets H hR hbp hTc (fun T hT => (srk_pure_loop Tc pc ω k R T i hR hT hTc hp hk).2.1) hc hs hS (by positivity) h1 c2.deriv
  have c1' := c1
  beta_reduce at c1'
  have hRe : (canonicalSRK Tc pc ω k R).R = R := rfl
  rw [hRe, c1'] at this
  exact ⟨p, hc, this⟩

/-- The curve of ethane ends at 305.3 K with the critical pressure 4.87 MPa. -/
example : ∃ p, SatCurve (fun T r => (canonicalSRK (ι := Fin 2) ![190.5, 305.3] ![4.6e6, 4.87e6] ![0.011, 0.099] (fun _ _ => 0) 8.314).alphar T r (Pi.single 1 1)) 8.314
      (OmegaB_SRK * 8.314 * 305.3 / 4.87e6) 305.3 p ∧
    SatMeets (fun T r => (canonicalSRK (ι := Fin 2) ![190.5, 305.3] ![4.6e6, 4.87e6] ![0.011, 0.099] (fun _ _ => 0) 8.314).alphar T r (Pi.single 1 1)) 8.314 305.3
      (3 * 4.87e6 / (8.314 * 305.3)) 4.87e6 p :=
  srk_sat_meets (ι := Fin 2) ![190.5, 305.3] ![4.6e6, 4.87e6] ![0.011, 0.099] (fun _ _ => 0) 8.314 1 (by norm_num) (by norm_num) (by norm_num) rfl (by norm_num [mSRK])

example : ∃ p, SatCurve (fun T r => (VdWMix.ofCritical (ι := Fin 2) ![150, 300] ![4e6, 5e6]).alphar T r (Pi.single 1 1)) RuvdW
    ((VdWMix.ofCritical (ι := Fin 2) ![150, 300] ![4e6, 5e6]).bi 1) 300 p ∧
    SatMeets (fun T r => (VdWMix.ofCritical (ι := Fin 2) ![150, 300] ![4e6, 5e6]).alphar T r (Pi.single 1 1)) RuvdW 300 (8 * 5e6 / (3 * RuvdW * 300)) 5e6 p :=
  vdw_sat_meets (ι := Fin 2) ![150, 300] ![4e6, 5e6] 1 (by norm_num) (by norm_num)

end Teqp.Props
