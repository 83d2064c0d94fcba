import Verif.Props.LowDensity
import Verif.Props.AssocVirial
import Verif.Props.CPA

/-! # Cubic plus association at low density (C165) -/

set_option autoImplicit false

namespace Teqp.Props
open Teqp.Model Teqp.Spec Filter Topology Finset

/-- **The cubic part of CPA**: `b - a/RT`. -/
theorem cpa_cubic_virial (c : CPACubic) (T : ℝ) (x : List ℝ) (ha : x.length ≤ c.a0.length) (hb : x.length ≤ c.b.length) (hc : x.length ≤ c.c1.length)
    (hTc : x.length ≤ c.Tc.length) (hk : ∀ k, c.kmat = some k → x.length ≤ k.length ∧ ∀ i < x.length, x.length ≤ (k.getD i []).length)
    (ha0 : ∀ i < x.length, 0 ≤ c.a0.getD i 0) (hTp : ∀ i < x.length, 0 < c.Tc.getD i 0) (hT : 0 < T) (hR : c.R ≠ 0) (hb0 : c.bmix x ≠ 0) (hd : c.d1 ≠ c.d2) :
    HasVirial (fun r => c.alphar T r x) (c.bmix x - c.amix T x / (c.R * T)) := by
  have he (r : ℝ) : cpaCubicForm c.d1 c.d2 c.R T (c.amix T x) (c.bmix x) r = cubicAlphar c.R (c.amix T x) (c.bmix x) c.d1 c.d2 T r := by
    have hdd : c.d1 - c.d2 ≠ 0 := sub_ne_zero.2 hd
    unfold cpaCubicForm cubicAlphar
    simp only
    congr 1
    field_simp
  have hai (i) (hi : i < x.length) : 0 ≤ c.ai T i := mul_nonneg (ha0 i hi) (mul_self_nonneg _)
  refine hasVirial_of (fun r => cubicAlphar c.R (c.amix T x) (c.bmix x) c.d1 c.d2 T r) ?_ (cubic_zero_density _ _ _ _ _ _) (cubicAlphar_slope hb0 hd)
  have e1 : ∀ᶠ r : ℝ in 𝓝 0, 0 < 1 - c.bmix x * r :=
    (by fun_prop : ContinuousAt (fun r : ℝ => 1 - c.bmix x * r) 0).eventually_const_lt (by simp)
  have e2 : ∀ᶠ r : ℝ in 𝓝 0, 0 < c.d2 * c.bmix x * r + 1 :=
    (by fun_prop : ContinuousAt (fun r : ℝ => c.d2 * c.bmix x * r + 1) 0).eventually_const_lt (by simp)
  have e3 : ∀ᶠ r : ℝ in 𝓝 0, 0 < c.d1 * c.bmix x * r + 1 :=
    (by fun_prop : ContinuousAt (fun r : ℝ => c.d1 * c.bmix x * r + 1) 0).eventually_const_lt (by simp)
  filter_upwards [e1, e2, e3] with r h1 h2 h3
  unfold CPACubic.alphar
  rw [if_neg, if_neg]
  · simp only
    rw [if_neg, he]
    rintro (h | h | h | h | h | h | h)
    · exact hR h
    · exact hT.ne' h
    · exact hb0 h
    · exact hd h
    · linarith
    · linarith
    · exact absurd (div_pos h3 h2) (not_lt.2 h)
  · rintro ⟨i, hi, h | h | ⟨j, hj, h⟩⟩
    · exact (hTp i hi).ne' h
    · exact absurd (div_pos hT (hTp i hi)) (by linarith)
    · exact absurd (mul_nonneg (hai i hi) (hai j hj)) (by linarith)
  · rintro (h | h | h | h | ⟨k, hk', h | ⟨i, hi, h⟩⟩)
    · omega
    · omega
    · omega
    · omega
    · have := (hk k hk').1
      omega
    · have := (hk k hk').2 i hi
      omega

/-- **A component described by its scheme is not an ideal gas at zero density**: the closed form of the fraction of free sites is zero divided by zero. -/
theorem cpa_scheme_no_gas (cub : CPACubic) (c : AssocClass) (d : RadialDist) (eps beta b R R0 NA T z : ℝ) (a : CPAAssoc) (hRT : R * T ≠ 0)
    (h : CPAAssoc.make [c] d [eps] [beta] [b] R = .ok a) : ¬ ∃ B, HasVirial (fun r => (CPAEOS.mk cub (.old a)).alphar R0 NA T r [z]) B := by
  obtain ⟨N, hN, ha⟩ : ∃ N, cpaSites c = .ok N ∧ a = ⟨[c], d, [eps], [beta], [b], [N], R⟩ := by
    unfold CPAAssoc.make at h
    obtain ⟨ns, h1, h2⟩ := Outcome.bind_eq_ok.1 h
    simp only [mapOutcome] at h1
    obtain ⟨N, hN, h3⟩ := Outcome.bind_eq_ok.1 h1
    refine ⟨N, hN, ?_⟩
    simp only [Outcome.bind_ok, Outcome.ok.injEq] at h3 h2
    rw [← h2, ← h3]
  rintro ⟨B, hB⟩
  have h0 := ((hasVirial_iff _ _).1 hB).1
  simp only [CPAEOS.alphar] at h0
  split_ifs at h0
  obtain ⟨v, -, h1⟩ := Outcome.bind_eq_ok.1 h0
  obtain ⟨w, h2, -⟩ := Outcome.bind_eq_ok.1 h1
  subst ha
  simp only [CPAAssocVariant.alphar, CPAAssoc.alphar] at h2
  rw [if_neg (by simp)] at h2
  simp only [List.getElem?_cons_zero] at h2
  rw [cpa_zero_density c N hN d eps beta _ (R * T) hRT] at h2
  simp [Outcome.bind] at h2

/-- **The description by sites, when the fractions are iterated, has no association at low density**: the first substitution changes the fractions by less than the tolerance, the
initial values are kept, and the slope is that of the cubic part alone, whatever the strengths. -/
theorem assoc_iterated_virial (a : AssocModel) (R NA T : ℝ) (x : List ℝ) (rd : RadialDist) (hrd : a.data.radialDist = some rd) (hx : x.length = a.ncomp)
    (h1 : a.data.b.length = x.length) (h2 : a.data.beta.length = x.length) (h3 : a.data.epsilon.length = x.length) (hs : ∀ s ∈ a.sites, s.comp < x.length)
    (hRT : R * T ≠ 0) (hbeta : ∀ i < x.length, 0 ≤ a.data.beta.getD i 0) (ht : 0 < a.opts.rtol + a.opts.atol)
    (he : a.opts.allowExplicit = false ∨ x.length ≠ 1 ∨ a.sites.length ≠ 2) :
    HasVirial (fun r => a.alphar R NA T r x) 0 := by
  set bm := ∑ i ∈ range x.length, x.getD i 0 * a.data.b.getD i 0 with hbm
  refine hasVirial_of (fun _ => 0) ?_ rfl (hasDerivAt_const _ _)
  have hg : ContinuousAt (fun r : ℝ => assocG rd (bm * r / 4)) 0 := by
    cases rd
    · refine ContinuousAt.div (by fun_prop) (by fun_prop) (by norm_num)
    · refine ContinuousAt.div (by fun_prop) (by fun_prop) (by norm_num)
  have e1 : ∀ᶠ r : ℝ in 𝓝 0, 0 < 1 - bm * r / 4 := (by fun_prop : ContinuousAt (fun r : ℝ => 1 - bm * r / 4) 0).eventually_const_lt (by simp)
  have e2 : ∀ᶠ r : ℝ in 𝓝 0, 0 < 1 - 1.9 * (bm * r / 4) := (by fun_prop : ContinuousAt (fun r : ℝ => 1 - 1.9 * (bm * r / 4)) 0).eventually_const_lt (by simp)
  let K (r : ℝ) : Fin a.sites.length → Fin a.sites.length → ℝ := rDDX r NA (fun I J => cr1Delta R NA T (assocG rd (bm * r / 4)) a.data (a.sites.get I).comp (a.sites.get J).comp) a.Dmat
    (fun I => x.getD (a.sites.get I).comp 0)
  have hKc (I J) : ContinuousAt (fun r => K r I J) 0 := by
    show ContinuousAt (fun r => r * NA * (cr1Delta R NA T (assocG rd (bm * r / 4)) a.data (a.sites.get I).comp (a.sites.get J).comp * (a.Dmat I J : ℝ)) * x.getD (a.sites.get J).comp 0) 0
    unfold cr1Delta
    fun_prop
  have hK0 (I J) : K 0 I J = 0 := by
    show (0 : ℝ) * NA * _ * _ = 0
    simp
  have hS (I) : ContinuousAt (fun r => massStep a.opts.alpha (K r) (fun _ => (1 : ℝ)) I) 0 := by
    show ContinuousAt (fun r => a.opts.alpha * 1 + (1 - a.opts.alpha) * (1 + ∑ J, K r I J * 1)⁻¹) 0
    have hsum : ContinuousAt (fun r => 1 + ∑ J, K r I J * 1) 0 :=
      continuousAt_const.add (tendsto_finsetSum _ fun J _ => (hKc I J).mul continuousAt_const)
    refine continuousAt_const.add (continuousAt_const.mul (hsum.inv₀ ?_))
    simp [hK0]
  have hS0 (I) : massStep a.opts.alpha (K 0) (fun _ => (1 : ℝ)) I = 1 := by
    show a.opts.alpha * 1 + (1 - a.opts.alpha) * (1 + ∑ J, K 0 I J * 1)⁻¹ = 1
    simp [hK0]
  have e3 : ∀ᶠ r : ℝ in 𝓝 0, ∀ I, |massStep a.opts.alpha (K r) (fun _ => (1 : ℝ)) I - 1| < a.opts.rtol * massStep a.opts.alpha (K r) (fun _ => (1 : ℝ)) I + a.opts.atol := by
    rw [eventually_all]
    intro I
    refine ((hS I).sub continuousAt_const).abs.eventually_lt ((continuousAt_const.mul (hS I)).add continuousAt_const) ?_
    show |massStep a.opts.alpha (K 0) (fun _ => (1 : ℝ)) I - 1| < a.opts.rtol * massStep a.opts.alpha (K 0) (fun _ => (1 : ℝ)) I + a.opts.atol
    rw [hS0]
    simpa using ht
  filter_upwards [e1, e2, e3] with r g1 g2 g3
  have hD : getDelta R NA T r x a.data a.sites = .ok (cr1Delta R NA T (assocG rd (bm * r / 4)) a.data) := by
    unfold getDelta
    rw [if_neg (by
      rintro (h | h | h | ⟨s, hs', h⟩)
      · exact h h1
      · exact h h2
      · exact h h3
      · exact absurd (hs s hs') (by omega)), hrd]
    simp only
    rw [if_neg]
    rintro (h | h | ⟨i, hi, j, hj, h⟩)
    · exact hRT h
    · cases rd <;> simp only at h <;> linarith
    · exact absurd (mul_nonneg (hbeta i hi) (hbeta j hj)) (by linarith)
  have hX : a.fractions R NA T r x (List.replicate a.sites.length 1) = .ok fun _ => 1 := by
    unfold AssocModel.fractions
    rw [if_neg (by simp), hD, Outcome.bind_ok]
    congr 1
    have hone : (fun I : Fin a.sites.length => (List.replicate a.sites.length (1 : ℝ)).getD I 0) = fun _ => 1 := by
      funext I
      simp [List.getD_eq_getElem?_getD]
    rw [hone]
    unfold assocSolve
    simp only
    rw [dif_neg (by
      rintro ⟨c1, c2, c3, -⟩
      rcases he with h | h | h
      · rw [c1] at h; cases h
      · exact h c2
      · exact h c3)]
    cases a.opts.maxIters.toNat with
    | zero => rfl
    | succ m =>
      rw [ssLoop]
      exact if_pos g3
  unfold AssocModel.alphar
  rw [if_neg (by simpa using hx), hX, Outcome.bind_ok, if_neg (by rintro ⟨I, hI⟩; linarith)]
  congr 1
  unfold assocSum
  refine Finset.sum_eq_zero fun i _ => ?_
  rw [Finset.sum_eq_zero, mul_zero]
  intro I _
  split_ifs
  · show (Real.log 1 - 1 * (1 / 2) + 1 / 2) * _ = 0
    simp
  · rfl

/-- So the whole model has the second virial coefficient of its cubic part. -/
theorem cpa_iterated_virial (m : CPAEOS) (a : AssocModel) (R0 NA T : ℝ) (x : List ℝ) (hm : m.assoc = .new a) (hn : x.length = m.cubic.a0.length) (B : ℝ)
    (hB : HasVirial (fun r => m.cubic.alphar T r x) B) (hA : HasVirial (fun r => a.alphar R0 NA T r x) 0) : HasVirial (fun r => m.alphar R0 NA T r x) B := by
  have h := hasVirial_bind hB hA
  rw [add_zero] at h
  refine hasVirial_congr h fun r _ => ?_
  rw [CPAEOS.alphar, if_neg (by simpa using hn), hm]
  rfl

/-- A limit of quotients in terms of a function that vanishes at zero with a slope from the right. -/
theorem quotient_limit {f : ℝ → ℝ} {B : ℝ} (h0 : f 0 = 0) (hd : HasDerivWithinAt f B (Set.Ici 0) 0) : Tendsto (fun r => f r / r) (𝓝[>] 0) (𝓝 B) := by
  have hs : Set.Ici (0 : ℝ) \ {0} = Set.Ioi 0 := by ext r; simp [lt_iff_le_and_ne, eq_comm]
  rw [hasDerivWithinAt_iff_tendsto_slope, hs] at hd
  refine hd.congr fun r => ?_
  simp [slope, h0, div_eq_inv_mul]

/-- The strength near zero density: a positive continuous function whose value at zero is that of touching hard spheres at infinite dilution. -/
theorem cpaDelta_near (d : RadialDist) (eps beta b RT : ℝ) (he : 0 < eps) (hbe : 0 < beta) (hb : 0 < b) (hRT : 0 < RT) :
    ∃ (Δ : ℝ → ℝ) (δ : ℝ), 0 < δ ∧ ContinuousAt Δ 0 ∧ Δ 0 = (Real.exp (eps / RT) - 1) * b * beta ∧
      ∀ r, 0 ≤ r → r < δ → cpaDelta d eps beta b RT r = .ok (Δ r) ∧ 0 < Δ r := by
  have hE : 0 < Real.exp (eps / RT) - 1 := by
    rw [sub_pos, Real.one_lt_exp_iff]; positivity
  refine ⟨fun r => (match d with
    | .CS => (2 - r / 4 * b) / (2 * ((1 - r / 4 * b) * ((1 - r / 4 * b) * (1 - r / 4 * b))))
    | .KG => 1 / (1 - 1.9 * (r / 4 * b))) * (Real.exp (eps / RT) - 1) * b * beta, 1 / b, by positivity, ?_, ?_, ?_⟩
  · cases d
    · exact (((ContinuousAt.div (by fun_prop) (by fun_prop) (by norm_num)).mul continuousAt_const).mul continuousAt_const).mul continuousAt_const
    · exact (((ContinuousAt.div (by fun_prop) (by fun_prop) (by norm_num)).mul continuousAt_const).mul continuousAt_const).mul continuousAt_const
  · cases d <;> norm_num
  · intro r hr hr'
    have hl : r / 4 * b < 1 / 4 := by
      rw [lt_div_iff₀ hb] at hr'
      linarith
    have hn : 0 ≤ r / 4 * b := by positivity
    set e := r / 4 * b
    unfold cpaDelta
    simp only
    cases d with
    | CS =>
      have h1 : 0 < 1 - e := by linarith
      have h2 : 0 < 2 - e := by linarith
      simp only
      rw [if_neg h1.ne', Outcome.bind_ok, if_neg hRT.ne']
      exact ⟨rfl, by positivity⟩
    | KG =>
      have h1 : 0 < 1 - 1.9 * e := by norm_num; linarith
      simp only
      rw [if_neg h1.ne', Outcome.bind_ok, if_neg hRT.ne']
      exact ⟨rfl, by positivity⟩

theorem massAction_family {n : ℕ} (k : ℝ → Fin n → Fin n → ℝ) (hk : ∀ ρ, 0 ≤ ρ → ∀ i j, 0 ≤ k ρ i j) :
    ∃ Y : ℝ → Fin n → ℝ, ∀ ρ, 0 ≤ ρ → MassAction (fun i j => ρ * k ρ i j) (Y ρ) := by
  have hex : ∀ ρ : ℝ, ∃ Y : Fin n → ℝ, 0 ≤ ρ → MassAction (fun i j => ρ * k ρ i j) Y := fun ρ => by
    by_cases h : 0 ≤ ρ
    · obtain ⟨Y, hY, -⟩ := massAction_exists_unique (fun i j => ρ * k ρ i j) (fun i j => mul_nonneg h (hk ρ h i j))
      exact ⟨Y, fun _ => hY⟩
    · exact ⟨fun _ => 0, fun h' => absurd h' h⟩
  choose Y hY using hex
  exact ⟨Y, hY⟩

/-- **A component described by its scheme, from above**: the contribution over the density tends to minus half the strength for each ordered pair of sites that bond. -/
theorem cpa_scheme_limit (c : AssocClass) (N : ℕ) (hN : cpaSites c = .ok N) (d : RadialDist) (eps beta b R T : ℝ) (he : 0 < eps) (hbe : 0 < beta) (hb : 0 < b) (hRT : 0 < R * T) :
    ∃ (a : CPAAssoc) (f : ℝ → ℝ), CPAAssoc.make [c] d [eps] [beta] [b] R = .ok a ∧ (∀ᶠ r in 𝓝[>] (0 : ℝ), a.alphar T r [1] = .ok (f r)) ∧
      Tendsto (fun r => f r / r) (𝓝[>] 0) (𝓝 (-(1 / 2) * (∑ i : Fin N, ∑ j : Fin N, if schemeBonds c i j then 1 else 0) * ((Real.exp (eps / (R * T)) - 1) * b * beta))) := by
  obtain ⟨Δ, δ, hδ, hc, hΔ0, hΔ⟩ := cpaDelta_near d eps beta b (R * T) he hbe hb hRT
  have hp0 : 0 < Δ 0 := (hΔ 0 le_rfl hδ).2
  let k (ρ : ℝ) (i j : Fin N) : ℝ := if schemeBonds c i j then (if ρ < δ then Δ ρ else Δ 0) else 0
  have hk : ∀ ρ, 0 ≤ ρ → ∀ i j, 0 ≤ k ρ i j := by
    intro ρ hρ i j
    simp only [k]
    split_ifs with h1 h2
    · exact (hΔ ρ hρ h2).2.le
    · exact hp0.le
    · exact le_rfl
  have hkc : ∀ i j, ContinuousWithinAt (fun ρ => k ρ i j) (Set.Ici 0) 0 := by
    intro i j
    refine ContinuousAt.continuousWithinAt ?_
    by_cases h : schemeBonds c i j
    · refine hc.congr ?_
      filter_upwards [Iio_mem_nhds hδ] with ρ hρ
      simp only [k]
      rw [if_pos h, if_pos (show ρ < δ from hρ)]
    · refine (continuousAt_const (y := (0 : ℝ))).congr (.of_forall fun ρ => ?_)
      simp only [k]
      rw [if_neg h]
  obtain ⟨Y, hY⟩ := massAction_family k hk
  have hd := assoc_virial_exact k hk hkc Y hY [1] (fun _ => 0) (fun _ => 1)
  have hone (i : Fin N) : Y 0 i = 1 := (fraction_hasDeriv k hk hkc Y hY i).1
  have hsum (r : ℝ) : assocSum [1] (fun _ : Fin N => 0) (fun _ => 1) (Y r) = ∑ i, (Real.log (Y r i) - Y r i / 2 + 1 / 2) := by
    simp only [assocSum, List.length_singleton, Finset.sum_range_one, List.getD_cons_zero, if_true]
    show 1 * ∑ I : Fin N, (Real.log (Y r I) - Y r I * (1 / 2) + 1 / 2) * ((1 : ℕ) : ℝ) = _
    rw [one_mul]
    exact Finset.sum_congr rfl fun i _ => by push_cast; ring
  refine ⟨⟨[c], d, [eps], [beta], [b], [N], R⟩, fun r => assocSum [1] (fun _ : Fin N => 0) (fun _ => 1) (Y r), ?_, ?_, ?_⟩
  · unfold CPAAssoc.make
    simp [mapOutcome, hN]
  · filter_upwards [self_mem_nhdsWithin, mem_nhdsWithin_of_mem_nhds (Iio_mem_nhds hδ)] with r hr hr'
    obtain ⟨h1, h2⟩ := hΔ r (le_of_lt hr) hr'
    obtain ⟨a, ha, X, hX, hv, -⟩ := cpa_alphar c N hN d eps beta b R T r (Δ r) h1 (mul_pos hr h2)
    have ha' : a = ⟨[c], d, [eps], [beta], [b], [N], R⟩ := by
      have : CPAAssoc.make [c] d [eps] [beta] [b] R = .ok ⟨[c], d, [eps], [beta], [b], [N], R⟩ := by
        unfold CPAAssoc.make
        simp [mapOutcome, hN]
      rw [this] at ha
      exact (Outcome.ok.inj ha).symm
    have hK : (fun i j : Fin N => r * k r i j) = fun i j : Fin N => if schemeBonds c i j then r * Δ r else 0 := by
      funext i j
      simp only [k]
      rw [if_pos (show r < δ from hr')]
      split_ifs <;> simp
    have hYr := hY r (le_of_lt hr)
    rw [hK] at hYr
    obtain ⟨Z, _, _, hu⟩ := massAction_exists_unique (fun i j : Fin N => if schemeBonds c i j then r * Δ r else 0)
      (fun i j => by split_ifs <;> [exact (mul_pos hr h2).le; exact le_rfl])
    have : X = Y r := (hu X hX).trans (hu _ hYr).symm
    rw [← ha', hv, hsum, this]
  · refine quotient_limit ?_ (hd.congr_deriv ?_)
    · rw [hsum]
      simp only [hone]
      norm_num
    · simp only [List.length_singleton, Finset.sum_range_one, List.getD_cons_zero, if_true, k, if_pos hδ, one_mul, Nat.cast_one, mul_one, hΔ0]
      rw [← Finset.mul_sum, mul_assoc (-(1 / 2) : ℝ), Finset.sum_mul]
      congr 1
      refine Finset.sum_congr rfl fun i _ => ?_
      rw [Finset.sum_mul]
      exact Finset.sum_congr rfl fun j _ => by split_ifs <;> simp

/-- The number of ordered pairs that bond: one, two, four and eight. -/
example : (∑ i : Fin 1, ∑ j : Fin 1, if schemeBonds .a1A i j then 1 else 0) = 1 ∧ (∑ i : Fin 2, ∑ j : Fin 2, if schemeBonds .a2B i j then 1 else 0) = 2 ∧
    (∑ i : Fin 3, ∑ j : Fin 3, if schemeBonds .a3B i j then 1 else 0) = 4 ∧ (∑ i : Fin 4, ∑ j : Fin 4, if schemeBonds .a4C i j then 1 else 0) = 8 := by decide

/-- An alcohol described by the scheme 2B has no value at zero density, although the limit exists. -/
example : (¬ ∃ B, HasVirial (fun r => (CPAEOS.mk ⟨[0.8], [4e-5], [0.6], [500], 1, 0, 8.3, none⟩ (.old ⟨[.a2B], .KG, [20000], [0.01], [4e-5], [2], 8.3⟩)).alphar 8.3 6e23 300 r [1]) B) ∧
    ∃ (a : CPAAssoc) (f : ℝ → ℝ), CPAAssoc.make [.a2B] .KG [20000] [0.01] [4e-5] 8.3 = .ok a ∧ (∀ᶠ r in 𝓝[>] (0 : ℝ), a.alphar 300 r [1] = .ok (f r)) ∧
      Tendsto (fun r => f r / r) (𝓝[>] 0) (𝓝 (-((Real.exp (20000 / (8.3 * 300)) - 1) * 4e-5 * 0.01))) := by
  refine ⟨cpa_scheme_no_gas _ .a2B .KG 20000 0.01 4e-5 8.3 _ _ _ _ _ (by norm_num) rfl, ?_⟩
  obtain ⟨a, f, h1, h2, h3⟩ := cpa_scheme_limit .a2B 2 rfl .KG 20000 0.01 4e-5 8.3 300 (by norm_num) (by norm_num) (by norm_num) (by norm_num)
  refine ⟨a, f, h1, h2, ?_⟩
  convert h3 using 2
  norm_num [schemeBonds, Fin.sum_univ_two]

/-- A component with one site that bonds with itself, in the general class: the model has the coefficient of its cubic part, `b - a/RT`. -/
example : HasVirial (fun r => (CPAEOS.mk ⟨[0.8], [4e-5], [0.6], [500], 1, 0, 8.3, none⟩
      (.new ⟨{ radialDist := some .KG }, 1, [⟨0, "A", 1⟩], [[1]], ⟨[4e-5], [0.01], [20000], some .KG⟩⟩)).alphar 8.3 6e23 300 r [1])
    (4e-5 - (CPACubic.mk [0.8] [4e-5] [0.6] [500] 1 0 8.3 none).amix 300 [1] / (8.3 * 300)) := by
  have hz (P : ℕ → Prop) (h : P 0) : ∀ i < [(1 : ℝ)].length, P i := by
    intro i hi
    have : i = 0 := by simpa using hi
    rw [this]
    exact h
  refine cpa_iterated_virial (CPAEOS.mk ⟨[0.8], [4e-5], [0.6], [500], 1, 0, 8.3, none⟩ (.new ⟨{ radialDist := some .KG }, 1, [⟨0, "A", 1⟩], [[1]], ⟨[4e-5], [0.01], [20000], some .KG⟩⟩))
    ⟨{ radialDist := some .KG }, 1, [⟨0, "A", 1⟩], [[1]], ⟨[4e-5], [0.01], [20000], some .KG⟩⟩ 8.3 6e23 300 [1] rfl rfl _ ?_
    (assoc_iterated_virial _ _ _ _ _ .KG rfl rfl rfl rfl rfl ?_ (by norm_num) (hz _ (by norm_num)) (by norm_num) (.inr (.inr (by simp))))
  · have h := cpa_cubic_virial (CPACubic.mk [0.8] [4e-5] [0.6] [500] 1 0 8.3 none) 300 [1] le_rfl le_rfl le_rfl le_rfl (by simp) (hz _ (by norm_num)) (hz _ (by norm_num)) (by norm_num)
      (by norm_num) (by norm_num [CPACubic.bmix]) (by norm_num)
    convert h using 2
    norm_num [CPACubic.bmix]
  · intro s hs
    simp only [List.mem_singleton] at hs
    subst hs
    simp

end Teqp.Props
