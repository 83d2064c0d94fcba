import Verif.Spec.LowDensity
import Verif.Props.Mixing
import Verif.Props.QCVirial
import Verif.Props.QCSat
import Verif.Props.AdvPR
import Verif.Props.SquareWell
import Verif.Props.LJTables
import Verif.Props.Potentials
import Verif.Props.Mie
import Verif.Props.TwoCenter
import Verif.Props.LKP
import Mathlib.Analysis.SpecialFunctions.Trigonometric.DerivHyp

/-! # Every model is an ideal gas at low density (C165) -/

set_option autoImplicit false

namespace Teqp.Props
open Teqp.Model Teqp.Spec Filter Topology Finset

theorem nhdsGE_of {P : ℝ → Prop} (h : ∀ᶠ r in 𝓝 (0 : ℝ), P r) : ∀ᶠ r in 𝓝[≥] (0 : ℝ), P r := h.filter_mono nhdsWithin_le_nhds

theorem hasVirial_of {F : ℝ → Outcome ℝ} {B : ℝ} (f : ℝ → ℝ) (h : ∀ᶠ r in 𝓝 (0 : ℝ), F r = .ok (f r)) (h0 : f 0 = 0) (hd : HasDerivAt f B 0) :
    HasVirial F B := ⟨f, nhdsGE_of h, h0, hd.hasDerivWithinAt⟩

/-- **What the property says in terms of the values**: at zero density the value is exactly zero, and the values divided by the density tend to the second virial
coefficient as the density goes to zero. -/
theorem hasVirial_iff (F : ℝ → Outcome ℝ) (B : ℝ) : HasVirial F B ↔
    F 0 = .ok 0 ∧ ∃ f : ℝ → ℝ, (∀ᶠ r in 𝓝[>] (0 : ℝ), F r = .ok (f r)) ∧ Tendsto (fun r => f r / r) (𝓝[>] 0) (𝓝 B) := by
  have hs : Set.Ici (0 : ℝ) \ {0} = Set.Ioi 0 := by ext r; simp [lt_iff_le_and_ne, eq_comm]
  constructor
  · rintro ⟨f, hf, h0, hd⟩
    refine ⟨?_, f, hf.filter_mono (nhdsWithin_mono _ Set.Ioi_subset_Ici_self), ?_⟩
    · rw [hf.self_of_nhdsWithin (by simp), h0]
    · rw [hasDerivWithinAt_iff_tendsto_slope, hs] at hd
      refine hd.congr fun r => ?_
      simp [slope, h0, div_eq_inv_mul]
  · rintro ⟨h0, f, hf, ht⟩
    refine ⟨fun r => if r = 0 then 0 else f r, ?_, by simp, ?_⟩
    · have : insert (0 : ℝ) (Set.Ioi 0) = Set.Ici 0 := Set.Ioi_insert
      rw [← this, nhdsWithin_insert, eventually_sup]
      refine ⟨by simp [h0], ?_⟩
      filter_upwards [hf, self_mem_nhdsWithin] with r hr hp
      rw [hr, if_neg (ne_of_gt hp)]
    · rw [hasDerivWithinAt_iff_tendsto_slope, hs]
      refine ht.congr' ?_
      filter_upwards [self_mem_nhdsWithin] with r hp
      simp [slope, (ne_of_gt hp : r ≠ 0), div_eq_inv_mul]

/-- A model has one second virial coefficient. -/
theorem hasVirial_unique {F : ℝ → Outcome ℝ} {B C : ℝ} (hB : HasVirial F B) (hC : HasVirial F C) : B = C := by
  obtain ⟨-, f, hf, hft⟩ := (hasVirial_iff F B).1 hB
  obtain ⟨-, g, hg, hgt⟩ := (hasVirial_iff F C).1 hC
  refine tendsto_nhds_unique hft (hgt.congr' ?_)
  filter_upwards [hf, hg] with r h1 h2
  rw [h1] at h2
  injection h2 with h2
  rw [h2]

/-- For a model that is differentiable at zero density it is the coefficient that `get_B2vir` returns. -/
theorem hasVirial_B2vir (α : ℝ → ℝ → ℝ) (T B : ℝ) (hd : DifferentiableAt ℝ (fun r => α T r) 0) (h : HasVirial (fun r => .ok (α T r)) B) : B2vir α T = B :=
  hasVirial_unique (F := fun r => .ok (α T r)) (hasVirial_of _ (.of_forall fun _ => rfl) (by
    have := ((hasVirial_iff _ _).1 h).1
    simpa using this) hd.hasDerivAt) h

theorem hasVirial_congr {F G : ℝ → Outcome ℝ} {B : ℝ} (h : HasVirial F B) (e : ∀ r, 0 ≤ r → G r = F r) : HasVirial G B := by
  obtain ⟨f, hf, h0, hd⟩ := h
  refine ⟨f, ?_, h0, hd⟩
  filter_upwards [hf, self_mem_nhdsWithin] with r hr hp
  rw [e r hp, hr]

/-- Scaling of the density. -/
theorem hasVirial_scale {F : ℝ → Outcome ℝ} {B c : ℝ} (hc : 0 ≤ c) (h : HasVirial F B) : HasVirial (fun r => F (r * c)) (B * c) := by
  obtain ⟨f, hf, h0, hd⟩ := h
  have hm : Set.MapsTo (fun r : ℝ => r * c) (Set.Ici 0) (Set.Ici 0) := fun r hr => mul_nonneg hr hc
  have hl : HasDerivWithinAt (fun r : ℝ => r * c) c (Set.Ici 0) 0 := by simpa using ((hasDerivAt_id (0 : ℝ)).mul_const c).hasDerivWithinAt
  have ht : Tendsto (fun r : ℝ => r * c) (𝓝[≥] 0) (𝓝[≥] 0) := by
    have := (hl.continuousWithinAt).tendsto_nhdsWithin hm
    simpa using this
  refine ⟨fun r => f (r * c), ht.eventually hf, by simp [h0], ?_⟩
  exact HasDerivWithinAt.comp (s' := Set.Ici 0) 0 (by simpa using hd) hl hm

/-- Sums, as of contributions. -/
theorem hasVirial_bind {F G : ℝ → Outcome ℝ} {B C : ℝ} (hF : HasVirial F B) (hG : HasVirial G C) :
    HasVirial (fun r => (F r).bind fun a => (G r).bind fun b => .ok (a + b)) (B + C) := by
  obtain ⟨f, hf, f0, fd⟩ := hF
  obtain ⟨g, hg, g0, gd⟩ := hG
  refine ⟨fun r => f r + g r, ?_, by simp [f0, g0], fd.add gd⟩
  filter_upwards [hf, hg] with r h1 h2
  rw [h1, h2, Outcome.bind_ok, Outcome.bind_ok]

/-! ## van der Waals and the cubics -/

theorem vdw_hasDeriv (a b RT : ℝ) : HasDerivAt (fun r : ℝ => -Real.log (1 - b * r) - a / RT * r) (b - a / RT) 0 := by
  have h1 : HasDerivAt (fun r : ℝ => 1 - b * r) (-b) 0 := by simpa using ((hasDerivAt_id (0 : ℝ)).const_mul b).const_sub 1
  exact (((h1.log (by norm_num)).neg).sub ((hasDerivAt_id (0 : ℝ)).const_mul (a / RT))).congr_deriv (by simp)

/-- The pure-fluid van der Waals model: `b - a/RT`. -/
theorem vdW1_virial (a b T : ℝ) : HasVirial (fun r => .ok (vdW1_alphar a b T r)) (b - a / (RuvdW * T)) :=
  hasVirial_of _ (.of_forall fun _ => rfl) (by simp [vdW1_alphar]) (vdw_hasDeriv a b (RuvdW * T))

/-- The van der Waals mixture, for mole fractions of the right number. -/
theorem vdW_virial (M : VdWAny) (T : ℝ) (x : List ℝ) (hx : x.length = M.n) :
    HasVirial (fun r => M.alphar T r x) (M.m.b (fun i => x[i]) - M.m.a (fun i => x[i]) / (RuvdW * T)) := by
  refine hasVirial_of (fun r => M.m.alphar T r fun i => x[i]) (.of_forall fun r => ?_) (by simp [VdWMix.alphar]) (vdw_hasDeriv _ _ _)
  rw [VdWAny.alphar, dif_neg (by simpa using hx)]

example : HasVirial (fun r => (⟨1, ⟨fun _ => 2, fun _ => 3, fun _ _ => 0⟩⟩ : VdWAny).alphar 300 r [1]) (3 - 2 / (RuvdW * 300)) := by
  have := vdW_virial ⟨1, ⟨fun _ => 2, fun _ => 3, fun _ _ => 0⟩⟩ 300 [1] rfl
  simpa [VdWMix.a, VdWMix.b] using this

theorem cubic_hasVirial (R a b D1 D2 T : ℝ) (hb : b ≠ 0) (hD : D1 ≠ D2) (_hRT : R * T ≠ 0) :
    HasVirial (fun r => .ok (cubicAlphar R a b D1 D2 T r)) (b - a / (R * T)) :=
  hasVirial_of _ (.of_forall fun _ => rfl) (cubic_zero_density R a b D1 D2 T) (cubicAlphar_slope hb hD)

/-- The generic cubic with any constants, alpha functions and interaction parameters. -/
theorem generic_cubic_virial (m : CubicRT) (T : ℝ) (x : List ℝ) (hx : x.length = m.alphas.length) (ha : m.alphas.length ≤ m.ai.length)
    (hbi : m.alphas.length ≤ m.bi.length) (hk : m.alphas.length ≤ m.kmat.rows ∧ m.alphas.length ≤ m.kmat.cols)
    (hb : ∑ i : Fin m.alphas.length, x.getD i 0 * m.bi.getD i 0 ≠ 0) (hD : m.Delta1 ≠ m.Delta2) (hRT : m.R * T ≠ 0) :
    HasVirial (fun r => m.alphar T r x) ((∑ i : Fin m.alphas.length, x.getD i 0 * m.bi.getD i 0)
      - (∑ i : Fin m.alphas.length, ∑ j : Fin m.alphas.length, x.getD i 0 * x.getD j 0 * ((1 - m.kmat.get i j) *
          Real.sqrt (m.ai.getD i 0 * m.alphas[i].eval T * (m.ai.getD j 0 * m.alphas[j].eval T)))) / (m.R * T)) := by
  have hg (l : List ℝ) (i : ℕ) (h : i < l.length) : l.getD i 0 = l[i] := by simp [List.getD_eq_getElem?_getD, h]
  refine hasVirial_congr (cubic_hasVirial m.R (∑ i : Fin m.alphas.length, ∑ j : Fin m.alphas.length, x.getD i 0 * x.getD j 0 * ((1 - m.kmat.get i j) *
          Real.sqrt (m.ai.getD i 0 * m.alphas[i].eval T * (m.ai.getD j 0 * m.alphas[j].eval T)))) _ m.Delta1 m.Delta2 T hb hD hRT) fun r _ => ?_
  have hc : m.alphas.length ≤ m.ai.length ∧ m.alphas.length ≤ m.bi.length ∧ m.alphas.length ≤ m.kmat.rows ∧ m.alphas.length ≤ m.kmat.cols ∧
      x.length = m.alphas.length := ⟨ha, hbi, hk.1, hk.2, hx⟩
  rw [CubicRT.alphar, if_neg (by simpa using hx), dif_pos hc]
  unfold Cubic.alphar Cubic.get_a Cubic.get_b
  congr 2
  · refine sum_congr rfl fun i _ => sum_congr rfl fun j _ => ?_
    have hi := i.2
    have hj := j.2
    rw [hg x i (by omega), hg x j (by omega), hg m.ai i (by omega), hg m.ai j (by omega)]
  · refine sum_congr rfl fun i _ => ?_
    have hi := i.2
    rw [hg x i (by omega), hg m.bi i (by omega)]

example : ∃ m : CubicRT, m.alphas.length = 1 ∧ HasVirial (fun r => m.alphar 300 r [1]) (1 * 2 - 1 * 1 * ((1 - 0) * Real.sqrt (3 * 1 * (3 * 1))) / (8 * 300)) := by
  refine ⟨⟨[3], [2], 1, 0, [.basic 300 0.5], Mat.zero 1, 8⟩, rfl, ?_⟩
  have := generic_cubic_virial ⟨[3], [2], 1, 0, [.basic 300 0.5], Mat.zero 1, 8⟩ 300 [1] rfl (by simp) (by simp) (by simp [Mat.zero]) (by simp) (by norm_num) (by norm_num)
  simpa [Mat.zero, AlphaFn.eval] using this

/-- Peng and Robinson's equation with quantum corrections, from its arrays: the covolume at the temperature, in spite of the volume translation. -/
theorem qcpr_virial (m : QCPRrt) (T : ℝ) (x : List ℝ) (hx : x.length = m.alphas.length) (hc : m.alphas.length ≤ m.cs.length) (hin : m.abInside)
    (hb : m.toFin.get_b T (fun i => x.getD i 0) ≠ 0) (_hRT : m.Ru * T ≠ 0) :
    HasVirial (fun r => m.alphar T r x) (m.toFin.get_b T (fun i => x.getD i 0) - m.toFin.get_a T (fun i => x.getD i 0) / (m.Ru * T)) := by
  refine hasVirial_of (fun r => m.toFin.alphar T r fun i => x.getD i 0) (.of_forall fun r => ?_) ?_ (qcpr_slope m.toFin T _ hb)
  · rw [QCPRrt.alphar, if_neg (by simpa using hx), if_neg (by omega), if_pos hin]
  · simp [QCPR.alphar, QCPR.shift, cubic_zero_density]

/-- RK-PR, from its arrays. -/
theorem rkpr_virial (m : RKPRrt) (T : ℝ) (x : List ℝ) (hx : x.length = m.delta1.length) (h0 : m.delta1 ≠ []) (hk : m.delta1.length ≤ m.k.length)
    (hT : m.delta1.length ≤ m.Tc.length) (hkm : m.delta1.length ≤ m.kmat.n) (hlm : m.delta1.length ≤ m.lmat.n)
    (hb : m.toFin.get_b (fun i => x.getD i 0) ≠ 0)
    (hD : ∑ i : Fin m.delta1.length, x.getD i 0 * m.delta1[i] ≠ (1 - ∑ i : Fin m.delta1.length, x.getD i 0 * m.delta1[i]) / (1 + ∑ i : Fin m.delta1.length, x.getD i 0 * m.delta1[i]))
    (hRT : m.Ru * T ≠ 0) :
    HasVirial (fun r => m.alphar T r x) (m.toFin.get_b (fun i => x.getD i 0) - m.toFin.get_a T (fun i => x.getD i 0) / (m.Ru * T)) := by
  refine hasVirial_congr (cubic_hasVirial m.Ru (m.toFin.get_a T fun i => x.getD i 0) _ _ _ T hb hD hRT) fun r _ => ?_
  rw [RKPRrt.alphar, if_neg (by simpa using hx), if_neg (by push Not; exact ⟨h0, hk, hT, hkm, hlm⟩)]
  rfl

/-- Peng and Robinson's equation with an activity-coefficient model: `b` less the product of `b` with the mixture's `a/b`, over `RT`. -/
theorem adv_virial (m : AdvPR) (T b ab : ℝ) (x : List ℝ) (hx : x.length = m.alphas.length) (hb : m.getB x = .ok b) (hab : m.amOverBm T x = .ok ab)
    (hb0 : b ≠ 0) (hRT : m.o.R * T ≠ 0) : HasVirial (fun r => m.alphar T r x) (b - ab * b / (m.o.R * T)) := by
  have h2 : (1 + Real.sqrt 2) ≠ (1 - Real.sqrt 2) := by
    have : 0 < Real.sqrt 2 := Real.sqrt_pos.mpr (by norm_num)
    intro h; linarith
  obtain ⟨f, hf, h0, hd⟩ := cubic_hasVirial m.o.R (ab * b) b _ _ T hb0 h2 hRT
  refine ⟨f, ?_, h0, hd⟩
  have c1 : ∀ᶠ r : ℝ in 𝓝[≥] 0, 0 < 1 - b * r := nhdsGE_of ((by fun_prop : ContinuousAt (fun r : ℝ => 1 - b * r) 0).eventually_const_lt (by simp))
  have c2 : ∀ᶠ r : ℝ in 𝓝[≥] 0, 0 < ((1 + Real.sqrt 2) * b * r + 1) / ((1 - Real.sqrt 2) * b * r + 1) := by
    have hc : ContinuousAt (fun r : ℝ => ((1 + Real.sqrt 2) * b * r + 1) / ((1 - Real.sqrt 2) * b * r + 1)) 0 :=
      ContinuousAt.div (by fun_prop) (by fun_prop) (by simp)
    exact nhdsGE_of (hc.eventually_const_lt (by simp))
  filter_upwards [hf, c1, c2] with r hr h1 h2
  rw [AdvPR.alphar, if_neg (by simpa using hx), hb, Outcome.bind_ok, hab, Outcome.bind_ok,
    if_neg (by push Not; exact ⟨hb0, hRT, h1, h2⟩), hr]

/-! ## Model fluids -/

theorem square_well_virial (l T : ℝ) (hl : 1 < l) (hT : 0 < T) : HasVirial (fun r => .ok (swAlphar l T r)) (swB2four l T) :=
  hasVirial_of _ (.of_forall fun _ => rfl) (sw_virial l T hl hT).1 (sw_virial l T hl hT).2

/-- Johnson's equation for the Lennard-Jones fluid: the first five coefficients. -/
theorem johnson_virial (T : ℝ) (hT : 0 < T) :
    HasVirial (johnsonAlphar T) ((jx 1 * T + jx 2 * Real.sqrt T + jx 3 + jx 4 / T + jx 5 / T ^ 2) / T) := by
  obtain ⟨f, d, hf, h0, hd0, hd⟩ := johnson_pressure T hT
  exact hasVirial_of f (.of_forall hf) h0 (hd0 ▸ (hd 0).1)

/-- Kolafa and Nezbeda's equation: hard spheres of the effective diameter and the correction. -/
theorem kolafa_virial (T : ℝ) (hT : 0 < T) : HasVirial (knAlphar T) (2 * Real.pi / 3 * knDiam T ^ 3 + knDB2 T) := by
  obtain ⟨f, hf, h0, hd⟩ := kn_virial T hT
  exact hasVirial_of f hf h0 hd

/-- The two-centre fluids with or without moments. -/
theorem twocenter_virial (t : TwoCenterModel) (T : ℝ) (hL : 0 ≤ t.L) (hm : 0 ≤ t.musq) (hT : 0 < T) : HasVirial (t.alphar T) (tcVirial t T) := by
  obtain ⟨f, hf, h0, hd⟩ := tc_virial t T hL hm hT
  exact ⟨f, hf, h0, hd.hasDerivWithinAt⟩

theorem hasDerivAt_list_sum_zero {α : Type} (l : List α) (g : α → ℝ → ℝ) (g' : α → ℝ) (x : ℝ) (h : ∀ e ∈ l, HasDerivAt (g e) (g' e) x) :
    HasDerivAt (fun r => (l.map fun e => g e r).sum) ((l.map g').sum) x := by
  induction l with
  | nil => simpa using hasDerivAt_const x (0 : ℝ)
  | cons a l ih =>
    simp only [List.map_cons, List.sum_cons]
    exact (h a (by simp)).add (ih fun e he => h e (by simp [he]))

theorem hasDerivAt_pow_zero (k : ℕ) (hk : 1 ≤ k) : HasDerivAt (fun r : ℝ => r ^ k) (if k = 1 then 1 else 0) 0 := by
  refine (hasDerivAt_pow k (0 : ℝ)).congr_deriv ?_
  split_ifs with h
  · simp [h]
  · simp [zero_pow (show k - 1 ≠ 0 by omega)]

/-- Kataoka's equation for the exponential-6 fluid: the entries of the table with the first power of density. -/
theorem kataoka_low (alpha T : ℝ) (ha : 8 < alpha) (hT : 0 < T) : HasVirial (kataokaAlphar alpha T)
    ((kataokaTab.map fun e => if e.p = 1 then e.A * T ^ (-e.q) * ((alpha - 8) / 10) ^ e.r else 0).sum) := by
  have hs : 0 < kataokaStar alpha := by unfold kataokaStar; linarith
  refine hasVirial_of (fun r => (kataokaTab.map fun e => e.A * r ^ e.p * T ^ (-e.q) * kataokaStar alpha ^ e.r).sum) (.of_forall fun r => ?_) ?_ ?_
  · rw [kataokaAlphar, if_neg (by push Not; exact ⟨hs, hT⟩)]
  · refine List.sum_eq_zero fun y hy => ?_
    obtain ⟨e, he, rfl⟩ := List.mem_map.1 hy
    have := mem_Icc.1 (kataoka_range e he)
    simp [zero_pow (show e.p ≠ 0 by omega)]
  · refine (hasDerivAt_list_sum_zero kataokaTab _ _ 0 fun e he => ?_)
    have := mem_Icc.1 (kataoka_range e he)
    refine ((((hasDerivAt_pow_zero e.p this.1).const_mul e.A).mul_const (T ^ (-e.q))).mul_const (kataokaStar alpha ^ e.r)).congr_deriv ?_
    unfold kataokaStar
    split_ifs <;> simp

/-- The neural network for Mie fluids: whatever the weights, the value vanishes at zero density and the slope is that of the network over the temperature. -/
theorem feann_low (ls : List Layer) (n : ℕ) (last : ℕ → ℝ) (r a T : ℝ) (ha : 0 < a) (hr : a < r) (ha3 : a ≠ 3) (hr3 : r ≠ 3) (hT : T ≠ 0) :
    HasVirial (feannAlphar ls n last r a T) (deriv (fun rho => feannForward ls n last (feannInput (mieAlpha r a) rho T)) 0 / T) := by
  have h : ¬ (r = a ∨ a = 0 ∨ r = 3 ∨ a = 3 ∨ r / a ≤ 0 ∨ T = 0) := by
    have : 0 < r / a := div_pos (by linarith) ha
    rintro (h | h | h | h | h | h)
    · linarith
    · linarith
    · exact hr3 h
    · exact ha3 h
    · linarith
    · exact hT h
  have hdiff : ∀ (ls : List Layer) (u : ℝ → ℕ → ℝ), (∀ i, DifferentiableAt ℝ (fun s => u s i) 0) →
      ∀ i, DifferentiableAt ℝ (fun s => (ls.foldl (fun x l => l.apply x) (u s)) i) 0 := by
    intro ls
    induction ls with
    | nil => intro u hu i; exact hu i
    | cons l ls ih =>
      intro u hu i
      refine ih (fun s => l.apply (u s)) (fun j => ?_) i
      unfold Layer.apply
      have hin : DifferentiableAt ℝ (fun s => (∑ i ∈ range l.nin, u s i * l.K i j) + l.b j) 0 :=
        (DifferentiableAt.fun_sum fun i _ => (hu i).mul_const (l.K i j)).add_const (l.b j)
      have ht : Differentiable ℝ Real.tanh := by
        have : Real.tanh = fun x => Real.sinh x / Real.cosh x := funext Real.tanh_eq_sinh_div_cosh
        rw [this]
        exact fun x => (Real.differentiable_sinh x).div (Real.differentiable_cosh x) (Real.cosh_pos x).ne'
      exact (ht _).comp (0 : ℝ) hin
  have hin : ∀ i, DifferentiableAt ℝ (fun s => feannInput (mieAlpha r a) s T i) 0 := by
    intro i
    unfold feannInput
    split_ifs <;> fun_prop
  have hfw : DifferentiableAt ℝ (fun s => feannForward ls n last (feannInput (mieAlpha r a) s T)) 0 := by
    unfold feannForward
    exact DifferentiableAt.fun_sum fun i _ => (hdiff ls _ hin i).mul_const (last i)
  refine hasVirial_of _ (.of_forall fun s => by rw [feannAlphar, if_neg h]) (by simp) ?_
  exact (hfw.hasDerivAt.sub_const _).div_const T

/-! ## Chains -/

/-- Lennard-Jones chains: `m²` times the monomer's coefficient and the chain's part. -/
theorem chain_virial (mono : ℝ → ℝ → Outcome ℝ) (m T B : ℝ) (hm : 0 ≤ m) (hT : T ≠ 0) (h : HasVirial (mono T) B) :
    HasVirial (ljChain mono m T) ((1 - m) * (contactSlope (chainA.getD 0 []) T * m) + m * (B * m)) := by
  obtain ⟨f, hf, h0, hd⟩ := hasVirial_scale hm h
  have hl : HasDerivAt (fun r : ℝ => r * m) m 0 := by simpa using (hasDerivAt_id (0 : ℝ)).mul_const m
  have hg : HasDerivAt (fun r => gLJ T (r * m)) (contactSlope (chainA.getD 0 []) T * m) 0 := by
    refine HasDerivAt.comp (h₂ := fun r => gLJ T r) (0 : ℝ) ?_ hl
    simpa using (gLJ_zero T).2
  have hg0 : gLJ T (0 * m) = 1 := by simpa using (gLJ_zero T).1
  have hpos : ∀ᶠ r in 𝓝[≥] (0 : ℝ), 0 < gLJ T (r * m) := nhdsGE_of (hg.continuousAt.eventually_const_lt (by show 0 < gLJ _ (0 * _); rw [hg0]; norm_num))
  refine ⟨fun r => (1 - m) * Real.log (gLJ T (r * m)) + m * f r, ?_, by simp [h0, (gLJ_zero T).1], ?_⟩
  · filter_upwards [hf, hpos] with r hr hp
    rw [ljChain, hr, Outcome.bind_ok, if_neg (by push Not; exact ⟨hT, hp⟩)]
  · have := (((hg.log (by rw [hg0]; norm_num)).const_mul (1 - m)).hasDerivWithinAt (s := Set.Ici 0)).add (hd.const_mul m)
    refine this.congr_deriv ?_
    rw [hg0, div_one]

/-- soft-SAFT. -/
theorem soft_virial (p : SoftSAFT) (NA T : ℝ) (x : List ℝ) (hm : x.length ≤ p.m.length) (he : x.length ≤ p.eps.length) (hs : x.length ≤ p.sigma.length)
    (hd : p.denSum x ≠ 0) (hs3 : p.sig3 x ≠ 0) (heM : 0 < p.epsMix x) (hpos : ∀ i < x.length, ∀ j < x.length, 0 ≤ p.eps.getD i 0 * p.eps.getD j 0)
    (hscale : 0 ≤ p.mMix x * NA * p.sig3 x) (hT : 0 < T) :
    HasVirial (fun r => p.alphar NA T r x)
      ((p.mMix x * ((jx 1 * (T / p.epsMix x) + jx 2 * Real.sqrt (T / p.epsMix x) + jx 3 + jx 4 / (T / p.epsMix x) + jx 5 / (T / p.epsMix x) ^ 2) / (T / p.epsMix x))
        + (1 - p.mMix x) * contactSlope (chainA.getD 0 []) (T / p.epsMix x)) * (p.mMix x * NA * p.sig3 x)) := by
  have hTs : 0 < T / p.epsMix x := div_pos hT heM
  have hc : ∀ r : ℝ, r * p.mMix x * NA * p.sig3 x = r * (p.mMix x * NA * p.sig3 x) := fun r => by ring
  set c := p.mMix x * NA * p.sig3 x with hcdef
  set Ts := T / p.epsMix x with hTsdef
  obtain ⟨f, hf, h0, hfd⟩ := hasVirial_scale hscale (johnson_virial Ts hTs)
  have hl : HasDerivAt (fun r : ℝ => r * c) c 0 := by simpa using (hasDerivAt_id (0 : ℝ)).mul_const c
  have hg : HasDerivAt (fun r => gLJ Ts (r * c)) (contactSlope (chainA.getD 0 []) Ts * c) 0 := by
    refine HasDerivAt.comp (h₂ := fun r => gLJ Ts r) (0 : ℝ) ?_ hl
    simpa using (gLJ_zero Ts).2
  have hg0 : gLJ Ts (0 * c) = 1 := by simpa using (gLJ_zero Ts).1
  have hp : ∀ᶠ r in 𝓝[≥] (0 : ℝ), 0 < gLJ Ts (r * c) := nhdsGE_of (hg.continuousAt.eventually_const_lt (by show 0 < gLJ _ (0 * _); rw [hg0]; norm_num))
  refine ⟨fun r => p.mMix x * f r + (1 - p.mMix x) * Real.log (gLJ Ts (r * c)), ?_, by simp [h0, (gLJ_zero Ts).1], ?_⟩
  · filter_upwards [hf, hp] with r hr hq
    rw [SoftSAFT.alphar, if_neg (by push Not; exact ⟨hm, he, hs⟩), if_neg (by push Not; exact ⟨hd, hs3, heM.ne', hpos⟩)]
    simp only [hc]
    rw [← hTsdef, hr, Outcome.bind_ok, if_neg (by push Not; exact hq)]
  · have := (hfd.const_mul (p.mMix x)).add (((hg.log (by rw [hg0]; norm_num)).const_mul (1 - p.mMix x)).hasDerivWithinAt (s := Set.Ici 0))
    refine this.congr_deriv ?_
    rw [hg0, div_one]
    ring

/-! ## Corresponding states -/

theorem lkpFunc_slope (p : LKPFluid) (tau Zc : ℝ) : HasDerivAt (fun d => lkpFunc tau d Zc p) ((p.b1 - p.b2 * tau - p.b3 * tau ^ 2 - p.b4 * tau ^ 3) / Zc) 0 := by
  unfold lkpFunc
  have hy : HasDerivAt (fun d : ℝ => d / Zc) (1 / Zc) 0 := by simpa using (hasDerivAt_id (0 : ℝ)).div_const Zc
  have h2 : HasDerivAt (fun d : ℝ => (d / Zc) ^ 2) 0 0 := (hy.fun_pow 2).congr_deriv (by simp)
  have h5 : HasDerivAt (fun d : ℝ => (d / Zc) ^ 5) 0 0 := (hy.fun_pow 5).congr_deriv (by simp)
  have he : HasDerivAt (fun d : ℝ => Real.exp (-p.gamma * (d / Zc) ^ 2)) 0 0 := (h2.const_mul (-p.gamma)).exp.congr_deriv (by simp)
  have hq : HasDerivAt (fun d : ℝ => p.gamma * (d / Zc) ^ 2 + p.beta + 1) 0 0 :=
    (((h2.const_mul p.gamma).add_const p.beta).add_const 1).congr_deriv (by simp)
  have := (((((hasDerivAt_id (0 : ℝ)).const_mul ((p.b1 - p.b2 * tau - p.b3 * tau ^ 2 - p.b4 * tau ^ 3) / Zc)).add
    (h2.const_mul (1 / 2 * (p.c1 - p.c2 * tau + p.c3 * tau ^ 3)))).add (h5.const_mul (1 / 5 * (p.d1 + p.d2 * tau)))).sub
    ((hq.const_mul (p.c4 * tau ^ 3 / (2 * p.gamma))).mul he)).add_const (p.c4 * tau ^ 3 / (2 * p.gamma) * (p.beta + 1))
  refine this.congr_deriv ?_
  simp

/-- The second virial coefficient of one of the two reference fluids of Lee and Kesler, reduced. -/
noncomputable def lkB (p : LKPFluid) (tau : ℝ) : ℝ := p.b1 - p.b2 * tau - p.b3 * tau ^ 2 - p.b4 * tau ^ 3

/-- Lee, Kesler and Plöcker: the reference fluids' coefficients, interpolated in the acentric factor, for the critical volume over the critical compressibility. -/
theorem lkp_virial (m : LKPMix) (T : ℝ) (x : List ℝ) (hx : x.length = m.N) (hr : m.Regular T x) :
    HasVirial (fun r => m.alphar T r x) (((1 - m.omegaMix x / 0.3978) * lkB lkpSimple (m.TcMix x / T) + m.omegaMix x / 0.3978 * lkB lkpRef (m.TcMix x / T))
      * (m.vcMix x / (0.2905 - 0.085 * m.omegaMix x))) := by
  refine hasVirial_of _ (.of_forall (lkp_value m T x hx hr)) (by simp [lkpFunc_zero]) ?_
  have hl : HasDerivAt (fun r : ℝ => m.vcMix x * r) (m.vcMix x) 0 := by simpa using (hasDerivAt_id (0 : ℝ)).const_mul (m.vcMix x)
  have hs (p : LKPFluid) : HasDerivAt (fun r => lkpFunc (m.TcMix x / T) (m.vcMix x * r) (0.2905 - 0.085 * m.omegaMix x) p)
      ((p.b1 - p.b2 * (m.TcMix x / T) - p.b3 * (m.TcMix x / T) ^ 2 - p.b4 * (m.TcMix x / T) ^ 3) / (0.2905 - 0.085 * m.omegaMix x) * m.vcMix x) 0 := by
    refine HasDerivAt.comp (h₂ := fun d => lkpFunc (m.TcMix x / T) d (0.2905 - 0.085 * m.omegaMix x) p) (0 : ℝ) ?_ hl
    simpa using lkpFunc_slope p (m.TcMix x / T) (0.2905 - 0.085 * m.omegaMix x)
  refine (((hs lkpSimple).const_mul _).add ((hs lkpRef).const_mul _)).congr_deriv ?_
  unfold lkB
  ring

/-- Huber and Ely: the reference fluid's coefficient at the scaled temperature, times the shape factor of the density. -/
theorem huber_virial (m : HuberEly) (T B : ℝ) (x : List ℝ) (hf : 2 ≤ m.f.length) (hh : 2 ≤ m.h.length)
    (hreg : m.Tc ≠ 0 ∧ m.T0 ≠ 0 ∧ m.Z ≠ 0 ∧ m.rhoc ≠ 0 ∧ 0 < T / m.Tc ∧ m.fT T ≠ 0) (hpos : 0 ≤ m.hT T) (h : HasVirial (fun r => m.ref (T / m.fT T) r x) B) :
    HasVirial (fun r => m.alphar T r x) (B * m.hT T) := by
  refine hasVirial_congr (hasVirial_scale hpos h) fun r _ => ?_
  rw [HuberEly.alphar, if_neg (by omega), if_neg]
  obtain ⟨h1, h2, h3, h4, h5, h6⟩ := hreg
  push Not
  exact ⟨h1, h2, h3, h4, h5, h6⟩

/-! ## Instances -/

example : B2vir (vdW1_alphar 2 3) 300 = 3 - 2 / (RuvdW * 300) :=
  hasVirial_B2vir _ 300 _ (vdw_hasDeriv 2 3 (RuvdW * 300)).differentiableAt (vdW1_virial 2 3 300)

example : ∃ B, HasVirial (kataokaAlphar 12 1.5) B ∧ HasVirial (fun r => .ok (swAlphar 1.5 1.2 r)) (swB2four 1.5 1.2) :=
  ⟨_, kataoka_low 12 1.5 (by norm_num) (by norm_num), square_well_virial 1.5 1.2 (by norm_num) (by norm_num)⟩

/-- A chain of two Lennard-Jones segments with Johnson's monomer. -/
example : ∃ B, HasVirial (ljChain johnsonAlphar 2 1.3) B := ⟨_, chain_virial _ 2 1.3 _ (by norm_num) (by norm_num) (johnson_virial 1.3 (by norm_num))⟩

/-- Chains of one segment have the monomer's coefficient. -/
example (T : ℝ) (hT : 0 < T) : HasVirial (ljChain knAlphar 1 T) (2 * Real.pi / 3 * knDiam T ^ 3 + knDB2 T) := by
  simpa using chain_virial knAlphar 1 T _ zero_le_one hT.ne' (kolafa_virial T hT)

/-- Two unlike components of soft-SAFT. -/
example : ∃ B, HasVirial (fun r => (⟨[2, 1.5], [100, 300], [3, 4]⟩ : SoftSAFT).alphar 1 400 r [0.3, 0.7]) B := by
  refine ⟨_, soft_virial _ 1 400 [0.3, 0.7] (by simp) (by simp) (by simp) ?_ ?_ ?_ ?_ ?_ (by norm_num)⟩
  · norm_num [SoftSAFT.denSum, SoftSAFT.den, sum_range_succ]
  · norm_num [SoftSAFT.sig3, SoftSAFT.num1, SoftSAFT.denSum, SoftSAFT.den, SoftSAFT.sigma3, sum_range_succ]
  · simp only [SoftSAFT.epsMix, SoftSAFT.num2, SoftSAFT.sig3, SoftSAFT.num1, SoftSAFT.denSum, SoftSAFT.den, SoftSAFT.sigma3, SoftSAFT.epsij, sum_range_succ,
      range_zero, sum_empty, List.length_cons, List.length_nil, List.getD_cons_zero, List.getD_cons_succ]
    have h1 : 0 ≤ Real.sqrt (100 * 300) := Real.sqrt_nonneg _
    have h2 : 0 ≤ Real.sqrt (300 * 100) := Real.sqrt_nonneg _
    have h3 : 0 < Real.sqrt (100 * 100) := Real.sqrt_pos.mpr (by norm_num)
    have h4 : 0 < Real.sqrt (300 * 300) := Real.sqrt_pos.mpr (by norm_num)
    positivity
  · intro i hi j hj
    simp only [List.length_cons, List.length_nil] at hi hj
    interval_cases i <;> interval_cases j <;> simp
  · norm_num [SoftSAFT.mMix, SoftSAFT.sig3, SoftSAFT.num1, SoftSAFT.denSum, SoftSAFT.den, SoftSAFT.sigma3, sum_range_succ]

/-- A pure fluid in a mixture of two. -/
example : ∃ B, HasVirial (fun r => (lkpSample 1).alphar 250 r [1, 0]) B := ⟨_, lkp_virial _ 250 _ rfl (lkpSample_regular 1)⟩

/-- Hydrogen-like parameters of the quantum-corrected model, with a volume translation. -/
example : ∃ B, HasVirial (fun r => (onePure 33 1300000 0.1 1 1 3 10 1e-6 0 0 8.3).alphar 50 r [1]) B := by
  refine ⟨_, qcpr_virial _ 50 [1] rfl le_rfl ⟨le_rfl, le_rfl, le_rfl, le_rfl, le_rfl, le_rfl⟩ ?_ (by norm_num [onePure])⟩
  have e : (fun i : Fin (onePure 33 1300000 0.1 1 1 3 10 1e-6 0 0 8.3).alphas.length => ([1] : List ℝ).getD i 0) = fun _ => 1 := by
    funext i
    have : (i : ℕ) = 0 := by have := i.2; simp only [onePure, List.length_cons, List.length_nil] at this; omega
    rw [this, List.getD_cons_zero]
  rw [e, onePure_b]
  norm_num

/-- One component of the model of Cismondi and Mollerup. -/
example : ∃ B, HasVirial (fun r => (⟨[1.5], [300], [5000000], [2], ⟨1, fun _ _ => 0⟩, ⟨1, fun _ _ => 0⟩, 8⟩ : RKPRrt).alphar 250 r [1]) B := by
  refine ⟨_, rkpr_virial _ 250 [1] rfl (by simp) le_rfl le_rfl le_rfl le_rfl ?_ ?_ (by norm_num)⟩
  · have hy : 0 < rkpr_y 1.5 := by
      unfold rkpr_y
      positivity
    have e : (⟨[1.5], [300], [5000000], [2], ⟨1, fun _ _ => 0⟩, ⟨1, fun _ _ => 0⟩, 8⟩ : RKPRrt).toFin.get_b (fun i => ([1] : List ℝ).getD i 0)
        = ∑ _i : Fin 1, ∑ _j : Fin 1, 1 * 1 * (1 / (3 * rkpr_y 1.5 + rkpr_d1 1.5 - 1) * 8 * 300 / 5000000 + 1 / (3 * rkpr_y 1.5 + rkpr_d1 1.5 - 1) * 8 * 300 / 5000000) / 2 * (1 - 0) := by
      unfold RKPR.get_b
      refine Fintype.sum_congr _ _ fun i => Fintype.sum_congr _ _ fun j => ?_
      obtain ⟨i, hi⟩ := i
      obtain ⟨j, hj⟩ := j
      simp only [List.length_cons, List.length_nil] at hi hj
      obtain rfl : i = 0 := by omega
      obtain rfl : j = 0 := by omega
      rfl
    have hd : 0 < 3 * rkpr_y 1.5 + rkpr_d1 1.5 - 1 := by
      have : rkpr_d1 1.5 = 1.3 := by norm_num [rkpr_d1]
      rw [this]
      linarith
    rw [e]
    simp only [Fin.sum_univ_one]
    positivity
  · norm_num

/-- The first component of a model with a residual excess Helmholtz energy of Wilson's form. -/
example : ∃ B, HasVirial (fun r => advDemo.alphar 350 r [1, 0]) B := by
  have hx : ∀ i < ([1, 0] : List ℝ).length, el [1, 0] i = if i = 0 then 1 else 0 := fun i hi => by
    have : i = 0 ∨ i = 1 := by simp at hi; omega
    rcases this with rfl | rfl <;> simp [el]
  have hb : advDemo.getB [1, 0] = .ok 4e-5 := by
    rw [(adv_b advDemo [1, 0] advDemo_fits).1 rfl, adv_b_pure _ _ advDemo_fits.s _ _ _ 0 (by simp) rfl (by simp [el, advDemo]; norm_num) hx]
    simp [el, advDemo]
  have hw := wilson_pure ⟨[4e-5, 9e-5], ⟨2, fun _ _ => 0⟩, ⟨2, fun i j => if i = j then 0 else 100⟩⟩ 350 [1, 0] 0 (by simp)
    ⟨rfl, rfl, rfl, advDemo_fits.pos⟩ hx (by norm_num)
  obtain ⟨ab, hab⟩ : ∃ ab, advDemo.amOverBm 350 [1, 0] = .ok ab := by
    unfold AdvPR.amOverBm
    rw [show advDemo.ares.eval 350 [1, 0] = .ok _ from hw, Outcome.bind_ok, if_neg (by simp [advDemo]),
      if_neg (by rintro (h1 | ⟨i, hi, h1⟩); exacts [advDemo_fits.C h1, (advDemo_fits.pos i hi).ne' h1])]
    exact ⟨_, rfl⟩
  exact ⟨_, adv_virial advDemo 350 4e-5 ab [1, 0] rfl hb hab (by norm_num) (by norm_num [advDemo, RCodata2017])⟩

/-- A polar diatomic fluid. -/
example : ∃ B, HasVirial ((⟨.lisal, .dipole, 0.5, 4⟩ : TwoCenterModel).alphar 1.5) B :=
  ⟨_, twocenter_virial _ 1.5 (by norm_num) (by norm_num) (by norm_num)⟩

/-- Equal acentric factors. -/
example : ∃ B, HasVirial (fun r => (⟨0.25, 0.28, 487, 2988, 0.25, 0.27, 400, 3500, [0.05, 0.1], [0.1, 0.2], fun T rho _ => .ok (T * rho)⟩ : HuberEly).alphar 350 r [1]) B := by
  refine ⟨_, huber_virial _ 350 _ [1] (by simp) (by simp) ?_ ?_ (hasVirial_of (fun r => _ * r) (.of_forall fun r => rfl) (by simp) ((hasDerivAt_id (0 : ℝ)).const_mul _))⟩
  · norm_num [HuberEly.fT, HuberEly.theta]
  · norm_num [HuberEly.hT, HuberEly.phi]

end Teqp.Props
