import Verif.Model.LKP
import Verif.Lemmas.Reducing
import Mathlib.Analysis.Calculus.Deriv.Inv
import Mathlib.Analysis.Calculus.Deriv.Pow
import Mathlib.Tactic

/-! # Lee-Kesler-Plöcker (C88) and Huber-Ely (C89) -/

set_option autoImplicit false

namespace Teqp.Spec
open Teqp.Model

/-- The compressibility factor of Lee and Kesler in reduced temperature and ideal reduced volume. -/
noncomputable def leeKeslerZ (p : LKPFluid) (Tr Vr : ℝ) : ℝ :=
  1 + (p.b1 - p.b2 / Tr - p.b3 / Tr ^ 2 - p.b4 / Tr ^ 3) / Vr + (p.c1 - p.c2 / Tr + p.c3 / Tr ^ 3) / Vr ^ 2 + (p.d1 + p.d2 / Tr) / Vr ^ 5
    + p.c4 / (Tr ^ 3 * Vr ^ 2) * (p.beta + p.gamma / Vr ^ 2) * Real.exp (-(p.gamma / Vr ^ 2))

/-- Linear interpolation in the acentric factor between the simple and the reference fluid. -/
noncomputable def lkZ (omega Tr Vr : ℝ) : ℝ :=
  leeKeslerZ lkpSimple Tr Vr + (omega - lkpSimple.omega) / (lkpRef.omega - lkpSimple.omega) * (leeKeslerZ lkpRef Tr Vr - leeKeslerZ lkpSimple Tr Vr)

end Teqp.Spec

namespace Teqp.Props
open Finset Teqp.Model Teqp.Spec Teqp.Lemmas.Red

/-- One fluid: the density derivative is the compressibility factor of Lee and Kesler. -/
theorem lkpFunc_deriv (p : LKPFluid) (tau delta Zc : ℝ) (hg : p.gamma ≠ 0) (ht : tau ≠ 0) (hd : delta ≠ 0) (hZ : Zc ≠ 0) :
    HasDerivAt (fun d => lkpFunc tau d Zc p) ((leeKeslerZ p (1 / tau) (Zc / delta) - 1) / delta) delta := by
  unfold lkpFunc
  dsimp only
  have hy : HasDerivAt (fun d : ℝ => d / Zc) (1 / Zc) delta := (hasDerivAt_id delta).div_const Zc
  have he : HasDerivAt (fun d : ℝ => Real.exp (-p.gamma * (d / Zc) ^ 2)) _ delta := ((hy.fun_pow 2).const_mul (-p.gamma)).exp
  have h1 := (hasDerivAt_id delta).const_mul ((p.b1 - p.b2 * tau - p.b3 * tau ^ 2 - p.b4 * tau ^ 3) / Zc)
  have h2 := (hy.fun_pow 2).const_mul (1 / 2 * (p.c1 - p.c2 * tau + p.c3 * tau ^ 3))
  have h3 := (hy.fun_pow 5).const_mul (1 / 5 * (p.d1 + p.d2 * tau))
  have h4 := ((((hy.fun_pow 2).const_mul p.gamma).add_const p.beta).add_const 1).const_mul (p.c4 * tau ^ 3 / (2 * p.gamma))
  have h := (((h1.fun_add h2).fun_add h3).fun_sub (h4.fun_mul he)).add_const (p.c4 * tau ^ 3 / (2 * p.gamma) * (p.beta + 1))
  refine h.congr_deriv ?_
  unfold leeKeslerZ
  have e1 : -(p.gamma / (Zc / delta) ^ 2) = -p.gamma * (delta / Zc) ^ 2 := by field_simp
  rw [e1]
  generalize Real.exp (-p.gamma * (delta / Zc) ^ 2) = E
  simp only [Nat.cast_ofNat, Nat.reduceSub, pow_one]
  field_simp
  ring

theorem lkpFunc_zero (p : LKPFluid) (tau Zc : ℝ) : lkpFunc tau 0 Zc p = 0 := by
  unfold lkpFunc
  simp

/-- The Helmholtz energy of a mixture as a function of density. -/
theorem lkp_value (m : LKPMix) (T : ℝ) (x : List ℝ) (hx : x.length = m.N) (hr : m.Regular T x) (rho : ℝ) :
    m.alphar T rho x = .ok ((1 - m.omegaMix x / 0.3978) * lkpFunc (m.TcMix x / T) (m.vcMix x * rho) (0.2905 - 0.085 * m.omegaMix x) lkpSimple
      + m.omegaMix x / 0.3978 * lkpFunc (m.TcMix x / T) (m.vcMix x * rho) (0.2905 - 0.085 * m.omegaMix x) lkpRef) := by
  unfold LKPMix.alphar
  rw [if_neg (by simpa using hx), if_neg (by simpa using hr)]
  simp only [lkpRef]

/-- **The density derivative of the mixture model is the Lee-Kesler compressibility factor**, interpolated in the acentric factor, at
the reduced temperature and ideal reduced volume of the one-fluid mixture; without density the Helmholtz energy is zero. -/
theorem lkp_compressibility (m : LKPMix) (T : ℝ) (x : List ℝ) (hx : x.length = m.N) (hr : m.Regular T x) (hTc : m.TcMix x ≠ 0) :
    ∃ a : ℝ → ℝ, (∀ rho, m.alphar T rho x = .ok (a rho)) ∧ a 0 = 0 ∧
      ∀ rho, rho ≠ 0 → HasDerivAt a ((lkZ (m.omegaMix x) (T / m.TcMix x) ((0.2905 - 0.085 * m.omegaMix x) / (m.vcMix x * rho)) - 1) / rho) rho := by
  refine ⟨_, lkp_value m T x hx hr, ?_, ?_⟩
  · simp only [mul_zero, lkpFunc_zero]
    ring
  intro rho hrho
  have hT := hr.hT
  have hv := hr.hvm.ne'
  have key : ∀ p : LKPFluid, p.gamma ≠ 0 →
      HasDerivAt (fun r => lkpFunc (m.TcMix x / T) (m.vcMix x * r) (0.2905 - 0.085 * m.omegaMix x) p)
        ((leeKeslerZ p (T / m.TcMix x) ((0.2905 - 0.085 * m.omegaMix x) / (m.vcMix x * rho)) - 1) / rho) rho := by
    intro p hp
    have hin : HasDerivAt (fun r : ℝ => m.vcMix x * r) (m.vcMix x) rho := by
      simpa using (hasDerivAt_id rho).const_mul (m.vcMix x)
    have h := (lkpFunc_deriv p (m.TcMix x / T) (m.vcMix x * rho) (0.2905 - 0.085 * m.omegaMix x) hp (div_ne_zero hTc hT) (mul_ne_zero hv hrho)
      hr.hZ).comp rho hin
    refine h.congr_deriv ?_
    rw [one_div_div]
    field_simp
  have hs := key lkpSimple (by simp only [lkpSimple]; norm_num)
  have hf := key lkpRef (by simp only [lkpRef]; norm_num)
  refine ((hs.const_mul (1 - m.omegaMix x / 0.3978)).fun_add (hf.const_mul (m.omegaMix x / 0.3978))).congr_deriv ?_
  unfold lkZ
  rw [show lkpSimple.omega = 0 from rfl, show lkpRef.omega = 0.3978 from rfl]
  field_simp
  ring

/-- **A component alone**: the mixture parameters are those of the component, except that its critical temperature is multiplied by
the diagonal entry of the matrix. -/
theorem lkp_pure_parameters (m : LKPMix) (k : ℕ) (hk : k < m.N) (x : List ℝ) (hx : ∀ i, x.getD i 0 = if i = k then 1 else 0)
    (hT : 0 ≤ m.Tcrit.getD k 0) (hv : 0 < m.vc k) :
    m.omegaMix x = m.acentric.getD k 0 ∧ m.vcMix x = m.vc k ∧ m.TcMix x = (m.kmat.getD k []).getD k 0 * m.Tcrit.getD k 0 := by
  have hmem : k ∈ range m.N := mem_range.mpr hk
  have hvv : m.vcij k k = m.vc k := by
    unfold LKPMix.vcij
    rw [show cbrt (m.vc k) + cbrt (m.vc k) = 2 * cbrt (m.vc k) by ring, mul_pow, cbrt_cube]
    ring
  have hone : ∀ f : ℕ → ℕ → ℝ, ∑ i ∈ range m.N, ∑ j ∈ range m.N, x.getD i 0 * x.getD j 0 * f i j = f k k := by
    intro f
    rw [Finset.sum_eq_single_of_mem k hmem, Finset.sum_eq_single_of_mem k hmem]
    · rw [hx k, if_pos rfl]
      ring
    · intro j _ hj
      rw [hx j, if_neg hj]
      ring
    · intro i _ hi
      refine Finset.sum_eq_zero fun j _ => ?_
      rw [hx i, if_neg hi]
      ring
  have hvm : m.vcMix x = m.vc k := by
    unfold LKPMix.vcMix
    rw [hone, hvv]
  refine ⟨?_, hvm, ?_⟩
  · unfold LKPMix.omegaMix
    rw [Finset.sum_eq_single_of_mem k hmem]
    · rw [hx k, if_pos rfl, one_mul]
    · intro j _ hj
      rw [hx j, if_neg hj, zero_mul]
  · unfold LKPMix.TcMix LKPMix.tcSum
    have : ∀ i j, x.getD i 0 * x.getD j 0 * m.vcij i j ^ (0.25 : ℝ) * m.Tcij i j = x.getD i 0 * x.getD j 0 * (m.vcij i j ^ (0.25 : ℝ) * m.Tcij i j) := by
      intro i j
      ring
    simp only [this, hone, hvv, hvm]
    have hp : 0 < m.vc k ^ (0.25 : ℝ) := Real.rpow_pos_of_pos hv _
    unfold LKPMix.Tcij
    rw [Real.sqrt_mul_self hT]
    field_simp

/-- **The pure fluid.**  With a unit diagonal, a component alone follows Lee and Kesler with its own constants: the ideal reduced volume is
`pc V / (R Tc)`. -/
theorem lkp_pure (m : LKPMix) (T : ℝ) (k : ℕ) (hk : k < m.N) (x : List ℝ) (hl : x.length = m.N) (hx : ∀ i, x.getD i 0 = if i = k then 1 else 0)
    (hr : m.Regular T x) (hT : 0 < m.Tcrit.getD k 0) (hR : m.R ≠ 0) (hv : 0 < m.vc k) (hdiag : (m.kmat.getD k []).getD k 0 = 1) :
    ∃ a : ℝ → ℝ, (∀ rho, m.alphar T rho x = .ok (a rho)) ∧ a 0 = 0 ∧
      ∀ rho, rho ≠ 0 → HasDerivAt a ((lkZ (m.acentric.getD k 0) (T / m.Tcrit.getD k 0) (m.pcrit.getD k 0 / (m.R * m.Tcrit.getD k 0) / rho) - 1) / rho) rho := by
  obtain ⟨h1, h2, h3⟩ := lkp_pure_parameters m k hk x hx hT.le hv
  rw [hdiag, one_mul] at h3
  obtain ⟨a, ha, ha0, had⟩ := lkp_compressibility m T x hl hr (by rw [h3]; exact hT.ne')
  refine ⟨a, ha, ha0, fun rho hrho => (had rho hrho).congr_deriv ?_⟩
  have hp := hr.hp k hk
  have hZ := hr.hZ
  rw [h1] at hZ
  have hT' := hT.ne'
  have : (0.2905 - 0.085 * m.acentric.getD k 0) / (m.vc k * rho) = m.pcrit.getD k 0 / (m.R * m.Tcrit.getD k 0) / rho := by
    unfold LKPMix.vc
    generalize 0.2905 - 0.085 * m.acentric.getD k 0 = Zc at hZ ⊢
    field_simp
  rw [h1, h2, h3, this]

/-- **Identical components mix ideally**: if all components have the same constants and all matrix entries are one, every composition
gives the mixture parameters of the pure fluid. -/
theorem lkp_identical (m : LKPMix) (Tc pc om : ℝ) (hT : 0 ≤ Tc) (h1 : ∀ i < m.N, m.Tcrit.getD i 0 = Tc) (h2 : ∀ i < m.N, m.pcrit.getD i 0 = pc)
    (h3 : ∀ i < m.N, m.acentric.getD i 0 = om) (h4 : ∀ i < m.N, ∀ j < m.N, (m.kmat.getD i []).getD j 0 = 1)
    (hv : 0 < (0.2905 - 0.085 * om) * m.R * Tc / pc) (x : List ℝ) (hx : ∑ i ∈ range m.N, x.getD i 0 = 1) :
    m.omegaMix x = om ∧ m.vcMix x = (0.2905 - 0.085 * om) * m.R * Tc / pc ∧ m.TcMix x = Tc := by
  set v := (0.2905 - 0.085 * om) * m.R * Tc / pc with hvdef
  have hvc : ∀ i < m.N, m.vc i = v := by
    intro i hi
    unfold LKPMix.vc
    rw [h1 i hi, h2 i hi, h3 i hi]
  have hvij : ∀ i < m.N, ∀ j < m.N, m.vcij i j = v := by
    intro i hi j hj
    unfold LKPMix.vcij
    rw [hvc i hi, hvc j hj, show cbrt v + cbrt v = 2 * cbrt v by ring, mul_pow, cbrt_cube]
    ring
  have hone : ∀ c : ℝ, ∑ i ∈ range m.N, ∑ j ∈ range m.N, x.getD i 0 * x.getD j 0 * c = c := by
    intro c
    simp only [← Finset.sum_mul, ← Finset.mul_sum, hx, one_mul]
  have hvm : m.vcMix x = v := by
    unfold LKPMix.vcMix
    rw [← hone v]
    refine Finset.sum_congr rfl fun i hi => Finset.sum_congr rfl fun j hj => ?_
    rw [hvij i (mem_range.mp hi) j (mem_range.mp hj)]
  refine ⟨?_, hvm, ?_⟩
  · unfold LKPMix.omegaMix
    rw [Finset.sum_congr rfl (fun i hi => by rw [h3 i (mem_range.mp hi)]), ← Finset.sum_mul, hx, one_mul]
  · unfold LKPMix.TcMix LKPMix.tcSum
    have : ∑ i ∈ range m.N, ∑ j ∈ range m.N, x.getD i 0 * x.getD j 0 * m.vcij i j ^ (0.25 : ℝ) * m.Tcij i j = v ^ (0.25 : ℝ) * Tc := by
      rw [← hone (v ^ (0.25 : ℝ) * Tc)]
      refine Finset.sum_congr rfl fun i hi => Finset.sum_congr rfl fun j hj => ?_
      have hi := mem_range.mp hi
      have hj := mem_range.mp hj
      unfold LKPMix.Tcij
      rw [hvij i hi j hj, h1 i hi, h1 j hj, h4 i hi j hj, Real.sqrt_mul_self hT]
      ring
    rw [this, hvm]
    have hp : 0 < v ^ (0.25 : ℝ) := Real.rpow_pos_of_pos hv _
    field_simp

/-- A model of two components. -/
noncomputable def lkpSample (d : ℝ) : LKPMix := ⟨[190, 300], [4600000, 4900000], [0.011, 0.1], 8.314, [[d, 1], [1, d]]⟩

theorem lkpSample_N (d : ℝ) : (lkpSample d).N = 2 := rfl

theorem lkpSample_vc (d : ℝ) (i : ℕ) (hi : i < 2) : 0 < (lkpSample d).vc i := by
  have : i = 0 ∨ i = 1 := by omega
  rcases this with h | h <;> subst h <;> simp only [LKPMix.vc, lkpSample, List.getD_cons_zero, List.getD_cons_succ] <;> norm_num

theorem lkpSample_regular (d : ℝ) : (lkpSample d).Regular 250 [1, 0] := by
  have hx : ∀ i, ([1, 0] : List ℝ).getD i 0 = if i = 0 then 1 else 0 := by
    intro i
    match i with
    | 0 => simp
    | 1 => simp
    | i + 2 => simp
  obtain ⟨h1, h2, -⟩ := lkp_pure_parameters (lkpSample d) 0 (by rw [lkpSample_N]; norm_num) [1, 0] hx (by simp [lkpSample]) (lkpSample_vc d 0 (by norm_num))
  refine ⟨by norm_num, ?_, ?_, ?_, ?_, ?_⟩
  · intro i hi
    rw [lkpSample_N] at hi
    have : i = 0 ∨ i = 1 := by omega
    rcases this with h | h <;> subst h <;> simp [lkpSample]
  · intro i hi j hj
    rw [lkpSample_N] at hi hj
    have h : i = 0 ∨ i = 1 := by omega
    have h' : j = 0 ∨ j = 1 := by omega
    rcases h with h | h <;> rcases h' with h' | h' <;> subst h <;> subst h' <;> simp [lkpSample]
  · intro i hi j hj
    rw [lkpSample_N] at hi hj
    unfold LKPMix.vcij
    have := cbrt_pos (lkpSample_vc d i hi)
    have := cbrt_pos (lkpSample_vc d j hj)
    positivity
  · rw [h2]
    exact lkpSample_vc d 0 (by norm_num)
  · rw [h1]
    simp only [lkpSample, List.getD_cons_zero]
    norm_num

example : ∃ a : ℝ → ℝ, (∀ rho, (lkpSample 1).alphar 250 rho [1, 0] = .ok (a rho)) ∧ a 0 = 0 := by
  have hx : ∀ i, ([1, 0] : List ℝ).getD i 0 = if i = 0 then 1 else 0 := by
    intro i
    match i with
    | 0 => simp
    | 1 => simp
    | i + 2 => simp
  obtain ⟨a, h, h0, -⟩ := lkp_pure (lkpSample 1) 250 0 (by rw [lkpSample_N]; norm_num) [1, 0] rfl hx (lkpSample_regular 1) (by simp [lkpSample])
    (by norm_num [lkpSample]) (lkpSample_vc 1 0 (by norm_num)) (by simp [lkpSample])
  exact ⟨a, h, h0⟩

/-- **The diagonal of the matrix is not checked.**  A matrix with zeros on its diagonal, the usual form of an interaction matrix in the other
models, is accepted, and then the Helmholtz energy of a pure component does not depend on temperature at all. -/
theorem lkp_diagonal_unchecked : LKPMix.make [190, 300] [4600000, 4900000] [0.011, 0.1] 8.314 [[0, 1], [1, 0]] = .ok (lkpSample 0) ∧
    (lkpSample 0).TcMix [1, 0] = 0 ∧ (lkpSample 1).TcMix [1, 0] = 190 := by
  have hx : ∀ i, ([1, 0] : List ℝ).getD i 0 = if i = 0 then 1 else 0 := by
    intro i
    match i with
    | 0 => simp
    | 1 => simp
    | i + 2 => simp
  refine ⟨?_, ?_, ?_⟩
  · simp [LKPMix.make, lkpSample]
  · rw [(lkp_pure_parameters (lkpSample 0) 0 (by rw [lkpSample_N]; norm_num) [1, 0] hx (by simp [lkpSample]) (lkpSample_vc 0 0 (by norm_num))).2.2]
    simp [lkpSample]
  · rw [(lkp_pure_parameters (lkpSample 1) 0 (by rw [lkpSample_N]; norm_num) [1, 0] hx (by simp [lkpSample]) (lkpSample_vc 1 0 (by norm_num))).2.2]
    simp [lkpSample]

/-- **Sizes**: the constructor accepts exactly arrays of one length with a square matrix of that size, and evaluation accepts exactly
compositions of that length. -/
theorem lkp_sizes (Tc pc om : List ℝ) (R : ℝ) (k : List (List ℝ)) :
    ((∃ m, LKPMix.make Tc pc om R k = .ok m) ↔ pc.length = Tc.length ∧ om.length = Tc.length ∧ k.length = Tc.length ∧ ∀ r ∈ k, r.length = Tc.length) ∧
    (∀ m, LKPMix.make Tc pc om R k = .ok m → m = ⟨Tc, pc, om, R, k⟩ ∧ ∀ T rho x, x.length ≠ Tc.length → m.alphar T rho x = .throws .invalidArgument) ∧
    ((¬ ∃ m, LKPMix.make Tc pc om R k = .ok m) → LKPMix.make Tc pc om R k = .throws .invalidArgument) := by
  unfold LKPMix.make
  refine ⟨?_, ?_, ?_⟩
  · constructor
    · rintro ⟨m, hm⟩
      split_ifs at hm with h1 h2 h3
      push Not at h1 h2 h3
      exact ⟨h1.1.symm, h1.2.symm, h2, h3⟩
    · rintro ⟨h1, h2, h3, h4⟩
      rw [if_neg (by simp [h1, h2]), if_neg (by simp [h3]), if_neg (by push Not; exact h4)]
      exact ⟨_, rfl⟩
  · intro m hm
    split_ifs at hm with h1 h2 h3
    push Not at h1
    cases hm
    refine ⟨rfl, fun T rho x hx => ?_⟩
    unfold LKPMix.alphar
    rw [if_pos]
    show x.length ≠ om.length
    rw [← h1.2]
    exact hx
  · intro h
    split_ifs at h ⊢ with h1 h2 h3 <;> first | rfl | exact absurd ⟨_, rfl⟩ h

/-- The slope of the critical isotherm of one fluid. -/
theorem leeKesler_isotherm (p : LKPFluid) (V : ℝ) (hV : V ≠ 0) : HasDerivAt (fun V => leeKeslerZ p 1 V / V)
    (-(1 / V ^ 2) - 2 * (p.b1 - p.b2 - p.b3 - p.b4) / V ^ 3 - 3 * (p.c1 - p.c2 + p.c3) / V ^ 4 - 6 * (p.d1 + p.d2) / V ^ 7
      + p.c4 * (-(3 * p.beta) / V ^ 4 - 5 * p.gamma / V ^ 6 + 2 * p.gamma * p.beta / V ^ 6 + 2 * p.gamma ^ 2 / V ^ 8) * Real.exp (-(p.gamma / V ^ 2))) V := by
  have hp (n : ℕ) : HasDerivAt (fun V : ℝ => (V ^ n)⁻¹) (-(n * V ^ (n - 1)) / (V ^ n) ^ 2) V := (hasDerivAt_pow n V).fun_inv (pow_ne_zero _ hV)
  have he : HasDerivAt (fun V : ℝ => Real.exp (-(p.gamma * (V ^ 2)⁻¹))) _ V := (((hp 2).const_mul p.gamma).fun_neg).exp
  have h := ((((hp 1).add ((hp 2).const_mul (p.b1 - p.b2 - p.b3 - p.b4))).add ((hp 3).const_mul (p.c1 - p.c2 + p.c3))).add
    ((hp 6).const_mul (p.d1 + p.d2))).add ((((hp 3).const_mul (p.c4 * p.beta)).add ((hp 5).const_mul (p.c4 * p.gamma))).fun_mul he)
  refine (h.congr_of_eventuallyEq ?_).congr_deriv ?_
  · filter_upwards [isOpen_ne.mem_nhds hV] with W hW
    have hW : W ≠ 0 := hW
    simp only [leeKeslerZ, Pi.add_apply, one_pow, div_one, one_mul]
    rw [show p.gamma * (W ^ 2)⁻¹ = p.gamma / W ^ 2 from rfl]
    field_simp
  · simp only [Pi.add_apply]
    rw [show p.gamma * (V ^ 2)⁻¹ = p.gamma / V ^ 2 from rfl]
    push_cast
    norm_num
    field_simp
    ring

/-- **The critical point of both fluids is where it should be**: at reduced temperature one and at the ideal reduced volume equal to the critical
compressibility factor, the simple fluid (0.2905) and the reference fluid (0.2905 - 0.085 · 0.3978) have a reduced pressure of one and a level isotherm. -/
theorem lkp_critical :
    |leeKeslerZ lkpSimple 1 0.2905 / 0.2905 - 1| < 1e-4 ∧ (∃ d, HasDerivAt (fun V => leeKeslerZ lkpSimple 1 V / V) d 0.2905 ∧ |d| < 1e-2) ∧
    |leeKeslerZ lkpRef 1 (0.2905 - 0.085 * lkpRef.omega) / (0.2905 - 0.085 * lkpRef.omega) - 1| < 1e-4 ∧
      (∃ d, HasDerivAt (fun V => leeKeslerZ lkpRef 1 V / V) d (0.2905 - 0.085 * lkpRef.omega) ∧ |d| < 1e-2) := by
  have hb (y : ℝ) (h0 : 0 ≤ y) (h1 : y ≤ 1) : |Real.exp (-y) - ∑ m ∈ range 9, (-y) ^ m / m.factorial| ≤ y ^ 9 * (10 / (362880 * 9)) := by
    have := Real.exp_bound (x := -y) (by rw [abs_neg, abs_of_nonneg h0]; exact h1) (n := 9) (by norm_num)
    rw [abs_neg, abs_of_nonneg h0] at this
    convert this using 3 <;> norm_num [Nat.factorial]
  have b1 := hb (lkpSimple.gamma / 0.2905 ^ 2) (by norm_num [lkpSimple]) (by norm_num [lkpSimple])
  have b2 := hb (lkpRef.gamma / (0.2905 - 0.085 * lkpRef.omega) ^ 2) (by norm_num [lkpRef]) (by norm_num [lkpRef])
  refine ⟨?_, ⟨_, leeKesler_isotherm lkpSimple 0.2905 (by norm_num), ?_⟩, ?_, ⟨_, leeKesler_isotherm lkpRef _ (by norm_num [lkpRef]), ?_⟩⟩
  · unfold leeKeslerZ
    generalize Real.exp (-(lkpSimple.gamma / 0.2905 ^ 2)) = E at *
    norm_num [lkpSimple, Finset.sum_range_succ, Nat.factorial, abs_le, abs_lt] at b1 ⊢
    constructor <;> linarith [b1.1, b1.2]
  · generalize Real.exp (-(lkpSimple.gamma / 0.2905 ^ 2)) = E at *
    norm_num [lkpSimple, Finset.sum_range_succ, Nat.factorial, abs_le, abs_lt] at b1 ⊢
    constructor <;> linarith [b1.1, b1.2]
  · unfold leeKeslerZ
    generalize Real.exp (-(lkpRef.gamma / (0.2905 - 0.085 * lkpRef.omega) ^ 2)) = E at *
    norm_num [lkpRef, Finset.sum_range_succ, Nat.factorial, abs_le, abs_lt] at b2 ⊢
    constructor <;> linarith [b2.1, b2.2]
  · generalize Real.exp (-(lkpRef.gamma / (0.2905 - 0.085 * lkpRef.omega) ^ 2)) = E at *
    norm_num [lkpRef, Finset.sum_range_succ, Nat.factorial, abs_le, abs_lt] at b2 ⊢
    constructor <;> linarith [b2.1, b2.2]

/-- **The JSON factory hands every array to its place**: from a document with the five keys in any position, the constructor receives the
values stored under the key of each. -/
theorem lkp_factory (j : JTree) (Tc pc om k : JTree) (R : JTree) (tc pcs oms : List ℝ) (r : ℝ) (ks : List (List ℝ)) (h1 : j.at "Tcrit / K" = .ok Tc)
    (h2 : j.at "pcrit / Pa" = .ok pc) (h3 : j.at "acentric" = .ok om) (h4 : j.at "R / J/mol/K" = .ok R) (h5 : j.at "kmat" = .ok k) (g1 : Tc.toRow = .ok tc)
    (g2 : pc.toRow = .ok pcs) (g3 : om.toRow = .ok oms) (g4 : R.toDouble = .ok r) (g5 : k.toRows = .ok ks) :
    lkpFactory j = LKPMix.make tc pcs oms r ks := by
  simp only [lkpFactory, h1, h2, h3, h4, h5, g1, g2, g3, g4, g5, Outcome.bind_ok]

example : lkpFactory (.obj [("kmat", .arr [.arr [.num 1]]), ("acentric", .arr [.num 0.011]), ("Tcrit / K", .arr [.num 190]), ("R / J/mol/K", .num 8.314),
    ("pcrit / Pa", .arr [.num 4600000])]) = .ok ⟨[190], [4600000], [0.011], 8.314, [[1]]⟩ := by
  rw [lkp_factory _ (.arr [.num 190]) (.arr [.num 4600000]) (.arr [.num 0.011]) (.arr [.arr [.num 1]]) (.num 8.314) [190] [4600000] [0.011] 8.314 [[1]]
    rfl rfl rfl rfl rfl rfl rfl rfl rfl rfl]
  simp [LKPMix.make]

/-! ## Huber and Ely -/

/-- **The reference fluid reproduces itself**, whatever the shape factors. -/
theorem huberEly_reference (m : HuberEly) (hf : 2 ≤ m.f.length) (hh : 2 ≤ m.h.length) (h1 : m.omega = m.omega0) (h2 : m.Z = m.Z0) (h3 : m.Tc = m.T0)
    (h4 : m.rhoc = m.rho0) (hZ : m.Z ≠ 0) (hTc : 0 < m.Tc) (hrc : m.rhoc ≠ 0) (T rho : ℝ) (hT : 0 < T) (x : List ℝ) :
    m.alphar T rho x = m.ref T rho x := by
  have hth : m.theta T = 1 := by unfold HuberEly.theta; rw [h1]; ring
  have hph : m.phi T = 1 := by unfold HuberEly.phi; rw [h1, ← h2, div_self hZ]; ring
  have hfT : m.fT T = 1 := by unfold HuberEly.fT; rw [hth, ← h3, div_self hTc.ne', one_mul]
  have hhT : m.hT T = 1 := by unfold HuberEly.hT; rw [hph, ← h4, div_self hrc, one_mul]
  unfold HuberEly.alphar
  have hpos : 0 < T / m.Tc := by positivity
  rw [if_neg (by omega), if_neg, hfT, hhT, div_one, mul_one]
  rw [hfT, ← h3]
  simp only [not_or]
  exact ⟨hTc.ne', hTc.ne', hZ, hrc, not_le.mpr hpos, one_ne_zero⟩

/-- **Corresponding states**: two fluids that differ only in their critical temperature and density have the same Helmholtz energy at the same
reduced temperature and density. -/
theorem huberEly_corresponding (m : HuberEly) (s r : ℝ) (hs : 0 < s) (hr : r ≠ 0) (T rho : ℝ) (x : List ℝ) :
    ({ m with Tc := s * m.Tc, rhoc := r * m.rhoc } : HuberEly).alphar (s * T) (r * rho) x = m.alphar T rho x := by
  have hs' := hs.ne'
  have e1 : s * T / (s * m.Tc) = T / m.Tc := mul_div_mul_left _ _ hs'
  unfold HuberEly.alphar HuberEly.fT HuberEly.hT HuberEly.theta HuberEly.phi
  simp only [e1, mul_eq_zero, hs', hr, false_or, div_eq_zero_iff]
  split_ifs with h1 h2
  · rfl
  · rfl
  · congr 1
    · simp only [not_or] at h2
      obtain ⟨a, b, c, d, e, g, -⟩ := h2
      rw [mul_div_assoc s m.Tc m.T0, mul_assoc s, mul_div_mul_left _ _ hs']
    · rw [div_mul_eq_div_div]
      field_simp

/-- **With the acentric factor of the reference, only the critical constants matter**: the state is mapped by the ratios of critical temperatures,
critical densities and critical compressibility factors, so that the reduced pressure-like group `p / (rho R T)` is taken at `T T0 / Tc` and
`rho (rho0 Z0) / (rhoc Z)`. -/
theorem huberEly_same_acentric (m : HuberEly) (hf : 2 ≤ m.f.length) (hh : 2 ≤ m.h.length) (h1 : m.omega = m.omega0) (hZ : m.Z ≠ 0) (hTc : 0 < m.Tc)
    (hT0 : 0 < m.T0) (hrc : m.rhoc ≠ 0) (T rho : ℝ) (hT : 0 < T) (x : List ℝ) :
    m.alphar T rho x = m.ref (T * m.T0 / m.Tc) (rho * (m.rho0 * m.Z0) / (m.rhoc * m.Z)) x := by
  have hth : m.theta T = 1 := by unfold HuberEly.theta; rw [h1]; ring
  have hph : m.phi T = m.Z0 / m.Z := by unfold HuberEly.phi; rw [h1]; ring
  have hfT : m.fT T = m.Tc / m.T0 := by unfold HuberEly.fT; rw [hth, mul_one]
  have hhT : m.hT T = m.rho0 / m.rhoc * (m.Z0 / m.Z) := by unfold HuberEly.hT; rw [hph]
  unfold HuberEly.alphar
  have hpos : 0 < T / m.Tc := by positivity
  rw [if_neg (by omega), if_neg, hfT, hhT]
  · congr 1 <;> field_simp
  · rw [hfT]
    simp only [not_or]
    exact ⟨hTc.ne', hT0.ne', hZ, hrc, not_le.mpr hpos, (div_pos hTc hT0).ne'⟩

example : (⟨0.25, 0.28, 487, 2988, 0.25, 0.27, 400, 3500, [0.05, 0.1], [0.1, 0.2], fun T rho _ => .ok (T * rho)⟩ : HuberEly).alphar 350 100 [1] =
    .ok (350 * 487 / 400 * (100 * (2988 * 0.28) / (3500 * 0.27))) :=
  huberEly_same_acentric _ (by simp) (by simp) rfl (by norm_num) (by norm_num) (by norm_num) (by norm_num) _ _ (by norm_num) _

/-- **Too few shape coefficients are read outside of their array**: the constructor does not count them. -/
theorem huberEly_short : ∃ (build : String → Outcome (ℝ → ℝ → List ℝ → Outcome ℝ)) (j : JTree) (m : HuberEly),
    HuberEly.make build j = .ok m ∧ ∀ T rho x, m.alphar T rho x = .ub := by
  refine ⟨fun _ => .ok fun _ _ _ => .ok 0, .obj [
    ("reference_fluid", .obj [("name", .str "R113"), ("acentric", .num 0.25), ("Z_crit", .num 0.28), ("T_crit / K", .num 487), ("rhomolar_crit / mol/m^3", .num 2988)]),
    ("fluid", .obj [("acentric", .num 0.3), ("Z_crit", .num 0.27), ("T_crit / K", .num 400), ("rhomolar_crit / mol/m^3", .num 3500),
      ("f_T_coeffs", .arr [.num 0.05]), ("h_T_coeffs", .arr [.num 0.1, .num 0.2])])], _, rfl, ?_⟩
  intro T rho x
  unfold HuberEly.alphar
  rw [if_pos (Or.inl (by simp))]

end Teqp.Props
