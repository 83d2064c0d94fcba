import Verif.Lemmas.PCPure
import Verif.Model.EmbedTerm
import Verif.Props.Cubic
import Verif.Props.PCSAFT
import Mathlib.Analysis.Calculus.Deriv.CompMul

/-! # C169: an equation of state wrapped as a term of a multi-fluid document -/

set_option autoImplicit false

namespace Teqp.Props
open Teqp Teqp.Model Teqp.Spec Teqp.Lemmas

/-! ## Reading the documents -/

/-- The document holds the number `x` under the key `k`. -/
def HoldsNum (j : JTree) (k : String) (x : ℝ) : Prop := j.at k = .ok (.num x)

theorem HoldsNum.get {j : JTree} {k : String} {x : ℝ} (h : HoldsNum j k x) : numAt k j = .ok x := by
  unfold numAt; rw [h]; rfl

/-- A document with the nine numbers and one alpha function becomes the term with `a₀ = Ω_A (R T_c)²/p_c` and `b = Ω_B R T_c/p_c`. -/
theorem cubicTerm_reads {j al : JTree} {Tc pc R D1 D2 Tred rhored OA OB : ℝ} {f : AlphaFn}
    (h1 : HoldsNum j "Tcrit / K" Tc) (h2 : HoldsNum j "pcrit / Pa" pc) (h3 : HoldsNum j "R / J/mol/K" R)
    (h4 : HoldsNum j "Delta1" D1) (h5 : HoldsNum j "Delta2" D2) (h6 : HoldsNum j "Tred / K" Tred)
    (h7 : HoldsNum j "rhored / mol/m^3" rhored) (h8 : HoldsNum j "OmegaA" OA) (h9 : HoldsNum j "OmegaB" OB)
    (ha : j.at "alpha" = .ok (.arr [al])) (hf : buildAlphaJson Tc al = .ok f) :
    cubicTermOf j = .ok ⟨R, D1, D2, Tred, rhored, OA * (R * Tc) ^ 2 / pc, OB * R * Tc / pc, f⟩ := by
  unfold cubicTermOf
  simp only [h1.get, h2.get, h3.get, h4.get, h5.get, h6.get, h7.get, h8.get, h9.get, ha, Outcome.bind_ok]
  have : buildAlphasJson [Tc] (.arr [al]) = .ok [f] := by
    simp [buildAlphasJson, JTree.size, JTree.items, mapOutcome, hf, Outcome.bind]
  rw [this]
  rfl

/-- A list of alpha functions of any other length is refused. -/
theorem cubicTerm_alpha_count {j : JTree} {als : List JTree} {Tc pc R D1 D2 Tred rhored OA OB : ℝ}
    (h1 : HoldsNum j "Tcrit / K" Tc) (h2 : HoldsNum j "pcrit / Pa" pc) (h3 : HoldsNum j "R / J/mol/K" R)
    (h4 : HoldsNum j "Delta1" D1) (h5 : HoldsNum j "Delta2" D2) (h6 : HoldsNum j "Tred / K" Tred)
    (h7 : HoldsNum j "rhored / mol/m^3" rhored) (h8 : HoldsNum j "OmegaA" OA) (h9 : HoldsNum j "OmegaB" OB)
    (ha : j.at "alpha" = .ok (.arr als)) (hl : als.length ≠ 1) : cubicTermOf j = .throws .invalidArgument := by
  unfold cubicTermOf
  simp only [h1.get, h2.get, h3.get, h4.get, h5.get, h6.get, h7.get, h8.get, h9.get, ha, Outcome.bind_ok]
  have : buildAlphasJson [Tc] (.arr als) = .throws .invalidArgument := by
    simp [buildAlphasJson, JTree.size, hl]
  rw [this]
  rfl

/-- A reducing state that is missing, or not a number, is refused with a JSON error (the keys before it being present). -/
theorem cubicTerm_needs_reducing {j : JTree} {Tc pc R D1 D2 : ℝ}
    (h1 : HoldsNum j "Tcrit / K" Tc) (h2 : HoldsNum j "pcrit / Pa" pc) (h3 : HoldsNum j "R / J/mol/K" R)
    (h4 : HoldsNum j "Delta1" D1) (h5 : HoldsNum j "Delta2" D2)
    (h : numAt "Tred / K" j = .throws .jsonError ∨ numAt "rhored / mol/m^3" j = .throws .jsonError) :
    cubicTermOf j = .throws .jsonError := by
  unfold cubicTermOf
  simp only [h1.get, h2.get, h3.get, h4.get, h5.get, Outcome.bind_ok]
  have key : ∀ k, (∃ x, numAt k j = .ok x) ∨ numAt k j = .throws .jsonError := fun k => by
    unfold numAt JTree.at
    cases j with
    | obj fs =>
      simp only
      cases fs.lookup k with
      | none => exact .inr rfl
      | some v => cases v <;> simp [Outcome.bind, JTree.toDouble]
    | _ => exact .inr rfl
  rcases h with h | h
  · rw [h]; rfl
  · rcases key "Tred / K" with ⟨x, hx⟩ | hx
    · rw [hx, Outcome.bind_ok, h]; rfl
    · rw [hx]; rfl

/-- The PC-SAFT term. -/
theorem pcTerm_reads {j : JTree} {Tred rhored m sigma eps : ℝ} (h1 : HoldsNum j "Tred / K" Tred)
    (h2 : HoldsNum j "rhored / mol/m^3" rhored) (h3 : HoldsNum j "m" m) (h4 : HoldsNum j "sigma / A" sigma)
    (h5 : HoldsNum j "epsilon_over_k" eps) : pcTermOf j = .ok ⟨Tred, rhored, m, sigma, eps⟩ := by
  unfold pcTermOf
  simp only [h1.get, h2.get, h3.get, h4.get, h5.get, Outcome.bind_ok]

/-- A document for methane: Soave's constants, an alpha function of the type `PR78`. -/
noncomputable def methaneCubicDoc (R Tred rhored : ℝ) (als : List JTree) : JTree :=
  .obj [("type", .str "ResidualHelmholtzGenericCubic"), ("Tcrit / K", .num 190.564), ("pcrit / Pa", .num 4599200),
    ("R / J/mol/K", .num R), ("Delta1", .num 1), ("Delta2", .num 0), ("Tred / K", .num Tred),
    ("rhored / mol/m^3", .num rhored), ("OmegaA", .num 0.42748), ("OmegaB", .num 0.08664), ("alpha", .arr als)]

/-- One alpha function. -/
noncomputable def pr78Doc (w : ℝ) : JTree := .obj [("type", .str "PR78"), ("acentric", .num w)]

/-- The term it becomes. -/
noncomputable def methaneCubic (R Tred rhored : ℝ) : CubicTermC :=
  { R := R, Delta1 := 1, Delta2 := 0, Tred := Tred, rhored := rhored, a0 := 0.42748 * (R * 190.564) ^ 2 / 4599200,
    b := 0.08664 * R * 190.564 / 4599200, alpha := .basic 190.564 (mPR 0.011) }

theorem methaneCubic_reads (R Tred rhored : ℝ) :
    cubicTermOf (methaneCubicDoc R Tred rhored [pr78Doc 0.011]) = .ok (methaneCubic R Tred rhored) :=
  cubicTerm_reads (al := pr78Doc 0.011) rfl rfl rfl rfl rfl rfl rfl rfl rfl rfl (by
    simp [buildAlphaJson, pr78Doc, JTree.at, JTree.toStr, JTree.toDouble, Outcome.bind, buildAlpha, List.lookup])

example : cubicTermOf (methaneCubicDoc 8.314 190.564 10139 []) = .throws .invalidArgument :=
  cubicTerm_alpha_count (als := []) rfl rfl rfl rfl rfl rfl rfl rfl rfl rfl (by simp)

example : cubicTermOf (.obj [("Tcrit / K", .num 190.564), ("pcrit / Pa", .num 4599200), ("R / J/mol/K", .num 8.314),
    ("Delta1", .num 1), ("Delta2", .num 0), ("Tred / K", .num 190.564), ("alpha", .arr [pr78Doc 0.011])]) = .throws .jsonError :=
  cubicTerm_needs_reducing rfl rfl rfl rfl rfl (.inr rfl)

example : pcTermOf (.obj [("Tred / K", .num 190.564), ("rhored / mol/m^3", .num 10139), ("m", .num 1), ("sigma / A", .num 3.7039),
    ("epsilon_over_k", .num 150.03)]) = .ok ⟨190.564, 10139, 1, 3.7039, 150.03⟩ := pcTerm_reads rfl rfl rfl rfl rfl

/-! ## Pressure of the fluid -/

/-- Pressure of a fluid that uses another fluid's equation at a scaled temperature and density. -/
theorem embed_pressure (f : ℝ → ℝ → ℝ) {th ph Rf R T ρ : ℝ} (hR : R ≠ 0) (hth : th ≠ 0) (hph : ph ≠ 0) :
    totalPressure (fun T r => f (T * th) (r * ph)) Rf T ρ
      = Rf / (R * th * ph) * totalPressure f R (T * th) (ρ * ph) := by
  unfold totalPressure pressure helmholtz
  have h1 : deriv (fun r => f (T * th) (r * ph) * Rf * T) ρ = ph * deriv (fun r => f (T * th) r) (ρ * ph) * Rf * T := by
    rw [deriv_mul_const_field, deriv_mul_const_field]
    have := deriv_comp_mul_left ph (fun r => f (T * th) r) ρ
    simp only [smul_eq_mul, mul_comm ph] at this
    rw [this]
    ring
  have h2 : deriv (fun r => f (T * th) r * R * (T * th)) (ρ * ph) = deriv (fun r => f (T * th) r) (ρ * ph) * R * (T * th) := by
    rw [deriv_mul_const_field, deriv_mul_const_field]
  rw [h1, h2]
  field_simp

/-- A pure fluid with one cubic term. -/
theorem cubicFluid_alphar (m : MultiFluid 1) (e : CubicTermC) (he : m.eos 0 = [.cubic e]) (T ρ : ℝ) (z : Fin 1 → ℝ) :
    m.alphar T ρ z = cubicAlphar e.R (e.a0 * e.alpha.eval (T * (e.Tred / m.Tr z))) e.b e.Delta1 e.Delta2
      (T * (e.Tred / m.Tr z)) (ρ * (e.rhored / m.rhor z)) := by
  have h1 : e.Tred / (m.Tr z / T) = T * (e.Tred / m.Tr z) := by rw [div_div_eq_mul_div]; ring
  have h2 : ρ / m.rhor z * e.rhored = ρ * (e.rhored / m.rhor z) := by ring
  unfold MultiFluid.alphar MultiFluid.alphar_taudelta containerAlphar
  have : m.eos ⟨0, by omega⟩ = [.cubic e] := he
  simp only [dite_true, this, List.map_cons, List.map_nil, List.sum_cons, List.sum_nil, add_zero]
  unfold ResTerm.alphar ResTerm.zeroBranch ResTerm.ordBranch CubicTermC.value
  simp only [ite_self, h1, h2]

/-- C169. The pressure is the one of the cubic equation at the temperature and density scaled by the ratios of the two reducing states, times the
ratio of the gas constants divided by both ratios. -/
theorem cubicFluid_pressure (m : MultiFluid 1) (e : CubicTermC) (he : m.eos 0 = [.cubic e]) {Rf T ρ th ph : ℝ} (z : Fin 1 → ℝ)
    (hth : th = e.Tred / m.Tr z) (hph : ph = e.rhored / m.rhor z) (h0 : 0 < th) (h1 : 0 < ph)
    (hR : 0 < e.R) (hT : 0 < T) (hb : 0 < e.b) (hρ : 0 < ρ) (h : e.b * (ρ * ph) < 1) (hD : e.Delta1 ≠ e.Delta2)
    (hD1 : -1 < e.Delta1) (hD2 : -1 < e.Delta2) :
    totalPressure (fun T r => m.alphar T r z) Rf T ρ
      = Rf / (e.R * th * ph) * cubicPressure e.R (e.a0 * e.alpha.eval (T * th)) e.b e.Delta1 e.Delta2 (T * th) (1 / (ρ * ph)) := by
  simp only [cubicFluid_alphar m e he, ← hth, ← hph]
  rw [embed_pressure (fun T r => cubicAlphar e.R (e.a0 * e.alpha.eval T) e.b e.Delta1 e.Delta2 T r) hR.ne' h0.ne' h1.ne',
    ← cubic_pressure_core hR (mul_pos hT h0) hb (mul_pos hρ h1) h hD hD1 hD2]
  simp only [totalPressure, pressure, helmholtz]

/-- C169. With the reducing state and the gas constant of the term the fluid has exactly the cubic equation. -/
theorem cubicFluid_exact (m : MultiFluid 1) (e : CubicTermC) (he : m.eos 0 = [.cubic e]) {T ρ : ℝ} (z : Fin 1 → ℝ)
    (hTr : m.Tr z = e.Tred) (hrr : m.rhor z = e.rhored) (h0 : 0 < e.Tred) (h1 : 0 < e.rhored)
    (hR : 0 < e.R) (hT : 0 < T) (hb : 0 < e.b) (hρ : 0 < ρ) (h : e.b * ρ < 1) (hD : e.Delta1 ≠ e.Delta2)
    (hD1 : -1 < e.Delta1) (hD2 : -1 < e.Delta2) :
    totalPressure (fun T r => m.alphar T r z) e.R T ρ
      = cubicPressure e.R (e.a0 * e.alpha.eval T) e.b e.Delta1 e.Delta2 T (1 / ρ) := by
  have := cubicFluid_pressure m e he (Rf := e.R) (T := T) (ρ := ρ) z (th := 1) (ph := 1) (by rw [hTr, div_self h0.ne'])
    (by rw [hrr, div_self h1.ne']) one_pos one_pos hR hT hb hρ (by simpa using h) hD hD1 hD2
  rw [this]
  simp [div_self hR.ne']

/-- The gas constant of the fluid is not compared with the one of the term: the pressure is off by their ratio. -/
theorem cubicFluid_gasConstant (m : MultiFluid 1) (e : CubicTermC) (he : m.eos 0 = [.cubic e]) {Rf T ρ : ℝ} (z : Fin 1 → ℝ)
    (hTr : m.Tr z = e.Tred) (hrr : m.rhor z = e.rhored) (h0 : 0 < e.Tred) (h1 : 0 < e.rhored)
    (hR : 0 < e.R) (hT : 0 < T) (hb : 0 < e.b) (hρ : 0 < ρ) (h : e.b * ρ < 1) (hD : e.Delta1 ≠ e.Delta2)
    (hD1 : -1 < e.Delta1) (hD2 : -1 < e.Delta2) :
    totalPressure (fun T r => m.alphar T r z) Rf T ρ
      = Rf / e.R * cubicPressure e.R (e.a0 * e.alpha.eval T) e.b e.Delta1 e.Delta2 T (1 / ρ) := by
  have := cubicFluid_pressure m e he (Rf := Rf) (T := T) (ρ := ρ) z (th := 1) (ph := 1) (by rw [hTr, div_self h0.ne'])
    (by rw [hrr, div_self h1.ne']) one_pos one_pos hR hT hb hρ (by simpa using h) hD hD1 hD2
  rw [this]
  simp

/-- A pure fluid with a given reducing state and one cubic term. -/
noncomputable def oneCubic (Tr rhor : ℝ) (Rvals : Option (Fin 1 → ℝ)) (e : CubicTermC) : MultiFluid 1 :=
  ⟨fun _ => Tr, fun _ => rhor, fun _ => [.cubic e], fun _ _ => 0, fun _ _ => [], Rvals⟩

theorem methane_b {ρ : ℝ} (hρ : ρ < 20000) : (methaneCubic 8.314 190.564 10139).b * ρ < 1 := by
  unfold methaneCubic
  simp only
  have : (0.08664 * 8.314 * 190.564 / 4599200 : ℝ) < 1 / 20000 := by norm_num
  have h2 : (0 : ℝ) < 0.08664 * 8.314 * 190.564 / 4599200 := by norm_num
  nlinarith

/-- Methane at 250 K and 10 mol/L. -/
example : totalPressure (fun T r => (oneCubic 190.564 10139 none (methaneCubic 8.314 190.564 10139)).alphar T r fun _ => 1) 8.314 250 10000
    = cubicPressure 8.314 (0.42748 * (8.314 * 190.564) ^ 2 / 4599200 * (AlphaFn.basic 190.564 (mPR 0.011)).eval 250)
      (0.08664 * 8.314 * 190.564 / 4599200) 1 0 250 (1 / 10000) :=
  cubicFluid_exact (oneCubic 190.564 10139 none (methaneCubic 8.314 190.564 10139)) _ rfl (fun _ => 1) rfl rfl
    (by norm_num [methaneCubic]) (by norm_num [methaneCubic]) (by norm_num [methaneCubic]) (by norm_num)
    (by norm_num [methaneCubic]) (by norm_num) (methane_b (by norm_num)) (by norm_num [methaneCubic])
    (by norm_num [methaneCubic]) (by norm_num [methaneCubic])

/-- C169 does not hold for every accepted document: three documents that are read without complaint, and whose fluid does not have the pressure of the
cubic equation in them at the critical temperature and 1 mol/L: a gas constant of the fluid other than the one of the term, a reducing density other than
the one of the fluid, and a reducing temperature other than the one of the fluid. -/
theorem cubicFluid_unchecked :
    let p := fun (e : CubicTermC) (Rf : ℝ) => totalPressure (fun T r => (oneCubic 190.564 10139 (some fun _ => Rf) e).alphar T r fun _ => 1)
      ((oneCubic 190.564 10139 (some fun _ => Rf) e).R RCodata2017 fun _ => 1) 190.564 1000
    let q := fun e : CubicTermC => cubicPressure e.R (e.a0 * e.alpha.eval 190.564) e.b e.Delta1 e.Delta2 190.564 (1 / 1000)
    (∃ j e, cubicTermOf j = .ok e ∧ e.Tred = 190.564 ∧ e.rhored = 10139 ∧ e.R ≠ 8.314472 ∧ p e 8.314472 ≠ q e) ∧
    (∃ j e, cubicTermOf j = .ok e ∧ e.Tred = 190.564 ∧ e.rhored ≠ 10139 ∧ e.R = 8.314 ∧ p e 8.314 ≠ q e) ∧
    (∃ j e, cubicTermOf j = .ok e ∧ e.Tred ≠ 190.564 ∧ e.rhored = 10139 ∧ e.R = 8.314 ∧ p e 8.314 ≠ q e) := by
  have hal : ∀ R Tr rr, (methaneCubic R Tr rr).alpha.eval 190.564 = 1 := fun R Tr rr =>
    alpha_at_Tc (AlphaFn.basic 190.564 (mPR 0.011)) (by norm_num [AlphaFn.Tc])
  intro p q
  have hpR : ∀ e Rf, p e Rf = totalPressure (fun T r => (oneCubic 190.564 10139 (some fun _ => Rf) e).alphar T r fun _ => 1) Rf 190.564 1000 := fun e Rf => by
    simp only [p]
    congr 1
    simp [MultiFluid.R, oneCubic]
  refine ⟨⟨_, _, methaneCubic_reads 8.314 190.564 10139, rfl, rfl, by norm_num [methaneCubic], ?_⟩,
    ⟨_, _, methaneCubic_reads 8.314 190.564 11000, rfl, by norm_num [methaneCubic], rfl, ?_⟩,
    ⟨_, _, methaneCubic_reads 8.314 230.58244 10139, by norm_num [methaneCubic], rfl, rfl, ?_⟩⟩
  · have hp : p (methaneCubic 8.314 190.564 10139) 8.314472 = 8.314472 / 8.314 * q (methaneCubic 8.314 190.564 10139) := by
      rw [hpR]
      exact cubicFluid_gasConstant (oneCubic 190.564 10139 (some fun _ => 8.314472) (methaneCubic 8.314 190.564 10139)) _ rfl (fun _ => 1) rfl rfl
        (by norm_num [methaneCubic]) (by norm_num [methaneCubic]) (by norm_num [methaneCubic]) (by norm_num)
        (by norm_num [methaneCubic]) (by norm_num) (methane_b (by norm_num)) (by norm_num [methaneCubic])
        (by norm_num [methaneCubic]) (by norm_num [methaneCubic])
    have hq : 0 < q (methaneCubic 8.314 190.564 10139) := by
      simp only [q, hal]
      simp only [cubicPressure, methaneCubic]
      norm_num
    rw [hp]
    intro hc
    nlinarith
  · have hp := cubicFluid_pressure (oneCubic 190.564 10139 (some fun _ => 8.314) (methaneCubic 8.314 190.564 11000)) _ rfl (Rf := 8.314)
      (T := 190.564) (ρ := 1000) (th := 1) (ph := 11000 / 10139) (fun _ => 1) (by norm_num [methaneCubic, oneCubic]) (by norm_num [methaneCubic, oneCubic])
      (by norm_num) (by norm_num) (by norm_num [methaneCubic]) (by norm_num) (by norm_num [methaneCubic]) (by norm_num)
      (by norm_num [methaneCubic]) (by norm_num [methaneCubic]) (by norm_num [methaneCubic]) (by norm_num [methaneCubic])
    rw [hpR, hp]
    simp only [q, mul_one, hal]
    simp only [cubicPressure, methaneCubic]
    norm_num
  · have hs : Real.sqrt (190.564 * 1.21 / 190.564) = 1.1 := by
      rw [show (190.564 * 1.21 / 190.564 : ℝ) = 1.1 ^ 2 by norm_num, Real.sqrt_sq (by norm_num)]
    have hm : mPR 0.011 = 0.37464 + 1.54226 * 0.011 - 0.26992 * 0.011 ^ 2 := by
      unfold mPR; rw [if_pos (by norm_num)]
    have hp := cubicFluid_pressure (oneCubic 190.564 10139 (some fun _ => 8.314) (methaneCubic 8.314 230.58244 10139)) _ rfl (Rf := 8.314)
      (T := 190.564) (ρ := 1000) (th := 1.21) (ph := 1) (fun _ => 1) (by norm_num [methaneCubic, oneCubic]) (by norm_num [methaneCubic, oneCubic])
      (by norm_num) (by norm_num) (by norm_num [methaneCubic]) (by norm_num) (by norm_num [methaneCubic]) (by norm_num)
      (by norm_num [methaneCubic]) (by norm_num [methaneCubic]) (by norm_num [methaneCubic]) (by norm_num [methaneCubic])
    rw [hpR, hp]
    have hal2 : (methaneCubic 8.314 230.58244 10139).alpha.eval (190.564 * 1.21) = (1 + mPR 0.011 * (1 - 1.1)) ^ 2 := by
      simp only [methaneCubic, AlphaFn.eval, hs]
    simp only [q, mul_one, hal, hal2, hm]
    simp only [cubicPressure, methaneCubic]
    norm_num

/-! ## The same model as the cubic class -/

/-- C169. A fluid whose term was read from the numbers of a cubic model, with the reducing state of the term, has the residual Helmholtz energy of that cubic
model for the pure component, whatever the alpha function. -/
theorem cubicFluid_same (m : MultiFluid 1) {D1 D2 OA OB Tc pc R Tred rhored : ℝ} (f : AlphaFn)
    (he : m.eos 0 = [.cubic ⟨R, D1, D2, Tred, rhored, OA * (R * Tc) ^ 2 / pc, OB * R * Tc / pc, f⟩])
    {T ρ : ℝ} (z : Fin 1 → ℝ) (hTr : m.Tr z = Tred) (hrr : m.rhor z = rhored) (h0 : 0 < Tred) (h1 : 0 < rhored)
    (hO : 0 ≤ OA) (hp : 0 < pc) (hT : 0 ≤ T) (hf : 0 ≤ f.Tc) :
    m.alphar T ρ z
      = (Cubic.build (ι := Fin 1) D1 D2 OA OB (fun _ => Tc) (fun _ => pc) (fun _ => f) (fun _ _ => 0) R).alphar T ρ (Pi.single 0 1) := by
  rw [cubicFluid_alphar m _ he, hTr, hrr, div_self h0.ne', div_self h1.ne', mul_one, mul_one]
  unfold Cubic.alphar
  rw [cubic_pure_a (fun _ => Tc) (fun _ => pc) D1 D2 OA OB R (fun _ => f) (fun _ _ => 0) 0 T hO hp hT hf rfl]
  simp [Cubic.build, Cubic.get_b]

/-- A curve stretched along both axes has its critical point stretched likewise. -/
theorem critical_scaled {p : ℝ → ℝ} {ρc pc : ℝ} (c ph : ℝ) (hph : ph ≠ 0) (h : IsCriticalPoint p ρc pc) :
    IsCriticalPoint (fun ρ => c * p (ρ * ph)) (ρc / ph) (c * pc) := by
  obtain ⟨h0, h1, h2⟩ := h
  have e : ρc / ph * ph = ρc := div_mul_cancel₀ _ hph
  have hl : HasDerivAt (fun ρ : ℝ => ρ * ph) ph (ρc / ph) := by simpa using (hasDerivAt_id (ρc / ph)).mul_const ph
  refine ⟨by simp only [e, h0], ?_, ?_⟩
  · have := (HasDerivAt.comp (ρc / ph) (by rw [e]; exact h1) hl).const_mul c
    simpa using this
  · have hd : deriv (fun ρ => c * p (ρ * ph)) = fun ρ => c * (ph * deriv p (ρ * ph)) := by
      funext ρ
      have := deriv_comp_mul_left ph p ρ
      simp only [smul_eq_mul, mul_comm ph] at this
      rw [deriv_const_mul_field, this]
      ring
    rw [hd]
    have := ((HasDerivAt.comp (ρc / ph) (by rw [e]; exact h2) hl).const_mul ph).const_mul c
    simpa using this

/-- C169. With Soave's constants the isotherm of the fluid that has the critical point is the one at `T_c T_r/T_red`, and it has it at the density and pressure of
the term scaled by the ratios of reducing states and gas constants; so it is the given critical point exactly when nothing is scaled. -/
theorem cubicFluid_critical (m : MultiFluid 1) {Tc pc w R Tred rhored Tr rhor Rf : ℝ}
    (he : m.eos 0 = [.cubic ⟨R, 1, 0, Tred, rhored, OmegaA_SRK * (R * Tc) ^ 2 / pc, OmegaB_SRK * R * Tc / pc, .basic Tc (mSRK w)⟩])
    (z : Fin 1 → ℝ) (hTr : m.Tr z = Tr) (hrr : m.rhor z = rhor) (h0 : 0 < Tred) (h1 : 0 < rhored) (h2 : 0 < Tr) (h3 : 0 < rhor)
    (hR : 0 < R) (hT : 0 < Tc) (hp : 0 < pc) :
    IsCriticalPoint (fun ρ => totalPressure (fun T r => m.alphar T r z) Rf (Tc * (Tr / Tred)) ρ)
      (3 * pc / (R * Tc) * (rhor / rhored)) (Rf / R * (Tr / Tred) * (rhor / rhored) * pc) := by
  have hc := SRK_critical (ι := Fin 1) (fun _ => Tc) (fun _ => pc) (fun _ => w) (fun _ _ => 0) R 0 hR hT hp rfl
  have key : ∀ ρ, totalPressure (fun T r => m.alphar T r z) Rf (Tc * (Tr / Tred)) ρ
      = Rf / R * (Tr / Tred) * (rhor / rhored) * totalPressure (fun T r => (canonicalSRK (ι := Fin 1) (fun _ => Tc) (fun _ => pc) (fun _ => w)
        (fun _ _ => 0) R).alphar T r (Pi.single 0 1)) R Tc (ρ * (rhored / rhor)) := fun ρ => by
    simp only [cubicFluid_alphar m _ he, hTr, hrr]
    rw [embed_pressure (fun T r => cubicAlphar R (OmegaA_SRK * (R * Tc) ^ 2 / pc * (AlphaFn.basic Tc (mSRK w)).eval T)
      (OmegaB_SRK * R * Tc / pc) 1 0 T r) hR.ne' (div_pos h0 h2).ne' (div_pos h1 h3).ne']
    have e1 : Tc * (Tr / Tred) * (Tred / Tr) = Tc := by field_simp
    have e2 : Rf / (R * (Tred / Tr) * (rhored / rhor)) = Rf / R * (Tr / Tred) * (rhor / rhored) := by field_simp
    rw [e1, e2]
    congr 1
    have hO : 0 ≤ OmegaA_SRK := by
      unfold OmegaA_SRK
      have : 1 < (2 : ℝ) ^ (1 / 3 : ℝ) := Real.one_lt_rpow (by norm_num) (by norm_num)
      have : 0 < (2 : ℝ) ^ (1 / 3 : ℝ) - 1 := by linarith
      positivity
    have e3 : ∀ r, cubicAlphar R (OmegaA_SRK * (R * Tc) ^ 2 / pc * (AlphaFn.basic Tc (mSRK w)).eval Tc) (OmegaB_SRK * R * Tc / pc) 1 0 Tc r
        = (canonicalSRK (ι := Fin 1) (fun _ => Tc) (fun _ => pc) (fun _ => w) (fun _ _ => 0) R).alphar Tc r (Pi.single 0 1) := fun r => by
      unfold Cubic.alphar canonicalSRK
      rw [cubic_pure_a (fun _ => Tc) (fun _ => pc) 1 0 OmegaA_SRK OmegaB_SRK R (fun _ => .basic Tc (mSRK w)) (fun _ _ => 0) 0 Tc hO hp hT.le hT.le rfl]
      simp [Cubic.build, Cubic.get_b]
    simp only [totalPressure, pressure, helmholtz, e3]
  have := critical_scaled (Rf / R * (Tr / Tred) * (rhor / rhored)) (rhored / rhor) (div_pos h1 h3).ne' hc
  rw [div_div_eq_mul_div, ← mul_div_assoc'] at this
  simpa only [key] using this

/-- A fluid with Soave's constants whose own reducing temperature is 5 % above the one of the term: its critical temperature is 5 % above the one in the document. -/
example : IsCriticalPoint (fun ρ => totalPressure (fun T r => (oneCubic 210 10139 none ⟨8.314, 1, 0, 200, 10139, OmegaA_SRK * (8.314 * 200) ^ 2 / 5e6,
      OmegaB_SRK * 8.314 * 200 / 5e6, .basic 200 (mSRK 0.1)⟩).alphar T r fun _ => 1) 8.314 (200 * (210 / 200)) ρ)
    (3 * 5e6 / (8.314 * 200) * (10139 / 10139)) (8.314 / 8.314 * (210 / 200) * (10139 / 10139) * 5e6) :=
  cubicFluid_critical (oneCubic 210 10139 none ⟨8.314, 1, 0, 200, 10139, _, _, _⟩) rfl (fun _ => 1) rfl rfl (by norm_num) (by norm_num)
    (by norm_num) (by norm_num) (by norm_num) (by norm_num) (by norm_num)

example : (oneCubic 190.564 10139 none (methaneCubic 8.314 190.564 10139)).alphar 250 3000 (fun _ => 1)
    = (Cubic.build (ι := Fin 1) 1 0 0.42748 0.08664 (fun _ => 190.564) (fun _ => 4599200) (fun _ => .basic 190.564 (mPR 0.011)) (fun _ _ => 0) 8.314).alphar
      250 3000 (Pi.single 0 1) :=
  cubicFluid_same (oneCubic 190.564 10139 none (methaneCubic 8.314 190.564 10139)) _ rfl (fun _ => 1) rfl rfl (by norm_num) (by norm_num)
    (by norm_num) (by norm_num) (by norm_num) (by norm_num [AlphaFn.Tc])

/-! ## PC-SAFT -/

/-- The residual Helmholtz energy of the class for pure fluids is the one of Gross and Sadowski; both branches. -/
theorem pcPure_is (NA m sigma eps T ρ : ℝ) : pcPureAlphar NA m sigma eps T ρ = grossSadowski pureCoeff m sigma eps T (ρ * NA / 1e30) := by
  unfold pcPureAlphar
  exact pure_gs m sigma eps T _

/-- A pure fluid with one PC-SAFT term. -/
theorem pcFluid_alphar (m : MultiFluid 1) (NA : ℝ) (e : PCTerm) (he : m.eos 0 = [.pcsaft NA e]) (T ρ : ℝ) (z : Fin 1 → ℝ) :
    m.alphar T ρ z = pcPureAlphar NA e.m e.sigma e.eps (T * (e.Tred / m.Tr z)) (ρ * (e.rhored / m.rhor z)) := by
  have h1 : e.Tred / (m.Tr z / T) = T * (e.Tred / m.Tr z) := by rw [div_div_eq_mul_div]; ring
  have h2 : ρ / m.rhor z * e.rhored = ρ * (e.rhored / m.rhor z) := by ring
  unfold MultiFluid.alphar MultiFluid.alphar_taudelta containerAlphar
  have : m.eos ⟨0, by omega⟩ = [.pcsaft NA e] := he
  simp only [dite_true, this, List.map_cons, List.map_nil, List.sum_cons, List.sum_nil, add_zero]
  unfold ResTerm.alphar ResTerm.zeroBranch ResTerm.ordBranch PCTerm.value PCTerm.zero
  simp only [h1, h2, pureZero_gs, pcPure_is, ite_self]

/-- C169 for PC-SAFT: a fluid with the reducing state of its term has the residual Helmholtz energy of the pure-fluid model at the same temperature and density,
zero density included. -/
theorem pcFluid_same (m : MultiFluid 1) (NA : ℝ) (e : PCTerm) (he : m.eos 0 = [.pcsaft NA e]) {T ρ : ℝ} (z : Fin 1 → ℝ)
    (hTr : m.Tr z = e.Tred) (hrr : m.rhor z = e.rhored) (h0 : 0 < e.Tred) (h1 : 0 < e.rhored) :
    m.alphar T ρ z = pcPureAlphar NA e.m e.sigma e.eps T ρ := by
  rw [pcFluid_alphar m NA e he, hTr, hrr, div_self h0.ne', div_self h1.ne', mul_one, mul_one]

/-- And hence the one of the mixture class with this one component, hard-chain and dispersion contribution, where that one is regular. -/
theorem pcFluid_mixture (m : MultiFluid 1) (NA : ℝ) (e : PCTerm) (he : m.eos 0 = [.pcsaft NA e]) {T ρ : ℝ} (z : Fin 1 → ℝ)
    (hTr : m.Tr z = e.Tred) (hrr : m.rhor z = e.rhored) (h0 : 0 < e.Tred) (h1 : 0 < e.rhored)
    (hm : 0 < e.m) (hε : 0 ≤ e.eps) (hT : T ≠ 0) (hd : pcDiam e.sigma e.eps T ≠ 0)
    (hU : 1 - pcD (onePC e.m e.sigma e.eps) T (fun _ => 1) 3 * (ρ * NA / 1e30) ≠ 0) :
    m.alphar T ρ z = (pcEval (onePC e.m e.sigma e.eps) T (ρ * NA / 1e30) fun _ => 1).hc
      + (pcEval (onePC e.m e.sigma e.eps) T (ρ * NA / 1e30) fun _ => 1).disp := by
  rw [pcFluid_same m NA e he z hTr hrr h0 h1]
  unfold pcPureAlphar
  rw [pure_eq_mixture e.m e.sigma e.eps T _ hm hε hT hd hU]

/-- Its pressure for any reducing states and gas constants; nothing is checked here either. -/
theorem pcFluid_pressure (m : MultiFluid 1) (NA : ℝ) (e : PCTerm) (he : m.eos 0 = [.pcsaft NA e]) {Rf R T ρ : ℝ} (z : Fin 1 → ℝ) (hR : R ≠ 0)
    (h0 : 0 < e.Tred) (h1 : 0 < e.rhored) (h2 : 0 < m.Tr z) (h3 : 0 < m.rhor z) :
    totalPressure (fun T r => m.alphar T r z) Rf T ρ
      = Rf / (R * (e.Tred / m.Tr z) * (e.rhored / m.rhor z)) * totalPressure (fun T r => grossSadowski pureCoeff e.m e.sigma e.eps T (r * NA / 1e30)) R
        (T * (e.Tred / m.Tr z)) (ρ * (e.rhored / m.rhor z)) := by
  simp only [pcFluid_alphar m NA e he, pcPure_is]
  exact embed_pressure (fun T r => grossSadowski pureCoeff e.m e.sigma e.eps T (r * NA / 1e30)) hR (div_pos h0 h2).ne' (div_pos h1 h3).ne'

/-- A fluid with one PC-SAFT term. -/
noncomputable def onePCFluid (Tr rhor NA : ℝ) (e : PCTerm) : MultiFluid 1 := ⟨fun _ => Tr, fun _ => rhor, fun _ => [.pcsaft NA e], fun _ _ => 0, fun _ _ => [], none⟩

example : (onePCFluid 190.564 10139 6.02214076e23 ⟨190.564, 10139, 1, 3.7039, 150.03⟩).alphar 300 1000 (fun _ => 1)
    = pcPureAlphar 6.02214076e23 1 3.7039 150.03 300 1000 :=
  pcFluid_same (onePCFluid 190.564 10139 6.02214076e23 ⟨190.564, 10139, 1, 3.7039, 150.03⟩) _ _ rfl _ rfl rfl (by norm_num) (by norm_num)

example : totalPressure (fun T r => (onePCFluid 190.564 10000 6.02214076e23 ⟨190.564, 10139, 1, 3.7039, 150.03⟩).alphar T r fun _ => 1) 8.314472 300 1000
    = 8.314472 / (8.31446261815324 * (190.564 / 190.564) * (10139 / 10000)) *
      totalPressure (fun T r => grossSadowski pureCoeff 1 3.7039 150.03 T (r * 6.02214076e23 / 1e30))
      8.31446261815324 (300 * (190.564 / 190.564)) (1000 * (10139 / 10000)) :=
  pcFluid_pressure (onePCFluid 190.564 10000 6.02214076e23 ⟨190.564, 10139, 1, 3.7039, 150.03⟩) _ _ rfl _ (by norm_num) (by norm_num) (by norm_num)
    (by norm_num [onePCFluid]) (by norm_num [onePCFluid])

end Teqp.Props
