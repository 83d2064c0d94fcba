import Verif.Props.GERGIdeal
import Verif.Props.GERGCombine

/-! # GERG: what the numbers of the tables have to satisfy beyond being complete -/

set_option autoImplicit false

namespace Teqp.Spec
open Model

/-- Alkanes of at least two carbon atoms. -/
def heavyAlkane (f : GFluid) : Bool :=
  let (c, h, _) := formula f
  2 ≤ c && h = 2 * c + 2

/-- Mixtures without data to fit: alkanes from ethane on with oxygen, with helium, and, except n-butane, with argon. -/
def unfitted (a b : GFluid) : Bool :=
  heavyAlkane a && (b = .oxygen || b = .helium || b = .argon && a ≠ .nButane)

/-- A damped term of a departure function is centred at one half of the reducing density; the others are plain
powers. -/
def DepTermShape (x : GDepTerm) : Prop :=
  (x.eta = 0 ∧ x.beta = 0 ∧ x.gamma = 0 ∧ x.epsilon = 0) ∨ (0 < x.beta ∧ x.beta ≤ 3 ∧ x.gamma = 1 / 2 ∧ x.epsilon = 1 / 2)

instance (x : GDepTerm) : Decidable (DepTermShape x) := by unfold DepTermShape; infer_instance

end Teqp.Spec

namespace Teqp.Props
open Model Spec Finset

/-- C102. The second version changes no critical density by more than 0.00002 mol/dm3 and no critical temperature by
more than 0.06 K, and only those of carbon monoxide and isopentane. -/
theorem gerg_info_versions (f : GFluid) (hf : f ∈ gergNames04) :
    ∃ i j, gergInfo .v2004 f = some i ∧ gergInfo .v2008 f = some j ∧ |i.rhoc - j.rhoc| ≤ 0.00002 ∧ |i.Tc - j.Tc| ≤ 0.06 ∧
      (f ≠ .carbonMonoxide → i.Tc = j.Tc) ∧ (f ≠ .isopentane → i.rhoc = j.rhoc) := by
  have key : ∀ f ∈ gergNames04, ((gergInfo .v2004 f).any fun i => (gergInfo .v2008 f).any fun j =>
      decide (|i.rhoc - j.rhoc| ≤ 0.00002 ∧ |i.Tc - j.Tc| ≤ 0.06 ∧ (f ≠ .carbonMonoxide → i.Tc = j.Tc) ∧
        (f ≠ .isopentane → i.rhoc = j.rhoc))) = true := by decide +kernel
  obtain ⟨i, hi, h1⟩ := (Option.any_eq_true _ _).1 (key f hf)
  obtain ⟨j, hj, h2⟩ := (Option.any_eq_true _ _).1 h1
  exact ⟨i, j, hi, hj, of_decide_eq_true h2⟩

example : GFluid.carbonMonoxide ∈ gergNames04 ∧ gergInfo .v2004 .carbonMonoxide ≠ gergInfo .v2008 .carbonMonoxide := by decide +kernel

/-- C102. All reducing parameters are near one: `betaV` within [0.58, 1.7], `betaT` within [0.69, 1.45],
`gammaV` within [0.55, 1.6], `gammaT` within [0.44, 3.8]; mixtures without data to fit have all four equal to one. -/
theorem gerg_betas_range (v : GVer) (a b : GFluid) (ha : a ∈ gergComponents v) (hb : b ∈ gergComponents v) (hab : a ≠ b) :
    ∃ g, gergBetas v a b = some g ∧ 0.58 ≤ g.betaV ∧ g.betaV ≤ 1.7 ∧ 0.69 ≤ g.betaT ∧ g.betaT ≤ 1.45 ∧ 0.55 ≤ g.gammaV ∧ g.gammaV ≤ 1.6 ∧
      0.44 ≤ g.gammaT ∧ g.gammaT ≤ 3.8 ∧ (unfitted a b = true ∨ unfitted b a = true → g = ⟨1, 1, 1, 1⟩) := by
  have key : ∀ v ∈ [GVer.v2004, .v2008], ∀ a ∈ gergComponents v, ∀ b ∈ gergComponents v, a ≠ b →
      ((gergBetas v a b).any fun g => decide (0.58 ≤ g.betaV ∧ g.betaV ≤ 1.7 ∧ 0.69 ≤ g.betaT ∧ g.betaT ≤ 1.45 ∧ 0.55 ≤ g.gammaV ∧ g.gammaV ≤ 1.6 ∧
      0.44 ≤ g.gammaT ∧ g.gammaT ≤ 3.8 ∧ (unfitted a b = true ∨ unfitted b a = true → g = ⟨1, 1, 1, 1⟩))) = true := by
    decide +kernel
  obtain ⟨g, hg, h1⟩ := (Option.any_eq_true _ _).1 (key v (by cases v <;> simp) a ha b hb hab)
  exact ⟨g, hg, of_decide_eq_true h1⟩

example : unfitted .isobutane .argon = true ∧ unfitted .nButane .argon = false ∧
    gergBetas .v2008 .argon .isobutane = some ⟨1, 1, 1, 1⟩ ∧ gergBetas .v2008 .argon .nButane ≠ some ⟨1, 1, 1, 1⟩ := by decide +kernel

/-- C102. A departure function fitted to one pair has weight one, the generalised one a weight of magnitude at most one;
all terms are plain powers or are damped around half the reducing density. -/
theorem gerg_departure_shape (a b : GFluid) (p : GDep) (hp : gergDep a b = some p) :
    ∃ w, gergF a b = some w ∧ |w| ≤ 1 ∧ (w ≠ 1 → p = gergDepGeneral ∧ (∀ x ∈ p.terms, x.beta = 0)) ∧ ∀ x ∈ p.terms, DepTermShape x := by
  have key : ∀ a ∈ gergNames08, ∀ b ∈ gergNames08, ((gergDep a b).all fun p => (gergF a b).any fun w =>
      decide (|w| ≤ 1 ∧ (w ≠ 1 → p = gergDepGeneral ∧ (∀ x ∈ p.terms, x.beta = 0)) ∧ ∀ x ∈ p.terms, DepTermShape x)) = true := by
    decide +kernel
  have h := key a (gerg_mem a) b (gerg_mem b)
  rw [hp] at h
  obtain ⟨w, hw, h1⟩ := (Option.any_eq_true _ _).1 h
  exact ⟨w, hw, of_decide_eq_true h1⟩

example : ((gergDep .nitrogen .ethane).map fun p => p.terms.map fun x => decide (x.beta = 0)) =
    some [true, true, true, false, false, false] ∧ gergF .ethane .nitrogen = some 1 := by decide +kernel

/-- C103. The ideal-gas enthalpy of helium and argon: `R + 3/2 Rstar` times the distance from 298.15 K, with the two gas
constants of the publication. -/
theorem gerg_monatomic (v : GVer) (solve : Matrix (Fin 2) (Fin 2) ℝ → (Fin 2 → ℝ) → Fin 2 → ℝ) (hs : Solves2 solve) {n : ℕ}
    (names : Fin n → String) (fl : Fin n → GFluid) (h : ∀ i, (fl i).name = names i ∧ fl i ∈ gergComponents v) :
    ∃ m, gergIdealBuild v solve names = .ok m ∧ ∀ i, fl i = .helium ∨ fl i = .argon → ∀ T rho, 0 < T →
      8.314472 * T * (1 - T * deriv (fun T => (m.coeffs i).pure (m.Tc i) (m.rhoc i) T rho) T) =
        (8.314472 + 3 / 2 * 8.314510) * (T - 298.15) := by
  have h1 : (finLoop fun i => gFluidOf (names i)) = .ok fl := by
    refine finLoop_ok _ _ fun i => ?_
    unfold gFluidOf
    rw [(gerg_ofName (names i) (fl i)).2 (h i).1]; rfl
  have h2 : (finLoop fun i => gOrThrow (gergInfo v (fl i))) = .ok fun i => gergCrit v (fl i) := by
    refine finLoop_ok _ _ fun i => ?_
    obtain ⟨x, hx, _⟩ := (gerg_info v (fl i)).1 (h i).2
    unfold gergCrit
    rw [hx]; rfl
  have h3 : ∀ i, ∃ c, (gOrThrow (gergAigRaw v (fl i))).bind GAig.pad = .ok c ∧ GIdealOk c := fun i => by
    obtain ⟨a, c, ha, hp, hc, _⟩ := (gerg_aig_table v (fl i)).1 (h i).2
    exact ⟨c, by rw [ha]; exact hp, hc⟩
  choose c hc hok using h3
  refine ⟨⟨fun i => (gergCrit v (fl i)).Tc, fun i => (gergCrit v (fl i)).rhoc * 1000,
    fun i => (c i).reset solve (gergCrit v (fl i)).Tc ((gergCrit v (fl i)).rhoc * 1000)⟩, ?_, fun i hi T rho hT => ?_⟩
  · unfold gergIdealBuild
    rw [h1, Outcome.bind_ok, h2, Outcome.bind_ok, finLoop_ok _ c hc, Outcome.bind_ok]
  · obtain ⟨p1, p2⟩ := gergCrit_pos v (fl i) (h i).2
    have q1 : (0 : ℝ) < (gergCrit v (fl i)).Tc := by exact_mod_cast p1
    have ref := (gerg_reference solve hs (c i) (hok i) _ ((gergCrit v (fl i)).rhoc * 1000) q1).1 rho
    have hraw : ∃ n1 n2 : ℚ, gergAigRaw v (fl i) = some ⟨[n1, n2, 1.5, 0, 0, 0, 0], [0, 0, 0, 0]⟩ := by
      rcases hi with hi | hi <;> rw [hi]
      · exact ⟨13.628441975, -143.470759602, by cases v <;> decide +kernel⟩
      · exact ⟨8.316662546, -4.9465026, by cases v <;> decide +kernel⟩
    obtain ⟨n1, n2, hraw⟩ := hraw
    have hci := hc i
    rw [hraw] at hci
    have hce : c i = ⟨n1, n2, ((1.5 : ℚ) : ℝ), ((0 : ℚ) : ℝ), ((0 : ℚ) : ℝ), ((0 : ℚ) : ℝ), ((0 : ℚ) : ℝ), ((0 : ℚ) : ℝ), ((0 : ℚ) : ℝ),
      ((0 : ℚ) : ℝ), ((0 : ℚ) : ℝ)⟩ := (Outcome.ok.inj hci).symm
    have hval : ∀ T, 0 < T → deriv (fun T => ((c i).reset solve (gergCrit v (fl i)).Tc ((gergCrit v (fl i)).rhoc * 1000)).pure
        (gergCrit v (fl i)).Tc ((gergCrit v (fl i)).rhoc * 1000) T rho) T =
        -(GIdeal.ratio * (((c i).reset solve (gergCrit v (fl i)).Tc ((gergCrit v (fl i)).rhoc * 1000)).n2 * ((gergCrit v (fl i)).Tc / T) + 3 / 2)) / T := by
      intro T hT
      rw [(gerg_ideal_deriv _ _ _ T rho hT q1).deriv]
      unfold gergA10
      simp only [GIdeal.reset, hce]
      norm_num
    rw [hval 298.15 (by norm_num)] at ref
    simp only
    rw [hval T hT]
    generalize ((c i).reset solve (gergCrit v (fl i)).Tc ((gergCrit v (fl i)).rhoc * 1000)).n2 = N at ref ⊢
    unfold GIdeal.ratio at ref ⊢
    field_simp at ref ⊢
    norm_num at ref ⊢
    linarith

example : ∃ m, gergIdealBuild .v2004 gCramer2 ![("methane" : String), "argon"] = .ok m ∧ ∀ T rho, 0 < T →
    8.314472 * T * (1 - T * deriv (fun T => (m.coeffs 1).pure (m.Tc 1) (m.rhoc 1) T rho) T) =
      (8.314472 + 3 / 2 * 8.314510) * (T - 298.15) := by
  obtain ⟨m, hm, h⟩ := gerg_monatomic .v2004 gCramer2 gcramer2_solves ![("methane" : String), "argon"] ![.methane, .argon]
    (by intro i; fin_cases i <;> decide +kernel)
  exact ⟨m, hm, h 1 (.inr rfl)⟩

/-- C103. The reference state in terms of the gas constant that the models report: the entropy of the pure ideal gas is zero at 298.15 K
at exactly the density where `rho R T` with that gas constant is 101325 Pa.  With the gas constant of the 2017 adjustment, which
`IdealHelmholtz` reports, it is not. -/
theorem gerg_reference_pressure (solve : Matrix (Fin 2) (Fin 2) ℝ → (Fin 2 → ℝ) → Fin 2 → ℝ) (hs : Solves2 solve) (c : GIdeal)
    (hc : GIdealOk c) (Tc rhoc : ℝ) (hTc : 0 < Tc) (hrc : 0 < rhoc) (rho : ℝ) (hrho : 0 < rho) :
    -(298.15 * deriv (fun T => (c.reset solve Tc rhoc).pure Tc rhoc T rho) 298.15) - (c.reset solve Tc rhoc).pure Tc rhoc 298.15 rho = 0 ↔
      rho * GMix.R * 298.15 = 101325 := by
  obtain ⟨h1, h2⟩ := gerg_reference solve hs c hc Tc rhoc hTc
  have e : ∀ r, 298.15 * deriv (fun T => (c.reset solve Tc rhoc).pure Tc rhoc T r) 298.15 = 1 := fun r => by linarith [h1 r]
  rw [e] at h2
  rw [e]
  have hd : (c.reset solve Tc rhoc).pure Tc rhoc 298.15 rho - (c.reset solve Tc rhoc).pure Tc rhoc 298.15 (101325 / (8.314472 * 298.15)) =
      Real.log (rho / rhoc) - Real.log ((101325 / (8.314472 * 298.15)) / rhoc) := by
    unfold GIdeal.pure
    ring
  rw [Real.log_div hrho.ne' hrc.ne', Real.log_div (by norm_num) hrc.ne'] at hd
  have h3 : -1 - (c.reset solve Tc rhoc).pure Tc rhoc 298.15 rho = 0 ↔ Real.log rho = Real.log (101325 / (8.314472 * 298.15)) := by
    constructor <;> intro h <;> linarith
  rw [h3, (Real.strictMonoOn_log.injOn).eq_iff hrho (by norm_num)]
  unfold GMix.R
  rw [eq_div_iff (by norm_num)]
  constructor <;> intro h <;> linarith

/-- Methane: the coefficients are of the kind of the theorem, and 40.87 mol/m³ is not the density of the reference state. -/
example (c : GIdeal) (hc : (gOrThrow (gergAigRaw .v2008 .methane)).bind GAig.pad = .ok c) :
    -(298.15 * deriv (fun T => (c.reset gCramer2 190.564 10139.342719).pure 190.564 10139.342719 T 40.87) 298.15)
      - (c.reset gCramer2 190.564 10139.342719).pure 190.564 10139.342719 298.15 40.87 ≠ 0 := by
  obtain ⟨a, c', ha, hp, hc', _⟩ := (gerg_aig_table .v2008 .methane).1 (by decide +kernel)
  rw [ha] at hc
  have : c' = c := Outcome.ok.inj (hp.symm.trans hc)
  rw [Ne, gerg_reference_pressure gCramer2 gcramer2_solves c (this ▸ hc') _ _ (by norm_num) (by norm_num) _ (by norm_num)]
  unfold GMix.R
  norm_num

end Teqp.Props
