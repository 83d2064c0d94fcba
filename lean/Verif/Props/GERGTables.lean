import Verif.Model.GERG

/-! # The tables of GERG-2004 and GERG-2008 are complete and consistent -/

set_option autoImplicit false

namespace Teqp.Spec
open Model

/-- The components of the two models, from the publications. -/
def gergComponents : GVer → List GFluid
  | .v2004 => gergNames04
  | .v2008 => gergNames08

/-- Numbers of carbon, hydrogen, nitrogen, oxygen and sulfur atoms, helium and argon. -/
def formula : GFluid → ℕ × ℕ × ℕ × ℕ × ℕ × ℕ × ℕ
  | .methane => (1, 4, 0, 0, 0, 0, 0)
  | .nitrogen => (0, 0, 2, 0, 0, 0, 0)
  | .carbonDioxide => (1, 0, 0, 2, 0, 0, 0)
  | .ethane => (2, 6, 0, 0, 0, 0, 0)
  | .propane => (3, 8, 0, 0, 0, 0, 0)
  | .nButane => (4, 10, 0, 0, 0, 0, 0)
  | .isobutane => (4, 10, 0, 0, 0, 0, 0)
  | .nPentane => (5, 12, 0, 0, 0, 0, 0)
  | .isopentane => (5, 12, 0, 0, 0, 0, 0)
  | .nHexane => (6, 14, 0, 0, 0, 0, 0)
  | .nHeptane => (7, 16, 0, 0, 0, 0, 0)
  | .nOctane => (8, 18, 0, 0, 0, 0, 0)
  | .hydrogen => (0, 2, 0, 0, 0, 0, 0)
  | .oxygen => (0, 0, 0, 2, 0, 0, 0)
  | .carbonMonoxide => (1, 0, 0, 1, 0, 0, 0)
  | .water => (0, 2, 0, 1, 0, 0, 0)
  | .helium => (0, 0, 0, 0, 0, 1, 0)
  | .argon => (0, 0, 0, 0, 0, 0, 1)
  | .hydrogenSulfide => (0, 2, 0, 0, 1, 0, 0)
  | .nNonane => (9, 20, 0, 0, 0, 0, 0)
  | .nDecane => (10, 22, 0, 0, 0, 0, 0)

/-- Molar mass (kg/kmol) from the atomic weights. -/
def atomicMass (f : GFluid) : ℚ :=
  let (c, h, n, o, s, he, ar) := formula f
  c * 12.0107 + h * 1.00794 + n * 14.0067 + o * 15.9994 + s * 32.065 + he * 4.002602 + ar * 39.948

end Teqp.Spec

namespace Teqp.Props
open Model Spec

theorem gerg_mem (f : GFluid) : f ∈ gergNames08 := by cases f <;> decide

theorem gver_cases (P : GVer → Prop) (h4 : P .v2004) (h8 : P .v2008) (v : GVer) : P v := by cases v; exacts [h4, h8]

theorem gerg_name_injective (f g : GFluid) (h : f.name = g.name) : f = g := by
  have key : ∀ f ∈ gergNames08, ∀ g ∈ gergNames08, f.name = g.name → f = g := by decide +kernel
  exact key f (gerg_mem f) g (gerg_mem g) h

/-- The look-up by name finds exactly the component of that name. -/
theorem gerg_ofName (s : String) (f : GFluid) : GFluid.ofName s = some f ↔ f.name = s := by
  unfold GFluid.ofName
  constructor
  · intro h
    have := List.find?_some h
    simpa using this
  · intro h
    cases hf : gergNames08.find? fun f => f.name == s with
    | none =>
      have := List.find?_eq_none.1 hf f (gerg_mem f)
      simp [h] at this
    | some g =>
      have hg := List.find?_some hf
      have : g.name = s := by simpa using hg
      rw [gerg_name_injective g f (this.trans h.symm)]

example : GFluid.ofName "n-nonane" = some .nNonane ∧ GFluid.ofName "nonane" = none := by decide +kernel

/-- Critical data: present and positive exactly for the components of the version; molar masses agree with the
atomic weights. -/
theorem gerg_info (v : GVer) (f : GFluid) :
    (f ∈ gergComponents v → ∃ i, gergInfo v f = some i ∧ 0 < i.rhoc ∧ 0 < i.Tc ∧ i.M = atomicMass f) ∧
      (f ∉ gergComponents v → gergInfo v f = none) := by
  have key : ∀ v ∈ [GVer.v2004, .v2008], ∀ f ∈ gergNames08,
      (f ∈ gergComponents v → ((gergInfo v f).any fun i => decide (0 < i.rhoc ∧ 0 < i.Tc ∧ i.M = atomicMass f)) = true) ∧
      (f ∉ gergComponents v → gergInfo v f = none) := by decide +kernel
  obtain ⟨h1, h2⟩ := key v (by cases v <;> simp) f (gerg_mem f)
  refine ⟨fun hf => ?_, h2⟩
  obtain ⟨i, hi, hd⟩ := (Option.any_eq_true _ _).1 (h1 hf)
  exact ⟨i, hi, of_decide_eq_true hd⟩

example : gergInfo .v2008 .nNonane = some ⟨1.81, 594.55, 128.2551⟩ ∧ gergInfo .v2004 .nNonane = none := by decide +kernel

/-- Pure-fluid coefficients: present exactly for the components of the version, arrays of equal length, density
exponents at least one, and a damping exponent exactly where the switch is on. -/
theorem gerg_pure_table (v : GVer) (f : GFluid) :
    (f ∈ gergComponents v → ∃ p, gergPure v f = some p ∧ p.n ≠ [] ∧ p.t.length = p.n.length ∧ p.d.length = p.n.length ∧
        p.c.length = p.n.length ∧ p.l.length = p.n.length ∧
        ∀ x ∈ p.terms, x.n ≠ 0 ∧ 0 ≤ x.t ∧ 1 ≤ x.d ∧ (x.c = 0 ∧ x.l = 0 ∨ x.c = 1 ∧ 1 ≤ x.l)) ∧
      (f ∉ gergComponents v → gergPure v f = none) := by
  have key : ∀ v ∈ [GVer.v2004, .v2008], ∀ f ∈ gergNames08,
      (f ∈ gergComponents v → ((gergPure v f).any fun p => decide (p.n ≠ [] ∧ p.t.length = p.n.length ∧
        p.d.length = p.n.length ∧ p.c.length = p.n.length ∧ p.l.length = p.n.length ∧
        ∀ x ∈ p.terms, x.n ≠ 0 ∧ 0 ≤ x.t ∧ 1 ≤ x.d ∧ (x.c = 0 ∧ x.l = 0 ∨ x.c = 1 ∧ 1 ≤ x.l))) = true) ∧
      (f ∉ gergComponents v → gergPure v f = none) := by decide +kernel
  obtain ⟨h1, h2⟩ := key v (by cases v <;> simp) f (gerg_mem f)
  refine ⟨fun hf => ?_, h2⟩
  obtain ⟨i, hi, hd⟩ := (Option.any_eq_true _ _).1 (h1 hf)
  exact ⟨i, hi, of_decide_eq_true hd⟩

example : (gergPure .v2004 .methane).map (fun p => p.terms.length) = some 24 ∧
    (gergPure .v2008 .hydrogenSulfide).map (fun p => p.terms.length) = some 12 := by decide +kernel

/-- Binary parameters: every pair of different components of a version has positive parameters, and asking in
the other order gives the reciprocal `beta` and the same `gamma`. -/
theorem gerg_betas (v : GVer) (a b : GFluid) (ha : a ∈ gergComponents v) (hb : b ∈ gergComponents v) (hab : a ≠ b) :
    ∃ g h, gergBetas v a b = some g ∧ gergBetas v b a = some h ∧ 0 < g.betaT ∧ 0 < g.betaV ∧ 0 < g.gammaT ∧ 0 < g.gammaV ∧
      h.betaT = 1 / g.betaT ∧ h.betaV = 1 / g.betaV ∧ h.gammaT = g.gammaT ∧ h.gammaV = g.gammaV := by
  have key : ∀ v ∈ [GVer.v2004, .v2008], ∀ a ∈ gergComponents v, ∀ b ∈ gergComponents v, a ≠ b →
      ((gergBetas v a b).any fun g => (gergBetas v b a).any fun h =>
        decide (0 < g.betaT ∧ 0 < g.betaV ∧ 0 < g.gammaT ∧ 0 < g.gammaV ∧
        h.betaT = 1 / g.betaT ∧ h.betaV = 1 / g.betaV ∧ h.gammaT = g.gammaT ∧ h.gammaV = g.gammaV)) = true := by
    decide +kernel
  obtain ⟨g, hg, h1⟩ := (Option.any_eq_true _ _).1 (key v (by cases v <;> simp) a ha b hb hab)
  obtain ⟨h, hh, h2⟩ := (Option.any_eq_true _ _).1 h1
  exact ⟨g, h, hg, hh, of_decide_eq_true h2⟩

/-- No parameters for a component with itself or for a component that the version does not have. -/
theorem gerg_betas_none (v : GVer) (a b : GFluid) (h : a = b ∨ a ∉ gergComponents v ∨ b ∉ gergComponents v) :
    gergBetas v a b = none := by
  have key : ∀ v ∈ [GVer.v2004, .v2008], ∀ a ∈ gergNames08, ∀ b ∈ gergNames08,
      (a = b ∨ a ∉ gergComponents v ∨ b ∉ gergComponents v) → gergBetas v a b = none := by decide +kernel
  exact key v (by cases v <;> simp) a (gerg_mem a) b (gerg_mem b) h

example : gergBetas .v2008 .hydrogenSulfide .water = some ⟨1, 1.014832832, 1, 0.940587083⟩ ∧
    gergBetas .v2004 .ethane .methane = some ⟨1 / 0.997547866, 1.006617867, 1 / 0.996336508, 1.049707697⟩ := by
  decide +kernel

/-- Weights and departure functions: both independent of the order of the pair, and a departure function exists
exactly where there is a weight; its arrays have equal lengths, density exponents are at least one, and its
damping coefficients are not negative. -/
theorem gerg_departure (a b : GFluid) :
    gergF a b = gergF b a ∧ gergDep a b = gergDep b a ∧ ((∃ w, gergF a b = some w ∧ w ≠ 0) ↔ (gergDep a b).isSome) ∧
      ∀ p, gergDep a b = some p → p.n ≠ [] ∧ p.t.length = p.n.length ∧ p.d.length = p.n.length ∧
        p.eta.length = p.n.length ∧ p.beta.length = p.n.length ∧ p.gamma.length = p.n.length ∧
        p.epsilon.length = p.n.length ∧ ∀ x ∈ p.terms, 1 ≤ x.d ∧ 0 ≤ x.eta ∧ 0 ≤ x.beta := by
  have key : ∀ a ∈ gergNames08, ∀ b ∈ gergNames08,
      gergF a b = gergF b a ∧ gergDep a b = gergDep b a ∧ (((gergF a b).any fun w => decide (w ≠ 0)) = (gergDep a b).isSome) ∧
      ((gergDep a b).all fun p => decide (p.n ≠ [] ∧ p.t.length = p.n.length ∧ p.d.length = p.n.length ∧
        p.eta.length = p.n.length ∧ p.beta.length = p.n.length ∧ p.gamma.length = p.n.length ∧
        p.epsilon.length = p.n.length ∧ ∀ x ∈ p.terms, 1 ≤ x.d ∧ 0 ≤ x.eta ∧ 0 ≤ x.beta)) = true := by
    decide +kernel
  obtain ⟨h1, h2, h3, h4⟩ := key a (gerg_mem a) b (gerg_mem b)
  refine ⟨h1, h2, ?_, ?_⟩
  · rw [← h3]
    constructor
    · rintro ⟨w, hw, hne⟩
      rw [hw]
      exact decide_eq_true hne
    · intro h
      obtain ⟨w, hw, hd⟩ := (Option.any_eq_true _ _).1 h
      exact ⟨w, hw, of_decide_eq_true hd⟩
  · intro p hp
    rw [hp] at h4
    exact of_decide_eq_true h4

example : gergF .isobutane .propane = some (-0.551609771024e-1) ∧ gergDep .isobutane .propane = some gergDepGeneral ∧
    gergF .water .methane = none ∧ gergDep .water .methane = none := by decide +kernel

end Teqp.Props
