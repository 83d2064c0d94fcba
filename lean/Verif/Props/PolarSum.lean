import Verif.Props.Polar
import Verif.Props.MultipolarGrad
import Mathlib.Tactic

set_option autoImplicit false

/-! The parts of the combined polar contribution and the induced moments of the multipolar one. -/

namespace Teqp.Spec
open Teqp.Model

/-- The outcome of adding two contributions. -/
def addOutcome (a b : Outcome ℝ) : Outcome ℝ := a.bind fun s => b.bind fun t => .ok (s + t)

/-- The mean over the three axes of a molecule with its axis of symmetry along the first: along the axis the molecule responds with its
polarizability and by turning its permanent moment. -/
noncomputable def axisMean (along across turn : ℝ) : ℝ := (∑ k : Fin 3, ![along + turn, across, across] k) / 3

/-- The energy of a fluid of molecules with permanent moment `mu` whose effective moment is `m`: the perturbation energy of the effective
moments (in units of `kT`) and the work needed to stretch a molecule of polarizability `a`. -/
noncomputable def stretched (f : ℝ → ℝ) (mu a kT m : ℝ) : ℝ := f m + (m - mu) ^ 2 / (2 * a) / kT

end Teqp.Spec

namespace Teqp.Props
open Finset Teqp.Model Teqp.Spec Teqp.Lemmas

/-! ## The cross term -/

/-- **The cross contribution is constructed exactly for four arrays of one size with a dipole and a quadrupole among them.** -/
theorem diquad_make (a : GVArrays) :
    (diquadMake a = .ok a ↔ (a.Qstar2.length = a.m.length ∧ a.nQ.length = a.m.length ∧ a.mustar2.length = a.m.length ∧ a.nmu.length = a.m.length) ∧
      (∃ q ∈ a.Qstar2, q ≠ 0) ∧ ∃ m ∈ a.mustar2, m ≠ 0) ∧
    (diquadMake a ≠ .ok a → diquadMake a = .throws .invalidArgument) := by
  have key : ∀ l : List ℝ, (l.map fun q => |q|).sum = 0 ↔ ¬ ∃ q ∈ l, q ≠ 0 := by
    intro l
    constructor
    · intro h
      push Not
      intro q hq
      have := List.all_zero_of_le_zero_le_of_sum_eq_zero (l := l.map fun t => |t|) (by
        intro b hb
        obtain ⟨c, -, rfl⟩ := List.mem_map.mp hb
        exact abs_nonneg c) h (List.mem_map.mpr ⟨q, hq, rfl⟩)
      exact abs_eq_zero.mp this
    · intro h
      push Not at h
      refine List.sum_eq_zero fun b hb => ?_
      obtain ⟨c, hc, rfl⟩ := List.mem_map.mp hb
      rw [h c hc, abs_zero]
  unfold diquadMake
  split_ifs with h1 h2 h3 h4 h5 <;> try rw [key, key] at h5
  · simp [Ne.symm h1]
  · simp [Ne.symm h2]
  · simp [Ne.symm h3]
  · simp [Ne.symm h4]
  · refine ⟨⟨fun h => by simp at h, fun h => ?_⟩, fun _ => rfl⟩
    rcases h5 with h5 | h5
    · exact absurd h.2.1 h5
    · exact absurd h.2.2 h5
  · push Not at h1 h2 h3 h4
    rw [not_or, not_not, not_not] at h5
    exact ⟨⟨fun _ => ⟨⟨h1.symm, h2.symm, h3.symm, h4.symm⟩, h5.1, h5.2⟩, fun _ => rfl⟩, fun h => absurd rfl h⟩

example : diquadMake ⟨[1, 1], [3, 3], [100, 200], [1, 0], [1, 0], [0, 1], [0, 1]⟩ = .ok ⟨[1, 1], [3, 3], [100, 200], [1, 0], [1, 0], [0, 1], [0, 1]⟩ :=
  (diquad_make _).1.mpr ⟨by simp, ⟨1, by simp, by simp⟩, ⟨1, by simp, by simp⟩⟩

example : diquadMake ⟨[1], [3], [100], [1], [1], [0], [1]⟩ = .throws .invalidArgument := by
  refine (diquad_make _).2 fun h => ?_
  obtain ⟨-, h1, h2⟩ := (diquad_make _).1.mp h
  simp at h1 h2

/-! ## The sum of the parts -/

/-- **The combined contribution is the sum of its parts**: with dipoles and quadrupoles all three terms, with one kind only that term,
with neither zero. -/
theorem multi_sum (a : GVArrays) (c : GVMulti) (h : GVMulti.make a = .ok c) (T rho eta : ℝ) (x : List ℝ) :
    let D := dipEval (a.params x.length) T rho eta fun i => x.getD i 0
    let Q := quadEval (a.params x.length) T rho eta fun i => x.getD i 0
    let X := diquadEval (a.params x.length) T rho eta fun i => x.getD i 0
    (anyPositive a.nmu a.mustar2 = true → anyPositive a.nQ a.Qstar2 = true → c.eval T rho eta x = addOutcome (addOutcome D Q) X) ∧
    (anyPositive a.nmu a.mustar2 = true → anyPositive a.nQ a.Qstar2 = false → c.eval T rho eta x = D) ∧
    (anyPositive a.nmu a.mustar2 = false → anyPositive a.nQ a.Qstar2 = true → c.eval T rho eta x = Q) ∧
    (anyPositive a.nmu a.mustar2 = false → anyPositive a.nQ a.Qstar2 = false → c.eval T rho eta x = .ok 0) := by
  have hb0 : ∀ o : Outcome ℝ, (o.bind fun t => .ok (0 + t + 0)) = o := by
    intro o
    cases o <;> simp [Outcome.bind]
  have hb1 : ∀ o : Outcome ℝ, (o.bind fun t => .ok (t + 0 + 0)) = o := by
    intro o
    cases o <;> simp [Outcome.bind]
  have hd : ∀ b, dipMake a = .ok b → b = a := by
    intro b hb
    unfold dipMake at hb
    split_ifs at hb
    injection hb with hb
    exact hb.symm
  have hq : ∀ b, quadMake a = .ok b → b = a := by
    intro b hb
    unfold quadMake at hb
    split_ifs at hb
    injection hb with hb
    exact hb.symm
  have hx : ∀ b, diquadMake a = .ok b → b = a := by
    intro b hb
    unfold diquadMake at hb
    split_ifs at hb
    injection hb with hb
    exact hb.symm
  intro D Q X
  unfold GVMulti.make at h
  by_cases h1 : a.nmu.length ≠ a.mustar2.length
  · rw [if_pos h1] at h
    cases h
  rw [if_neg h1] at h
  cases e1 : anyPositive a.nmu a.mustar2 <;> cases e2 : anyPositive a.nQ a.Qstar2 <;> rw [e1] at h
  · simp only [Bool.false_eq_true, if_false, Outcome.bind_ok] at h
    by_cases h2 : a.nQ.length ≠ a.Qstar2.length
    · rw [if_pos h2] at h
      cases h
    rw [if_neg h2] at h
    rw [e2] at h
    simp only [Bool.false_eq_true, if_false, Outcome.bind_ok, Option.isSome_none, false_and] at h
    injection h with h
    subst h
    simp [GVMulti.eval, Outcome.bind]
  · simp only [Bool.false_eq_true, if_false, Outcome.bind_ok] at h
    by_cases h2 : a.nQ.length ≠ a.Qstar2.length
    · rw [if_pos h2] at h
      cases h
    rw [if_neg h2] at h
    rw [e2, if_pos rfl] at h
    cases h3 : quadMake a with
    | ok b =>
      rw [h3] at h
      simp only [Bool.false_eq_true, if_false, Outcome.bind_ok, Option.isSome_none, false_and] at h
      injection h with h
      subst h
      simp only [GVMulti.eval, Outcome.bind_ok, hq b h3, hb0, reduceCtorEq, false_implies, implies_true, true_and, and_true]
      exact fun _ _ => rfl
    | throws e => rw [h3] at h; simp [Outcome.bind] at h
    | ub => rw [h3] at h; simp [Outcome.bind] at h
    | nonFinite => rw [h3] at h; simp [Outcome.bind] at h
  · rw [if_pos rfl] at h
    cases h3 : dipMake a with
    | ok b =>
      rw [h3] at h
      simp only [Outcome.bind_ok] at h
      by_cases h2 : a.nQ.length ≠ a.Qstar2.length
      · rw [if_pos h2] at h
        cases h
      rw [if_neg h2] at h
      rw [e2] at h
      simp only [Bool.false_eq_true, if_false, Outcome.bind_ok, Option.isSome_none, and_false] at h
      injection h with h
      subst h
      simp only [GVMulti.eval, Outcome.bind_ok, hd b h3, hb1, reduceCtorEq, false_implies, implies_true, true_and, and_true]
      exact fun _ _ => rfl
    | throws e => rw [h3] at h; simp [Outcome.bind] at h
    | ub => rw [h3] at h; simp [Outcome.bind] at h
    | nonFinite => rw [h3] at h; simp [Outcome.bind] at h
  · rw [if_pos rfl] at h
    cases h3 : dipMake a with
    | ok b =>
      rw [h3] at h
      simp only [Outcome.bind_ok] at h
      by_cases h2 : a.nQ.length ≠ a.Qstar2.length
      · rw [if_pos h2] at h
        cases h
      rw [if_neg h2] at h
      rw [e2, if_pos rfl] at h
      cases h4 : quadMake a with
      | ok b2 =>
        rw [h4] at h
        simp only [Outcome.bind_ok, Option.isSome_some, and_self, if_true] at h
        cases h5 : diquadMake a with
        | ok b3 =>
          rw [h5] at h
          simp only [Outcome.bind_ok] at h
          injection h with h
          subst h
          simp only [GVMulti.eval, hd b h3, hq b2 h4, hx b3 h5, reduceCtorEq, false_implies, implies_true, true_and, and_true]
          intro _ _
          unfold addOutcome
          show D.bind (fun dd => Q.bind fun qq => X.bind fun dq => .ok (dd + qq + dq)) = _
          clear_value D Q X
          cases D <;> cases Q <;> simp [Outcome.bind]
        | throws e => rw [h5] at h; simp [Outcome.bind] at h
        | ub => rw [h5] at h; simp [Outcome.bind] at h
        | nonFinite => rw [h5] at h; simp [Outcome.bind] at h
      | throws e => rw [h4] at h; simp [Outcome.bind] at h
      | ub => rw [h4] at h; simp [Outcome.bind] at h
      | nonFinite => rw [h4] at h; simp [Outcome.bind] at h
    | throws e => rw [h3] at h; simp [Outcome.bind] at h
    | ub => rw [h3] at h; simp [Outcome.bind] at h
    | nonFinite => rw [h3] at h; simp [Outcome.bind] at h

example : ∃ c, GVMulti.make ⟨[1], [3], [100], [1], [1], [1], [1]⟩ = .ok c ∧ anyPositive [1] [1] = true := by
  have h : anyPositive [1] [1] = true := by simp [anyPositive]
  cases hc : GVMulti.make ⟨[1], [3], [100], [1], [1], [1], [1]⟩ with
  | ok c => exact ⟨c, rfl, h⟩
  | throws e => exact absurd (((multi_make _ rfl rfl).1 e hc).2) (by simp)
  | ub => simp [GVMulti.make, h, dipMake, quadMake, diquadMake, Outcome.bind] at hc
  | nonFinite => simp [GVMulti.make, h, dipMake, quadMake, diquadMake, Outcome.bind] at hc

/-! ## Induced moments -/

/-- **The response of a molecule is the mean over its axes**, of the polarizability alone without a moment, and the anisotropy is the
difference of the two polarizabilities. -/
theorem gg_axis_mean {ι : Type} (p : GGParams ι) (T : ℝ) (mup : ι → ℝ) (i : ι) :
    (∀ a, p.pol = some a → p.z1 T mup i = axisMean (a.symm i) (a.asymm i) (mup i ^ 2 / (p.kB * T)) ∧ p.iso i = axisMean (a.symm i) (a.asymm i) 0 ∧
      p.gam i = a.symm i - a.asymm i) ∧
    (p.pol = none → p.z1 T mup i = axisMean 0 0 (mup i ^ 2 / (p.kB * T)) ∧ p.iso i = 0 ∧ p.gam i = 0) := by
  refine ⟨fun a ha => ?_, fun ha => ?_⟩ <;>
    simp only [GGParams.z1, GGParams.iso, GGParams.gam, GGParams.beta, ha, axisMean, Fin.sum_univ_three, Matrix.cons_val_zero, Matrix.cons_val_one,
      Matrix.cons_val_two, Matrix.tail_cons, Matrix.head_cons]
  · refine ⟨by ring, by ring, trivial⟩
  · refine ⟨by ring, trivial, trivial⟩

example : ∃ p : GGParams (Fin 1), p.pol = some ⟨fun _ => 3e-40, fun _ => 1e-40⟩ ∧ 0 < p.mu 0 :=
  ⟨⟨fun _ _ => 3e-10, fun _ _ => 200, fun _ => 6e-30, fun _ => 1e-39, 1, 1, some ⟨fun _ => 3e-40, fun _ => 1e-40⟩, 9e9, 1.38e-23⟩, rfl, by norm_num⟩

/-- A successful iteration visits the permanent moments increased by what the field of the previous moments induces. -/
theorem ggIterate_ok {n : ℕ} (p : GGParams (Fin n)) (a : GGPol (Fin n)) (I : MPIntegrals) (T rhoN rs : ℝ) (x : Fin n → ℝ) (k : ℕ) (m0 m : Fin n → ℝ)
    (h : ggIterate p a I T rhoN rs x k m0 = .ok m) :
    ∃ s E : ℕ → Fin n → ℝ, s 0 = m0 ∧ s k = m ∧ ∀ j < k, ggEprime p I T rhoN rs x (s j) = .ok (E j) ∧ ∀ i, s (j + 1) i = p.mu i + a.symm i * E j i := by
  induction k generalizing m0 with
  | zero =>
    injection h with h
    exact ⟨fun _ => m0, fun _ => m0, rfl, h, fun j hj => absurd hj (by omega)⟩
  | succ k ih =>
    unfold ggIterate at h
    cases hE : ggEprime p I T rhoN rs x m0 with
    | ok E0 =>
      rw [hE, Outcome.bind_ok] at h
      obtain ⟨s, E, h0, hk, hs⟩ := ih _ h
      refine ⟨fun j => if j = 0 then m0 else s (j - 1), fun j => if j = 0 then E0 else E (j - 1), by simp, by simp [hk], fun j hj => ?_⟩
      rcases j with _ | j
      · simp only [if_true, hE, zero_add, one_ne_zero, if_false, Nat.sub_self, h0]
        exact ⟨trivial, fun i => trivial⟩
      · simp only [Nat.add_eq_zero_iff, one_ne_zero, and_false, if_false, Nat.add_sub_cancel]
        have := hs j (by omega)
        simpa using this
    | throws e => rw [hE] at h; cases h
    | ub => rw [hE] at h; cases h
    | nonFinite => rw [hE] at h; cases h

/-- **A result for polarizable molecules comes from ten steps of the induction** starting with the permanent moments, and adds to the
perturbation energy of the last moments half the energy of the induced ones in their field. -/
theorem gg_induced {n : ℕ} (p : GGParams (Fin n)) (a : GGPol (Fin n)) (ha : p.pol = some a) (I : MPIntegrals) (T rhoN rs : ℝ) (x : Fin n → ℝ) (r : ℝ)
    (h : ggEval p I T rhoN rs x = .ok r) :
    ∃ s E : ℕ → Fin n → ℝ, s 0 = p.mu ∧ (∀ k ≤ 10, ggEprime p I T rhoN rs x (s k) = .ok (E k)) ∧ (∀ k < 10, ∀ i, s (k + 1) i = p.mu i + a.symm i * E k i) ∧
      r = ggAlpha2 p I T rhoN rs x (s 10) / (1 - ggAlpha3 p I T rhoN rs x (s 10) / ggAlpha2 p I T rhoN rs x (s 10)) +
        ∑ i, x i * (a.symm i * E 10 i) * E 10 i / 2 / (p.kB * T) := by
  unfold ggEval at h
  rw [ha] at h
  dsimp only at h
  cases hi : ggIterate p a I T rhoN rs x 10 p.mu with
  | ok m =>
    rw [hi, Outcome.bind_ok] at h
    obtain ⟨s, E, h0, hk, hs⟩ := ggIterate_ok p a I T rhoN rs x 10 p.mu m hi
    cases hE : ggEprime p I T rhoN rs x m with
    | ok F =>
      rw [hE, Outcome.bind_ok] at h
      split_ifs at h
      injection h with h
      refine ⟨s, fun j => if j = 10 then F else E j, h0, fun k hk' => ?_, fun k hk' i => ?_, ?_⟩
      · rcases eq_or_ne k 10 with rfl | hne
        · simp only [if_true, hk, hE]
        · simp only [hne, if_false]
          exact (hs k (by omega)).1
      · simp only [(show k ≠ 10 by omega), if_false]
        exact (hs k hk').2 i
      · simp only [if_true]
        rw [← h, hk]
        congr 1
        rw [Finset.mul_sum, Finset.sum_div]
        exact Finset.sum_congr rfl fun i _ => by norm_num; ring
    | throws e => rw [hE] at h; cases h
    | ub => rw [hE] at h; cases h
    | nonFinite => rw [hE] at h; cases h
  | throws e => rw [hi] at h; cases h
  | ub => rw [hi] at h; cases h
  | nonFinite => rw [hi] at h; cases h

/-- **Why one half**: for one component (and `C3b = 1`) the result is the stretched energy at the last effective moment up to the distance
from self-consistency, and the slope of the stretched energy there is that distance: a self-consistent moment is stationary and the result
is the stationary value. -/
theorem gg_variational_partial (p : GGParams (Fin 1)) (hb : p.C3b = 1) (a : GGPol (Fin 1)) (ha : p.pol = some a) (ha0 : a.symm 0 ≠ 0) (I : MPIntegrals)
    (T rhoN rs : ℝ) (hT : p.kB * T ≠ 0) (x : Fin 1 → ℝ) (hx : x 0 = 1) (r : ℝ) (h : ggEval p I T rhoN rs x = .ok r) :
    ∃ m d : ℝ,
      let f := fun t => ggAlpha2 p I T rhoN rs x (fun _ => t) / (1 - ggAlpha3 p I T rhoN rs x (fun _ => t) / ggAlpha2 p I T rhoN rs x (fun _ => t))
      HasDerivAt (stretched f (p.mu 0) (a.symm 0) (p.kB * T)) (d / a.symm 0 / (p.kB * T)) m ∧
      r = stretched f (p.mu 0) (a.symm 0) (p.kB * T) m - d * (2 * (m - p.mu 0) - d) / (2 * a.symm 0) / (p.kB * T) ∧
      (∀ E, ggEprime p I T rhoN rs x (fun _ => m) = .ok E → d = m - (p.mu 0 + a.symm 0 * E 0)) := by
  obtain ⟨s, E, -, hE, -, hr⟩ := gg_induced p a ha I T rhoN rs x r h
  have hE10 := hE 10 le_rfl
  have hs : s 10 = fun _ => s 10 0 := by
    funext i
    rw [Subsingleton.elim i 0]
  have hup : ∀ t, Function.update (s 10) 0 t = fun _ => t := by
    intro t
    funext i
    rw [Subsingleton.elim i 0, Function.update_self]
  have hf := gg_field_partial p hb I T rhoN rs x (s 10) (E 10) hE10
  simp only [hup] at hf
  have hdiff : DifferentiableAt ℝ (fun t => ggAlpha2 p I T rhoN rs x (fun _ => t) /
      (1 - ggAlpha3 p I T rhoN rs x (fun _ => t) / ggAlpha2 p I T rhoN rs x (fun _ => t))) (s 10 0) := by
    unfold ggEprime at hE10
    rw [ha] at hE10
    simp only [Option.isNone_some, Bool.false_eq_true, if_false] at hE10
    split_ifs at hE10 with h2
    push Not at h2
    have hp : GGSymm p := ⟨fun i j => by rw [Subsingleton.elim i j], fun i j => by rw [Subsingleton.elim i j]⟩
    have d2 := (hasDerivAt_alpha2 p hp I T rhoN rs x (s 10) 0).differentiableAt
    have d3 := (hasDerivAt_alpha3 p hp I T rhoN rs x (s 10) 0).differentiableAt
    simp only [hup] at d2 d3
    rw [hs] at h2
    exact (d2.hasDerivAt.fun_div ((d3.hasDerivAt.fun_div d2.hasDerivAt h2.1).const_sub 1) h2.2).differentiableAt
  refine ⟨s 10 0, s 10 0 - (p.mu 0 + a.symm 0 * E 10 0), ?_, ?_, fun F hF => ?_⟩
  · have h1 := hdiff.hasDerivAt.add (((((hasDerivAt_id (s 10 0)).sub_const (p.mu 0)).fun_pow 2).div_const (2 * a.symm 0)).div_const (p.kB * T))
    refine h1.congr_deriv ?_
    have : deriv (fun t => ggAlpha2 p I T rhoN rs x (fun _ => t) /
      (1 - ggAlpha3 p I T rhoN rs x (fun _ => t) / ggAlpha2 p I T rhoN rs x (fun _ => t))) (s 10 0) = - E 10 0 / (p.kB * T) := by
      rw [hf, eq_div_iff hT]
      ring
    rw [this]
    simp only [id, Nat.cast_ofNat, Nat.reduceSub, pow_one]
    field_simp
    ring
  · rw [hr, stretched, ← hs, Fin.sum_univ_one, hx]
    generalize ggAlpha2 p I T rhoN rs x (s 10) / _ = A
    field_simp
    ring
  · rw [← hs, hE10] at hF
    injection hF with hF
    rw [hF]

/-- A polarizable fluid with a dipole and a quadrupole, without a third-order term. -/
noncomputable def inducedSample : GGParams (Fin 1) :=
  { sij := fun _ _ => 1, eij := fun _ _ => 1, mu := fun _ => 1, Q := fun _ => 1, C3 := 0, C3b := 1, pol := some ⟨fun _ => 1, fun _ => 1⟩, ke := 1, kB := 1 }

theorem inducedSample_alpha2 (m : Fin 1 → ℝ) : ggAlpha2 inducedSample unitIntegrals 1 1 1 (fun _ => 1) m < 0 := by
  simp only [ggAlpha2, Fin.sum_univ_one, inducedSample, unitIntegrals, GGParams.z1, GGParams.iso, GGParams.beta, GGParams.In]
  norm_num
  have hpi := Real.pi_pos
  have : 0 ≤ m 0 ^ 2 := sq_nonneg _
  nlinarith [mul_nonneg this hpi.le, mul_nonneg (mul_nonneg this this) hpi.le]

theorem inducedSample_alpha3 (m : Fin 1 → ℝ) : ggAlpha3 inducedSample unitIntegrals 1 1 1 (fun _ => 1) m = 0 := by
  simp only [ggAlpha3, inducedSample, zero_mul]

theorem inducedSample_field (m : Fin 1 → ℝ) : ∃ E, ggEprime inducedSample unitIntegrals 1 1 1 (fun _ => 1) m = .ok E := by
  unfold ggEprime
  rw [inducedSample_alpha3, if_neg (by simp [inducedSample])]
  dsimp only
  rw [if_neg (by
    have := (inducedSample_alpha2 m).ne
    simp [this])]
  exact ⟨_, rfl⟩

theorem inducedSample_iterate (k : ℕ) (m : Fin 1 → ℝ) :
    ∃ s, ggIterate inducedSample ⟨fun _ => 1, fun _ => 1⟩ unitIntegrals 1 1 1 (fun _ => 1) k m = .ok s := by
  induction k generalizing m with
  | zero => exact ⟨m, rfl⟩
  | succ k ih =>
    obtain ⟨E, hE⟩ := inducedSample_field m
    unfold ggIterate
    rw [hE, Outcome.bind_ok]
    exact ih _

/-- The hypotheses of `gg_induced` and `gg_variational_partial` hold for a fluid with a moment. -/
example : ∃ r, ggEval inducedSample unitIntegrals 1 1 1 (fun _ => 1) = .ok r ∧ inducedSample.C3b = 1 ∧ inducedSample.kB * 1 ≠ 0 ∧ inducedSample.mu 0 = 1 := by
  obtain ⟨s, hs⟩ := inducedSample_iterate 10 inducedSample.mu
  obtain ⟨E, hE⟩ := inducedSample_field s
  unfold ggEval
  rw [show inducedSample.pol = some ⟨fun _ => 1, fun _ => 1⟩ from rfl]
  dsimp only
  rw [hs, Outcome.bind_ok, hE, Outcome.bind_ok, inducedSample_alpha3, if_neg (by
    have := (inducedSample_alpha2 s).ne
    simp [this])]
  exact ⟨_, rfl, rfl, by simp [inducedSample], rfl⟩

end Teqp.Props
