import Verif.Model.Activity
import Verif.Lemmas.Outcome
import Mathlib.Tactic.Linarith
import Mathlib.Tactic.NormNum
import Mathlib.Tactic.FieldSimp
import Mathlib.Tactic.Ring
import Mathlib.Algebra.BigOperators.Fin
import Mathlib.Algebra.BigOperators.Field
import Mathlib.Algebra.Order.BigOperators.Group.Finset
import Mathlib.Algebra.Order.BigOperators.Ring.Finset

/-! # C63: activity models -/

set_option autoImplicit false

namespace Teqp.Spec
open Finset

/-- The residual part of the Wilson excess energy over `RT`: with volume fractions `phi j`,
`- ∑ x i ln (∑ phi j exp (-A i j / T))`. -/
noncomputable def wilsonResidual {N : ℕ} (b x : Fin N → ℝ) (A : Fin N → Fin N → ℝ) (T : ℝ) : ℝ :=
  -∑ i, x i * Real.log (∑ j, x j * b j / (∑ k, x k * b k) * Real.exp (-A i j / T))

end Teqp.Spec

namespace Teqp.Props
open Teqp.Model Teqp.Spec Finset

/-- Parameters of a Wilson model that fit `N` components. -/
structure WilsonFits (w : Wilson) (N : ℕ) : Prop where
  b : w.b.length = N
  m : w.m.n = N
  n : w.n.n = N
  pos : ∀ i < N, 0 < el w.b i

/-- A composition: fractions that are not negative and add up to one. -/
structure IsComp (x : List ℝ) : Prop where
  nonneg : ∀ i < x.length, 0 ≤ el x i
  sum : ∑ i ∈ range x.length, el x i = 1

theorem comp_weight_pos (x : List ℝ) (hx : IsComp x) (f : ℕ → ℝ) (hf : ∀ i < x.length, 0 < f i) :
    0 < ∑ i ∈ range x.length, el x i * f i := by
  have hnn : ∀ i ∈ range x.length, 0 ≤ el x i * f i := fun i hi =>
    mul_nonneg (hx.nonneg i (mem_range.mp hi)) (hf i (mem_range.mp hi)).le
  rcases (Finset.sum_nonneg hnn).lt_or_eq with h | h
  · exact h
  · exfalso
    have hz := (Finset.sum_eq_zero_iff_of_nonneg hnn).mp h.symm
    have : ∑ i ∈ range x.length, el x i = 0 := Finset.sum_eq_zero fun i hi => by
      rcases mul_eq_zero.mp (hz i hi) with h | h
      · exact h
      · exact absurd h (hf i (mem_range.mp hi)).ne'
    rw [hx.sum] at this
    exact one_ne_zero this

theorem comp_ne_nil (x : List ℝ) (hx : IsComp x) : x ≠ [] := by
  rintro rfl
  have := hx.sum
  simp at this

/-- The Wilson model returns the residual Wilson energy for every number of components, every composition
(also with components at zero) and every temperature. -/
theorem wilson_value (w : Wilson) (T : ℝ) (x : List ℝ) (hw : WilsonFits w x.length) (hx : IsComp x) (hT : T ≠ 0) :
    w.eval T x = .ok (wilsonResidual (fun i : Fin x.length => el w.b i) (fun i => el x i)
      (fun i j => w.m.val i j * T + w.n.val i j) T) := by
  have hV : 0 < ∑ i ∈ range x.length, el x i * el w.b i := comp_weight_pos x hx _ hw.pos
  have hin : ∀ i < x.length, 0 < w.inner T x i := fun i hi =>
    comp_weight_pos x hx _ fun j hj => mul_pos (div_pos (hw.pos j hj) (hw.pos i hi)) (Real.exp_pos _)
  have ht : w.total T x = .ok (-∑ i ∈ range x.length, el x i * Real.log (w.inner T x i)) := by
    unfold Wilson.total
    rw [if_neg (by rw [hw.b, hw.m, hw.n]; simp), if_neg (comp_ne_nil x hx), if_neg]
    rintro (h | ⟨i, hi, h | h⟩)
    · exact hT h
    · exact (hw.pos i (mem_range.mp hi)).ne' h
    · exact absurd h (not_le.mpr (hin i (mem_range.mp hi)))
  have hc : w.combinatorial x = .ok (∑ i ∈ range x.length, el x i *
      Real.log (el w.b i / ∑ i ∈ range x.length, el x i * el w.b i)) := by
    unfold Wilson.combinatorial
    rw [if_neg (by rw [hw.b]; simp)]
    simp only
    rw [if_neg]
    rintro (h | ⟨i, hi, h⟩)
    · exact hV.ne' h
    · exact absurd h (not_le.mpr (div_pos (hw.pos i (mem_range.mp hi)) hV))
  unfold Wilson.eval
  rw [ht]
  simp only
  rw [hc, Outcome.bind_ok]
  congr 1
  unfold wilsonResidual
  rw [← neg_add', ← Finset.sum_add_distrib]
  congr 1
  rw [Finset.sum_range fun i => el x i * Real.log (w.inner T x i) + el x i *
      Real.log (el w.b i / ∑ i ∈ range x.length, el x i * el w.b i)]
  refine Finset.sum_congr rfl fun i _ => ?_
  rw [← mul_add, ← Real.log_mul (hin i i.2).ne' (div_pos (hw.pos i i.2) hV).ne']
  congr 2
  unfold Wilson.inner
  rw [Finset.sum_mul, Finset.sum_range]
  refine Finset.sum_congr rfl fun j _ => ?_
  rw [← Finset.sum_range fun i => el x i * el w.b i]
  have hb := (hw.pos i i.2).ne'
  unfold Wilson.A
  field_simp

/-- If all the interaction energies are equal (in particular for identical components), the
Wilson residual is that energy over `T`; it vanishes when they are zero, whatever the volumes. -/
theorem wilson_uniform (w : Wilson) (T a : ℝ) (x : List ℝ) (hw : WilsonFits w x.length) (hx : IsComp x) (hT : T ≠ 0)
    (hA : ∀ i < x.length, ∀ j < x.length, w.m.val i j * T + w.n.val i j = a) : w.eval T x = .ok (a / T) := by
  rw [wilson_value w T x hw hx hT]
  congr 1
  have hV : 0 < ∑ i ∈ range x.length, el x i * el w.b i := comp_weight_pos x hx _ hw.pos
  rw [Finset.sum_range] at hV
  have hs := hx.sum
  rw [Finset.sum_range] at hs
  unfold wilsonResidual
  have : ∀ i : Fin x.length, (∑ j : Fin x.length, el x j * el w.b j / (∑ k : Fin x.length, el x k * el w.b k) *
      Real.exp (-(w.m.val i j * T + w.n.val i j) / T)) = Real.exp (-a / T) := by
    intro i
    have : ∀ j : Fin x.length, Real.exp (-(w.m.val i j * T + w.n.val i j) / T) = Real.exp (-a / T) := fun j => by
      rw [hA i i.2 j j.2]
    simp only [this]
    rw [← Finset.sum_mul, ← Finset.sum_div, div_self hV.ne', one_mul]
  simp only [this, Real.log_exp]
  rw [← Finset.sum_mul, hs]
  ring

/-- For a composition that is one pure component the Wilson residual is the energy of that component with
itself over `T`, so it vanishes exactly if this energy is zero. -/
theorem wilson_pure (w : Wilson) (T : ℝ) (x : List ℝ) (k : ℕ) (hk : k < x.length) (hw : WilsonFits w x.length)
    (hx : ∀ i < x.length, el x i = if i = k then 1 else 0) (hT : T ≠ 0) :
    w.eval T x = .ok ((w.m.val k k * T + w.n.val k k) / T) := by
  have hc : IsComp x := by
    refine ⟨fun i hi => by rw [hx i hi]; split <;> norm_num, ?_⟩
    rw [Finset.sum_congr rfl fun i hi => hx i (mem_range.mp hi)]
    simp [hk]
  rw [wilson_value w T x hw hc hT]
  congr 1
  unfold wilsonResidual
  have hx' : ∀ i : Fin x.length, el x i = if i = ⟨k, hk⟩ then 1 else 0 := fun i => by
    rw [hx i i.2]; simp [Fin.ext_iff]
  simp only [hx', ite_mul, one_mul, zero_mul, Finset.sum_ite_eq', Finset.mem_univ, if_true, ite_div, zero_div]
  rw [div_self (hw.pos k hk).ne', one_mul, Real.log_exp]
  ring

/-- The components may be relabelled together with their parameters. -/
theorem wilson_relabel {N : ℕ} (b x : Fin N → ℝ) (A : Fin N → Fin N → ℝ) (T : ℝ) (σ : Equiv.Perm (Fin N)) :
    wilsonResidual (fun i => b (σ i)) (fun i => x (σ i)) (fun i j => A (σ i) (σ j)) T = wilsonResidual b x A T := by
  unfold wilsonResidual
  congr 1
  rw [Equiv.sum_comp σ (fun k => x k * b k)]
  rw [← Equiv.sum_comp σ (fun i => x i * Real.log (∑ j, x j * b j / (∑ k, x k * b k) * Real.exp (-A i j / T)))]
  refine Finset.sum_congr rfl fun i _ => ?_
  rw [Equiv.sum_comp σ (fun j => x j * b j / (∑ k, x k * b k) * Real.exp (-A (σ i) j / T))]

/-- Two models with permuted parameters give the same value for permuted compositions. -/
theorem wilson_eval_relabel (w w' : Wilson) (T : ℝ) (x x' : List ℝ) (hl : x'.length = x.length)
    (σ : Equiv.Perm (Fin x.length)) (hw : WilsonFits w x.length) (hw' : WilsonFits w' x'.length)
    (hx : IsComp x) (hx' : IsComp x') (hT : T ≠ 0)
    (hb : ∀ i : Fin x.length, el w'.b i = el w.b (σ i)) (hxx : ∀ i : Fin x.length, el x' i = el x (σ i))
    (hm : ∀ i j : Fin x.length, w'.m.val i j = w.m.val (σ i) (σ j))
    (hn : ∀ i j : Fin x.length, w'.n.val i j = w.n.val (σ i) (σ j)) : w'.eval T x' = w.eval T x := by
  rw [wilson_value w T x hw hx hT, wilson_value w' T x' hw' hx' hT]
  congr 1
  rw [← wilson_relabel (fun i : Fin x.length => el w.b i) (fun i => el x i)
      (fun i j => w.m.val i j * T + w.n.val i j) T σ]
  unfold wilsonResidual
  have key : ∀ (M : ℕ) (h : M = x.length) (g : Fin M → ℝ) (g' : Fin x.length → ℝ)
      (_ : ∀ i : Fin x.length, g (Fin.cast h.symm i) = g' i), ∑ i, g i = ∑ i, g' i := by
    intro M h g g' hg
    subst h
    exact Finset.sum_congr rfl fun i _ => hg i
  congr 1
  refine key _ hl _ _ fun i => ?_
  have hV : ∑ k : Fin x'.length, el x' k * el w'.b k = ∑ k : Fin x.length, el x (σ k) * el w.b (σ k) :=
    key _ hl _ _ fun k => by simp only [Fin.val_cast]; rw [hxx k, hb k]
  simp only [Fin.val_cast]
  rw [hxx i, hV]
  congr 2
  refine key _ hl _ _ fun j => ?_
  simp only [Fin.val_cast]
  rw [hxx j, hb j, hm i j, hn i j]

/-- Interaction energies that are not negative give an energy that is not negative. -/
theorem wilson_nonneg {N : ℕ} (b x : Fin N → ℝ) (A : Fin N → Fin N → ℝ) (T : ℝ) (hT : 0 < T)
    (hb : ∀ i, 0 < b i) (hx : ∀ i, 0 ≤ x i) (hA : ∀ i j, 0 ≤ A i j) :
    0 ≤ wilsonResidual b x A T := by
  have hVnn : ∀ i ∈ (univ : Finset (Fin N)), 0 ≤ x i * b i := fun i _ => mul_nonneg (hx i) (hb i).le
  have hV : 0 ≤ ∑ k, x k * b k := Finset.sum_nonneg hVnn
  unfold wilsonResidual
  rw [neg_nonneg]
  refine Finset.sum_nonpos fun i _ => mul_nonpos_of_nonneg_of_nonpos (hx i) ?_
  refine Real.log_nonpos (Finset.sum_nonneg fun j _ => mul_nonneg (div_nonneg (mul_nonneg (hx j) (hb j).le) hV)
    (Real.exp_pos _).le) ?_
  calc ∑ j, x j * b j / (∑ k, x k * b k) * Real.exp (-A i j / T)
      ≤ ∑ j, x j * b j / (∑ k, x k * b k) := by
        refine Finset.sum_le_sum fun j _ => ?_
        refine mul_le_of_le_one_right (div_nonneg (mul_nonneg (hx j) (hb j).le) hV) ?_
        rw [Real.exp_le_one_iff]
        exact div_nonpos_of_nonpos_of_nonneg (neg_nonpos.mpr (hA i j)) hT.le
    _ = (∑ k, x k * b k) / (∑ k, x k * b k) := by rw [Finset.sum_div]
    _ ≤ 1 := div_self_le_one _

/-- Two components, one with twice the volume, with a zero diagonal. -/
noncomputable def wilsonWitness : Wilson :=
  ⟨[1, 2], ⟨2, fun _ _ => 0⟩, ⟨2, fun i j => if i = j then 0 else 300⟩⟩

theorem wilsonWitness_fits (x0 x1 : ℝ) : WilsonFits wilsonWitness [x0, x1].length :=
  ⟨rfl, rfl, rfl, by
    intro i hi
    have : i = 0 ∨ i = 1 := by simp at hi; omega
    rcases this with rfl | rfl <;> norm_num [wilsonWitness, el]⟩

example : wilsonWitness.eval 300 [1, 0] = .ok 0 := by
  rw [wilson_pure wilsonWitness 300 [1, 0] 0 (by simp) (wilsonWitness_fits 1 0) (by
    intro i hi
    have : i = 0 ∨ i = 1 := by simp at hi; omega
    rcases this with rfl | rfl <;> norm_num [el]) (by norm_num)]
  norm_num [wilsonWitness]

/-- The value at equal fractions, with `exp (-1)` between unlike components. -/
example : wilsonWitness.eval 300 [1/2, 1/2] =
    .ok (-(1/2 * Real.log (1/3 + 2/3 * Real.exp (-1)) + 1/2 * Real.log (1/3 * Real.exp (-1) + 2/3))) := by
  rw [wilson_value wilsonWitness 300 [1/2, 1/2] (wilsonWitness_fits _ _) ⟨by
    intro i hi
    have : i = 0 ∨ i = 1 := by simp at hi; omega
    rcases this with rfl | rfl <;> norm_num [el], by norm_num [el, Finset.sum_range_succ]⟩ (by norm_num)]
  congr 1
  change wilsonResidual (N := 2) _ _ _ 300 = _
  rw [wilsonResidual]
  simp only [Fin.sum_univ_two]
  norm_num [wilsonWitness, el]

/-- A diagonal that is not zero is accepted, and then the contribution of a pure component does not vanish. -/
theorem wilson_pure_nonzero : ∃ (w : Wilson) (T : ℝ), WilsonFits w 1 ∧ w.eval T [1] = .ok 1 := by
  have hf : WilsonFits ⟨[1], ⟨1, fun _ _ => 0⟩, ⟨1, fun _ _ => 300⟩⟩ 1 :=
    ⟨rfl, rfl, rfl, by intro i hi; have : i = 0 := by omega
                       subst this; norm_num [el]⟩
  refine ⟨⟨[1], ⟨1, fun _ _ => 0⟩, ⟨1, fun _ _ => 300⟩⟩, 300, hf, ?_⟩
  rw [wilson_pure _ 300 [1] 0 (by simp) hf (by intro i hi; have : i = 0 := by simpa using hi
                                               subst this; norm_num [el]) (by norm_num)]
  norm_num

/-- A composition shorter than the model is refused; one that is longer reads out of bounds although the
code means to refuse it. -/
theorem wilson_sizes (w : Wilson) (T : ℝ) (x : List ℝ) (N : ℕ) (hw : WilsonFits w N) :
    (x.length < N → w.eval T x = .throws .invalidArgument) ∧ (N < x.length → w.eval T x = .ub) := by
  constructor
  · intro h
    have hc : w.combinatorial x = .throws .invalidArgument := by
      unfold Wilson.combinatorial
      rw [if_pos (by rw [hw.b]; omega)]
    unfold Wilson.eval
    have hnt : ∀ e, w.total T x ≠ .throws e := by
      intro e; unfold Wilson.total
      split <;> [skip; split <;> [skip; split]] <;> simp
    have hnu : w.total T x ≠ .ub := by
      unfold Wilson.total
      rw [if_neg (by rw [hw.b, hw.m, hw.n]; omega)]
      split <;> [skip; split] <;> simp
    cases ht : w.total T x with
    | ok t => simp only; rw [hc]; rfl
    | throws e => exact absurd ht (hnt e)
    | ub => exact absurd ht hnu
    | nonFinite => simp only; rw [hc]
  · intro h
    have : w.total T x = .ub := by
      unfold Wilson.total
      rw [if_pos (Or.inl (by rw [hw.b]; exact h))]
    unfold Wilson.eval
    rw [this]

example : wilsonWitness.eval 300 [1] = .throws .invalidArgument :=
  (wilson_sizes wilsonWitness 300 [1] 2 (wilsonWitness_fits 0 0)).1 (by simp)

/-- The binary model needs two components; it vanishes for either pure component, and relabelling the
components amounts to changing the coefficients to `c0, c1 + c2, -c2`. -/
theorem binaryInvariant_spec (c0 c1 c2 x0 x1 : ℝ) :
    binaryInvariant [c0, c1, c2] [x0, x1] = .ok (c0 * x0 * x1 * (c1 + c2 * x1)) ∧
    binaryInvariant [c0, c1, c2] [1, 0] = .ok 0 ∧ binaryInvariant [c0, c1, c2] [0, 1] = .ok 0 ∧
    (x0 + x1 = 1 → binaryInvariant [c0, c1 + c2, -c2] [x1, x0] = binaryInvariant [c0, c1, c2] [x0, x1]) := by
  refine ⟨rfl, by simp [binaryInvariant], by simp [binaryInvariant], fun h => ?_⟩
  simp only [binaryInvariant]
  congr 1
  have : x0 = 1 - x1 := by linarith
  subst this
  ring

/-- Any other number of components is refused, and every list of fewer than three coefficients is read out
of bounds. -/
theorem binaryInvariant_sizes (c x : List ℝ) :
    (x.length ≠ 2 → binaryInvariant c x = .throws .invalidArgument) ∧
    (x.length = 2 → c.length < 3 → binaryInvariant c x = .ub) := by
  constructor
  · intro h
    match x, h with
    | [], _ => rfl
    | [_], _ => rfl
    | _ :: _ :: _ :: _, _ => rfl
    | [_, _], h => simp at h
  · intro h hc
    match x, h with
    | [_, _], _ =>
      match c, hc with
      | [], _ => rfl
      | [_], _ => rfl
      | [_, _], _ => rfl

/-- The binary model is symmetric under exchange of the components with unchanged coefficients exactly if
`c0 c2 = 0`. -/
theorem binaryInvariant_symmetric_iff (c0 c1 c2 : ℝ) :
    (∀ x0 x1 : ℝ, x0 + x1 = 1 → binaryInvariant [c0, c1, c2] [x1, x0] = binaryInvariant [c0, c1, c2] [x0, x1]) ↔
      c0 * c2 = 0 := by
  constructor
  · intro h
    have := h (1/4) (3/4) (by norm_num)
    simp only [binaryInvariant, Outcome.ok.injEq] at this
    linarith
  · intro h x0 x1 _
    simp only [binaryInvariant]
    congr 1
    rcases mul_eq_zero.mp h with h | h
    · subst h; ring
    · subst h; ring

example : binaryInvariant [1, 2, 3] [1/4, 3/4] = .ok (51/64) := by
  rw [(binaryInvariant_spec 1 2 3 (1/4) (3/4)).1]; norm_num

/-- The factory builds the model named by the document's type with the document's coefficients, and
refuses any other name. -/
theorem aresFactory_ok (cosmo : JTree → Outcome (ℝ → List ℝ → Outcome ℝ)) (j : JTree) (a : ActivityModel)
    (h : aresFactory cosmo j = .ok a) :
    (∃ w : Wilson, a = .wilson w ∧ j.at "type" = .ok (.str "Wilson") ∧ (j.at "b").bind JTree.toRow = .ok w.b ∧
      (j.at "m").bind buildSquareMatrix = .ok w.m ∧ (j.at "n").bind buildSquareMatrix = .ok w.n) ∨
    (∃ c, a = .binaryInvariant c ∧ j.at "type" = .ok (.str "binaryInvariant") ∧ (j.at "c").bind JTree.toRow = .ok c) ∨
    (∃ f, a = .cosmosac f ∧ j.at "type" = .ok (.str "COSMO-SAC-2010") ∧ cosmo j = .ok f) := by
  unfold aresFactory at h
  obtain ⟨ty, h1, h⟩ := Outcome.bind_eq_ok.mp h
  obtain ⟨v, hv, hs⟩ := Outcome.bind_eq_ok.mp h1
  have hvs : v = .str ty := by
    cases v <;> simp [JTree.toStr] at hs
    rw [hs]
  subst hvs
  split at h
  · rename_i e
    subst e
    obtain ⟨b, hb, h⟩ := Outcome.bind_eq_ok.mp h
    obtain ⟨m, hm, h⟩ := Outcome.bind_eq_ok.mp h
    obtain ⟨n, hn, h⟩ := Outcome.bind_eq_ok.mp h
    cases h
    exact Or.inl ⟨_, rfl, hv, hb, hm, hn⟩
  split at h
  · rename_i e
    subst e
    obtain ⟨c, hc, h⟩ := Outcome.bind_eq_ok.mp h
    cases h
    exact Or.inr (Or.inl ⟨_, rfl, hv, hc⟩)
  split at h
  · rename_i e
    subst e
    obtain ⟨f, hf, h⟩ := Outcome.bind_eq_ok.mp h
    cases h
    exact Or.inr (Or.inr ⟨_, rfl, hv, hf⟩)
  · cases h

theorem aresFactory_refuses (cosmo : JTree → Outcome (ℝ → List ℝ → Outcome ℝ)) (j : JTree) (s : String)
    (h : j.at "type" = .ok (.str s)) (h1 : s ≠ "Wilson") (h2 : s ≠ "binaryInvariant") (h3 : s ≠ "COSMO-SAC-2010") :
    aresFactory cosmo j = .throws .invalidArgument := by
  unfold aresFactory
  rw [h]
  simp [JTree.toStr, h1, h2, h3]

example (cosmo : JTree → Outcome (ℝ → List ℝ → Outcome ℝ)) :
    aresFactory cosmo (.obj [("type", .str "NRTL")]) = .throws .invalidArgument :=
  aresFactory_refuses cosmo _ "NRTL" rfl (by decide) (by decide) (by decide)

end Teqp.Props
