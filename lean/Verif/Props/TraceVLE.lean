import Verif.Props.Envelope
import Verif.Props.MixSolver
import Verif.Model.TraceVLE
import Verif.Lemmas.Outcome

/-! # Tracing of binary phase envelopes (C41, C69) -/

set_option autoImplicit false

open Teqp.Calc Teqp.Model Teqp.Spec Teqp.Lemmas Teqp.MixVLE Teqp.Envelope Filter Topology

namespace Teqp.Props

/-! ## C41: the right-hand side of the tracing equations -/

/-- `X` is a multiple of the tangent `t`. -/
def IsMultiple {n : ℕ} (X t : Fin n → ℝ) : Prop := ∃ μ : ℝ, ∀ i, X i = μ * t i

theorem sqNorm_nonneg (v : Fin 2 → ℝ) : 0 ≤ sqNorm v := Finset.sum_nonneg fun _ _ => mul_self_nonneg _

/-- C41, isotherm. The right-hand side is a multiple of the tangent whatever `c` and the previous direction; it is never
reversed with respect to the previous direction of the liquid; for a non-zero tangent its length is `|c|`. -/
theorem isotherm_rhs_tangent (c : ℝ) (dL dV : Fin 2 → ℝ) (prev : Fin 4 → ℝ) :
    IsMultiple (xprimeIsotherm c dL dV prev) ![dL 0, dL 1, dV 0, dV 1] ∧
    0 ≤ xprimeIsotherm c dL dV prev 0 * prev 0 + xprimeIsotherm c dL dV prev 1 * prev 1 ∧
    ((∃ i, (![dL 0, dL 1, dV 0, dV 1] : Fin 4 → ℝ) i ≠ 0) → ∑ i, xprimeIsotherm c dL dV prev i ^ 2 = c ^ 2) := by
  set q := 1 / Real.sqrt (sqNorm dL + sqNorm dV) with hq
  have hn : (∃ i, (![dL 0, dL 1, dV 0, dV 1] : Fin 4 → ℝ) i ≠ 0) → q ^ 2 * (sqNorm dL + sqNorm dV) = 1 := by
    intro h
    have hpos : 0 < sqNorm dL + sqNorm dV := by
      obtain ⟨i, hi⟩ := h
      have a := mul_self_nonneg (dL 0)
      have b := mul_self_nonneg (dL 1)
      have c := mul_self_nonneg (dV 0)
      have d := mul_self_nonneg (dV 1)
      simp only [sqNorm, Fin.sum_univ_two]
      fin_cases i <;> simp at hi <;> have := mul_self_pos.mpr hi <;> linarith
    rw [hq, div_pow, Real.sq_sqrt hpos.le]
    field_simp
  have hs : sqNorm dL + sqNorm dV = dL 0 ^ 2 + dL 1 ^ 2 + dV 0 ^ 2 + dV 1 ^ 2 := by
    simp only [sqNorm, Fin.sum_univ_two]; ring
  unfold xprimeIsotherm
  rw [← hq]
  dsimp only
  split_ifs with hf
  · refine ⟨⟨-(c * q), fun i => ?_⟩, ?_, fun h => ?_⟩
    · fin_cases i <;> simp <;> ring
    · linarith
    · have := hn h
      rw [hs] at this
      simp [Fin.sum_univ_four]
      linear_combination c ^ 2 * this
  · refine ⟨⟨c * q, fun i => ?_⟩, ?_, fun h => ?_⟩
    · fin_cases i <;> simp <;> ring
    · linarith
    · have := hn h
      rw [hs] at this
      simp [Fin.sum_univ_four]
      linear_combination c ^ 2 * this

/-- C41, isotherm, at the entry point: along every curve of coexisting states on which the pressure changes, the
right-hand side handed to the integrator is a multiple of the velocity of the curve. -/
theorem isotherm_rhs_follows_envelope {m : EOS (Fin 2)} {R s T : ℝ} {γ δ : ℝ → Fin 2 → ℝ} {v w : Fin 2 → ℝ}
    {lin : Solver 2} {solve : Matrix (Fin 4) (Fin 4) ℝ → (Fin 4 → ℝ) → Option (Fin 4 → ℝ)}
    {crit : ℝ → (Fin 2 → ℝ) → ℝ}
    {adaptive : ((Fin 4 → ℝ) → Option (Fin 4 → ℝ)) → (Fin 4 → ℝ) → ℝ → ℝ → StepRes 4} {opt : TraceOpts} {c : ℝ}
    (h : EqCurve m.alphar R (fun _ => T) γ δ s 0 v w) (hR : ∀ x, m.R x = R)
    (hreg : RegularPair m T (γ s) (δ s)) (hs : SolvesRegular lin)
    (hp : ¬HasDerivAt (fun u => mixP m.alphar R T (γ u)) 0 s) (prev : Fin 4 → ℝ) :
    ∃ X, (isothermSys m lin solve crit adaptive opt T c).xprime prev ![γ s 0, γ s 1, δ s 0, δ s 1] = some X ∧
      IsMultiple X ![v 0, v 1, w 0, w 1] := by
  obtain ⟨dL, dV, p', hok, hpd, hv, hw⟩ := dp_tsat_is_slope h hR hreg hs
  have hp0 : p' ≠ 0 := by rintro rfl; exact hp hpd
  have e1 : liq ![γ s 0, γ s 1, δ s 0, δ s 1] = γ s := by funext i; fin_cases i <;> rfl
  have e2 : vap ![γ s 0, γ s 1, δ s 0, δ s 1] = δ s := by funext i; fin_cases i <;> rfl
  have hd : drhodpTsatVec m lin T (γ s) (δ s) = (dL, dV) := by
    unfold drhodpTsat at hok
    rw [if_pos (by simp), if_neg (by norm_num), getD_ofFn, getD_ofFn] at hok
    split_ifs at hok
    simpa using hok
  refine ⟨_, rfl, ?_⟩
  rw [e1, e2, hd]
  obtain ⟨μ, hμ⟩ := (isotherm_rhs_tangent c dL dV prev).1
  refine ⟨μ / p', fun i => ?_⟩
  rw [hμ]
  fin_cases i <;> simp [hv, hw] <;> field_simp

/-- C41, isobar, the part that holds: with `c = 1` and no reversal the right-hand side is a multiple of the tangent
`(1, dL, dV)`.  Missing: every other case, see `isobar_reverse_not_tangent` and `isobar_flip_not_tangent`. -/
theorem isobar_rhs_tangent_partial (dL dV : Fin 2 → ℝ) (prev : Fin 5 → ℝ)
    (hf : ¬(1 / Real.sqrt (sqNorm dL + sqNorm dV) * prev 0 +
      dL 0 * (1 / Real.sqrt (sqNorm dL + sqNorm dV)) * prev 1 < 0)) :
    IsMultiple (xprimeIsobar 1 dL dV prev) ![1, dL 0, dL 1, dV 0, dV 1] := by
  refine ⟨1 / Real.sqrt (sqNorm dL + sqNorm dV), fun i => ?_⟩
  unfold xprimeIsobar
  rw [if_neg (by simpa using hf)]
  fin_cases i <;> simp <;> ring

/-- C41, isobar, negative result. With the reversed direction `c = -1`, which the routine selects when the first step
would make an entry negative, the right-hand side is not a multiple of the tangent unless the liquid does not change:
the temperature is not reversed with the concentrations. -/
theorem isobar_reverse_not_tangent (dL dV : Fin 2 → ℝ) (prev : Fin 5 → ℝ) (hL : dL 0 ≠ 0) :
    ¬IsMultiple (xprimeIsobar (-1) dL dV prev) ![1, dL 0, dL 1, dV 0, dV 1] := by
  rintro ⟨μ, h⟩
  have hpos : 0 < sqNorm dL + sqNorm dV := by
    have h0 := mul_self_pos.mpr hL
    have h1 := mul_self_nonneg (dL 1)
    have h2 := sqNorm_nonneg dV
    have : sqNorm dL = dL 0 * dL 0 + dL 1 * dL 1 := by simp [sqNorm]
    linarith
  have hq : 0 < 1 / Real.sqrt (sqNorm dL + sqNorm dV) := by
    have := Real.sqrt_pos.mpr hpos
    positivity
  rw [one_div] at hq
  have h0 := h 0
  have h1 := h 1
  unfold xprimeIsobar at h0 h1
  split_ifs at h0 h1 with hf
  · simp at h0 h1
    rw [← h0] at h1
    have : dL 0 * (Real.sqrt (sqNorm dL + sqNorm dV))⁻¹ = 0 := by linarith
    rcases mul_eq_zero.mp this with h | h
    · exact hL h
    · exact hq.ne' h
  · simp at h0 h1
    rw [← h0] at h1
    have : dL 0 * (Real.sqrt (sqNorm dL + sqNorm dV))⁻¹ = 0 := by linarith
    rcases mul_eq_zero.mp this with h | h
    · exact hL h
    · exact hq.ne' h

/-- C41, isobar, negative result. When the direction is reversed to follow the previous step, the last vapor
concentration keeps its old direction, so the right-hand side leaves the tangent. -/
theorem isobar_flip_not_tangent (dL dV : Fin 2 → ℝ) (prev : Fin 5 → ℝ) (hV : dV 1 ≠ 0)
    (hf : 1 / Real.sqrt (sqNorm dL + sqNorm dV) * prev 0 +
      dL 0 * (1 / Real.sqrt (sqNorm dL + sqNorm dV)) * prev 1 < 0) :
    ¬IsMultiple (xprimeIsobar 1 dL dV prev) ![1, dL 0, dL 1, dV 0, dV 1] := by
  rintro ⟨μ, h⟩
  have hpos : 0 < sqNorm dL + sqNorm dV := by
    have h0 := mul_self_pos.mpr hV
    have h1 := mul_self_nonneg (dV 0)
    have h2 := sqNorm_nonneg dL
    have : sqNorm dV = dV 0 * dV 0 + dV 1 * dV 1 := by simp [sqNorm]
    linarith
  have hq : 0 < 1 / Real.sqrt (sqNorm dL + sqNorm dV) := by
    have := Real.sqrt_pos.mpr hpos
    positivity
  have h0 := h 0
  have h4 := h 4
  unfold xprimeIsobar at h0 h4
  rw [if_pos (by simpa using hf)] at h0 h4
  set q := 1 / Real.sqrt (sqNorm dL + sqNorm dV)
  simp at h0 h4
  rw [← h0] at h4
  have : dV 1 * q = 0 := by linarith
  rcases mul_eq_zero.mp this with h | h
  · exact hV h
  · exact hq.ne' h

/-- The reversal of `isobar_flip_not_tangent` and the direction of `isobar_reverse_not_tangent` occur. -/
example : (1 / Real.sqrt (sqNorm ![2, 0] + sqNorm ![0, 1]) * (-1 : ℝ) +
      (2 : ℝ) * (1 / Real.sqrt (sqNorm ![2, 0] + sqNorm ![0, 1])) * 0 < 0) ∧
    initialC 1 1 (![300, 1, 1, 1, 1] : Fin 5 → ℝ) ![1, -2, 0, 0, 0] = -1 := by
  constructor
  · have : 0 < Real.sqrt (sqNorm ![2, 0] + sqNorm ![0, 1]) := by
      apply Real.sqrt_pos.mpr
      simp [sqNorm]
      norm_num
    simp only [mul_zero, add_zero, mul_neg, mul_one]
    have := one_div_pos.mpr this
    linarith
  · unfold initialC
    rw [if_pos ⟨1, by simp⟩]
    norm_num

/-! ## C69: the tracing loop -/

section Loop
variable {n : ℕ} (sys : TraceSys n) (opt : TraceOpts)

/-- The stepped state `z` is stored as `b`. -/
def Kept (z b : Fin n → ℝ) : Prop :=
  (opt.polish = false ∧ b = z) ∨
  (opt.polish = true ∧ sys.polishing z = .refused ∧ opt.polishExceptionOnFail = false ∧ b = z) ∨
  (opt.polish = true ∧ sys.polishing z = .accepted b)

/-- `b` is stored after `a`: an accepted integration step leads from `a` to a state at which no stop is requested, and
that state is stored, polished or not. -/
def NextPoint (a b : Fin n → ℝ) : Prop :=
  ∃ s : TraceState n, s.x = a ∧ ∃ z t dt, envelopeStep sys opt s = some (.accepted z t dt) ∧ ¬sys.stop z ∧ Kept sys opt z b

theorem finishStep_ok {s s' : TraceState n} (h : finishStep sys opt s = .ok s') :
    ∃ b, Kept sys opt s.x b ∧ s'.x = b ∧ s'.points = b :: s.points := by
  unfold finishStep at h
  by_cases hp : opt.polish = true
  · rw [if_pos hp] at h
    cases hq : sys.polishing s.x with
    | threw e => simp [hq] at h
    | stuck o => cases o <;> simp [hq] at h
    | refused =>
      rw [hq] at h
      by_cases he : opt.polishExceptionOnFail = true
      · simp [he] at h
      · simp only [if_neg he, Outcome.ok.injEq] at h
        subst h
        exact ⟨s.x, .inr (.inl ⟨hp, hq, by simpa using he, rfl⟩), rfl, rfl⟩
    | accepted x =>
      simp only [hq, Outcome.ok.injEq] at h
      subst h
      exact ⟨x, .inr (.inr ⟨hp, hq⟩), rfl, rfl⟩
  · rw [if_neg hp, Outcome.ok.injEq] at h
    subst h
    exact ⟨s.x, .inl ⟨by simpa using hp, rfl⟩, rfl, rfl⟩

theorem finishStep_throws {s : TraceState n} {e : Err} (h : finishStep sys opt s = .throws e) :
    (e = .iterationFailure ∧ opt.polishExceptionOnFail = true) ∨ sys.polishing s.x = .threw e := by
  unfold finishStep at h
  by_cases hp : opt.polish = true
  · rw [if_pos hp] at h
    cases hq : sys.polishing s.x with
    | threw e' => simp [hq] at h; subst h; exact .inr rfl
    | stuck o => cases o <;> simp [hq] at h
    | refused =>
      rw [hq] at h
      by_cases he : opt.polishExceptionOnFail = true
      · simp only [if_pos he, Outcome.throws.injEq] at h
        exact .inl ⟨h.symm, he⟩
      · simp [he] at h
    | accepted x => simp [hq] at h
  · rw [if_neg hp] at h
    simp at h

/-- What a finished loop has added: at most `left` points, each following from its predecessor. -/
theorem envelopeLoop_chain (gas left : ℕ) (s s' : TraceState n) (hx : s.points.head? = some s.x)
    (h : envelopeLoop sys opt gas left false s = some (.ok s')) :
    ∃ new, s'.points = new ++ s.points ∧ new.length ≤ left ∧
      (new ++ [s.x]).IsChain (fun b a => NextPoint sys opt a b) := by
  induction gas generalizing left s with
  | zero => simp [envelopeLoop] at h
  | succ g ih =>
    cases left with
    | zero =>
      simp only [envelopeLoop, Option.some.injEq, Outcome.ok.injEq] at h
      subst h
      exact ⟨[], rfl, le_refl _, by simp⟩
    | succ l =>
      simp only [envelopeLoop] at h
      generalize hs1 : (if false = true then storePoint sys s else s) = s1 at h
      rw [if_neg (by simp)] at hs1
      subst hs1
      cases ht : envelopeStep sys opt s with
      | none => simp [ht] at h
      | some r =>
        by_cases hfin : sys.finite s.x
        swap
        · simp [ht, hfin] at h
        cases r with
        | threw =>
          simp only [ht, hfin, if_true, Option.some.injEq, Outcome.ok.injEq] at h
          subst h
          exact ⟨[], rfl, by simp, by simp⟩
        | rejected dt =>
          simp only [ht, hfin, if_true] at h
          exact ih (l + 1) { s with dt := dt } hx h
        | accepted z t dt =>
          simp only [ht, hfin, if_true] at h
          split_ifs at h with hst
          · simp only [Option.some.injEq, Outcome.ok.injEq] at h
            subst h
            exact ⟨[], rfl, by simp, by simp⟩
          · cases hf : finishStep sys opt { s with x := z, t := t, dt := dt } with
            | throws e => simp [hf] at h
            | ub => simp [hf] at h
            | nonFinite => simp [hf] at h
            | ok s2 =>
              simp only [hf] at h
              obtain ⟨b, hk, hb, hp⟩ := finishStep_ok sys opt hf
              obtain ⟨new, h1, h2, h3⟩ := ih l s2 (by rw [hp, hb]; rfl) h
              refine ⟨new ++ [b], by rw [h1, hp]; simp, by simp; omega, ?_⟩
              rw [hb] at h3
              rw [List.append_assoc]
              rw [List.isChain_append] at h3 ⊢
              refine ⟨h3.1, ?_, ?_⟩
              · simp only [List.singleton_append, List.isChain_cons_cons, List.isChain_singleton, and_true]
                exact ⟨s, rfl, z, t, dt, ht, hst, hk⟩
              · intro x hx' y hy
                simp at hy
                subst hy
                exact h3.2.2 x hx' _ (by simp)

theorem envelopeLoop_throws (gas left : ℕ) (first : Bool) (s : TraceState n) (e : Err)
    (h : envelopeLoop sys opt gas left first s = some (.throws e)) :
    (e = .invalidArgument ∧ opt.integrationOrder ≠ 5 ∧ opt.integrationOrder ≠ 1) ∨
    (e = .iterationFailure ∧ opt.polishExceptionOnFail = true) ∨ ∃ z, sys.polishing z = .threw e := by
  induction gas generalizing left s first with
  | zero => simp [envelopeLoop] at h
  | succ g ih =>
    cases left with
    | zero => simp [envelopeLoop] at h
    | succ l =>
      simp only [envelopeLoop] at h
      set s1 := if first = true then storePoint sys s else s with hs1
      cases ht : envelopeStep sys opt s1 with
      | none =>
        simp only [ht, Option.some.injEq, Outcome.throws.injEq] at h
        unfold envelopeStep at ht
        split_ifs at ht with h5 h1
        exact .inl ⟨h.symm, h5, h1⟩
      | some r =>
        by_cases hfin : sys.finite s1.x
        swap
        · simp [ht, hfin] at h
        cases r with
        | threw => simp [ht, hfin] at h
        | rejected dt =>
          simp only [ht, hfin, if_true] at h
          exact ih (l + 1) false _ h
        | accepted z t dt =>
          simp only [ht, hfin, if_true] at h
          by_cases hst : sys.stop z
          · simp [hst] at h
          rw [if_neg hst] at h
          cases hf : finishStep sys opt { s1 with x := z, t := t, dt := dt } with
          | throws e' =>
            simp only [hf, Option.some.injEq, Outcome.throws.injEq] at h
            subst h
            rcases finishStep_throws sys opt hf with h | h
            · exact .inr (.inl h)
            · exact .inr (.inr ⟨z, h⟩)
          | ub => simp [hf] at h
          | nonFinite => simp [hf] at h
          | ok s2 =>
            simp only [hf] at h
            exact ih l false s2 h

/-- From the beginning. -/
theorem envelopeLoop_points (gas left : ℕ) (s s' : TraceState n) (hs : s.points = [])
    (h : envelopeLoop sys opt gas left true s = some (.ok s')) :
    (left = 0 ∧ s'.points = []) ∨
    ∃ new, s'.points = new ++ [s.x] ∧ new.length ≤ left ∧
      (new ++ [s.x]).IsChain (fun b a => NextPoint sys opt a b) := by
  cases gas with
  | zero => simp [envelopeLoop] at h
  | succ g =>
    cases left with
    | zero =>
      simp only [envelopeLoop, Option.some.injEq, Outcome.ok.injEq] at h
      subst h
      exact .inl ⟨rfl, hs⟩
    | succ l =>
      right
      have h2 : envelopeLoop sys opt (g + 1) (l + 1) false (storePoint sys s) = some (.ok s') := by
        simp only [envelopeLoop, if_true] at h
        simp only [envelopeLoop, Bool.false_eq_true, if_false]
        exact h
      obtain ⟨new, h3, h4, h5⟩ := envelopeLoop_chain sys opt _ _ _ _ rfl h2
      refine ⟨new, ?_, h4, h5⟩
      rw [h3]
      simp [storePoint, hs]

end Loop

/-- Mole fractions within `[0, 1]`. -/
def InSimplex (ρ : Fin 2 → ℝ) : Prop := ∀ i, 0 ≤ ρ i / (ρ 0 + ρ 1) ∧ ρ i / (ρ 0 + ρ 1) ≤ 1

theorem molefrac_two (ρ : Fin 2 → ℝ) (i : Fin 2) : molefrac ρ i = ρ i / (ρ 0 + ρ 1) := by
  simp [molefrac, rhotot]

theorem not_stopIsotherm {m : EOS (Fin 2)} {crit : ℝ → (Fin 2 → ℝ) → ℝ} {opt : TraceOpts} {T : ℝ} {x : Fin 4 → ℝ}
    (h : ¬stopIsotherm m crit opt T x) :
    InSimplex ![x 0, x 1] ∧ InSimplex ![x 2, x 3] ∧ ptot m T ![x 0, x 1] ≤ opt.pTermination ∧
      (opt.calcCriticality = true → opt.critTermination ≤ crit T ![x 0, x 1] ∧
        opt.critTermination ≤ crit T ![x 2, x 3]) := by
  unfold stopIsotherm at h
  push Not at h
  obtain ⟨h1, h2, h3, h4, h5, h6⟩ := h
  have e1 : liq x = ![x 0, x 1] := rfl
  have e2 : vap x = ![x 2, x 3] := rfl
  rw [e1] at h1 h2 h3 h4
  rw [e2] at h1 h5 h6
  simp only [molefrac_two] at h3 h4 h5 h6
  exact ⟨fun i => ⟨h3 i, h4 i⟩, fun i => ⟨h5 i, h6 i⟩, h2, h1⟩

theorem list_two_of_txOk {m : EOS (Fin 2)} {solve : Matrix (Fin 4) (Fin 4) ℝ → (Fin 4 → ℝ) → Option (Fin 4 → ℝ)}
    {T l0 l1 v0 v1 z0 z1 : ℝ} {tol : VLETol} {k : ℤ} {c : VLECode} {L V : List ℝ}
    (h : mixVLETx m solve T [l0, l1] [v0, v1] [z0, z1] tol k = .ok (c, L, V)) :
    ∃ a b d e, L = [a, b] ∧ V = [d, e] := by
  unfold mixVLETx at h
  simp only [List.length_cons, List.length_nil, and_self, if_true] at h
  obtain ⟨r, _, h2⟩ := Outcome.bind_eq_ok.mp h
  simp only [Outcome.ok.injEq, Prod.mk.injEq] at h2
  exact ⟨_, _, _, _, h2.2.1.symm, h2.2.2.symm⟩

theorem chain_mem {α : Type} {P : α → α → Prop} {new : List α} {x b : α} (h : (new ++ [x]).IsChain P) (hb : b ∈ new) :
    ∃ a, P b a := by
  obtain ⟨l1', l2', rfl⟩ := List.append_of_mem hb
  rw [List.append_assoc, List.isChain_append] at h
  have h4 := h.2.1
  cases l2' with
  | nil =>
    simp only [List.cons_append, List.nil_append, List.isChain_cons_cons] at h4
    exact ⟨_, h4.1⟩
  | cons a t =>
    simp only [List.cons_append, List.isChain_cons_cons] at h4
    exact ⟨_, h4.1⟩

theorem limitStep_never_throws {n : ℕ} {x dx : Fin n → ℝ} {e : Err} (h : limitStep x dx = .throws e) : False := by
  unfold limitStep at h
  split_ifs at h
  · cases hm : (stepRatios x dx).min? <;> simp [hm] at h
  
theorem txLoop_never_throws {resid : (Fin 4 → ℝ) → Fin 4 → ℝ} {jac : (Fin 4 → ℝ) → Matrix (Fin 4) (Fin 4) ℝ}
    {solve : Matrix (Fin 4) (Fin 4) ℝ → (Fin 4 → ℝ) → Option (Fin 4 → ℝ)} {tol : VLETol} {z : Fin 2 → ℝ} {e : Err} (n : ℕ)
    (x : Fin 4 → ℝ) (h : txLoop resid jac solve tol z n x = .throws e) : False := by
  induction n generalizing x with
  | zero => simp [txLoop] at h
  | succ k ih =>
    simp only [txLoop] at h
    by_cases hb : bothPhases x
    · rw [if_pos hb] at h
      cases hs : solve (jac x) (fun i => -resid x i) with
      | none => simp [hs] at h
      | some dx0 =>
        simp only [hs] at h
        cases hl : limitStep x dx0 with
        | ok d =>
          simp only [hl, Outcome.bind_ok] at h
          cases ht : vleTests tol (fun i => x i + zeroStep z d i) (zeroStep z d) (resid x) with
          | some c => simp [ht] at h
          | none =>
            simp only [ht] at h
            by_cases hk : k = 0
            · simp [hk] at h
            · rw [if_neg hk] at h
              exact ih _ h
        | throws e => exact limitStep_never_throws hl
        | ub => simp [hl] at h
        | nonFinite => simp [hl] at h
    · simp [hb] at h

theorem tx_two_never_throws {m : EOS (Fin 2)} {solve : Matrix (Fin 4) (Fin 4) ℝ → (Fin 4 → ℝ) → Option (Fin 4 → ℝ)}
    {T l0 l1 v0 v1 z0 z1 : ℝ} {tol : VLETol} {k : ℤ} {e : Err}
    (h : mixVLETx m solve T [l0, l1] [v0, v1] [z0, z1] tol k = .throws e) : False := by
  unfold mixVLETx at h
  simp only [List.length_cons, List.length_nil, and_self, if_true] at h
  cases hl : txLoop (txResid m T ![z0, z1]) (txJac m T ![z0, z1]) solve tol ![z0, z1] k.toNat ![l0, l1, v0, v1] with
  | ok r => simp [hl] at h
  | throws e => exact txLoop_never_throws _ _ hl
  | ub => simp [hl] at h
  | nonFinite => simp [hl] at h

/-- C69. The points of a traced isotherm. The first is the starting state; there are at most `max_steps` more.  Every
later point comes from a stepped state `z` with mole fractions within `[0, 1]` and a pressure within the limit, and is
either `z` itself or what `mix_VLE_Tx` returned for it at the composition of its liquid, with each liquid concentration
within the relative tolerance of that of `z`. -/
theorem isotherm_points {m : EOS (Fin 2)} {lin : Solver 2}
    {solve : Matrix (Fin 4) (Fin 4) ℝ → (Fin 4 → ℝ) → Option (Fin 4 → ℝ)} {crit : ℝ → (Fin 2 → ℝ) → ℝ}
    {adaptive : ((Fin 4 → ℝ) → Option (Fin 4 → ℝ)) → (Fin 4 → ℝ) → ℝ → ℝ → StepRes 4} {opt : TraceOpts} {gas : ℕ}
    {T l0 l1 v0 v1 : ℝ} {pts : List (Fin 4 → ℝ)} (hm : 0 < opt.maxSteps)
    (h : traceIsotherm m lin solve crit adaptive opt gas T [l0, l1] [v0, v1] = some (.ok pts)) :
    ∃ rest, pts = ![l0, l1, v0, v1] :: rest ∧ (rest.length : ℤ) ≤ opt.maxSteps ∧
      ∀ b ∈ rest, ∃ z : Fin 4 → ℝ, InSimplex ![z 0, z 1] ∧ InSimplex ![z 2, z 3] ∧
        ptot m T ![z 0, z 1] ≤ opt.pTermination ∧
        (b = z ∨ (opt.polish = true ∧ |z 0 - b 0| ≤ opt.polishReltolRho * z 0 ∧
          |z 1 - b 1| ≤ opt.polishReltolRho * z 1 ∧
          ∃ c, mixVLETx m solve T [z 0, z 1] [z 2, z 3] [z 0 / (z 0 + z 1), z 1 / (z 0 + z 1)]
            ⟨1e-10, 1e-8, 1e-10, 1e-8⟩ 10 = .ok (c, [b 0, b 1], [b 2, b 3]))) := by
  unfold traceIsotherm at h
  simp only [List.length_cons, List.length_nil, ne_eq, not_true_eq_false, if_false, Option.map_eq_some_iff] at h
  obtain ⟨r, hr, hb⟩ := h
  obtain ⟨s, rfl, hb2⟩ := Outcome.bind_eq_ok.mp hb
  by_cases hrev : opt.revision = 1 ∨ opt.revision = 2
  swap
  · simp [hrev] at hb2
  rw [if_pos hrev, Outcome.ok.injEq] at hb2
  subst hb2
  rcases envelopeLoop_points _ _ _ _ _ _ rfl hr with ⟨h0, _⟩ | ⟨new, h1, h2, h3⟩
  · omega
  refine ⟨new.reverse, by rw [h1]; simp, by rw [List.length_reverse]; omega, fun b hbm => ?_⟩
  rw [List.mem_reverse] at hbm
  obtain ⟨a, sa, -, z, t, dt, -, hst, hk⟩ := chain_mem h3 hbm
  obtain ⟨g1, g2, g3, -⟩ := not_stopIsotherm hst
  refine ⟨z, g1, g2, g3, ?_⟩
  rcases hk with ⟨_, hbz⟩ | ⟨_, _, _, hbz⟩ | ⟨hp, hacc⟩
  · exact .inl hbz
  · exact .inl hbz
  · right
    simp only [isothermSys, polishIsotherm] at hacc
    cases ht : mixVLETx m solve T [z 0, z 1] [z 2, z 3] [z 0 / (z 0 + z 1), z 1 / (z 0 + z 1)]
            ⟨1e-10, 1e-8, 1e-10, 1e-8⟩ 10 with
    | throws e => simp [ht] at hacc
    | ub => simp [ht] at hacc
    | nonFinite => simp [ht] at hacc
    | ok r =>
      obtain ⟨c, L, V⟩ := r
      obtain ⟨p, q, p', q', rfl, rfl⟩ := list_two_of_txOk ht
      simp only [ht] at hacc
      by_cases hcl : |z 0 - ([p, q] : List ℝ)[0]?.getD 0| > opt.polishReltolRho * z 0 ∨
          |z 1 - ([p, q] : List ℝ)[1]?.getD 0| > opt.polishReltolRho * z 1
      · rw [if_pos hcl] at hacc
        simp at hacc
      rw [if_neg hcl, PolishRes.accepted.injEq] at hacc
      push Not at hcl
      subst hacc
      simp at hcl
      exact ⟨hp, hcl.1, hcl.2, c, by simp⟩

/-- C69. An isotherm trace fails only with an invalid-argument error for vectors of length other than two, an unknown
integration order or an unknown revision, or with an iteration failure when the options ask for it. -/
theorem isotherm_throws {m : EOS (Fin 2)} {lin : Solver 2}
    {solve : Matrix (Fin 4) (Fin 4) ℝ → (Fin 4 → ℝ) → Option (Fin 4 → ℝ)} {crit : ℝ → (Fin 2 → ℝ) → ℝ}
    {adaptive : ((Fin 4 → ℝ) → Option (Fin 4 → ℝ)) → (Fin 4 → ℝ) → ℝ → ℝ → StepRes 4} {opt : TraceOpts} {gas : ℕ}
    {T : ℝ} {L0 V0 : List ℝ} {e : Err} (h : traceIsotherm m lin solve crit adaptive opt gas T L0 V0 = some (.throws e)) :
    (e = .invalidArgument ∧ (L0.length ≠ 2 ∨ V0.length ≠ 2 ∨ (opt.integrationOrder ≠ 5 ∧ opt.integrationOrder ≠ 1) ∨
      (opt.revision ≠ 1 ∧ opt.revision ≠ 2))) ∨ (e = .iterationFailure ∧ opt.polishExceptionOnFail = true) := by
  unfold traceIsotherm at h
  by_cases h1 : L0.length = 2
  swap
  · simp only [ne_eq, h1, not_false_eq_true, if_true, Option.some.injEq, Outcome.throws.injEq] at h
    exact .inl ⟨h.symm, .inl h1⟩
  by_cases h2 : V0.length = 2
  swap
  · have : ¬(2 = V0.length) := fun h => h2 h.symm
    simp only [ne_eq, h1, not_true_eq_false, if_false, this, not_false_eq_true, if_true, Option.some.injEq,
      Outcome.throws.injEq] at h
    exact .inl ⟨h.symm, .inr (.inl h2)⟩
  obtain ⟨l0, l1, rfl⟩ := List.length_eq_two.mp h1
  obtain ⟨v0, v1, rfl⟩ := List.length_eq_two.mp h2
  simp only [List.length_cons, List.length_nil, ne_eq, not_true_eq_false, if_false, Option.map_eq_some_iff] at h
  obtain ⟨r, hr, hb⟩ := h
  cases r with
  | ub => simp at hb
  | nonFinite => simp at hb
  | ok s =>
    simp only [Outcome.bind_ok] at hb
    by_cases hrev : opt.revision = 1 ∨ opt.revision = 2
    · simp [hrev] at hb
    · simp only [if_neg hrev, Outcome.throws.injEq] at hb
      push Not at hrev
      exact .inl ⟨hb.symm, .inr (.inr (.inr hrev))⟩
  | throws e' =>
    simp only [Outcome.bind_throws, Outcome.throws.injEq] at hb
    subst hb
    rcases envelopeLoop_throws _ _ _ _ _ _ _ hr with ⟨h, h5⟩ | h | ⟨z, hz⟩
    · exact .inl ⟨h, .inr (.inr (.inl h5))⟩
    · exact .inr h
    · exfalso
      simp only [isothermSys, polishIsotherm] at hz
      cases ht : mixVLETx m solve T [z 0, z 1] [z 2, z 3] [z 0 / (z 0 + z 1), z 1 / (z 0 + z 1)]
            ⟨1e-10, 1e-8, 1e-10, 1e-8⟩ 10 with
      | throws e => exact tx_two_never_throws ht
      | ub => simp [ht] at hz
      | nonFinite => simp [ht] at hz
      | ok r =>
        simp only [ht] at hz
        split_ifs at hz

/-- The refusals of `isotherm_throws` occur: bad lengths are always refused. -/
theorem isotherm_refuses_lengths (m : EOS (Fin 2)) (lin : Solver 2)
    (solve : Matrix (Fin 4) (Fin 4) ℝ → (Fin 4 → ℝ) → Option (Fin 4 → ℝ)) (crit : ℝ → (Fin 2 → ℝ) → ℝ)
    (adaptive : ((Fin 4 → ℝ) → Option (Fin 4 → ℝ)) → (Fin 4 → ℝ) → ℝ → ℝ → StepRes 4) (opt : TraceOpts) (gas : ℕ)
    (T : ℝ) {L0 V0 : List ℝ} (h : ¬(L0.length = 2 ∧ V0.length = 2)) :
    traceIsotherm m lin solve crit adaptive opt gas T L0 V0 = some (.throws .invalidArgument) := by
  unfold traceIsotherm
  by_cases h1 : L0.length = 2
  · have h2 : ¬(2 = V0.length) := fun h2 => h ⟨h1, h2.symm⟩
    simp only [ne_eq, h1, not_true_eq_false, if_false, h2, not_false_eq_true, if_true]
  · simp only [ne_eq, h1, not_false_eq_true, if_true]

/-- Options of the examples. -/
noncomputable def exampleOpts : TraceOpts := ⟨1, 10, 1, 1, 5, 1, true, false, 1 / 10, false, 0, 100⟩

/-- A trace with one accepted step, of the ideal gas with a stepper that doubles the state.  The solver called for
polishing fails in its first linear solve; its return code is not looked at and the state is stored. -/
example : traceIsotherm idealMix (fun _ _ => 1) (fun _ _ => none) (fun _ _ => 0)
    (fun _ x t dt => .accepted (fun i => 2 * x i) (t + dt) dt) exampleOpts 2 1 [1, 1] [1, 1] =
      some (.ok [![1, 1, 1, 1], ![2, 2, 2, 2]]) := by
  have e : (fun i => 2 * (![1, 1, 1, 1] : Fin 4 → ℝ) i) = ![2, 2, 2, 2] := by
    funext i; fin_cases i <;> simp
  have hst : ∀ c, ¬(isothermSys idealMix (fun _ _ => 1) (fun _ _ => none) (fun _ _ => 0)
      (fun _ x t dt => .accepted (fun i => 2 * x i) (t + dt) dt) exampleOpts 1 c).stop ![2, 2, 2, 2] := by
    intro c
    simp only [isothermSys, stopIsotherm, ptot, pr, exampleOpts]
    have e1 : liq ![2, 2, 2, 2] = ![2, 2] := rfl
    have e2 : vap ![2, 2, 2, 2] = ![2, 2] := rfl
    rw [e1, e2]
    simp [molefrac_two, rhotot, idealMix]
    norm_num
  have hpol : ∀ c, (isothermSys idealMix (fun _ _ => 1) (fun _ _ => none) (fun _ _ => 0)
      (fun _ x t dt => .accepted (fun i => 2 * x i) (t + dt) dt) exampleOpts 1 c).polishing ![2, 2, 2, 2] =
        .accepted ![2, 2, 2, 2] := by
    intro c
    have hx : mixVLETx idealMix (fun _ _ => none) 1 [(2 : ℝ), 2] [2, 2] [2 / (2 + 2), 2 / (2 + 2)]
        ⟨1e-10, 1e-8, 1e-10, 1e-8⟩ 10 = .ok (.notfiniteStep, [2, 2], [2, 2]) := by
      unfold mixVLETx
      simp only [List.length_cons, List.length_nil, and_self, if_true]
      have : (10 : ℤ).toNat = 9 + 1 := rfl
      rw [this]
      unfold txLoop
      rw [if_pos (by constructor <;> simp [rhotot, liq, vap])]
      simp
    simp only [isothermSys, polishIsotherm]
    simp [hx, exampleOpts]
  unfold traceIsotherm
  simp only [List.length_cons, List.length_nil, ne_eq, not_true_eq_false, if_false]
  have : exampleOpts.maxSteps.toNat = 1 := rfl
  rw [this]
  generalize initialC exampleOpts.initC _ _ _ = c
  have hpol' := hpol c
  have hst' := hst c
  set sys := isothermSys idealMix (fun _ _ => 1) (fun _ _ => none) (fun _ _ => 0)
    (fun _ x t dt => .accepted (fun i => 2 * x i) (t + dt) dt) exampleOpts 1 c with hsys
  have hstep : ∀ s : TraceState 4, envelopeStep sys exampleOpts s =
      some (.accepted (fun i => 2 * s.x i) (s.t + s.dt) (min s.dt 10)) := fun s => rfl
  have hfin : sys.finite ![1, 1, 1, 1] := by
    refine ⟨⟨?_, ?_, ?_⟩, ?_⟩
    · simp [rhotot, liq]
    · simp [rhotot, vap]
    · simp [liq, vap]
    · unfold drhodpTsatVec
      split_ifs <;> simp [sqNorm]
  rw [envelopeLoop]
  generalize hs1 : (if true = true then storePoint sys ⟨![1, 1, 1, 1], 0, exampleOpts.initDt, fun _ => 0, fun _ => 0, []⟩
    else ⟨![1, 1, 1, 1], 0, exampleOpts.initDt, fun _ => 0, fun _ => 0, []⟩) = s1
  rw [if_pos rfl] at hs1
  subst hs1
  simp only [hstep]
  have e2 : (storePoint sys ⟨![1, 1, 1, 1], 0, exampleOpts.initDt, fun _ => 0, fun _ => 0, []⟩).x = ![1, 1, 1, 1] := rfl
  rw [e2, e, if_pos hfin, if_neg hst']
  have h3 : exampleOpts.polish = true := rfl
  simp only [finishStep, h3, if_true, hpol', Option.map_some, Outcome.bind_ok]
  rfl

/-! ## The isobar -/

theorem not_stopIsobar {crit : ℝ → (Fin 2 → ℝ) → ℝ} {opt : TraceOpts} {x : Fin 5 → ℝ} (h : ¬stopIsobar crit opt x) :
    InSimplex ![x 1, x 2] ∧ InSimplex ![x 3, x 4] := by
  unfold stopIsobar at h
  push Not at h
  obtain ⟨_, h3, h4, h5, h6⟩ := h
  have e1 : liq5 x = ![x 1, x 2] := rfl
  have e2 : vap5 x = ![x 3, x 4] := rfl
  rw [e1] at h3 h4
  rw [e2] at h5 h6
  simp only [molefrac_two] at h3 h4 h5 h6
  exact ⟨fun i => ⟨h3 i, h4 i⟩, fun i => ⟨h5 i, h6 i⟩⟩

/-- C69. The points of a traced isobar: as `isotherm_points`, polished by `mixture_VLE_px` and without a limit on the
pressure. -/
theorem isobar_points {m : EOS (Fin 2)} {lin : Solver 2}
    {solve : (PxEq 2 → PxVar 2 → ℝ) → (PxEq 2 → ℝ) → Option (PxVar 2 → ℝ)} {crit : ℝ → (Fin 2 → ℝ) → ℝ}
    {adaptive : ((Fin 5 → ℝ) → Option (Fin 5 → ℝ)) → (Fin 5 → ℝ) → ℝ → ℝ → StepRes 5} {opt : TraceOpts} {gas : ℕ}
    {p T0 l0 l1 v0 v1 : ℝ} {pts : List (Fin 5 → ℝ)} (hm : 0 < opt.maxSteps)
    (h : traceIsobar m lin solve crit adaptive opt gas p T0 [l0, l1] [v0, v1] = some (.ok pts)) :
    ∃ rest, pts = ![T0, l0, l1, v0, v1] :: rest ∧ (rest.length : ℤ) ≤ opt.maxSteps ∧
      ∀ b ∈ rest, ∃ z : Fin 5 → ℝ, InSimplex ![z 1, z 2] ∧ InSimplex ![z 3, z 4] ∧
        (b = z ∨ (opt.polish = true ∧ |z 1 - b 1| ≤ opt.polishReltolRho * z 1 ∧
          |z 2 - b 2| ≤ opt.polishReltolRho * z 2 ∧
          ∃ c, mixVLEpx m solve p (z 0) [z 1 / (z 1 + z 2), z 2 / (z 1 + z 2)] [z 1, z 2] [z 3, z 4]
            ⟨1e-10, 1e-10, 1e-10, 1e-10⟩ 10 = .ok (c, ⟨b 0, ![b 1, b 2], ![b 3, b 4]⟩))) := by
  unfold traceIsobar at h
  simp only [List.length_cons, List.length_nil, ne_eq, not_true_eq_false, if_false] at h
  cases hd : isobarRhs m lin opt.initC (fun _ => 0) ![T0, l0, l1, v0, v1] with
  | none => simp [hd] at h
  | some d =>
  simp only [hd, Option.map_eq_some_iff] at h
  obtain ⟨r, hr, hb⟩ := h
  obtain ⟨s, rfl, hb2⟩ := Outcome.bind_eq_ok.mp hb
  rw [Outcome.ok.injEq] at hb2
  subst hb2
  rcases envelopeLoop_points _ _ _ _ _ _ rfl hr with ⟨h0, _⟩ | ⟨new, h1, h2, h3⟩
  · omega
  refine ⟨new.reverse, by rw [h1]; simp, by rw [List.length_reverse]; omega, fun b hbm => ?_⟩
  rw [List.mem_reverse] at hbm
  obtain ⟨a, sa, -, z, t, dt, -, hst, hk⟩ := chain_mem h3 hbm
  obtain ⟨g1, g2⟩ := not_stopIsobar hst
  refine ⟨z, g1, g2, ?_⟩
  rcases hk with ⟨_, hbz⟩ | ⟨_, _, _, hbz⟩ | ⟨hp, hacc⟩
  · exact .inl hbz
  · exact .inl hbz
  · right
    simp only [isobarSys, polishIsobar] at hacc
    cases ht : mixVLEpx m solve p (z 0) [z 1 / (z 1 + z 2), z 2 / (z 1 + z 2)] [z 1, z 2] [z 3, z 4]
            ⟨1e-10, 1e-10, 1e-10, 1e-10⟩ 10 with
    | throws e => simp [ht] at hacc
    | ub => simp [ht] at hacc
    | nonFinite => simp [ht] at hacc
    | ok r =>
      obtain ⟨c, ⟨Tn, L, V⟩⟩ := r
      simp only [ht] at hacc
      by_cases hcl : |z 1 - L 0| > opt.polishReltolRho * z 1 ∨ |z 2 - L 1| > opt.polishReltolRho * z 2
      · simp [hcl] at hacc
      rw [if_neg hcl, PolishRes.accepted.injEq] at hacc
      push Not at hcl
      subst hacc
      have eL : ![L 0, L 1] = L := by funext i; fin_cases i <;> rfl
      have eV : ![V 0, V 1] = V := by funext i; fin_cases i <;> rfl
      refine ⟨hp, by simpa using hcl.1, by simpa using hcl.2, c, ?_⟩
      simp [eL, eV]

theorem isobarRhs_eq {m : EOS (Fin 2)} {lin : Solver 2} {T l0 l1 v0 v1 c : ℝ} {prev : Fin 5 → ℝ} {dL dV : Fin 2 → ℝ}
    (h : drhodTpsat m lin T [l0, l1] [v0, v1] = .ok (dL, dV)) :
    isobarRhs m lin c prev ![T, l0, l1, v0, v1] = some (xprimeIsobar c dL dV prev) := by
  unfold drhodTpsat at h
  simp only [List.length_cons, List.length_nil, zero_add, Nat.reduceAdd, ne_eq, not_true_eq_false, if_false] at h
  split_ifs at h with hf
  rw [Outcome.ok.injEq] at h
  unfold isobarRhs
  show some (xprimeIsobar c (drhodTpsatVec m lin T (vec2 l0 l1) (vec2 v0 v1)).1
    (drhodTpsatVec m lin T (vec2 l0 l1) (vec2 v0 v1)).2 prev) = _
  rw [h]

/-- C41, isobar at the entry point, the part that holds: with `c = 1` and no reversal the right-hand side is a multiple
of the velocity of every curve of coexisting states at constant pressure.  Missing: `c = -1` and the reversed case, for
which it fails (`isobar_rhs_leaves_envelope`). -/
theorem isobar_rhs_follows_envelope_partial {m : EOS (Fin 2)} {R s τ' p : ℝ} {τ : ℝ → ℝ} {γ δ : ℝ → Fin 2 → ℝ}
    {v w : Fin 2 → ℝ} {lin : Solver 2} (h : EqCurve m.alphar R τ γ δ s τ' v w) (hR : ∀ x, m.R x = R)
    (hreg : RegularPair m (τ s) (γ s) (δ s)) (hs : SolvesRegular lin) (hτ : τ' ≠ 0)
    (hp : ∀ᶠ u in 𝓝 s, mixP m.alphar R (τ u) (γ u) = p) :
    ∃ X, isobarRhs m lin 1 (fun _ => 0) ![τ s, γ s 0, γ s 1, δ s 0, δ s 1] = some X ∧
      IsMultiple X ![τ', v 0, v 1, w 0, w 1] := by
  obtain ⟨dL, dV, hok, hv, hw⟩ := dT_psat_is_slope h hR hreg hs hp
  rw [ofFn_two, ofFn_two] at hok
  refine ⟨xprimeIsobar 1 dL dV fun _ => 0, ?_, ?_⟩
  · rw [isobarRhs_eq hok]
  · obtain ⟨μ, hμ⟩ := isobar_rhs_tangent_partial dL dV (fun _ => 0) (by simp)
    refine ⟨μ / τ', fun i => ?_⟩
    rw [hμ]
    fin_cases i <;> simp [hv, hw] <;> field_simp

/-- C41, isobar at the entry point, negative result. When the initial direction has been reversed, the right-hand side is
no multiple of the velocity of any curve of coexisting states at this pressure along which the first liquid
concentration changes. -/
theorem isobar_rhs_leaves_envelope {m : EOS (Fin 2)} {R s τ' p : ℝ} {τ : ℝ → ℝ} {γ δ : ℝ → Fin 2 → ℝ}
    {v w : Fin 2 → ℝ} {lin : Solver 2} (h : EqCurve m.alphar R τ γ δ s τ' v w) (hR : ∀ x, m.R x = R)
    (hreg : RegularPair m (τ s) (γ s) (δ s)) (hs : SolvesRegular lin) (hv0 : v 0 ≠ 0)
    (hp : ∀ᶠ u in 𝓝 s, mixP m.alphar R (τ u) (γ u) = p) (prev : Fin 5 → ℝ) :
    ∃ X, isobarRhs m lin (-1) prev ![τ s, γ s 0, γ s 1, δ s 0, δ s 1] = some X ∧
      ¬IsMultiple X ![τ', v 0, v 1, w 0, w 1] := by
  obtain ⟨dL, dV, hok, hv, hw⟩ := dT_psat_is_slope h hR hreg hs hp
  rw [ofFn_two, ofFn_two] at hok
  refine ⟨xprimeIsobar (-1) dL dV prev, ?_, ?_⟩
  · rw [isobarRhs_eq hok]
  · rintro ⟨μ, hμ⟩
    refine isobar_reverse_not_tangent dL dV prev (fun h0 => hv0 (by rw [hv, h0, mul_zero])) ⟨μ * τ', fun i => ?_⟩
    rw [hμ]
    fin_cases i <;> simp [hv, hw] <;> ring

/-- The hypotheses of `isobar_rhs_follows_envelope_partial` and `isobar_rhs_leaves_envelope`: heating the demixing
mixture at constant pressure. -/
example (lin : Solver 2) (hs : SolvesRegular lin) (prev : Fin 5 → ℝ) :
    (∃ X, isobarRhs Sample.demix lin 1 (fun _ => 0) ![1, 2, 1, 1, 2] = some X ∧ IsMultiple X ![1, -2, -1, -1, -2]) ∧
    ∃ X, isobarRhs Sample.demix lin (-1) prev ![1, 2, 1, 1, 2] = some X ∧ ¬IsMultiple X ![1, -2, -1, -1, -2] := by
  obtain ⟨h, hp⟩ := demix_heating
  have h1 : RegularPair Sample.demix 1 ((fun u => ![2 / u, 1 / u]) (1 : ℝ)) ((fun u => ![1 / u, 2 / u]) (1 : ℝ)) := by
    have := demix_regular
    simpa using this
  have e := isobar_rhs_follows_envelope_partial h Sample.demix_R h1 hs one_ne_zero hp
  have e' := isobar_rhs_leaves_envelope h Sample.demix_R h1 hs (by simp) hp prev
  simpa using And.intro e e'

/-- The hypotheses of `isotherm_rhs_follows_envelope`: the demixing mixture with the ratio of the concentrations as
parameter. -/
example (lin : Solver 2) (hs : SolvesRegular lin) (prev : Fin 4 → ℝ) : ∃ v w : Fin 2 → ℝ,
    EqCurve Sample.demix.alphar 8 (fun _ => 1)
    (fun u => ![u * (Real.log u / (Real.log 2 * (u - 1))), Real.log u / (Real.log 2 * (u - 1))])
    (fun u => ![Real.log u / (Real.log 2 * (u - 1)), u * (Real.log u / (Real.log 2 * (u - 1)))]) 2 0 v w ∧
    ∃ X, (isothermSys Sample.demix lin (fun _ _ => none) (fun _ _ => 0) (fun _ _ _ _ => .threw) exampleOpts 1 (-1)).xprime
      prev ![2, 1, 1, 2] = some X ∧ IsMultiple X ![v 0, v 1, w 0, w 1] := by
  obtain ⟨v, w, h⟩ := demix_isotherm
  refine ⟨v, w, h, ?_⟩
  have l1 := Real.log_two_gt_d9
  have l2 := Real.log_two_lt_d9
  have hl : 0 < Real.log 2 := by linarith
  have eb : Real.log 2 / (Real.log 2 * (2 - 1)) = 1 := by
    rw [show (2 : ℝ) - 1 = 1 by norm_num, mul_one, div_self hl.ne']
  have key := isotherm_rhs_follows_envelope (lin := lin) (solve := fun _ _ => none) (crit := fun _ _ => 0)
    (adaptive := fun _ _ _ _ => .threw) (opt := exampleOpts) (c := -1) h Sample.demix_R (by simp only [eb, mul_one]; exact demix_regular)
    hs ?_ prev
  · simp only [eb, mul_one] at key
    exact key
  · intro h0
    have hb : HasDerivAt (fun u : ℝ => Real.log u / (Real.log 2 * (u - 1)))
        ((2⁻¹ * (Real.log 2 * (2 - 1)) - Real.log 2 * (Real.log 2 * 1)) / (Real.log 2 * (2 - 1)) ^ 2) 2 :=
      (Real.hasDerivAt_log two_ne_zero).div (((hasDerivAt_id (2 : ℝ)).sub_const 1).const_mul (Real.log 2))
        (mul_ne_zero hl.ne' (by norm_num))
    set b := fun u : ℝ => Real.log u / (Real.log 2 * (u - 1)) with hbd
    have b2 : b 2 = 1 := eb
    have hp : HasDerivAt (fun u : ℝ => 8 * ((1 + u) * b u + Real.log 2 * (u * (b u * b u))))
        (8 * ((1 * b 2 + (1 + 2) * ((2⁻¹ * (Real.log 2 * (2 - 1)) - Real.log 2 * (Real.log 2 * 1)) / (Real.log 2 * (2 - 1)) ^ 2)) +
          Real.log 2 * (1 * (b 2 * b 2) + 2 *
            ((2⁻¹ * (Real.log 2 * (2 - 1)) - Real.log 2 * (Real.log 2 * 1)) / (Real.log 2 * (2 - 1)) ^ 2 * b 2 +
            b 2 * ((2⁻¹ * (Real.log 2 * (2 - 1)) - Real.log 2 * (Real.log 2 * 1)) / (Real.log 2 * (2 - 1)) ^ 2))))) 2 :=
      ((((hasDerivAt_id (2 : ℝ)).const_add 1).mul hb).add
        (((hasDerivAt_id (2 : ℝ)).mul (hb.mul hb)).const_mul (Real.log 2))).const_mul 8
    have hpe : (fun u => mixP Sample.demix.alphar 8 1 ![u * b u, b u]) =ᶠ[𝓝 2]
        fun u : ℝ => 8 * ((1 + u) * b u + Real.log 2 * (u * (b u * b u))) := by
      filter_upwards [lt_mem_nhds (show (1 : ℝ) < 2 by norm_num)] with u hu
      have hb0 : 0 < b u := div_pos (Real.log_pos hu) (mul_pos hl (by linarith))
      have h1 : rhotot ![u * b u, b u] ≠ 0 := by
        rw [Sample.rhotot_two]; simp
        have : 0 < u * b u := mul_pos (by linarith) hb0
        linarith
      rw [mixP_eq (Sample.demix_smooth 1 _ h1) Sample.demix_R]
      simp only [solverP, Sample.demix_Psir _ _ h1, Sample.demix_grad _ _ h1, Fin.sum_univ_two, Sample.rhotot_two]
      simp
      ring
    have hu := (hp.congr_of_eventuallyEq hpe).unique h0
    rw [b2] at hu
    field_simp at hu
    have hq : Real.log 2 * Real.log 2 < 1 / 2 := by nlinarith
    nlinarith

end Teqp.Props
