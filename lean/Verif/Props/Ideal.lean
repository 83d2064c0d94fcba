import Verif.Model.Ideal
import Verif.Spec.Ideal
import Verif.Lemmas.SecondDeriv
import Mathlib.Analysis.SpecialFunctions.Integrals.Basic
import Mathlib.Analysis.SpecialFunctions.Pow.Deriv
import Mathlib.Analysis.SpecialFunctions.Log.NegMulLog
import Mathlib.Analysis.SpecialFunctions.Trigonometric.DerivHyp
import Mathlib.MeasureTheory.Integral.IntervalIntegral.FundThmCalculus
import Mathlib.Tactic.NormNum
import Mathlib.Tactic.FieldSimp

/-! # C21 (conversion), C22 (heat capacities), C23 (mixing) -/

set_option autoImplicit false

namespace Teqp.Props
open Teqp.Model Teqp.Spec Teqp.Calc

/-! ## C21 -/

theorem zipWith_map_map {α β γ δ : Type} (f : β → γ → δ) (g : α → β) (h : α → γ) (l : List α) :
    List.zipWith f (l.map g) (l.map h) = l.map fun a => f (g a) (h a) := by
  rw [List.zipWith_map, List.zipWith_self]

theorem pow_ne_neg_one_integral (c t T0 T : ℝ) (hT0 : 0 < T0) (hT : 0 < T) (h0 : t ≠ 0)
    (h1 : t + 1 ≠ 0) : fromCp0 (fun s => c * s ^ t) T0 T
      = c * (T ^ t * (1 / (t + 1) - 1 / t) - T0 ^ (t + 1) / (T * (t + 1)) + T0 ^ t / t) := by
  unfold fromCp0
  have hmem : (0 : ℝ) ∉ Set.uIcc T0 T := by
    rw [Set.mem_uIcc]; rintro (h | h) <;> linarith [h.1, h.2]
  have i1 : ∫ s in T0..T, c * s ^ t = c * ((T ^ (t + 1) - T0 ^ (t + 1)) / (t + 1)) := by
    rw [intervalIntegral.integral_const_mul,
      integral_rpow (.inr ⟨fun h => h1 (by rw [h]; norm_num), hmem⟩)]
  have i2 : ∫ s in T0..T, c * s ^ t / s = c * ((T ^ t - T0 ^ t) / t) := by
    have : Set.EqOn (fun s => c * s ^ t / s) (fun s => c * s ^ (t - 1)) (Set.uIcc T0 T) := by
      intro s hs
      have hs0 : s ≠ 0 := fun h => hmem (h ▸ hs)
      simp only
      rw [Real.rpow_sub_one hs0]; ring
    rw [intervalIntegral.integral_congr this, intervalIntegral.integral_const_mul,
      integral_rpow (.inr ⟨fun h => h0 (by linarith), hmem⟩)]
    simp
  rw [i1, i2, Real.rpow_add_one hT.ne']
  field_simp
  ring

theorem const_integral (c T0 T : ℝ) (hT0 : 0 < T0) (hT : 0 < T) :
    fromCp0 (fun _ => c) T0 T = c * ((T - T0) / T - Real.log (T / T0)) := by
  unfold fromCp0
  have hmem : (0 : ℝ) ∉ Set.uIcc T0 T := by
    rw [Set.mem_uIcc]; rintro (h | h) <;> linarith [h.1, h.2]
  have i2 : ∫ s in T0..T, c / s = c * Real.log (T / T0) := by
    simp_rw [div_eq_mul_inv]
    rw [intervalIntegral.integral_const_mul, integral_inv hmem, div_eq_mul_inv]
  rw [i2, intervalIntegral.integral_const, smul_eq_mul]
  field_simp

theorem fromCp0_add (f g : ℝ → ℝ) (T0 T : ℝ) (hT0 : 0 < T0) (hT : 0 < T)
    (hf : ContinuousOn f (Set.Ioi 0)) (hg : ContinuousOn g (Set.Ioi 0)) :
    fromCp0 (fun s => f s + g s) T0 T = fromCp0 f T0 T + fromCp0 g T0 T := by
  have hsub : Set.uIcc T0 T ⊆ Set.Ioi 0 := by
    intro s hs
    rw [Set.mem_uIcc] at hs
    rcases hs with h | h
    · exact lt_of_lt_of_le hT0 h.1
    · exact lt_of_lt_of_le hT h.1
  have hi : ContinuousOn (fun s : ℝ => s) (Set.uIcc T0 T) := continuousOn_id
  have hne : ∀ s ∈ Set.uIcc T0 T, s ≠ 0 := fun s hs => (hsub hs).ne'
  have f1 := (hf.mono hsub).intervalIntegrable (μ := MeasureTheory.volume)
  have g1 := (hg.mono hsub).intervalIntegrable (μ := MeasureTheory.volume)
  have f2 : IntervalIntegrable (fun s => f s / s) MeasureTheory.volume T0 T := ((hf.mono hsub).div hi hne).intervalIntegrable (μ := MeasureTheory.volume)
  have g2 : IntervalIntegrable (fun s => g s / s) MeasureTheory.volume T0 T := ((hg.mono hsub).div hi hne).intervalIntegrable (μ := MeasureTheory.volume)
  unfold fromCp0
  simp_rw [add_div]
  rw [intervalIntegral.integral_add f1 g1, intervalIntegral.integral_add f2 g2]
  ring

theorem fromCp0_zero (T0 T : ℝ) : fromCp0 (fun _ => 0) T0 T = 0 := by simp [fromCp0]

theorem polySum_continuousOn (ct : List (ℝ × ℝ)) :
    ContinuousOn (fun s : ℝ => (ct.map fun p => p.1 * s ^ p.2).sum) (Set.Ioi 0) := by
  induction ct with
  | nil => simpa using continuousOn_const
  | cons p ct ih =>
    simp only [List.map_cons, List.sum_cons]
    exact (continuousOn_const.mul (continuousOn_id.rpow_const fun s hs => .inl (ne_of_gt hs))).add ih

/-- One heat-capacity polynomial term as the converter writes it. -/
noncomputable def polyTerm (t c T0 R : ℝ) : JObj :=
  if t = 0 then [("type", .str "Cp0Constant"), ("c", .num c), ("T_0", .num T0), ("R", .num R)]
  else [("type", .str "Cp0PowerT"), ("c", .num c), ("t", .num t), ("T_0", .num T0), ("R", .num R)]

theorem polyTerm_value (c t T0 R T ρ : ℝ) (hT0 : 0 < T0) (hT : 0 < T) (ht : t ≠ -1) :
    ∃ x, parseIdealTerm (polyTerm t c T0 R) = .ok x ∧
      x.alphaig T ρ = .ok (fromCp0 (fun s => c * s ^ t) T0 T) := by
  unfold polyTerm
  by_cases h : t = 0
  · subst h
    rw [if_pos rfl]
    refine ⟨.cp0Constant c T0, rfl, ?_⟩
    have : (fun s : ℝ => c * s ^ (0 : ℝ)) = fun _ => c := by funext s; simp
    rw [this, const_integral c T0 T hT0 hT]
    rfl
  · rw [if_neg h]
    have h1 : t + 1 ≠ 0 := fun h' => ht (by linarith)
    refine ⟨.cp0PowerT c t T0, rfl, ?_⟩
    rw [pow_ne_neg_one_integral c t T0 T hT0 hT h h1]
    simp only [IdealTerm.alphaig]
    rw [if_neg (not_or.mpr ⟨h, h1⟩)]

theorem polyTerms_value (ct : List (ℝ × ℝ)) (T0 R T ρ : ℝ) (hT0 : 0 < T0) (hT : 0 < T)
    (ht : ∀ p ∈ ct, p.2 ≠ -1) :
    (parseIdealTerms (ct.map fun p => polyTerm p.2 p.1 T0 R)).bind (fun ts => pureAlphaig ts T ρ)
      = .ok (fromCp0 (fun s => (ct.map fun p => p.1 * s ^ p.2).sum) T0 T) := by
  induction ct with
  | nil => simp [parseIdealTerms, pureAlphaig, fromCp0_zero]
  | cons p ct ih =>
    obtain ⟨x, hx, hv⟩ := polyTerm_value p.1 p.2 T0 R T ρ hT0 hT (ht p (by simp))
    have ih' := ih fun q hq => ht q (by simp [hq])
    simp only [List.map_cons, List.sum_cons, parseIdealTerms, hx, Outcome.bind_ok]
    rw [fromCp0_add (fun s => p.1 * s ^ p.2) _ T0 T hT0 hT
      (continuousOn_const.mul (continuousOn_id.rpow_const fun s hs => .inl (ne_of_gt hs)))
      (polySum_continuousOn ct)]
    cases hp : parseIdealTerms (ct.map fun p => polyTerm p.2 p.1 T0 R) with
    | ok ts =>
      rw [hp] at ih'
      simp only [Outcome.bind_ok] at ih' ⊢
      simp [pureAlphaig, hv, ih']
    | throws e => rw [hp] at ih'; simp at ih'
    | ub => rw [hp] at ih'; simp at ih'
    | nonFinite => rw [hp] at ih'; simp at ih'

/-- The value obtained by converting a CoolProp document, reading the result back and evaluating. -/
noncomputable def convertedValue (o : JObj) (Tr ρr R T ρ : ℝ) : Outcome ℝ :=
  ((convertIdealTerm o Tr ρr R).bind parseIdealTerms).bind fun ts => pureAlphaig ts T ρ

/-- Heat-capacity terms refer to a positive temperature and contain no exponent `-1`. -/
def CPGood : CPTerm → Prop
  | .cp0PolyT ct T0 => 0 < T0 ∧ ∀ p ∈ ct, p.2 ≠ -1
  | .cp0Constant _ T0 => 0 < T0
  | _ => True

/-- C21. Converting a CoolProp term, reading the converted document and evaluating it gives the value
of the original term, for all coefficients and all positive temperatures and densities. -/
theorem convert_preserves_partial (t : CPTerm) (ht : CPGood t) (Tr ρr R T ρ : ℝ) (hTr : 0 < Tr)
    (hρr : 0 < ρr) (hT : 0 < T) (hρ : 0 < ρ) :
    convertedValue t.toJson Tr ρr R T ρ = .ok (t.value Tr ρr T ρ) := by
  unfold convertedValue
  cases t with
  | lead a1 a2 =>
    change Outcome.ok (Real.log ρ + (a1 - Real.log ρr) + a2 * Tr / T + 0) = _
    simp only [CPTerm.value]
    rw [Real.log_div hρ.ne' hρr.ne']
    congr 1; ring
  | offset a1 a2 =>
    change ((sumLoop2 [a1, a2 * Tr] [0, -1] fun n t => n * T ^ t).bind fun a => .ok (a + 0)) = _
    simp [sumLoop2, CPTerm.value, Real.rpow_neg_one]
    ring
  | logTau a =>
    change Outcome.ok (a * Real.log Tr + (-a * Real.log T + 0)) = _
    simp only [CPTerm.value]
    rw [Real.log_div hTr.ne' hT.ne']
    congr 1; ring
  | planckEinstein nt =>
    change ((sumLoop2 (nt.map (·.1)) ((nt.map (·.2)).map (· * Tr)) fun n th =>
      n * Real.log (1 - Real.exp (-th / T))).bind fun a => .ok (a + 0)) = _
    rw [sumLoop2, if_neg (by simp), List.map_map, zipWith_map_map, Outcome.bind_ok, add_zero]
    simp only [CPTerm.value, Function.comp_apply]
    congr 2
    refine List.map_congr_left fun p _ => ?_
    congr 4; ring
  | planckEinsteinFunctionT nv =>
    change ((sumLoop2 (nv.map (·.1)) (nv.map (·.2)) fun n th =>
      n * Real.log (1 - Real.exp (-th / T))).bind fun a => .ok (a + 0)) = _
    rw [sumLoop2, if_neg (by simp), zipWith_map_map, Outcome.bind_ok, add_zero]
    rfl
  | planckEinsteinGeneralized l =>
    change ((IdealTerm.planckEinsteinGen (l.map (·.1)) (l.map (·.2.1)) (l.map (·.2.2.1))
      ((l.map (·.2.2.2)).map (· * Tr))).alphaig T ρ).bind (fun a => .ok (a + 0)) = _
    simp only [IdealTerm.alphaig]
    rw [if_neg (by simp), List.map_map, List.zip_eq_zipWith, List.zip_eq_zipWith, zipWith_map_map,
      zipWith_map_map, zipWith_map_map, Outcome.bind_ok, add_zero]
    simp only [CPTerm.value, Function.comp_apply]
    congr 2
    refine List.map_congr_left fun p _ => ?_
    congr 5; ring
  | power nt =>
    have e : convertIdealTerm (CPTerm.power nt).toJson Tr ρr R
        = if (nt.map (·.2)).length < (nt.map (·.1)).length then .ub
          else .ok [[("type", .str "PowerT"),
            ("n", .arr (List.zipWith (fun n t => n * Tr ^ t) (nt.map (·.1)) (nt.map (·.2)))),
            ("t", .arr (((nt.map (·.2)).take (nt.map (·.1)).length).map (· * (-1)) ++
              (nt.map (·.2)).drop (nt.map (·.1)).length)), ("R", .num R)]] := rfl
    rw [e, if_neg (by simp), zipWith_map_map, List.take_of_length_le (by simp),
      List.drop_of_length_le (by simp), List.append_nil, List.map_map]
    change ((sumLoop2 _ _ fun n t => n * T ^ t).bind fun a => .ok (a + 0)) = _
    rw [sumLoop2, if_neg (by simp), zipWith_map_map, Outcome.bind_ok, add_zero]
    simp only [CPTerm.value, Function.comp_apply]
    congr 2
    refine List.map_congr_left fun p _ => ?_
    rw [Real.div_rpow hTr.le hT.le, mul_neg_one, Real.rpow_neg hT.le]
    ring
  | cp0PolyT ct T0 =>
    obtain ⟨hT0, hne⟩ := ht
    have e : convertIdealTerm (CPTerm.cp0PolyT ct T0).toJson Tr ρr R
        = if (ct.map (·.1)).length < (ct.map (·.2)).length then .ub
          else .ok (List.zipWith (fun t c => polyTerm t c T0 R) (ct.map (·.2)) (ct.map (·.1))) := rfl
    rw [e, if_neg (by simp), zipWith_map_map, Outcome.bind_ok]
    exact polyTerms_value ct T0 R T ρ hT0 hT hne
  | cp0Constant c T0 =>
    change Outcome.ok (c * ((T - T0) / T - Real.log (T / T0)) + 0) = _
    rw [add_zero]
    exact congrArg _ (const_integral c T0 T ht hT).symm

example : convertedValue (CPTerm.power [(2, 1.5), (3, -1)]).toJson 190 10000 8.314 300 100
    = .ok ((CPTerm.power [(2, 1.5), (3, -1)]).value 190 10000 300 100) :=
  convert_preserves_partial (.power [(2, 1.5), (3, -1)]) trivial _ _ _ _ _ (by norm_num) (by norm_num) (by norm_num) (by norm_num)

theorem parseIdealTerms_append (l₁ l₂ : List JObj) (t₁ t₂ : List IdealTerm)
    (h₁ : parseIdealTerms l₁ = .ok t₁) (h₂ : parseIdealTerms l₂ = .ok t₂) :
    parseIdealTerms (l₁ ++ l₂) = .ok (t₁ ++ t₂) := by
  induction l₁ generalizing t₁ with
  | nil => simp only [parseIdealTerms, Outcome.ok.injEq] at h₁; subst h₁; exact h₂
  | cons o os ih =>
    simp only [parseIdealTerms, List.cons_append] at h₁ ⊢
    cases ho : parseIdealTerm o <;> rw [ho] at h₁ <;> simp only [Outcome.bind_ok, Outcome.bind_throws,
      Outcome.bind_ub, Outcome.bind_nonFinite, reduceCtorEq] at h₁ ⊢
    cases hos : parseIdealTerms os <;> rw [hos] at h₁ <;> simp only [Outcome.bind_ok, Outcome.bind_throws,
      Outcome.bind_ub, Outcome.bind_nonFinite, reduceCtorEq, Outcome.ok.injEq] at h₁ ⊢
    rw [ih _ hos]
    subst h₁
    rfl

theorem pureAlphaig_append (t₁ t₂ : List IdealTerm) (T ρ a b : ℝ)
    (h₁ : pureAlphaig t₁ T ρ = .ok a) (h₂ : pureAlphaig t₂ T ρ = .ok b) :
    pureAlphaig (t₁ ++ t₂) T ρ = .ok (a + b) := by
  induction t₁ generalizing a with
  | nil =>
    simp only [pureAlphaig, Outcome.ok.injEq] at h₁
    subst h₁
    simpa using h₂
  | cons o os ih =>
    simp only [pureAlphaig, List.cons_append] at h₁ ⊢
    cases ho : o.alphaig T ρ <;> rw [ho] at h₁ <;> simp only [Outcome.bind_ok, Outcome.bind_throws,
      Outcome.bind_ub, Outcome.bind_nonFinite, reduceCtorEq] at h₁ ⊢
    cases hos : pureAlphaig os T ρ <;> rw [hos] at h₁ <;> simp only [Outcome.bind_ok, Outcome.bind_throws,
      Outcome.bind_ub, Outcome.bind_nonFinite, reduceCtorEq, Outcome.ok.injEq] at h₁ ⊢
    rw [ih _ hos, ← h₁, Outcome.bind_ok, add_assoc]

/-- C21. A whole document: the converted list of terms evaluates to the sum of the values of the
original terms. -/
theorem convert_document_partial (ts : List CPTerm) (hts : ∀ t ∈ ts, CPGood t) (Tr ρr R T ρ : ℝ)
    (hTr : 0 < Tr) (hρr : 0 < ρr) (hT : 0 < T) (hρ : 0 < ρ) :
    ((convertIdealTerms (ts.map CPTerm.toJson) Tr ρr R).bind parseIdealTerms).bind
      (fun l => pureAlphaig l T ρ) = .ok (ts.map fun t => t.value Tr ρr T ρ).sum := by
  induction ts with
  | nil => rfl
  | cons t ts ih =>
    have ih' := ih fun t ht => hts t (by simp [ht])
    have ht := convert_preserves_partial t (hts t (by simp)) Tr ρr R T ρ hTr hρr hT hρ
    unfold convertedValue at ht
    simp only [List.map_cons, List.sum_cons, convertIdealTerms]
    cases h1 : convertIdealTerm t.toJson Tr ρr R <;> rw [h1] at ht <;> simp only [Outcome.bind_ok,
      Outcome.bind_throws, Outcome.bind_ub, Outcome.bind_nonFinite, reduceCtorEq] at ht ⊢
    rename_i l
    cases h2 : parseIdealTerms l <;> rw [h2] at ht <;> simp only [Outcome.bind_ok,
      Outcome.bind_throws, Outcome.bind_ub, Outcome.bind_nonFinite, reduceCtorEq] at ht
    rename_i p
    cases h3 : convertIdealTerms (ts.map CPTerm.toJson) Tr ρr R <;> rw [h3] at ih' <;>
      simp only [Outcome.bind_ok, Outcome.bind_throws, Outcome.bind_ub, Outcome.bind_nonFinite,
        reduceCtorEq] at ih' ⊢
    rename_i ls
    cases h4 : parseIdealTerms ls <;> rw [h4] at ih' <;> simp only [Outcome.bind_ok,
      Outcome.bind_throws, Outcome.bind_ub, Outcome.bind_nonFinite, reduceCtorEq] at ih'
    rename_i ps
    rw [parseIdealTerms_append l ls p ps h2 h4, Outcome.bind_ok]
    exact pureAlphaig_append p ps T ρ _ _ ht ih'

example : ((convertIdealTerms ([.lead 1 2, .logTau 3, .power [(2, 1.5)]].map CPTerm.toJson) 190 10000 8.314).bind
    parseIdealTerms).bind (fun l => pureAlphaig l 300 100)
    = .ok ([CPTerm.lead 1 2, .logTau 3, .power [(2, 1.5)]].map fun t => t.value 190 10000 300 100).sum :=
  convert_document_partial _ (by simp [CPGood]) _ _ _ _ _ (by norm_num) (by norm_num) (by norm_num)
    (by norm_num)

/-- C21 fails for a heat-capacity term `c/T` (exponent `-1`), which the CoolProp format allows: the
converted term divides by zero. -/
theorem convert_inverse_T_fails (c T0 Tr ρr R T ρ : ℝ) :
    convertedValue (CPTerm.cp0PolyT [(c, -1)] T0).toJson Tr ρr R T ρ = .nonFinite := by
  have e : convertIdealTerm (CPTerm.cp0PolyT [(c, -1)] T0).toJson Tr ρr R
      = .ok [polyTerm (-1) c T0 R] := rfl
  unfold convertedValue
  rw [e]
  unfold polyTerm
  rw [if_neg (by norm_num)]
  change ((IdealTerm.cp0PowerT c (-1) T0).alphaig T ρ).bind (fun a => .ok (a + 0)) = _
  simp [IdealTerm.alphaig]

/-- C21. Unknown term types are refused, missing fields too. -/
theorem convert_refuses (o : JObj) (Tr ρr R : ℝ) :
    (o.lookup "type" = none → convertIdealTerm o Tr ρr R = .throws .jsonError) ∧
    (∀ s, o.lookup "type" = some (.str s) → s ∉ ["IdealGasHelmholtzLead",
      "IdealGasHelmholtzEnthalpyEntropyOffset", "IdealGasHelmholtzLogTau",
      "IdealGasHelmholtzPlanckEinstein", "IdealGasHelmholtzPlanckEinsteinFunctionT",
      "IdealGasHelmholtzPlanckEinsteinGeneralized", "IdealGasHelmholtzPower",
      "IdealGasHelmholtzCP0PolyT", "IdealGasHelmholtzCP0Constant", "IdealGasHelmholtzCP0AlyLee"] →
      convertIdealTerm o Tr ρr R = .throws .invalidArgument) := by
  constructor
  · intro h
    simp [convertIdealTerm, JObj.at, h]
  · intro s h hs
    simp only [List.mem_cons, List.not_mem_nil, or_false, not_or] at hs
    unfold convertIdealTerm JObj.at
    rw [h]
    simp only [Outcome.bind_ok]
    split <;> simp_all

example : convertIdealTerm [("type", .str "IdealGasHelmholtzFancy")] 190 10000 8.314
    = .throws .invalidArgument := (convert_refuses _ _ _ _).2 _ rfl (by decide)

/-! ## C22 -/

open MeasureTheory in
/-- The integral form: `d/dβ` gives the enthalpy `∫ cp`, and `-β² d²/dβ²` gives back `cp`, where
`β = 1/T`. -/
theorem fromCp0_derivs (cp : ℝ → ℝ) (hcp : ContinuousOn cp (Set.Ioi 0)) (T0 : ℝ) (hT0 : 0 < T0) :
    (∀ β, 0 < β → HasDerivAt (fun β => fromCp0 cp T0 (1 / β)) (∫ s in T0..1 / β, cp s) β) ∧
    (∀ β, 0 < β → HasDerivAt (fun β => ∫ s in T0..1 / β, cp s) (-cp (1 / β) / β ^ 2) β) := by
  have hsub : ∀ T, 0 < T → Set.uIcc T0 T ⊆ Set.Ioi 0 := by
    intro T hT s hs
    rw [Set.mem_uIcc] at hs
    rcases hs with h | h
    · exact lt_of_lt_of_le hT0 h.1
    · exact lt_of_lt_of_le hT h.1
  have ftc : ∀ f : ℝ → ℝ, ContinuousOn f (Set.Ioi 0) → ∀ T, 0 < T →
      HasDerivAt (fun u => ∫ s in T0..u, f s) (f T) T := by
    intro f hf T hT
    exact intervalIntegral.integral_hasDerivAt_right
      ((hf.mono (hsub T hT)).intervalIntegrable (μ := volume))
      (hf.stronglyMeasurableAtFilter isOpen_Ioi T hT) (hf.continuousAt (Ioi_mem_nhds hT))
  have hinv : ∀ β : ℝ, 0 < β → HasDerivAt (fun β : ℝ => 1 / β) (-1 / β ^ 2) β := by
    intro β hβ
    have := hasDerivAt_inv hβ.ne'
    refine (this.congr_deriv ?_).congr_of_eventuallyEq (Filter.Eventually.of_forall fun x => by simp)
    rw [neg_div, one_div]
  have hdiv : ContinuousOn (fun s => cp s / s) (Set.Ioi 0) :=
    hcp.div continuousOn_id fun s hs => ne_of_gt hs
  have h2 : ∀ β, 0 < β → HasDerivAt (fun β => ∫ s in T0..1 / β, cp s) (-cp (1 / β) / β ^ 2) β := by
    intro β hβ
    have h := HasDerivAt.comp (h₂ := fun u => ∫ s in T0..u, cp s) β (ftc cp hcp (1 / β) (by positivity))
      (hinv β hβ)
    exact h.congr_deriv (by ring)
  refine ⟨fun β hβ => ?_, h2⟩
  have h3 := HasDerivAt.comp (h₂ := fun u => ∫ s in T0..u, cp s / s) β
    (ftc _ hdiv (1 / β) (by positivity)) (hinv β hβ)
  have h1 := ((hasDerivAt_id β).mul (h2 β hβ)).sub h3
  have e : (fun β => fromCp0 cp T0 (1 / β)) = fun β =>
      id β * (∫ s in T0..1 / β, cp s) - (∫ s in T0..1 / β, cp s / s) := by
    funext b; simp [fromCp0]
  rw [e]
  refine h1.congr_deriv ?_
  simp only [id]
  field_simp
  ring

/-- C22. The heat-capacity terms of a CoolProp document, once converted and evaluated, reproduce the
heat capacity stated in the document: `-(1/T)² ∂²α/∂(1/T)² = cp/R`; and at `T0` both the value and
the first derivative vanish, so there is no contribution to enthalpy or entropy.  (Exponent `-1`
excluded; see `convert_inverse_T_fails`.) -/
theorem cp0Poly_heat_capacity_partial (ct : List (ℝ × ℝ)) (T0 Tr ρr R ρ : ℝ) (hT0 : 0 < T0)
    (hTr : 0 < Tr) (hρr : 0 < ρr) (hρ : 0 < ρ) (hct : ∀ p ∈ ct, p.2 ≠ -1) :
    ∃ g : ℝ → ℝ, (∀ T, 0 < T →
        convertedValue (CPTerm.cp0PolyT ct T0).toJson Tr ρr R T ρ = .ok (g T)) ∧
      (∀ T, 0 < T → -(1 / T) ^ 2 * iteratedDeriv 2 (fun β => g (1 / β)) (1 / T)
        = (ct.map fun p => p.1 * T ^ p.2).sum) ∧
      g T0 = 0 ∧ deriv (fun β => g (1 / β)) (1 / T0) = 0 := by
  refine ⟨fromCp0 (fun s => (ct.map fun p => p.1 * s ^ p.2).sum) T0, fun T hT =>
    convert_preserves_partial (.cp0PolyT ct T0) ⟨hT0, hct⟩ _ _ _ _ _ hTr hρr hT hρ, ?_, ?_, ?_⟩
  · intro T hT
    obtain ⟨h1, h2⟩ := fromCp0_derivs _ (polySum_continuousOn ct) T0 hT0
    have hβ : 0 < 1 / T := by positivity
    have hd : HasD2 (fun β => fromCp0 (fun s => (ct.map fun p => p.1 * s ^ p.2).sum) T0 (1 / β)) (1 / T) _ :=
      ⟨_, (lt_mem_nhds hβ).mono h1, h2 _ hβ⟩
    rw [hd.iteratedDeriv_eq]
    rw [one_div_one_div]
    field_simp
  · simp [fromCp0]
  · rw [((fromCp0_derivs _ (polySum_continuousOn ct) T0 hT0).1 _ (by positivity)).deriv]
    simp

example : ∃ g : ℝ → ℝ, (∀ T, 0 < T →
      convertedValue (CPTerm.cp0PolyT [(2.5, 0), (0.01, 1.2)] 298).toJson 190 10000 8.314 T 5 = .ok (g T)) ∧
    (∀ T, 0 < T → -(1 / T) ^ 2 * iteratedDeriv 2 (fun β => g (1 / β)) (1 / T)
      = 2.5 * T ^ (0 : ℝ) + (0.01 * T ^ (1.2 : ℝ) + 0)) := by
  obtain ⟨g, h1, h2, _⟩ := cp0Poly_heat_capacity_partial [(2.5, 0), (0.01, 1.2)] 298 190 10000 8.314 5
    (by norm_num) (by norm_num) (by norm_num) (by norm_num) (by
      intro p hp; simp at hp; rcases hp with rfl | rfl <;> norm_num)
  exact ⟨g, h1, h2⟩

/-- Second derivative in `β` of `ln(1 + d e^{-kβ})`. -/
theorem logexp_D2 (k d β : ℝ) (h : ∀ᶠ b in nhds β, 0 < 1 + d * Real.exp (-(k * b))) :
    HasD2 (fun b => Real.log (1 + d * Real.exp (-(k * b)))) β
      (k ^ 2 * d * Real.exp (-(k * β)) / (1 + d * Real.exp (-(k * β))) ^ 2) := by
  have he : ∀ b, HasDerivAt (fun b => Real.exp (-(k * b))) (-(k * Real.exp (-(k * b)))) b := fun b => by
    have h1 : HasDerivAt (fun b : ℝ => -(k * b)) (-(k * 1)) b :=
      ((hasDerivAt_id b).const_mul k).neg
    exact h1.exp.congr_deriv (by ring)
  have hi : ∀ b, HasDerivAt (fun b => 1 + d * Real.exp (-(k * b))) (-(d * k * Real.exp (-(k * b)))) b :=
    fun b => (((he b).const_mul d).const_add 1).congr_deriv (by ring)
  refine ⟨fun b => -(d * k * Real.exp (-(k * b))) / (1 + d * Real.exp (-(k * b))), ?_, ?_⟩
  · filter_upwards [h] with b hb
    exact (hi b).log hb.ne'
  · have hβ := h.self_of_nhds
    have hn : HasDerivAt (fun b => -(d * k * Real.exp (-(k * b))))
        (-(d * k * (-(k * Real.exp (-(k * β)))))) β := ((he β).const_mul (d * k)).neg
    refine (hn.div (hi β) hβ.ne').congr_deriv ?_
    field_simp
    ring

/-- C22. A Planck-Einstein term carries the heat capacity of a harmonic oscillator,
`n (θ/T)² e^{θ/T} / (e^{θ/T} - 1)²`. -/
theorem planckEinstein_heat_capacity (n θ T ρ : ℝ) (hθ : 0 < θ) (hT : 0 < T) :
    ∃ g : ℝ → ℝ, (∀ T, (IdealTerm.planckEinstein [n] [θ]).alphaig T ρ = .ok (g T)) ∧
      -(1 / T) ^ 2 * iteratedDeriv 2 (fun β => g (1 / β)) (1 / T)
        = n * (θ / T) ^ 2 * Real.exp (θ / T) / (Real.exp (θ / T) - 1) ^ 2 := by
  refine ⟨fun T => n * Real.log (1 - Real.exp (-θ / T)), fun T => by
    simp [IdealTerm.alphaig, sumLoop2], ?_⟩
  have e : (fun β : ℝ => n * Real.log (1 - Real.exp (-θ / (1 / β))))
      = fun β => n * Real.log (1 + (-1) * Real.exp (-(θ * β))) := by
    funext b; congr 2; rw [div_div_eq_mul_div, div_one]; ring_nf
  rw [e]
  have hβ : 0 < 1 / T := by positivity
  have hev : ∀ᶠ b in nhds (1 / T), 0 < 1 + (-1) * Real.exp (-(θ * b)) := by
    filter_upwards [lt_mem_nhds hβ] with b hb
    have : Real.exp (-(θ * b)) < 1 := Real.exp_lt_one_iff.mpr (by have := mul_pos hθ hb; linarith)
    linarith
  rw [((logexp_D2 θ (-1) (1 / T) hev).const_mul n).iteratedDeriv_eq]
  have hx : Real.exp (-(θ * (1 / T))) = 1 / Real.exp (θ / T) := by
    rw [Real.exp_neg, mul_one_div, one_div]
  have hE : 1 < Real.exp (θ / T) := Real.one_lt_exp_iff.mpr (by positivity)
  rw [hx]
  generalize Real.exp (θ / T) = E at *
  have h1 : E - 1 ≠ 0 := by linarith
  have h2 : 1 + -1 * (1 / E) = (E - 1) / E := by field_simp; ring
  rw [h2]
  field_simp

example : ∃ g : ℝ → ℝ, (∀ T, (IdealTerm.planckEinstein [2.7] [900]).alphaig T 5 = .ok (g T)) ∧
    -(1 / 300) ^ 2 * iteratedDeriv 2 (fun β => g (1 / β)) (1 / 300)
      = 2.7 * (900 / 300) ^ 2 * Real.exp (900 / 300) / (Real.exp (900 / 300) - 1) ^ 2 :=
  planckEinstein_heat_capacity _ _ _ _ (by norm_num) (by norm_num)

/-- C22. An Aly-Lee heat capacity `c₀ + c₁ (c₂/T / sinh(c₂/T))² + c₃ (c₄/T / cosh(c₄/T))²`, converted
and evaluated, is reproduced exactly (coefficients above the conversion's cut-off). -/
theorem alyLee_heat_capacity (k0 k1 k2 k3 k4 T0 Tr ρr R ρ T : ℝ) (hT0 : 0 < T0) (hT : 0 < T)
    (h0 : 1e-14 < |k0|) (h1 : 1e-14 < |k1|) (h3 : 1e-14 < |k3|) (h2 : 0 < k2) :
    ∃ g : ℝ → ℝ, (∀ T, 0 < T → convertedValue [("type", .str "IdealGasHelmholtzCP0AlyLee"),
        ("c", .arr [k0, k1, k2, k3, k4]), ("T0", .num T0)] Tr ρr R T ρ = .ok (g T)) ∧
      -(1 / T) ^ 2 * iteratedDeriv 2 (fun β => g (1 / β)) (1 / T)
        = k0 + k1 * (k2 / T / Real.sinh (k2 / T)) ^ 2 + k3 * (k4 / T / Real.cosh (k4 / T)) ^ 2 := by
  have hconv : convertIdealTerm [("type", .str "IdealGasHelmholtzCP0AlyLee"),
      ("c", .arr [k0, k1, k2, k3, k4]), ("T0", .num T0)] Tr ρr R
      = .ok [[("type", .str "Cp0Constant"), ("c", .num k0), ("T_0", .num T0), ("R", .num R)],
        [("type", .str "PlanckEinsteinGeneralized"), ("n", .arr [k1, -k3]), ("c", .arr [1, 1]),
          ("d", .arr [-1, 1]), ("theta", .arr [-2 * k2, -2 * k4]), ("R", .num R)]] := by
    have : convertIdealTerm [("type", .str "IdealGasHelmholtzCP0AlyLee"),
      ("c", .arr [k0, k1, k2, k3, k4]), ("T0", .num T0)] Tr ρr R
      = .ok ((if |k0| > 1e-14 then
            [[("type", .str "Cp0Constant"), ("c", .num k0), ("T_0", .num T0), ("R", .num R)]]
          else []) ++ [[("type", .str "PlanckEinsteinGeneralized"),
          ("n", .arr (((if |k1| > 1e-14 then [(k1, (1 : ℝ), (-1 : ℝ), -2 * k2)] else []) ++
            (if |k3| > 1e-14 then [(-k3, (1 : ℝ), (1 : ℝ), -2 * k4)] else [])).map (·.1))),
          ("c", .arr (((if |k1| > 1e-14 then [(k1, (1 : ℝ), (-1 : ℝ), -2 * k2)] else []) ++
            (if |k3| > 1e-14 then [(-k3, (1 : ℝ), (1 : ℝ), -2 * k4)] else [])).map (·.2.1))),
          ("d", .arr (((if |k1| > 1e-14 then [(k1, (1 : ℝ), (-1 : ℝ), -2 * k2)] else []) ++
            (if |k3| > 1e-14 then [(-k3, (1 : ℝ), (1 : ℝ), -2 * k4)] else [])).map (·.2.2.1))),
          ("theta", .arr (((if |k1| > 1e-14 then [(k1, (1 : ℝ), (-1 : ℝ), -2 * k2)] else []) ++
            (if |k3| > 1e-14 then [(-k3, (1 : ℝ), (1 : ℝ), -2 * k4)] else [])).map (·.2.2.2))),
          ("R", .num R)]]) := rfl
    rw [this, if_pos h0, if_pos h1, if_pos h3]
    rfl
  refine ⟨fun T => k0 * ((T - T0) / T - Real.log (T / T0)) +
    (k1 * Real.log (1 + -1 * Real.exp (-2 * k2 / T)) + (-k3 * Real.log (1 + 1 * Real.exp (-2 * k4 / T)))),
    fun T _ => ?_, ?_⟩
  · unfold convertedValue
    rw [hconv]
    change Outcome.ok (_ + (_ + 0)) = _
    simp
  have hβ : 0 < 1 / T := by positivity
  have hevβ := lt_mem_nhds hβ
  have hc : HasD2 (fun β : ℝ => k0 * ((1 / β - T0) / (1 / β) - Real.log (1 / β / T0))) (1 / T)
      (-k0 / (1 / T) ^ 2) := by
    obtain ⟨d1, d2⟩ := fromCp0_derivs (fun _ => k0) continuousOn_const T0 hT0
    have hd : HasD2 (fun β => fromCp0 (fun _ => k0) T0 (1 / β)) (1 / T) (-k0 / (1 / T) ^ 2) :=
      ⟨_, hevβ.mono d1, d2 _ hβ⟩
    refine hd.congr ?_
    filter_upwards [hevβ] with b hb
    rw [const_integral k0 T0 (1 / b) hT0 (by positivity)]
  have ee : ∀ k b : ℝ, -2 * k / (1 / b) = -(2 * k * b) := fun k b => by
    rw [div_div_eq_mul_div, div_one]; ring
  have hs : HasD2 (fun β : ℝ => k1 * Real.log (1 + -1 * Real.exp (-2 * k2 / (1 / β)))) (1 / T)
      (k1 * ((2 * k2) ^ 2 * -1 * Real.exp (-(2 * k2 * (1 / T))) /
        (1 + -1 * Real.exp (-(2 * k2 * (1 / T)))) ^ 2)) := by
    simp only [ee]
    refine (logexp_D2 (2 * k2) (-1) (1 / T) ?_).const_mul k1
    filter_upwards [hevβ] with b hb
    have : Real.exp (-(2 * k2 * b)) < 1 :=
      Real.exp_lt_one_iff.mpr (by have := mul_pos h2 hb; linarith)
    linarith
  have hch : HasD2 (fun β : ℝ => -k3 * Real.log (1 + 1 * Real.exp (-2 * k4 / (1 / β)))) (1 / T)
      (-k3 * ((2 * k4) ^ 2 * 1 * Real.exp (-(2 * k4 * (1 / T))) /
        (1 + 1 * Real.exp (-(2 * k4 * (1 / T)))) ^ 2)) := by
    simp only [ee]
    refine (logexp_D2 (2 * k4) 1 (1 / T) ?_).const_mul (-k3)
    filter_upwards [hevβ] with b hb
    positivity
  rw [(hc.add (hs.add hch)).iteratedDeriv_eq]
  have eS : ∀ u : ℝ, Real.sinh u ≠ 0 → Real.exp (-(2 * u)) / (1 + -1 * Real.exp (-(2 * u))) ^ 2
      = 1 / (4 * Real.sinh u ^ 2) := by
    intro u hu
    have h1 : Real.exp (-(2 * u)) = Real.exp (-u) ^ 2 := by rw [← Real.exp_nat_mul]; ring_nf
    have h2 : Real.exp u * Real.exp (-u) = 1 := by rw [← Real.exp_add]; simp
    have h3 : 1 + -1 * Real.exp (-(2 * u)) = 2 * Real.exp (-u) * Real.sinh u := by
      rw [h1, Real.sinh_eq]; linear_combination -h2
    rw [h3, h1]
    have := Real.exp_pos (-u)
    field_simp
    norm_num
  have eC : ∀ u : ℝ, Real.exp (-(2 * u)) / (1 + 1 * Real.exp (-(2 * u))) ^ 2
      = 1 / (4 * Real.cosh u ^ 2) := by
    intro u
    have h1 : Real.exp (-(2 * u)) = Real.exp (-u) ^ 2 := by rw [← Real.exp_nat_mul]; ring_nf
    have h2 : Real.exp u * Real.exp (-u) = 1 := by rw [← Real.exp_add]; simp
    have h3 : 1 + 1 * Real.exp (-(2 * u)) = 2 * Real.exp (-u) * Real.cosh u := by
      rw [h1, Real.cosh_eq]; linear_combination -h2
    rw [h3, h1]
    have := Real.exp_pos (-u)
    have := Real.cosh_pos u
    field_simp
    norm_num
  have e2 : 2 * k2 * (1 / T) = 2 * (k2 / T) := by ring
  have e4 : 2 * k4 * (1 / T) = 2 * (k4 / T) := by ring
  have hsh : Real.sinh (k2 / T) ≠ 0 := (Real.sinh_pos_iff.mpr (div_pos h2 hT)).ne'
  have hS := eS (k2 / T) hsh
  have hC := eC (k4 / T)
  rw [e2, e4]
  have r1 : k1 * ((2 * k2) ^ 2 * -1 * Real.exp (-(2 * (k2 / T))) /
      (1 + -1 * Real.exp (-(2 * (k2 / T)))) ^ 2)
      = -k1 * (2 * k2) ^ 2 * (Real.exp (-(2 * (k2 / T))) / (1 + -1 * Real.exp (-(2 * (k2 / T)))) ^ 2) := by
    ring
  have r2 : -k3 * ((2 * k4) ^ 2 * 1 * Real.exp (-(2 * (k4 / T))) /
      (1 + 1 * Real.exp (-(2 * (k4 / T)))) ^ 2)
      = -k3 * (2 * k4) ^ 2 * (Real.exp (-(2 * (k4 / T))) / (1 + 1 * Real.exp (-(2 * (k4 / T)))) ^ 2) := by
    ring
  rw [r1, r2, hS, hC]
  have := Real.cosh_pos (k4 / T)
  generalize Real.sinh (k2 / T) = sh at *
  generalize Real.cosh (k4 / T) = ch at *
  field_simp
  ring

example : ∃ g : ℝ → ℝ, (∀ T, 0 < T → convertedValue [("type", .str "IdealGasHelmholtzCP0AlyLee"),
      ("c", .arr [4, 2, 1500, 3, 700]), ("T0", .num 298)] 500 4000 8.314 T 10 = .ok (g T)) ∧
    -(1 / 400) ^ 2 * iteratedDeriv 2 (fun β => g (1 / β)) (1 / 400)
      = 4 + 2 * (1500 / 400 / Real.sinh (1500 / 400)) ^ 2 + 3 * (700 / 400 / Real.cosh (700 / 400)) ^ 2 :=
  alyLee_heat_capacity _ _ _ _ _ _ _ _ _ _ _ (by norm_num) (by norm_num) (by norm_num) (by norm_num)
    (by norm_num) (by norm_num)

/-! ## C23 -/

/-- C23. The mixture value is `Σ x_i a_i + Σ x_i ln x_i` (with `0 ln 0 = 0`), where `a_i` is the value of
component `i`; components with zero mole fraction need not even have a value. -/
theorem ideal_mixture_value (pures : List (List IdealTerm)) (x a : List ℝ) (T ρ : ℝ)
    (hx : x.length = pures.length) (ha : a.length = pures.length)
    (hv : ∀ i (h : i < pures.length), x[i]'(hx ▸ h) ≠ 0 →
      pureAlphaig pures[i] T ρ = .ok (a[i]'(ha ▸ h))) :
    idealAlphaig pures T ρ x
      = .ok ((List.zipWith (· * ·) x a).sum + (x.map fun x => x * Real.log x).sum) := by
  unfold idealAlphaig
  rw [if_neg (not_not.mpr hx)]
  induction pures generalizing x a with
  | nil =>
    have : x = [] := List.length_eq_zero_iff.mp hx
    subst this
    simp [idealLoop]
  | cons p ps ih =>
    cases x with
    | nil => simp at hx
    | cons x xs =>
      cases a with
      | nil => simp at ha
      | cons a as =>
        simp only [List.length_cons, add_left_inj] at hx ha
        have ih' := ih xs as hx ha fun i h hi => by
          have := hv (i + 1) (by simp; omega) (by simpa using hi)
          simpa using this
        unfold idealLoop
        by_cases h0 : x = 0
        · subst h0
          rw [if_neg (by simp), ih']
          simp
        · have hp := hv 0 (by simp) (by simpa using h0)
          simp only [List.getElem_cons_zero] at hp
          rw [if_pos h0, hp, Outcome.bind_ok, ih', Outcome.bind_ok]
          congr 1
          simp only [List.zipWith_cons_cons, List.sum_cons, List.map_cons]
          ring

example : idealAlphaig [[.constant 2], [.lead 1 300], [.cp0PowerT 1 (-1) 300]] 300 5 [0.25, 0.75, 0]
    = .ok ((List.zipWith (· * ·) [0.25, 0.75, 0] [2 + 0, Real.log 5 + 1 + 300 / 300 + 0, 0]).sum
        + (([0.25, 0.75, 0] : List ℝ).map fun x => x * Real.log x).sum) := by
  refine ideal_mixture_value _ _ _ _ _ rfl rfl ?_
  intro i h hx
  match i, h with
  | 0, _ => rfl
  | 1, _ => rfl
  | 2, _ => simp at hx

/-- C23/C15. A composition vector of the wrong length is refused. -/
theorem ideal_wrong_size (pures : List (List IdealTerm)) (x : List ℝ) (T ρ : ℝ)
    (h : x.length ≠ pures.length) : idealAlphaig pures T ρ x = .throws .invalidArgument := by
  unfold idealAlphaig; rw [if_pos h]

example : idealAlphaig [[.constant 2]] 300 5 [0.5, 0.5] = .throws .invalidArgument :=
  ideal_wrong_size _ _ _ _ (by simp)

/-- C23. Adding a component with mole fraction zero, at any position, changes nothing; not even if the
ideal-gas terms of that component cannot be evaluated. -/
theorem ideal_absent_component (ps₁ ps₂ : List (List IdealTerm)) (xs₁ xs₂ : List ℝ)
    (p : List IdealTerm) (T ρ : ℝ) (h₁ : xs₁.length = ps₁.length) :
    idealAlphaig (ps₁ ++ p :: ps₂) T ρ (xs₁ ++ 0 :: xs₂)
      = idealAlphaig (ps₁ ++ ps₂) T ρ (xs₁ ++ xs₂) := by
  have hl : (xs₁ ++ 0 :: xs₂).length ≠ (ps₁ ++ p :: ps₂).length ↔
      (xs₁ ++ xs₂).length ≠ (ps₁ ++ ps₂).length := by simp [h₁]
  unfold idealAlphaig
  by_cases h : (xs₁ ++ xs₂).length ≠ (ps₁ ++ ps₂).length
  · rw [if_pos h, if_pos (hl.mpr h)]
  rw [if_neg h, if_neg (mt hl.mp h)]
  clear h hl
  induction ps₁ generalizing xs₁ with
  | nil =>
    have : xs₁ = [] := List.length_eq_zero_iff.mp h₁
    subst this
    simp [idealLoop]
  | cons q ps ih =>
    cases xs₁ with
    | nil => simp at h₁
    | cons y ys =>
      have := ih ys (by simpa using h₁)
      simp only [List.cons_append, idealLoop, this]

example : idealAlphaig [[.constant 2], [.cp0PowerT 1 (-1) 300], [.lead 1 300]] 300 5 [0.25, 0, 0.75]
    = idealAlphaig [[.constant 2], [.lead 1 300]] 300 5 [0.25, 0.75] :=
  ideal_absent_component [[.constant 2]] [[.lead 1 300]] [0.25] [0.75] [.cp0PowerT 1 (-1) 300] 300 5 rfl

/-- C23. The order of the components is irrelevant: if one order gives a value, every simultaneous
permutation of components and mole fractions gives the same value. -/
theorem ideal_permutation (l l' : List (List IdealTerm × ℝ)) (hl : l.Perm l') (T ρ v : ℝ)
    (h : idealAlphaig (l.map (·.1)) T ρ (l.map (·.2)) = .ok v) :
    idealAlphaig (l'.map (·.1)) T ρ (l'.map (·.2)) = .ok v := by
  unfold idealAlphaig at h ⊢
  rw [if_neg (by simp)] at h ⊢
  induction hl generalizing v with
  | nil => exact h
  | cons q _ ih =>
    rename_i l₁ l₂ _
    simp only [List.map_cons, idealLoop] at h ⊢
    by_cases hq : q.2 = 0
    · rw [if_neg (not_not.mpr hq)] at h ⊢
      exact ih v h
    · rw [if_pos hq] at h ⊢
      cases ha : pureAlphaig q.1 T ρ with
      | ok a =>
        rw [ha] at h
        simp only [Outcome.bind_ok] at h ⊢
        cases hb : idealLoop (l₁.map (·.1)) (l₁.map (·.2)) T ρ with
        | ok b => rw [hb] at h; rw [ih b hb]; exact h
        | throws e => rw [hb] at h; simp at h
        | ub => rw [hb] at h; simp at h
        | nonFinite => rw [hb] at h; simp at h
      | throws e => rw [ha] at h; simp at h
      | ub => rw [ha] at h; simp at h
      | nonFinite => rw [ha] at h; simp at h
  | swap q r l =>
    simp only [List.map_cons, idealLoop] at h ⊢
    revert h
    generalize idealLoop (l.map (·.1)) (l.map (·.2)) T ρ = X
    generalize pureAlphaig q.1 T ρ = A
    generalize pureAlphaig r.1 T ρ = B
    intro h
    by_cases hq : q.2 = 0 <;> by_cases hr : r.2 = 0 <;>
      simp only [hq, hr, ne_eq, not_true_eq_false, not_false_eq_true, if_true, if_false] at h ⊢ <;>
      first
      | exact h
      | (cases A <;> cases B <;> cases X <;> simp at h ⊢; rw [← h]; ring)
  | trans _ _ ih₁ ih₂ => exact ih₂ v (ih₁ v h)

example (v : ℝ) (h : idealAlphaig [[.constant 2], [.lead 1 300]] 300 5 [0.25, 0.75] = .ok v) :
    idealAlphaig [[.lead 1 300], [.constant 2]] 300 5 [0.75, 0.25] = .ok v :=
  ideal_permutation [([.constant 2], 0.25), ([.lead 1 300], 0.75)]
    [([.lead 1 300], 0.75), ([.constant 2], 0.25)] (List.Perm.swap _ _ _) 300 5 v h

/-- C23. As the mole fraction of a component goes to zero, the mixture value tends to the value of the
mixture without it. -/
theorem ideal_dilute_limit (p : List IdealTerm) (ps : List (List IdealTerm)) (xs : List ℝ)
    (T ρ a v : ℝ) (hp : pureAlphaig p T ρ = .ok a) (hv : idealAlphaig ps T ρ xs = .ok v) :
    ∃ g : ℝ → ℝ, (∀ x, idealAlphaig (p :: ps) T ρ (x :: xs) = .ok (g x)) ∧
      Filter.Tendsto g (nhds 0) (nhds v) := by
  unfold idealAlphaig at hv
  split at hv
  · simp at hv
  rename_i hlen
  refine ⟨fun x => x * (a + Real.log x) + v, fun x => ?_, ?_⟩
  · unfold idealAlphaig
    rw [if_neg (by simpa using hlen), idealLoop, hp, hv]
    by_cases hx : x = 0
    · simp [hx]
    · simp [hx]
  · have h1 : Filter.Tendsto (fun x : ℝ => x * a + x * Real.log x + v) (nhds 0)
        (nhds (0 * a + 0 * Real.log 0 + v)) :=
      (((continuous_id.mul continuous_const).add Real.continuous_mul_log).add continuous_const).tendsto 0
    have e : (fun x : ℝ => x * (a + Real.log x) + v) = fun x => x * a + x * Real.log x + v := by
      funext x; ring
    rw [e]
    simpa using h1

example : ∃ g : ℝ → ℝ, (∀ x, idealAlphaig [[.constant 2], [.lead 1 300]] 300 5 [x, 1] = .ok (g x)) ∧
    Filter.Tendsto g (nhds 0) (nhds (1 * (Real.log 5 + 1 + 300 / 300 + 0 + Real.log 1) + 0)) := by
  refine ideal_dilute_limit [.constant 2] [[.lead 1 300]] [1] 300 5 (2 + 0) _ rfl ?_
  unfold idealAlphaig
  rw [if_neg (by simp), idealLoop, if_pos one_ne_zero]
  rfl

end Teqp.Props
