import Verif.Model.LJThol
import Verif.Spec.LJThol
import Verif.Lemmas.ExpEnclosure
import Verif.Lemmas.Outcome
import Verif.Props.PowerSplit
import Verif.Props.MultiFluid

/-! # The Lennard-Jones fluid of Thol et al.: the built model, zero density and the critical point -/

set_option autoImplicit false

namespace Teqp.Props
open Model Spec Lemmas

/-! ## The built model -/

theorem listed_rows {α : Type} (rows : List α) (f : ℕ → ℝ) (g : α → ℝ) (h : ∀ i (hi : i < rows.length), f i = g rows[i]) :
    listed rows.length f = (rows.map g).sum := by
  unfold listed
  congr 1
  apply List.ext_getElem
  · simp
  · intro i h1 h2
    simp only [List.length_map, List.length_range] at h1
    simp [h i h1]

theorem getD_rows {α : Type} (rows : List α) (g : α → ℝ) (i : ℕ) (hi : i < rows.length) : (rows.map g).getD i 0 = g rows[i] := by
  simp [List.getElem?_eq_getElem hi]

theorem ljt_power_arrays : HasArrays ljtPower powerKeys (arrays ljtPower) := by
  unfold HasArrays powerKeys
  simp only [List.forall_mem_cons, List.not_mem_nil, false_imp_iff, implies_true, and_true]
  exact ⟨rfl, rfl, rfl, rfl⟩

theorem ljt_gauss_arrays : HasArrays ljtGauss gaussKeys (arrays ljtGauss) := by
  unfold HasArrays gaussKeys
  simp only [List.forall_mem_cons, List.not_mem_nil, false_imp_iff, implies_true, and_true]
  exact ⟨rfl, rfl, rfl, rfl, rfl, rfl, rfl⟩

theorem ratCol {α : Type} (l : List ℚ) (rows : List α) (g : α → ℚ) (h : l = rows.map g) :
    l.map (fun q : ℚ => (q : ℝ)) = rows.map fun r => (g r : ℝ) := by
  rw [h, List.map_map]; rfl

/-- The arrays of the document are the columns of the published table. -/
theorem ljt_power_columns : arrays ljtPower "n" = ljtRows.map (fun r => (r.n : ℝ)) ∧ arrays ljtPower "t" = ljtRows.map (fun r => (r.t : ℝ)) ∧
    arrays ljtPower "d" = ljtRows.map (fun r => (r.d : ℝ)) ∧ arrays ljtPower "l" = ljtRows.map (fun r => (r.l : ℝ)) := by
  refine ⟨ratCol ljtPn ljtRows (·.n) (by decide +kernel), ratCol ljtPt ljtRows (·.t) (by decide +kernel), ?_, ?_⟩
  · have := ratCol ljtPd ljtRows (fun r => (r.d : ℚ)) (by decide +kernel)
    exact this.trans (by simp)
  · have := ratCol ljtPl ljtRows (fun r => (r.l : ℚ)) (by decide +kernel)
    exact this.trans (by simp)

theorem ljt_gauss_columns : arrays ljtGauss "n" = ljtGaussRows.map (fun r => (r.n : ℝ)) ∧ arrays ljtGauss "t" = ljtGaussRows.map (fun r => (r.t : ℝ)) ∧
    arrays ljtGauss "d" = ljtGaussRows.map (fun r => (r.d : ℝ)) ∧ arrays ljtGauss "eta" = ljtGaussRows.map (fun r => (r.eta : ℝ)) ∧
    arrays ljtGauss "beta" = ljtGaussRows.map (fun r => (r.beta : ℝ)) ∧ arrays ljtGauss "gamma" = ljtGaussRows.map (fun r => (r.gamma : ℝ)) ∧
    arrays ljtGauss "epsilon" = ljtGaussRows.map (fun r => (r.epsilon : ℝ)) := by
  refine ⟨ratCol ljtGn ljtGaussRows (·.n) (by decide +kernel), ratCol ljtGt ljtGaussRows (·.t) (by decide +kernel), ?_,
    ratCol ljtGeta ljtGaussRows (·.eta) (by decide +kernel), ratCol ljtGbeta ljtGaussRows (·.beta) (by decide +kernel),
    ratCol ljtGgamma ljtGaussRows (·.gamma) (by decide +kernel), ratCol ljtGepsilon ljtGaussRows (·.epsilon) (by decide +kernel)⟩
  have := ratCol ljtGd ljtGaussRows (fun r => (r.d : ℚ)) (by decide +kernel)
  exact this.trans (by simp)

theorem ljt_zeros_first : (ljtRows.map (·.l)).Pairwise fun a b => b = 0 → a = 0 := by decide +kernel

/-- The power part: accepted, and the sum of rows 1 to 12. -/
theorem ljt_power_built : ∃ ts, buildPowerPure ljtPower = .ok ts ∧ (∀ τ δ, 0 < τ → 0 < δ → containerAlphar ts τ δ =
      (ljtRows.map fun r => (r.n : ℝ) * δ ^ r.d * τ ^ (r.t : ℝ) * (if r.l = 0 then 1 else Real.exp (-δ ^ r.l))).sum) ∧
    ∀ τ, 0 < τ → containerAlphar ts τ 0 = 0 := by
  obtain ⟨cn, ct, cd, cl⟩ := ljt_power_columns
  have hlen : ∀ k ∈ powerKeys, (arrays ljtPower k).length = (arrays ljtPower "n").length := by
    unfold powerKeys
    simp only [List.forall_mem_cons, List.not_mem_nil, false_imp_iff, implies_true, and_true]
    rw [cn, ct, cd, cl]
    simp
  have hne : arrays ljtPower "n" ≠ [] := by rw [cn]; simp [ljtRows]
  obtain ⟨ts, hts⟩ := (pure_power_accepts _ _ ljt_power_arrays hne hlen).1 (by
    rw [cl]
    intro x hx
    obtain ⟨r, _, rfl⟩ := List.mem_map.1 hx
    exact ⟨r.l, by simp⟩)
  refine ⟨ts, hts, fun τ δ hτ hδ => ?_, fun τ hτ => ?_⟩
  · rw [pure_power_partial _ _ ljt_power_arrays hne ?_ hlen ?_ ts hts τ δ hτ hδ]
    · rw [cn, List.length_map]
      refine listed_rows ljtRows _ _ fun i hi => ?_
      simp only [ent, cn, ct, cd, cl]
      rw [getD_rows _ _ _ hi, getD_rows _ _ _ hi, getD_rows _ _ _ hi, getD_rows _ _ _ hi]
      unfold powerSummand expSummand polySummand
      rcases Nat.eq_zero_or_pos ljtRows[i].l with h0 | h0
      · rw [h0]; simp
      · rw [if_pos (by exact_mod_cast h0), if_neg (by omega)]
        simp [Real.rpow_natCast]
    · rw [cl]
      intro x hx
      obtain ⟨r, _, rfl⟩ := List.mem_map.1 hx
      positivity
    · intro _
      rw [cl]
      unfold ZerosFirst
      rw [List.pairwise_map]
      have := ljt_zeros_first
      rw [List.pairwise_map] at this
      exact this.imp fun h h0 => by exact_mod_cast h (by exact_mod_cast h0)
  · rw [buildPowerPure_eq _ _ ljt_power_arrays hne hlen] at hts
    simp only at hts
    have hd : ∀ e ∈ powerEntries (arrays ljtPower "n").length (arrays ljtPower "n") (arrays ljtPower "t") (arrays ljtPower "d") (arrays ljtPower "l"),
        ∃ k : ℕ, e.d = ((k + 1 : ℕ) : ℝ) := by
      intro e he
      unfold powerEntries at he
      obtain ⟨i, hi, rfl⟩ := List.mem_map.1 he
      have hi' : i < ljtRows.length := by rw [cn] at hi; simpa using hi
      simp only [cd]
      rw [getD_rows _ _ _ hi']
      have hp : ∀ r ∈ ljtRows.map (·.d), 0 < r := by decide +kernel
      have := hp ljtRows[i].d (List.mem_map.2 ⟨_, List.getElem_mem hi', rfl⟩)
      exact ⟨ljtRows[i].d - 1, by rw [Nat.sub_add_cancel this]⟩
    generalize powerEntries (arrays ljtPower "n").length (arrays ljtPower "n") (arrays ljtPower "t") (arrays ljtPower "d") (arrays ljtPower "l") = es at hts hd
    have hpol : ∀ l : List PowerEntry, (∀ e ∈ l, e ∈ es) → (ResTerm.justPower (l.map PowerEntry.toPoly)).alphar τ 0 = 0 := by
      intro l hl
      unfold ResTerm.alphar ResTerm.zeroBranch
      rw [if_pos rfl]
      refine List.sum_eq_zero fun y hy => ?_
      obtain ⟨x, hx, rfl⟩ := List.mem_map.1 hy
      obtain ⟨e, he, rfl⟩ := List.mem_map.1 hx
      obtain ⟨k, hk⟩ := hd e (hl e he)
      unfold PolyC.zero PowerEntry.toPoly
      simp only [hk]
      rw [castInt_natCast, powiV_nat, Real.rpow_natCast, zero_pow (by omega), mul_zero]
    have hpow : ∀ l : List PowerEntry, (∀ e ∈ l, e ∈ es) → (ResTerm.power (l.map PowerEntry.toPow)).alphar τ 0 = 0 := by
      intro l hl
      unfold ResTerm.alphar ResTerm.zeroBranch
      rw [if_pos rfl]
      refine List.sum_eq_zero fun y hy => ?_
      obtain ⟨x, hx, rfl⟩ := List.mem_map.1 hy
      obtain ⟨e, he, rfl⟩ := List.mem_map.1 hx
      obtain ⟨k, hk⟩ := hd e (hl e he)
      unfold PowC.zero PowerEntry.toPow
      simp only [hk]
      rw [castInt_natCast, powiV_nat, Real.rpow_natCast, zero_pow (by omega), mul_zero]
    unfold splitPower at hts
    split at hts
    · cases hts
    split at hts
    · obtain rfl := Outcome.ok.inj hts
      simp [containerAlphar, hpol es fun e he => he]
    split at hts
    · obtain rfl := Outcome.ok.inj hts
      simp only [containerAlphar, List.map_cons, List.map_nil, List.sum_cons, List.sum_nil]
      rw [hpol _ fun e he => List.mem_of_mem_take he, hpow _ fun e he => List.mem_of_mem_drop he]
      simp
    · obtain rfl := Outcome.ok.inj hts
      simp [containerAlphar, hpow es fun e he => he]

/-- The Gaussian part: accepted, and the sum of rows 13 to 23. -/
theorem ljt_gauss_built : ∃ ts, buildGaussian ljtGauss = .ok ts ∧ (∀ τ δ, 0 < τ → 0 < δ → containerAlphar ts τ δ =
      (ljtGaussRows.map fun r => (r.n : ℝ) * δ ^ r.d * τ ^ (r.t : ℝ) * Real.exp (-r.eta * (δ - r.epsilon) ^ 2 - r.beta * (τ - r.gamma) ^ 2)).sum) ∧
    ∀ τ, 0 < τ → containerAlphar ts τ 0 = 0 := by
  obtain ⟨cn, ct, cd, c1, c2, c3, c4⟩ := ljt_gauss_columns
  have h := gaussian_document _ _ ljt_gauss_arrays
  unfold ReadsAs at h
  rw [if_pos (by
    simp only [List.forall_mem_cons, List.not_mem_nil, false_imp_iff, implies_true, and_true]
    rw [cn, ct, cd, c1, c2, c3, c4]
    simp)] at h
  obtain ⟨ts, hts, hv⟩ := h
  refine ⟨ts, hts, fun τ δ hτ hδ => ?_, fun τ hτ => ?_⟩
  · rw [hv τ δ hτ hδ]
    rw [cn, List.length_map]
    refine listed_rows ljtGaussRows _ _ fun i hi => ?_
    simp only [ent, cn, ct, cd, c1, c2, c3, c4]
    rw [getD_rows _ _ _ hi, getD_rows _ _ _ hi, getD_rows _ _ _ hi, getD_rows _ _ _ hi, getD_rows _ _ _ hi, getD_rows _ _ _ hi, getD_rows _ _ _ hi]
    unfold gaussSummand
    rw [Real.rpow_natCast, neg_mul]
  · unfold buildGaussian at hts
    rw [ljt_gauss_arrays "n" (by simp [gaussKeys]), ljt_gauss_arrays "t" (by simp [gaussKeys]), ljt_gauss_arrays "d" (by simp [gaussKeys]),
      ljt_gauss_arrays "eta" (by simp [gaussKeys]), ljt_gauss_arrays "beta" (by simp [gaussKeys]), ljt_gauss_arrays "gamma" (by simp [gaussKeys]),
      ljt_gauss_arrays "epsilon" (by simp [gaussKeys])] at hts
    simp only [Outcome.bind_ok] at hts
    obtain ⟨same, -, hts⟩ := Outcome.bind_eq_ok.1 hts
    split at hts
    · cases hts
    obtain rfl := Outcome.ok.inj hts
    simp only [containerAlphar, List.map_cons, List.map_nil, List.sum_cons, List.sum_nil, add_zero]
    unfold ResTerm.alphar ResTerm.zeroBranch
    rw [if_pos rfl]
    refine List.sum_eq_zero fun y hy => ?_
    obtain ⟨x, hx, rfl⟩ := List.mem_map.1 hy
    unfold gaussEntries at hx
    obtain ⟨i, hi, rfl⟩ := List.mem_map.1 hx
    have hi' : i < ljtGaussRows.length := by rw [cn] at hi; simpa using hi
    have hp : ∀ r ∈ ljtGaussRows.map (·.d), 0 < r := by decide +kernel
    have := hp ljtGaussRows[i].d (List.mem_map.2 ⟨_, List.getElem_mem hi', rfl⟩)
    unfold GaussC.zero
    simp only [cd]
    rw [getD_rows _ _ _ hi', castInt_natCast, powiV_nat, Real.rpow_natCast, zero_pow (by omega), mul_zero]

theorem container_append (a b : List ResTerm) (τ δ : ℝ) : containerAlphar (a ++ b) τ δ = containerAlphar a τ δ + containerAlphar b τ δ := by
  simp [containerAlphar]

/-- C134. **The built model is the published equation**: the document is accepted, the gas constant is one, and at all
positive temperatures and densities the residual Helmholtz energy is the published sum with reducing state
`T = 1.32`, `rho = 0.31`; it vanishes at zero density. -/
theorem ljt_value : ∃ m, ljtBuild = .ok m ∧ (∀ Rco, m.R Rco (fun _ => 1) = 1) ∧
    (∀ T rho, 0 < T → 0 < rho → m.alphar T rho (fun _ => 1) = ljtSum (1.32 / T) (rho / 0.31)) ∧
    ∀ T, 0 < T → m.alphar T 0 (fun _ => 1) = 0 := by
  obtain ⟨t1, h1, v1, z1⟩ := ljt_power_built
  obtain ⟨t2, h2, v2, z2⟩ := ljt_gauss_built
  have hE : getEOSTerms [ljtPower, ljtGauss] = .ok (t1 ++ t2) := by
    unfold getEOSTerms
    rw [if_neg (by simp)]
    have c1 : checkTypes [ljtPower, ljtGauss] = .ok () := by
      have p1 : JObj.type ljtPower = .ok "ResidualHelmholtzPower" := rfl
      have p2 : JObj.type ljtGauss = .ok "ResidualHelmholtzGaussian" := rfl
      simp [checkTypes, p1, p2, allowedTypes]
    have b1 : buildTerm ljtPower = .ok t1 := by rw [← h1]; rfl
    have b2 : buildTerm ljtGauss = .ok t2 := by
      rw [← h2]
      have p2 : JObj.type ljtGauss = .ok "ResidualHelmholtzGaussian" := rfl
      unfold buildTerm
      rw [p2]
      simp
    rw [c1]
    simp [buildTerms, b1, b2]
  have hs : selectIdentifier [] {} (collectIdentifiers [ljtInfo]) = .ok "CAS" := rfl
  have hb : ljtBuild = buildMixture (fun _ => ⟨"N/A", 1.32, 1 / 0.31, 1, t1 ++ t2⟩) [] [] {} false := by
    unfold ljtBuild
    rw [hE, Outcome.bind_ok, hs, Outcome.bind_ok]
    rfl
  obtain ⟨m, hm⟩ := build_ok (fun _ : Fin 1 => (⟨"N/A", 1.32, 1 / 0.31, 1, t1 ++ t2⟩ : PureData)) [] [] {} false
    (fun i j hij => absurd hij (by omega))
  have hp := mixture_pure (fun _ : Fin 1 => (⟨"N/A", 1.32, 1 / 0.31, 1, t1 ++ t2⟩ : PureData)) [] [] {} false m
    (fun i j hij => absurd (Subsingleton.elim i j) hij) hm 0
  have hz : (Pi.single 0 1 : Fin 1 → ℝ) = fun _ => 1 := by funext i; fin_cases i; simp
  rw [hz] at hp
  refine ⟨m, hb.trans hm, fun Rco => ?_, fun T rho hT hr => ?_, fun T hT => ?_⟩
  · simpa using (hp 1 1 Rco).2
  · rw [(hp T rho 0).1, container_append, v1 _ _ (by positivity) (by positivity), v2 _ _ (by positivity) (by positivity)]
    simp only [mul_one_div]
    rfl
  · rw [(hp T 0 0).1, container_append, zero_mul, z1 _ (by positivity), z2 _ (by positivity), add_zero]

example : ∃ m, ljtBuild = .ok m ∧ m.alphar 1.32 0.31 (fun _ => 1) = ljtSum 1 1 := by
  obtain ⟨m, hm, -, hv, -⟩ := ljt_value
  refine ⟨m, hm, ?_⟩
  rw [hv _ _ (by norm_num) (by norm_num)]
  norm_num

/-! ## The critical point -/

/-- The terms at `tau = 1`. -/
def ljtQE : QE :=
  (ljtRows.map fun r => ⟨r.n, r.d, 0, if r.l = 1 then -1 else 0, if r.l = 2 then -1 else 0⟩) ++
  ljtGaussRows.map fun r => ⟨r.n, r.d, -r.eta * r.epsilon ^ 2 - r.beta * (1 - r.gamma) ^ 2, 2 * r.eta * r.epsilon, -r.eta⟩

theorem ljt_qe (x : ℝ) : ljtSum 1 x = QE.eval ljtQE x := by
  unfold ljtSum QE.eval ljtQE
  rw [List.map_append, List.sum_append, List.map_map, List.map_map]
  have hl : ∀ l ∈ ljtRows.map (·.l), l = 0 ∨ l = 1 ∨ l = 2 := by decide +kernel
  congr 1
  · congr 1
    refine List.map_congr_left fun r hr => ?_
    simp only [Function.comp, QTerm.eval, Real.one_rpow, mul_one]
    rcases hl r.l (List.mem_map.2 ⟨r, hr, rfl⟩) with h | h | h <;> simp [h]
  · congr 1
    refine List.map_congr_left fun r hr => ?_
    simp only [Function.comp, QTerm.eval, Real.one_rpow, mul_one]
    congr 2
    push_cast
    ring

/-- Enclosures of the exponentials that occur at `tau = delta = 1`. -/
def ljtExp : ExpTable := [
  (0, 100000000000000 / 10 ^ 14, 1 / 10 ^ 13),
  (-1, 36787944117144 / 10 ^ 14, 1 / 10 ^ 13),
  (-(135797240203 / 100000000000), 25718170976657 / 10 ^ 14, 1 / 10 ^ 13),
  (-(272055241 / 500000000), 58035779250898 / 10 ^ 14, 1 / 10 ^ 13),
  (-(1216519 / 250000), 770353472701 / 10 ^ 14, 1 / 10 ^ 13),
  (-(53452149 / 500000000), 89861166780913 / 10 ^ 14, 1 / 10 ^ 13),
  (-(504332339 / 1000000000), 60390864710568 / 10 ^ 14, 1 / 10 ^ 13),
  (-(108352643 / 250000000), 64829426568297 / 10 ^ 14, 1 / 10 ^ 13),
  (-(10660513 / 2000000), 484282766763 / 10 ^ 14, 1 / 10 ^ 13),
  (-(543947181 / 1000000000), 58045257325554 / 10 ^ 14, 1 / 10 ^ 13),
  (-(874339 / 78125), 1379038152 / 10 ^ 14, 1 / 10 ^ 13),
  (-(1423440033 / 1000000000), 24088394126471 / 10 ^ 14, 1 / 10 ^ 13),
  (-(4363881 / 2500000), 17454854171609 / 10 ^ 14, 1 / 10 ^ 13)]

theorem ljtExp_valid : ExpTable.Valid ljtExp := ExpTable.check_spec _ 4 16 (by decide +kernel)

/-- The pressure on the critical isotherm, `rho R T (1 + rho d(alphar)/d(rho))`. -/
noncomputable def ljtPressure (m : MultiFluid 1) (rho : ℝ) : ℝ :=
  rho * m.R 0 (fun _ => 1) * 1.32 * (1 + rho * deriv (fun r => m.alphar 1.32 r (fun _ => 1)) rho)

/-- C134. **The critical point**: at `T = 1.32`, `rho = 0.31` the pressure is the published 0.13006, and its first two
density derivatives vanish to the accuracy of the coefficients. -/
theorem ljt_critical : ∃ m, ljtBuild = .ok m ∧ |ljtPressure m 0.31 - 0.13006| ≤ 1e-6 ∧ |deriv (ljtPressure m) 0.31| ≤ 1e-6 ∧
    |deriv (deriv (ljtPressure m)) 0.31| ≤ 2e-4 := by
  obtain ⟨m, hm, hR, hv, -⟩ := ljt_value
  refine ⟨m, hm, ?_⟩
  have hpos : ∀ x : ℝ, 0 < x → ∀ᶠ y in nhds x, 0 < y := fun x hx => lt_mem_nhds hx
  set f : ℝ → ℝ := fun x => x * (1 + x * deriv (ljtSum 1) x) with hf
  have ha : ∀ r, 0 < r → deriv (fun r => m.alphar 1.32 r (fun _ => 1)) r = 1 / 0.31 * deriv (ljtSum 1) (r / 0.31) := fun r hr => by
    have e : (fun r => m.alphar 1.32 r (fun _ => 1)) =ᶠ[nhds r] fun r => ljtSum 1 (r / 0.31) :=
      (hpos r hr).mono fun y hy => by simp only; rw [hv _ _ (by norm_num) hy]; norm_num
    rw [e.deriv_eq]
    have hd : HasDerivAt (ljtSum 1) (deriv (ljtSum 1) (r / 0.31)) (r / 0.31) := by
      have : ljtSum 1 = QE.eval ljtQE := funext ljt_qe
      rw [this]
      exact (QE.hasDerivAt _ _).differentiableAt.hasDerivAt
    have := hd.comp r ((hasDerivAt_id r).div_const 0.31)
    rw [show (fun r => ljtSum 1 (r / 0.31)) = ljtSum 1 ∘ fun r => id r / 0.31 from rfl, this.deriv, mul_comm]
  have hp : ∀ r, 0 < r → ljtPressure m r = 1.32 * 0.31 * f (r / 0.31) := fun r hr => by
    unfold ljtPressure
    rw [ha r hr, hR, hf]
    ring
  have hL : ∀ x, 0 < x → ljtSum 1 x = QE.eval ljtQE x := fun x _ => ljt_qe x
  obtain ⟨i0, i1, i2⟩ := QE.isotherm ljtQE (ljtSum 1) hL
  have hfd : ∀ x, 0 < x → HasDerivAt f (1 + QE.eval (QE.D (QE.sq (QE.D ljtQE))) x) x := fun x hx => by
    have e : ∀ y, f y = y + QE.eval (QE.sq (QE.D ljtQE)) y := fun y => by
      have : deriv (ljtSum 1) y = QE.eval (QE.D ljtQE) y := by
        rw [show ljtSum 1 = QE.eval ljtQE from funext ljt_qe]; exact (QE.hasDerivAt _ _).deriv
      rw [hf]; simp only; rw [this, QE.eval_sq]; ring
    rw [funext e]
    exact (hasDerivAt_id x).add (QE.hasDerivAt _ x)
  have hd1 : ∀ r, 0 < r → deriv (ljtPressure m) r = 1.32 * (1 + QE.eval (QE.D (QE.sq (QE.D ljtQE))) (r / 0.31)) := fun r hr => by
    have e : ljtPressure m =ᶠ[nhds r] fun r => 1.32 * 0.31 * f (r / 0.31) := (hpos r hr).mono fun y hy => hp y hy
    rw [e.deriv_eq]
    have := ((hfd (r / 0.31) (by positivity)).comp r ((hasDerivAt_id r).div_const 0.31)).const_mul (1.32 * 0.31 : ℝ)
    refine this.deriv.trans ?_
    ring
  have hd2 : deriv (deriv (ljtPressure m)) 0.31 = 1.32 / 0.31 * QE.eval (QE.D (QE.D (QE.sq (QE.D ljtQE)))) 1 := by
    have e : deriv (ljtPressure m) =ᶠ[nhds 0.31] fun r => 1.32 * (1 + QE.eval (QE.D (QE.sq (QE.D ljtQE))) (r / 0.31)) :=
      (hpos 0.31 (by norm_num)).mono fun y hy => hd1 y hy
    rw [e.deriv_eq]
    have hc : HasDerivAt (fun r : ℝ => r / 0.31) (1 / 0.31) 0.31 := (hasDerivAt_id (0.31 : ℝ)).div_const 0.31
    have := ((HasDerivAt.comp (h := fun r : ℝ => r / 0.31) (0.31 : ℝ) (QE.hasDerivAt (QE.D (QE.sq (QE.D ljtQE))) (0.31 / 0.31)) hc).const_add 1).const_mul (1.32 : ℝ)
    refine this.deriv.trans ?_
    norm_num
    ring
  have b0 := QE.near_spec _ ljtExp_valid (QE.D ljtQE) (1 - 0.13006 / (1.32 * 0.31)) 1e-6 (by decide +kernel)
  have b1 := QE.near_spec _ ljtExp_valid (QE.D (QE.sq (QE.D ljtQE))) 1 1e-7 (by decide +kernel)
  have b2 := QE.near_spec _ ljtExp_valid (QE.D (QE.D (QE.sq (QE.D ljtQE)))) 0 3e-5 (by decide +kernel)
  rw [hp 0.31 (by norm_num), hd1 0.31 (by norm_num), hd2, show (0.31 : ℝ) / 0.31 = 1 by norm_num]
  have hf1 : f 1 = 1 + QE.eval (QE.D ljtQE) 1 := by rw [hf]; simpa using i0
  rw [hf1]
  push_cast at b0 b1 b2
  rw [zero_add] at b2
  rw [abs_le] at b0 b1 b2
  norm_num at b0 b1 b2
  simp only [abs_le]
  refine ⟨⟨?_, ?_⟩, ⟨?_, ?_⟩, ?_, ?_⟩ <;> norm_num <;> linarith [b0.1, b0.2, b1.1, b1.2, b2.1, b2.2]

example : ∃ m, ljtBuild = .ok m ∧ 0.13 < ljtPressure m 0.31 := by
  obtain ⟨m, hm, h, -⟩ := ljt_critical
  refine ⟨m, hm, ?_⟩
  rw [abs_le] at h
  norm_num at h ⊢
  linarith [h.1]

end Teqp.Props
