import Verif.Props.AssocAlphar
import Verif.Model.CPA
import Mathlib.Analysis.SpecialFunctions.Log.Deriv
import Mathlib.Analysis.Calculus.Deriv.Inv
import Mathlib.Analysis.Calculus.Deriv.Mul
import Mathlib.Tactic.FieldSimp
import Mathlib.Tactic.Linarith

/-! # C59, C77: cubic plus association -/

set_option autoImplicit false

namespace Teqp.Spec
open Teqp.Model

/-- Which sites bond in the association schemes of Huang and Radosz: in 1A the site bonds with itself, in 2B the
two sites bond with each other, in 3B the sites A and B bond with C, in 4C the sites A and B bond with C and D. -/
def schemeBonds : AssocClass → ℕ → ℕ → Bool
  | .a1A, i, j => i == 0 && j == 0
  | .a2B, i, j => i != j
  | .a3B, i, j => (decide (i < 2)) != (decide (j < 2))
  | .a4C, i, j => (decide (i < 2)) != (decide (j < 2))
  | _, _, _ => false

end Teqp.Spec

namespace Teqp.Props
open Teqp.Model Teqp.Spec Teqp.Lemmas Finset

/-- The positive root of `m X² + X = 1`. -/
theorem cpaRoot_simple (m : ℝ) (hm : 0 < m) :
    ∃ X, cpaRoot (-1) (1 + 4 * m) (2 * m) = .ok X ∧ 0 < X ∧ X ≤ 1 ∧ X * (1 + m * X) = 1 := by
  unfold cpaRoot
  rw [if_neg (by rintro (h | h) <;> linarith)]
  have h2 : Real.sqrt (1 + 4 * m) ^ 2 = 1 + 4 * m := Real.sq_sqrt (by linarith)
  have h1 : 1 < Real.sqrt (1 + 4 * m) := by
    rw [Real.lt_sqrt (by norm_num)]; linarith
  set r := Real.sqrt (1 + 4 * m)
  have hpos : 0 < (-1 + r) / (2 * m) := div_pos (by linarith) (by linarith)
  have heq : (-1 + r) / (2 * m) * (1 + m * ((-1 + r) / (2 * m))) = 1 := by
    field_simp
    nlinarith
  refine ⟨_, rfl, hpos, ?_, heq⟩
  have : 0 ≤ (-1 + r) / (2 * m) * (m * ((-1 + r) / (2 * m))) := by positivity
  nlinarith

/-- The root for the scheme 3B. -/
theorem cpaRoot_3B (m : ℝ) (hm : 0 < m) :
    ∃ X, cpaRoot (-(1 - m)) ((1 + m) * (1 + m) + 4 * m) (4 * m) = .ok X ∧ 1/2 < X ∧ X ≤ 1 ∧
      X * (1 + m * (2 * X - 1)) = 1 := by
  unfold cpaRoot
  have hr0 : 0 < (1 + m) * (1 + m) + 4 * m := by positivity
  rw [if_neg (by rintro (h | h) <;> linarith)]
  have h2 : Real.sqrt ((1 + m) * (1 + m) + 4 * m) ^ 2 = (1 + m) * (1 + m) + 4 * m := Real.sq_sqrt hr0.le
  have h1 : 1 + m < Real.sqrt ((1 + m) * (1 + m) + 4 * m) := by
    rw [Real.lt_sqrt (by linarith)]; nlinarith
  set r := Real.sqrt ((1 + m) * (1 + m) + 4 * m)
  have hgt : 1/2 < (-(1 - m) + r) / (4 * m) := by
    rw [lt_div_iff₀ (by linarith)]; linarith
  have heq : (-(1 - m) + r) / (4 * m) * (1 + m * (2 * ((-(1 - m) + r) / (4 * m)) - 1)) = 1 := by
    field_simp
    nlinarith
  refine ⟨_, rfl, hgt, ?_, heq⟩
  set X := (-(1 - m) + r) / (4 * m)
  have h3 : 0 ≤ X * (m * (2 * X - 1)) := mul_nonneg (by linarith) (mul_nonneg hm.le (by linarith))
  nlinarith

/-- For each scheme the closed forms are the unique solution of the law of mass action of that scheme. -/
theorem cpa_massAction (c : AssocClass) (N : ℕ) (hN : cpaSites c = .ok N) (d : RadialDist) (eps beta b RT rho Δ : ℝ)
    (hΔ : cpaDelta d eps beta b RT rho = .ok Δ) (h : 0 < rho * Δ) :
    ∃ X : Fin N → ℝ, xaPure N c d eps beta b RT rho = .ok (List.ofFn X) ∧ (∀ i, X i ≤ 1) ∧
      MassAction (fun i j => if schemeBonds c i j then rho * Δ else 0) X ∧
      ∀ Z, MassAction (fun i j : Fin N => if schemeBonds c i j then rho * Δ else 0) Z → Z = X := by
  have huniq : ∀ X : Fin N → ℝ, MassAction (fun i j => if schemeBonds c i j then rho * Δ else 0) X →
      ∀ Z, MassAction (fun i j : Fin N => if schemeBonds c i j then rho * Δ else 0) Z → Z = X := by
    intro X hX Z hZ
    obtain ⟨Y, -, -, hY⟩ := massAction_exists_unique (n := N) (fun i j => if schemeBonds c i j then rho * Δ else 0)
      (fun i j => by split <;> linarith)
    rw [hY X hX, hY Z hZ]
  suffices ∃ X : Fin N → ℝ, xaPure N c d eps beta b RT rho = .ok (List.ofFn X) ∧ (∀ i, X i ≤ 1) ∧
      MassAction (fun i j => if schemeBonds c i j then rho * Δ else 0) X by
    obtain ⟨X, h1, h2, h3⟩ := this
    exact ⟨X, h1, h2, h3, huniq X h3⟩
  clear huniq
  unfold xaPure
  rw [hΔ, Outcome.bind_ok]
  have e4 : 1 + 4 * rho * Δ = 1 + 4 * (rho * Δ) := by ring
  have e8 : 1 + 8 * rho * Δ = 1 + 4 * (2 * (rho * Δ)) := by ring
  have f2 : 2 * rho * Δ = 2 * (rho * Δ) := by ring
  have f4 : 4 * rho * Δ = 2 * (2 * (rho * Δ)) := by ring
  have g4 : 4 * rho * Δ = 4 * (rho * Δ) := by ring
  cases c with
  | notSet => cases hN
  | notAssociating => cases hN
  | a1A =>
    cases hN
    obtain ⟨X, hr, h0, h1, he⟩ := cpaRoot_simple (rho * Δ) h
    simp only [e4, f2, hr, Outcome.bind_ok]
    refine ⟨fun _ => X, by simp, fun _ => h1, fun _ => h0, fun i => ?_⟩
    simpa [schemeBonds] using he
  | a2B =>
    cases hN
    obtain ⟨X, hr, h0, h1, he⟩ := cpaRoot_simple (rho * Δ) h
    simp only [e4, f2, hr, Outcome.bind_ok]
    refine ⟨fun _ => X, by simp, fun _ => h1, fun _ => h0, fun i => ?_⟩
    fin_cases i <;> simpa [schemeBonds, Fin.sum_univ_two] using he
  | a3B =>
    cases hN
    obtain ⟨X, hr, h0, h1, he⟩ := cpaRoot_3B (rho * Δ) h
    simp only [g4, hr, Outcome.bind_ok]
    refine ⟨fun i => if (i : ℕ) < 2 then X else 2 * X - 1, by simp [List.ofFn_succ], fun i => ?_, fun i => ?_, fun i => ?_⟩
    · dsimp only; split <;> linarith
    · dsimp only; split <;> linarith
    · fin_cases i
      · simpa [schemeBonds, Fin.sum_univ_three] using he
      · simpa [schemeBonds, Fin.sum_univ_three] using he
      · simp [schemeBonds, Fin.sum_univ_three]
        nlinarith
  | a4C =>
    cases hN
    obtain ⟨X, hr, h0, h1, he⟩ := cpaRoot_simple (2 * (rho * Δ)) (by linarith)
    simp only [e8, f4, hr, Outcome.bind_ok]
    refine ⟨fun _ => X, by simp, fun _ => h1, fun _ => h0, fun i => ?_⟩
    have he' : X * (1 + (rho * Δ * X + rho * Δ * X)) = 1 := by linarith [he]
    fin_cases i <;> simpa [schemeBonds, Fin.sum_univ_four] using he'

/-- The hypotheses can be met: alcohol-like parameters. -/
example : ∃ Δ, cpaDelta .KG 20000 0.01 4e-5 2500 1000 = .ok Δ ∧ 0 < 1000 * Δ := by
  unfold cpaDelta
  simp only
  rw [if_neg (by norm_num), Outcome.bind_ok, if_neg (by norm_num)]
  refine ⟨_, rfl, ?_⟩
  have : 0 < Real.exp (20000 / 2500) - 1 := by
    rw [sub_pos, Real.one_lt_exp_iff]; norm_num
  have h2 : (0 : ℝ) < 1 / (1 - 1.9 * (1000 / 4 * 4e-5)) := by norm_num
  positivity

/-- At zero density (or zero strength) every closed form is zero divided by zero. -/
theorem cpa_zero_density (c : AssocClass) (N : ℕ) (hN : cpaSites c = .ok N) (d : RadialDist) (eps beta b RT : ℝ)
    (hRT : RT ≠ 0) : xaPure N c d eps beta b RT 0 = .nonFinite := by
  obtain ⟨Δ, hΔ⟩ : ∃ Δ, cpaDelta d eps beta b RT 0 = .ok Δ := by
    unfold cpaDelta
    cases d <;> simp only <;> rw [if_neg (by norm_num), Outcome.bind_ok, if_neg hRT] <;> exact ⟨_, rfl⟩
  unfold xaPure
  rw [hΔ, Outcome.bind_ok]
  have h : ∀ p r, cpaRoot p r 0 = .nonFinite := fun p r => if_pos (Or.inr rfl)
  cases c <;> first | (cases hN; done) | (simp [h, Outcome.bind])

/-- The association contribution of a pure fluid with a closed form: minus the sum over the sites of a
quantity that is not negative. -/
theorem cpa_alphar (c : AssocClass) (N : ℕ) (hN : cpaSites c = .ok N) (d : RadialDist) (eps beta b R T rho Δ : ℝ)
    (hΔ : cpaDelta d eps beta b (R * T) rho = .ok Δ) (h : 0 < rho * Δ) :
    ∃ a, CPAAssoc.make [c] d [eps] [beta] [b] R = .ok a ∧
    ∃ X : Fin N → ℝ, MassAction (fun i j => if schemeBonds c i j then rho * Δ else 0) X ∧
      a.alphar T rho [1] = .ok (∑ i, (Real.log (X i) - X i / 2 + 1/2)) ∧
      ∑ i, (Real.log (X i) - X i / 2 + 1/2) ≤ 0 := by
  refine ⟨⟨[c], d, [eps], [beta], [b], [N], R⟩, ?_, ?_⟩
  · unfold CPAAssoc.make
    simp [mapOutcome, hN]
  obtain ⟨X, hX, h1, hm, -⟩ := cpa_massAction c N hN d eps beta b (R * T) rho Δ hΔ h
  refine ⟨X, hm, ?_, Finset.sum_nonpos fun i _ => by
    have := (site_term_bounds (X i) (hm.1 i) (h1 i)).2
    linarith⟩
  unfold CPAAssoc.alphar
  rw [if_neg (by simp)]
  simp only [List.length_singleton, Finset.sum_range_one, List.getElem?_cons_zero, List.getD_cons_zero, mul_one]
  rw [hX, Outcome.bind_ok]
  unfold cpaLoop
  rw [if_neg (by
    rintro ⟨y, hy, hy0⟩
    rw [List.mem_ofFn] at hy
    obtain ⟨i, rfl⟩ := hy
    exact absurd (hm.1 i) (not_lt.mpr hy0))]
  simp only [List.head?_cons]
  unfold cpaLoop
  congr 1
  rw [List.map_ofFn, List.sum_ofFn, Finset.sum_add_distrib]
  simp only [Function.comp_apply, Finset.sum_const, Finset.card_univ, Fintype.card_fin, nsmul_eq_mul]
  ring

/-! ## Agreement of the two descriptions of a pure fluid -/

/-- A pure fluid with `n0` sites A and `n1` sites B in the general association class. -/
noncomputable def twoKinds (n0 n1 : ℕ) (d : RadialDist) (eps beta b : ℝ) : AssocModel :=
  ⟨{ radialDist := some d, partners := [("A", ["B"]), ("B", ["A"])] }, 1, [⟨0, "A", n0⟩, ⟨0, "B", n1⟩],
    [[0, n1], [n0, 0]], ⟨[b], [beta], [eps], some d⟩⟩

/-- The constructor gives these models for the site lists of the schemes. -/
theorem twoKinds_make (d : RadialDist) (eps beta b : ℝ) :
    AssocModel.make ⟨[b], [beta], [eps], some d⟩ [["A", "B"]]
      { radialDist := some d, partners := [("A", ["B"]), ("B", ["A"])] } = .ok (twoKinds 1 1 d eps beta b) ∧
    AssocModel.make ⟨[b], [beta], [eps], some d⟩ [["A", "A", "B"]]
      { radialDist := some d, partners := [("A", ["B"]), ("B", ["A"])] } = .ok (twoKinds 2 1 d eps beta b) ∧
    AssocModel.make ⟨[b], [beta], [eps], some d⟩ [["A", "A", "B", "B"]]
      { radialDist := some d, partners := [("A", ["B"]), ("B", ["A"])] } = .ok (twoKinds 2 2 d eps beta b) := by
  have h1 : makeMapper [["A", "B"]] = .ok [⟨0, "A", 1⟩, ⟨0, "B", 1⟩] := by decide +kernel
  have h2 : makeMapper [["A", "A", "B"]] = .ok [⟨0, "A", 2⟩, ⟨0, "B", 1⟩] := by decide +kernel
  have h3 : makeMapper [["A", "A", "B", "B"]] = .ok [⟨0, "A", 2⟩, ⟨0, "B", 2⟩] := by decide +kernel
  unfold AssocModel.make
  rw [h1, h2, h3]
  have hl : List.lookup "B" [("A", ["B"]), ("B", ["A"])] = some ["A"] := by decide +kernel
  refine ⟨?_, ?_, ?_⟩ <;> simp [makeD, mapOutcome, getDIJ, twoKinds, hl]

/-- The contribution of the general class, in terms of the solution of the law of mass action. -/
theorem twoKinds_alphar (n0 n1 : ℕ) (hn0 : 0 < n0) (hn1 : 0 < n1) (d : RadialDist) (eps beta b R NA T rho Δ : ℝ)
    (hΔ : cpaDelta d eps beta b (R * T) rho = .ok Δ) (hrho : 0 < rho) (hpos : 0 < Δ) (hNA : 0 < NA) (hbeta : 0 ≤ beta)
    (Y : Fin 2 → ℝ)
    (hY : MassAction (fun i j => if i = j then 0 else rho * Δ * (if j = 0 then (n0 : ℝ) else n1)) Y) :
    (twoKinds n0 n1 d eps beta b).alphar R NA T rho [1] = .ok
      (n0 * (Real.log (Y 0) - Y 0 / 2 + 1/2) + n1 * (Real.log (Y 1) - Y 1 / 2 + 1/2)) := by
  -- the strength
  have hD : ∃ f, getDelta R NA T rho [1] (twoKinds n0 n1 d eps beta b).data (twoKinds n0 n1 d eps beta b).sites = .ok f ∧
      f 0 0 = Δ / NA := by
    unfold cpaDelta at hΔ
    unfold getDelta
    rw [if_neg (by simp [twoKinds])]
    have hg : ∃ g, (¬ (match d with | .CS => 1 - (1 * b) * rho / 4 = 0 | .KG => 1 - 1.9 * ((1 * b) * rho / 4) = 0)) ∧
        assocG d ((1 * b) * rho / 4) = g ∧ R * T ≠ 0 ∧ Δ = g * (Real.exp (eps / (R * T)) - 1) * b * beta := by
      have e : rho / 4 * b = 1 * b * rho / 4 := by ring
      cases d with
      | CS =>
        simp only [e] at hΔ ⊢
        by_cases h1 : 1 - 1 * b * rho / 4 = 0
        · rw [if_pos h1] at hΔ; cases hΔ
        · rw [if_neg h1, Outcome.bind_ok] at hΔ
          by_cases h2 : R * T = 0
          · rw [if_pos h2] at hΔ; cases hΔ
          · rw [if_neg h2] at hΔ
            cases hΔ
            refine ⟨_, h1, rfl, h2, ?_⟩
            unfold assocG
            simp only
            ring
      | KG =>
        simp only [e] at hΔ ⊢
        by_cases h1 : 1 - 1.9 * (1 * b * rho / 4) = 0
        · rw [if_pos h1] at hΔ; cases hΔ
        · rw [if_neg h1, Outcome.bind_ok] at hΔ
          by_cases h2 : R * T = 0
          · rw [if_pos h2] at hΔ; cases hΔ
          · rw [if_neg h2] at hΔ
            cases hΔ
            exact ⟨_, h1, rfl, h2, rfl⟩
    obtain ⟨g, h1, h2, h3, h4⟩ := hg
    have hs : (∑ i ∈ range [(1 : ℝ)].length, [(1 : ℝ)].getD i 0 * (twoKinds n0 n1 d eps beta b).data.b.getD i 0) = 1 * b := by
      simp [twoKinds]
    have hrd : (twoKinds n0 n1 d eps beta b).data.radialDist = some d := rfl
    rw [hrd]
    simp only
    generalize (∑ i ∈ range [(1 : ℝ)].length, [(1 : ℝ)].getD i 0 * (twoKinds n0 n1 d eps beta b).data.b.getD i 0) = S at hs ⊢
    subst hs
    rw [if_neg (by
      rintro (h | h | ⟨i, hi, j, hj, h⟩)
      · exact h3 h
      · exact h1 h
      · have hi0 : i = 0 := by simpa using hi
        have hj0 : j = 0 := by simpa using hj
        subst hi0 hj0
        exact absurd (mul_self_nonneg beta) (not_le.mpr h))]
    refine ⟨_, rfl, ?_⟩
    rw [h2]
    change g * ((b + b) / 2) * Real.sqrt (beta * beta) * (Real.exp ((eps + eps) / 2 / (R * T)) - 1) / NA = Δ / NA
    rw [Real.sqrt_mul_self hbeta, h4, add_self_div_two, add_self_div_two]
    ring
  obtain ⟨f, hf, hf0⟩ := hD
  unfold AssocModel.alphar
  rw [if_neg (by simp [twoKinds])]
  unfold AssocModel.fractions
  rw [if_neg (by simp), hf, Outcome.bind_ok, Outcome.bind_ok]
  set X := assocSolve (twoKinds n0 n1 d eps beta b).opts [(1 : ℝ)].length rho NA
    (fun I J => f ((twoKinds n0 n1 d eps beta b).sites.get I).comp ((twoKinds n0 n1 d eps beta b).sites.get J).comp)
    (twoKinds n0 n1 d eps beta b).Dmat (fun I => ((twoKinds n0 n1 d eps beta b).sites.get I).count)
    (fun I => [(1 : ℝ)].getD ((twoKinds n0 n1 d eps beta b).sites.get I).comp 0)
    (fun I => (List.replicate (twoKinds n0 n1 d eps beta b).sites.length (1 : ℝ)).getD I 0) with hX
  have hm : MassAction (rDDX rho NA (fun _ _ : Fin 2 => Δ / NA) (fun i j => if i = j then 0 else if j = 0 then n0 else n1)
      fun _ => 1) X := by
    have := (assocSolve_explicit (twoKinds n0 n1 d eps beta b).opts rho NA (Δ / NA) (fun _ _ => Δ / NA)
      (fun j => if j = 0 then n0 else n1) (fun i j => if i = j then 0 else if j = 0 then n0 else n1) (fun _ => 1) hrho hNA
      (div_pos hpos hNA) (fun i => by split <;> assumption) (fun _ _ => rfl) (fun _ _ => rfl) rfl).1
    have key : ∀ (o : AssocOptions) (D1 D2 : Fin 2 → Fin 2 → ℝ) (E1 E2 : Fin 2 → Fin 2 → ℕ) (c1 c2 : Fin 2 → ℕ)
        (x1 x2 y1 y2 : Fin 2 → ℝ), D1 = D2 → E1 = E2 → c1 = c2 → x1 = x2 → y1 = y2 →
        assocSolve o 1 rho NA D1 E1 c1 x1 y1 = assocSolve o 1 rho NA D2 E2 c2 x2 y2 := by
      rintro o _ _ _ _ _ _ _ _ _ _ rfl rfl rfl rfl rfl
      rfl
    have hXe := key (twoKinds n0 n1 d eps beta b).opts
      (fun I J => f ((twoKinds n0 n1 d eps beta b).sites.get I).comp ((twoKinds n0 n1 d eps beta b).sites.get J).comp)
      (fun _ _ => Δ / NA) (twoKinds n0 n1 d eps beta b).Dmat
      (fun i j => if i = j then 0 else if j = 0 then n0 else n1)
      (fun I => ((twoKinds n0 n1 d eps beta b).sites.get I).count) (fun j => if j = 0 then n0 else n1)
      (fun I => [(1 : ℝ)].getD ((twoKinds n0 n1 d eps beta b).sites.get I).comp 0) (fun _ => 1)
      (fun I => (List.replicate (twoKinds n0 n1 d eps beta b).sites.length (1 : ℝ)).getD I 0) (fun _ => 1)
      (by funext I J; fin_cases I <;> fin_cases J <;> exact hf0)
      (by funext I J; fin_cases I <;> fin_cases J <;> rfl)
      (by funext I; fin_cases I <;> rfl)
      (by funext I; fin_cases I <;> rfl)
      (by funext I; fin_cases I <;> rfl)
    rw [← hXe] at this
    exact this
  have hK : (rDDX rho NA (fun _ _ : Fin 2 => Δ / NA) (fun i j => if i = j then 0 else if j = 0 then n0 else n1)
      fun _ => (1 : ℝ)) = fun i j => if i = j then 0 else rho * Δ * (if j = 0 then (n0 : ℝ) else n1) := by
    funext i j
    unfold rDDX
    change rho * NA * (Δ / NA * (((if i = j then 0 else if j = 0 then n0 else n1) : ℕ) : ℝ)) * 1 = _
    by_cases hij : i = j
    · simp [hij]
    · simp only [if_neg hij]
      split <;> field_simp
  rw [hK] at hm
  have hXY : X = Y := by
    obtain ⟨Z, -, -, hZ⟩ := massAction_exists_unique (n := 2)
      (fun i j => if i = j then 0 else rho * Δ * (if j = 0 then (n0 : ℝ) else n1)) (fun i j => by
        split
        · exact le_rfl
        · have := mul_pos hrho hpos
          split <;> positivity)
    rw [hZ X hm, hZ Y hY]
  clear_value X
  subst hXY
  rw [if_neg (by
    rintro ⟨I, hI⟩
    exact absurd (hm.1 I) (not_lt.mpr hI))]
  congr 1
  change assocSum [1] (fun _ : Fin 2 => 0) (fun I : Fin 2 => ((twoKinds n0 n1 d eps beta b).sites.get I).count) X = _
  unfold assocSum
  simp only [List.length_singleton, Finset.sum_range_one, if_true, Fin.sum_univ_two, List.getD_cons_zero, one_mul]
  change (Real.log (X (0 : Fin 2)) - X (0 : Fin 2) * (1/2) + 1/2) * (n0 : ℝ) +
    (Real.log (X (1 : Fin 2)) - X (1 : Fin 2) * (1/2) + 1/2) * (n1 : ℝ) = _
  ring

/-- The old description of a pure fluid by its scheme and the new description by its sites give the same
contribution, for the schemes 2B, 3B and 4C, provided the gas constants agree. -/
theorem cpa_descriptions_agree (c : AssocClass) (n0 n1 : ℕ)
    (hc : (c, n0, n1) ∈ [(AssocClass.a2B, 1, 1), (AssocClass.a3B, 2, 1), (AssocClass.a4C, 2, 2)]) (d : RadialDist)
    (eps beta b R NA T rho Δ : ℝ) (hΔ : cpaDelta d eps beta b (R * T) rho = .ok Δ) (hrho : 0 < rho) (hpos : 0 < Δ)
    (hNA : 0 < NA) (hbeta : 0 ≤ beta) :
    ∃ a v, CPAAssoc.make [c] d [eps] [beta] [b] R = .ok a ∧ a.alphar T rho [1] = .ok v ∧
      (twoKinds n0 n1 d eps beta b).alphar R NA T rho [1] = .ok v := by
  simp only [List.mem_cons, Prod.mk.injEq, List.not_mem_nil, or_false] at hc
  rcases hc with ⟨rfl, rfl, rfl⟩ | ⟨rfl, rfl, rfl⟩ | ⟨rfl, rfl, rfl⟩
  · obtain ⟨a, ha, X, hm, hv, -⟩ := cpa_alphar .a2B 2 rfl d eps beta b R T rho Δ hΔ (mul_pos hrho hpos)
    refine ⟨a, _, ha, hv, ?_⟩
    rw [twoKinds_alphar 1 1 one_pos one_pos d eps beta b R NA T rho Δ hΔ hrho hpos hNA hbeta X ⟨hm.1, fun i => ?_⟩]
    · rw [Fin.sum_univ_two]
      simp
    · have := hm.2 i
      fin_cases i <;> simpa [schemeBonds, Fin.sum_univ_two] using this
  · obtain ⟨a, ha, X, hm, hv, -⟩ := cpa_alphar .a3B 3 rfl d eps beta b R T rho Δ hΔ (mul_pos hrho hpos)
    refine ⟨a, _, ha, hv, ?_⟩
    have e0 := hm.2 0
    have e1 := hm.2 1
    have e2 := hm.2 2
    simp [schemeBonds, Fin.sum_univ_three] at e0 e1 e2
    have h01 : X 1 = X 0 := by
      have : (X 1 - X 0) * (1 + rho * Δ * X 2) = 0 := by linarith
      rcases mul_eq_zero.mp this with h | h
      · linarith
      · have := mul_pos (mul_pos hrho hpos) (hm.1 2)
        linarith
    rw [twoKinds_alphar 2 1 two_pos one_pos d eps beta b R NA T rho Δ hΔ hrho hpos hNA hbeta
      (fun i => if i = 0 then X 0 else X 2) ⟨fun i => by dsimp only; split <;> exact hm.1 _, fun i => ?_⟩]
    · rw [Fin.sum_univ_three, h01]
      simp
      ring
    · fin_cases i
      · simpa [Fin.sum_univ_two] using e0
      · simp [Fin.sum_univ_two]
        rw [h01] at e2
        linarith
  · obtain ⟨a, ha, X, hm, hv, -⟩ := cpa_alphar .a4C 4 rfl d eps beta b R T rho Δ hΔ (mul_pos hrho hpos)
    refine ⟨a, _, ha, hv, ?_⟩
    have e0 := hm.2 0
    have e1 := hm.2 1
    have e2 := hm.2 2
    have e3 := hm.2 3
    simp [schemeBonds, Fin.sum_univ_four] at e0 e1 e2 e3
    have hk := mul_pos hrho hpos
    have h01 : X 1 = X 0 := by
      have : (X 1 - X 0) * (1 + (rho * Δ * X 2 + rho * Δ * X 3)) = 0 := by linarith
      rcases mul_eq_zero.mp this with h | h
      · linarith
      · have := mul_pos hk (hm.1 2)
        have := mul_pos hk (hm.1 3)
        linarith
    have h23 : X 3 = X 2 := by
      have : (X 3 - X 2) * (1 + (rho * Δ * X 0 + rho * Δ * X 1)) = 0 := by linarith
      rcases mul_eq_zero.mp this with h | h
      · linarith
      · have := mul_pos hk (hm.1 0)
        have := mul_pos hk (hm.1 1)
        linarith
    rw [twoKinds_alphar 2 2 two_pos two_pos d eps beta b R NA T rho Δ hΔ hrho hpos hNA hbeta
      (fun i => if i = 0 then X 0 else X 2) ⟨fun i => by dsimp only; split <;> exact hm.1 _, fun i => ?_⟩]
    · rw [Fin.sum_univ_four, h01, h23]
      simp
      ring
    · rw [h23] at e0
      rw [h01] at e2
      fin_cases i
      · simp [Fin.sum_univ_two]
        linarith
      · simp [Fin.sum_univ_two]
        linarith

/-! ## The cubic part -/

/-- The pressure of the cubic part follows from the formula by differentiation: it is the equation of
Soave-Redlich-Kwong or of Peng-Robinson. -/
theorem cpaCubic_pressure (flag : CubicFlag) (a0 b c1 Tc : List ℝ) (R : ℝ) (k : Option (List (List ℝ))) (c : CPACubic)
    (hc : CPACubic.make flag a0 b c1 Tc R k = .ok c) (T rho a bm : ℝ) (hR : 0 < R) (hT : 0 < T) (hb : 0 < bm)
    (hrho : 0 < rho) (hlt : bm * rho < 1) :
    ∃ D, HasDerivAt (fun r => cpaCubicForm c.d1 c.d2 c.R T a bm r) D rho ∧
      rho * R * T * (1 + rho * D) = R * T / (1 / rho - bm) - a / (match flag with
        | .PR => (1 / rho) ^ 2 + 2 * bm * (1 / rho) - bm ^ 2
        | _ => (1 / rho) * (1 / rho + bm)) := by
  have hbr := mul_pos hb hrho
  have key : ∀ d1 d2 : ℝ, d1 ≠ d2 → 0 < d1 * bm * rho + 1 → 0 < d2 * bm * rho + 1 →
      ∃ D, HasDerivAt (fun r => cpaCubicForm d1 d2 R T a bm r) D rho ∧
        rho * R * T * (1 + rho * D) = R * T / (1 / rho - bm) - a / ((1 / rho + d1 * bm) * (1 / rho + d2 * bm)) := by
    intro d1 d2 hd h1 h2
    have hl : HasDerivAt (fun r => 1 - bm * r) (-bm) rho := by
      simpa using ((hasDerivAt_id rho).const_mul bm).const_sub 1
    have hn : HasDerivAt (fun r => d1 * bm * r + 1) (d1 * bm) rho := by
      simpa using ((hasDerivAt_id rho).const_mul (d1 * bm)).add_const 1
    have hm : HasDerivAt (fun r => d2 * bm * r + 1) (d2 * bm) rho := by
      simpa using ((hasDerivAt_id rho).const_mul (d2 * bm)).add_const 1
    have hL := hl.log (by linarith)
    have hQ := (hn.fun_div hm h2.ne').log (div_pos h1 h2).ne'
    have hall := hL.neg.sub (((hQ.const_mul (a / R / T)).div_const bm).div_const (d1 - d2))
    refine ⟨_, hall, ?_⟩
    have hd' : d1 - d2 ≠ 0 := sub_ne_zero.mpr hd
    have g0 : 1 - bm * rho ≠ 0 := by linarith
    have g1 : 1 / rho - bm ≠ 0 := by
      rw [ne_eq, sub_eq_zero, div_eq_iff hrho.ne']; linarith
    have e1 : 1 / rho - bm = (1 - bm * rho) / rho := by field_simp
    have e2 : 1 / rho + d1 * bm = (d1 * bm * rho + 1) / rho := by field_simp; ring
    have e3 : 1 / rho + d2 * bm = (d2 * bm * rho + 1) / rho := by field_simp; ring
    rw [e1, e2, e3]
    have g2 := h1.ne'
    have g3 := h2.ne'
    have en : d1 * bm * (d2 * bm * rho + 1) - (d1 * bm * rho + 1) * (d2 * bm) = bm * (d1 - d2) := by ring
    rw [en]
    have eu : 1 + rho * (bm / (1 - bm * rho)) = 1 / (1 - bm * rho) := by
      rw [mul_div_assoc', eq_div_iff g0, add_mul, div_mul_cancel₀ _ g0]
      ring
    generalize d1 * bm * rho + 1 = n at *
    generalize d2 * bm * rho + 1 = m at *
    generalize 1 - bm * rho = u at *
    have eD : -(-bm / u) - a / R / T * (bm * (d1 - d2) / m ^ 2 / (n / m)) / bm / (d1 - d2) =
        bm / u - a / (R * T * (n * m)) := by
      field_simp
    rw [eD]
    have : rho * R * T * (1 + rho * (bm / u - a / (R * T * (n * m)))) =
      rho * R * T * (1 + rho * (bm / u)) - rho * R * T * (rho * (a / (R * T * (n * m)))) := by ring
    rw [this, eu]
    field_simp
  unfold CPACubic.make at hc
  cases flag with
  | notSet => cases hc
  | PR =>
    cases hc
    have hs : Real.sqrt 2 ^ 2 = 2 := Real.sq_sqrt (by norm_num)
    have hs0 : 0 < Real.sqrt 2 := Real.sqrt_pos.mpr (by norm_num)
    have hs1 : Real.sqrt 2 < 2 := by
      rw [Real.sqrt_lt' (by norm_num)]; norm_num
    obtain ⟨D, hD, he⟩ := key (1 + Real.sqrt 2) (1 - Real.sqrt 2) (by intro h; linarith) (by positivity) (by nlinarith)
    refine ⟨D, hD, ?_⟩
    rw [he]
    congr 2
    have : (1 / rho + (1 + Real.sqrt 2) * bm) * (1 / rho + (1 - Real.sqrt 2) * bm) =
      (1 / rho) ^ 2 + 2 * bm * (1 / rho) + (1 - Real.sqrt 2 ^ 2) * bm ^ 2 := by ring
    rw [this, hs]
    ring
  | SRK =>
    cases hc
    obtain ⟨D, hD, he⟩ := key 1 0 (by norm_num) (by nlinarith) (by norm_num)
    refine ⟨D, hD, ?_⟩
    rw [he]
    congr 2
    ring

/-- A case that meets the hypotheses. -/
example : ∃ c, CPACubic.make .SRK [0.1] [1.5e-5] [0.7] [600] 8.3 none = .ok c ∧ (1.5e-5 : ℝ) * 50000 < 1 :=
  ⟨_, rfl, by norm_num⟩

/-- The model refuses a composition of the wrong size, whatever its association part is. -/
theorem cpa_size_refused (R0 NA : ℝ) (m : CPAEOS) (T rho : ℝ) (x : List ℝ) (h : x.length ≠ m.cubic.a0.length) :
    m.alphar R0 NA T rho x = .throws .invalidArgument := if_pos h

end Teqp.Props
