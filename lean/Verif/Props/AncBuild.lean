import Verif.Model.AncBuild
import Verif.Props.Ancillary
import Verif.Props.Lambda
import Verif.Spec.Cubic
import Verif.Lemmas.PureVLE
import Mathlib.Analysis.Calculus.MeanValue
import Mathlib.Analysis.Calculus.Deriv.MeanValue
import Mathlib.Tactic

/-! # C129, C130: building ancillaries from a model -/

set_option autoImplicit false

namespace Teqp.Props
open Teqp.Model Teqp.Spec Teqp.Calc Teqp.PureVLE
open scoped Classical

/-! ## The document of the builder -/

theorem mapOutcome_nums (l : List ℝ) : mapOutcome JTree.toDouble (l.map .num) = .ok l := by
  induction l with
  | nil => rfl
  | cons a l ih => simp only [List.map_cons, mapOutcome, JTree.toDouble, Outcome.bind_ok, ih]

theorem ancDocument_make (Tc rhoc pc Tmin : ℝ) (cL cV cp : List ℝ) :
    MultiAncillaries.make (ancDocument Tc rhoc pc Tmin cL cV cp) =
      .ok ⟨⟨Tc, Tc, Tmin, "rhoLnoexp", cL, ancExponents, rhoc, false, true⟩, ⟨Tc, Tc, Tmin, "type", cV, ancExponents, rhoc, true, false⟩,
        ⟨Tc, Tc, Tmin, "type", cp, ancExponents, pc, true, false⟩, ⟨Tc, Tc, Tmin, "type", cp, ancExponents, pc, true, false⟩⟩ := by
  have h1 : ∀ (type : String) (n : List ℝ) (rv : ℝ) (tau : Bool),
      VLEAncillary.make (.obj [("T_r", .num Tc), ("Tmax", .num Tc), ("Tmin", .num Tmin),
        ("type", .str type), ("description", .str "I'm a description"), ("n", .arr (n.map .num)), ("t", .arr (ancExponents.map .num)),
        ("reducing_value", .num rv), ("using_tau_r", .bool tau)]) =
      .ok ⟨Tc, Tc, Tmin, type, n, ancExponents, rv, tau, type == "rhoLnoexp"⟩ := by
    intro type n rv tau
    simp [VLEAncillary.make, JTree.at, List.lookup, JTree.toDouble, JTree.toStr, JTree.toRow, JTree.toBool, mapOutcome_nums, Outcome.bind_ok]
  simp [MultiAncillaries.make, ancDocument, JTree.at, JTree.contains, List.lookup, Outcome.bind_ok, h1]

/-- C129. What the fitted ancillaries return at a stored point: whatever the least-squares solver does, if its solution
meets the equations of a point exactly (as it does when the data have the fitted form), then the ancillaries evaluated at
the temperature of that point return the stored liquid density, vapour density and pressure; the two pressure ancillaries
are the same. -/
theorem anc_fit_roundtrip (e : AncEnv) {Tc rhoc pc Tmin : ℝ} (pts : List AncPt) (m : MultiAncillaries)
    (hfit : ancFit e Tc rhoc pc Tmin pts = .ok m) (p : AncPt) (hp : p ∈ pts) (hTc : 0 < Tc) (hth : p.theta < 1)
    (hlen : ∀ b, (e.lsq (ancMatrix pts) b).length = 10)
    (hL : ancSeries p.theta ((e.lsq (ancMatrix pts) (pts.map fun p => p.rhoL / rhoc - 1)).zip ancExponents) = p.rhoL / rhoc - 1)
    (hV : ancSeries p.theta ((e.lsq (ancMatrix pts) (pts.map fun p => Real.log (p.rhoV / rhoc) * (1 - p.theta))).zip ancExponents)
      = Real.log (p.rhoV / rhoc) * (1 - p.theta))
    (hP : ancSeries p.theta ((e.lsq (ancMatrix pts) (pts.map fun p => Real.log (p.pL / pc) * (1 - p.theta))).zip ancExponents)
      = Real.log (p.pL / pc) * (1 - p.theta)) :
    m.rhoL.eval ((1 - p.theta) * Tc) = .ok p.rhoL ∧ m.rhoV.eval ((1 - p.theta) * Tc) = .ok p.rhoV ∧
      m.pL.eval ((1 - p.theta) * Tc) = .ok p.pL ∧ m.pV.eval ((1 - p.theta) * Tc) = .ok p.pL := by
  unfold ancFit at hfit
  split_ifs at hfit with hbad
  push Not at hbad
  obtain ⟨hr0, hp0, hall⟩ := hbad
  obtain ⟨h0, hv, hpp⟩ := hall p hp
  simp only [ancRhs] at hfit
  rw [ancDocument_make] at hfit
  simp only [Outcome.ok.injEq] at hfit
  have hT : 0 < (1 - p.theta) * Tc := mul_pos (by linarith) hTc
  have hTle : ¬ ((1 - p.theta) * Tc > Tc) := by nlinarith
  have hq : 1 - (1 - p.theta) * Tc / Tc = p.theta := by field_simp; ring
  have hexp : ∀ t ∈ ancExponents, (0 : ℝ) ≤ t := by
    intro t ht
    simp only [ancExponents, List.mem_cons, List.not_mem_nil, or_false] at ht
    rcases ht with rfl | rfl | rfl | rfl | rfl | rfl | rfl | rfl | rfl | rfl <;> norm_num
  have hne : ancExponents ≠ [] := by simp [ancExponents]
  have hl10 : ancExponents.length = 10 := by simp [ancExponents]
  have key : ∀ (n : List ℝ) (rv : ℝ) (tau noexp : Bool) (ty : String), n.length = 10 →
      VLEAncillary.eval ⟨Tc, Tc, Tmin, ty, n, ancExponents, rv, tau, noexp⟩ ((1 - p.theta) * Tc) =
      .ok (if noexp then rv * (1 + ancSeries p.theta (n.zip ancExponents) * if tau then (Tc / ((1 - p.theta) * Tc)) else 1)
        else Real.exp (ancSeries p.theta (n.zip ancExponents) * if tau then (Tc / ((1 - p.theta) * Tc)) else 1) * rv) := by
    intro n rv tau noexp ty hn
    unfold VLEAncillary.eval
    simp only
    rw [if_neg hTle, if_neg hTc.ne', if_neg (by rw [hn, hl10]; simp [hne]), hq,
      ancSum_ok p.theta h0 n ancExponents (by rw [hn, hl10]) (Or.inr hexp), Outcome.bind_ok]
    cases tau with
    | true => simp only [if_true, if_neg hT.ne', Outcome.bind_ok]
    | false => simp only [Bool.false_eq_true, if_false, Outcome.bind_ok, mul_one]
  have hc : Tc / ((1 - p.theta) * Tc) = 1 / (1 - p.theta) := by
    have : 1 - p.theta ≠ 0 := by linarith
    field_simp
  have h1t : 1 - p.theta ≠ 0 := by linarith
  have hcan : ∀ x : ℝ, x * (1 - p.theta) * (1 / (1 - p.theta)) = x := by intro x; field_simp
  subst hfit
  refine ⟨?_, ?_, ?_, ?_⟩
  · rw [key _ _ _ _ _ (hlen _), hL]
    simp only [if_true, Bool.false_eq_true, if_false, mul_one, Outcome.ok.injEq]
    field_simp; ring
  · rw [key _ _ _ _ _ (hlen _), hV]
    simp only [if_true, Bool.false_eq_true, if_false, Outcome.ok.injEq]
    rw [hc, hcan, Real.exp_log hv]
    field_simp
  · rw [key _ _ _ _ _ (hlen _), hP]
    simp only [if_true, Bool.false_eq_true, if_false, Outcome.ok.injEq]
    rw [hc, hcan, Real.exp_log hpp]
    field_simp
  · rw [key _ _ _ _ _ (hlen _), hP]
    simp only [if_true, Bool.false_eq_true, if_false, Outcome.ok.injEq]
    rw [hc, hcan, Real.exp_log hpp]
    field_simp

/-! ## The stored points -/

/-- The stored points of the loop, when the solver returns the saturation curve `sL, sV` at every temperature it is asked
for: the point of round `i` is the straight-line extrapolation of the saturated state at `T = Tclosec - dT i` to `T + dT`. -/
theorem ancLoop_points (e : AncEnv) {Tc Tclosec dT : ℝ} (sL sV : ℝ → ℝ)
    (hv : ∀ T a b, e.vle T a b = .ok (sL T, sV T)) (k i : ℕ) (rL rV : ℝ) (pts : List AncPt)
    (h : ancLoop e Tc Tclosec dT k i rL rV = .ok pts) :
    pts.length = k ∧ ∀ n (hn : n < pts.length), ∃ sl, ancSlopes e.α e.R (Tclosec - dT * (i + n : ℕ)) (sL (Tclosec - dT * (i + n : ℕ)))
        (sV (Tclosec - dT * (i + n : ℕ))) = .ok sl ∧
      pts[n].theta = (Tc - (Tclosec - dT * (i + n : ℕ) + dT)) / Tc ∧
      pts[n].rhoL = sL (Tclosec - dT * (i + n : ℕ)) + sl.1 * dT ∧
      pts[n].rhoV = sV (Tclosec - dT * (i + n : ℕ)) + sl.2 * dT ∧
      pts[n].pL = totalPressure e.α e.R (Tclosec - dT * (i + n : ℕ) + dT) pts[n].rhoL := by
  induction k generalizing i rL rV pts with
  | zero =>
    simp only [ancLoop, Outcome.ok.injEq] at h
    subst h
    simp
  | succ k ih =>
    simp only [ancLoop] at h
    rw [hv, Outcome.bind_ok] at h
    obtain ⟨sl, hsl, h⟩ := Outcome.bind_eq_ok.1 h
    obtain ⟨rest, hrest, h⟩ := Outcome.bind_eq_ok.1 h
    simp only [Outcome.ok.injEq] at h
    subst h
    obtain ⟨hl, hpts⟩ := ih _ _ _ _ hrest
    refine ⟨by simp [hl], fun n hn => ?_⟩
    cases n with
    | zero =>
      refine ⟨sl, by simpa using hsl, by simp, by simp, by simp, ?_⟩
      simp only [List.getElem_cons_zero, Nat.add_zero]
      rw [Ar0, pressure_eq]; ring
    | succ n =>
      have := hpts n (by simpa using hn)
      rw [show i + 1 + n = i + (n + 1) by omega] at this
      simpa using this

/-- C130. How far the stored data are from saturation: if the slopes used are the slopes of the saturation curve and the
slope of the liquid curve changes by at most `M |T₁ - T₂|`, a stored liquid density differs from the saturated density
at its temperature by at most `M dT²`. -/
theorem anc_points_error (e : AncEnv) {Tc Tclosec dT M : ℝ} (hdT : 0 < dT) (sL sV : ℝ → ℝ)
    (hv : ∀ T a b, e.vle T a b = .ok (sL T, sV T))
    (hs : ∀ T sl, ancSlopes e.α e.R T (sL T) (sV T) = .ok sl → HasDerivAt sL sl.1 T)
    (N : ℕ) (rL rV : ℝ) (pts : List AncPt) (h : ancLoop e Tc Tclosec dT N 0 rL rV = .ok pts) (n : ℕ) (hn : n < pts.length)
    (hdiff : ∀ T ∈ Set.Icc (Tclosec - dT * n) (Tclosec - dT * n + dT), DifferentiableAt ℝ sL T)
    (hlip : ∀ T ∈ Set.Icc (Tclosec - dT * n) (Tclosec - dT * n + dT),
      |deriv sL T - deriv sL (Tclosec - dT * n)| ≤ M * |T - (Tclosec - dT * n)|) :
    |pts[n].rhoL - sL (Tclosec - dT * n + dT)| ≤ M * dT ^ 2 := by
  obtain ⟨_, hp⟩ := ancLoop_points e sL sV hv N 0 rL rV pts h
  obtain ⟨sl, hsl, _, hr, _⟩ := hp n hn
  simp only [Nat.zero_add] at hsl hr
  have hd := (hs _ _ hsl).deriv
  set T := Tclosec - dT * (n : ℝ) with hTdef
  have hlt : T < T + dT := by linarith
  obtain ⟨ξ, hξ, hsl2⟩ := exists_deriv_eq_slope sL hlt
    (fun x hx => (hdiff x hx).continuousAt.continuousWithinAt)
    (fun x hx => (hdiff x (Set.Ioo_subset_Icc_self hx)).differentiableWithinAt)
  have e1 : sL (T + dT) - sL T = deriv sL ξ * dT := by
    rw [hsl2, add_sub_cancel_left, div_mul_cancel₀ _ hdT.ne']
  rw [hr, ← hd]
  have e2 : sL T + deriv sL T * dT - sL (T + dT) = -((deriv sL ξ - deriv sL T) * dT) := by linear_combination -e1
  rw [e2, abs_neg, abs_mul, abs_of_pos hdT]
  have h1 := hlip ξ (Set.Ioo_subset_Icc_self hξ)
  have h2 : |ξ - T| ≤ dT := by rw [abs_of_pos (by linarith [hξ.1])]; linarith [hξ.2]
  have hM : 0 ≤ M := by
    by_contra hneg
    push Not at hneg
    have h3 : 0 < |ξ - T| := abs_pos.2 (by linarith [hξ.1])
    have := abs_nonneg (deriv sL ξ - deriv sL T)
    nlinarith
  calc |deriv sL ξ - deriv sL T| * dT ≤ M * |ξ - T| * dT := by gcongr
    _ ≤ M * dT * dT := by gcongr
    _ = M * dT ^ 2 := by ring

/-- C130. The stored data are not saturated states: whenever the slope of the liquid saturation curve is strictly monotone
between the temperature solved and the temperature stored, the stored liquid density is not the saturated one. -/
theorem anc_points_not_saturated (e : AncEnv) {Tc Tclosec dT : ℝ} (hdT : 0 < dT) (sL sV : ℝ → ℝ)
    (hv : ∀ T a b, e.vle T a b = .ok (sL T, sV T))
    (hs : ∀ T sl, ancSlopes e.α e.R T (sL T) (sV T) = .ok sl → HasDerivAt sL sl.1 T)
    (N : ℕ) (rL rV : ℝ) (pts : List AncPt) (h : ancLoop e Tc Tclosec dT N 0 rL rV = .ok pts) (n : ℕ) (hn : n < pts.length)
    (hdiff : ∀ T ∈ Set.Icc (Tclosec - dT * n) (Tclosec - dT * n + dT), DifferentiableAt ℝ sL T)
    (hmono : StrictAntiOn (deriv sL) (Set.Icc (Tclosec - dT * n) (Tclosec - dT * n + dT)) ∨
      StrictMonoOn (deriv sL) (Set.Icc (Tclosec - dT * n) (Tclosec - dT * n + dT))) :
    pts[n].rhoL ≠ sL (Tclosec - dT * n + dT) := by
  obtain ⟨_, hp⟩ := ancLoop_points e sL sV hv N 0 rL rV pts h
  obtain ⟨sl, hsl, _, hr, _⟩ := hp n hn
  simp only [Nat.zero_add] at hsl hr
  have hd := (hs _ _ hsl).deriv
  set T := Tclosec - dT * (n : ℝ) with hTdef
  have hlt : T < T + dT := by linarith
  obtain ⟨ξ, hξ, hsl2⟩ := exists_deriv_eq_slope sL hlt
    (fun x hx => (hdiff x hx).continuousAt.continuousWithinAt)
    (fun x hx => (hdiff x (Set.Ioo_subset_Icc_self hx)).differentiableWithinAt)
  have e1 : sL (T + dT) - sL T = deriv sL ξ * dT := by
    rw [hsl2, add_sub_cancel_left, div_mul_cancel₀ _ hdT.ne']
  rw [hr, ← hd]
  intro heq
  have e2 : (deriv sL ξ - deriv sL T) * dT = 0 := by linear_combination -e1 - heq
  have e3 : deriv sL ξ = deriv sL T := by
    rcases mul_eq_zero.1 e2 with h' | h'
    · linarith
    · linarith
  have hTm : T ∈ Set.Icc T (T + dT) := ⟨le_rfl, hlt.le⟩
  have hξm := Set.Ioo_subset_Icc_self hξ
  rcases hmono with hm | hm
  · exact absurd e3 (hm hTm hξm hξ.1).ne
  · exact absurd e3 (hm hTm hξm hξ.1).ne'

/-! ## Temperatures and failures -/

/-- C130. The temperatures: the last one at which saturation is solved is `Tmin - θ Tc`, below the requested lower limit
(and not positive when `Tmin ≤ θ Tc`), and the first stored one is `(1-θ) Tc + dT`, above the critical temperature exactly
when the step is larger than `θ Tc`. -/
theorem anc_temperatures (Tc Tmin θ : ℝ) (N : ℕ) (hN : 2 ≤ N) (hTc : 0 < Tc) (hθ : 0 < θ) :
    (1 - θ) * Tc - (Tc - Tmin) / ((N : ℝ) - 1) * ((N - 1 : ℕ) : ℝ) = Tmin - θ * Tc ∧ Tmin - θ * Tc < Tmin ∧
    (Tmin ≤ Tc → (ancVerifyRefuses Tc ((1 - θ) * Tc) ((Tc - Tmin) / ((N : ℝ) - 1)) N ↔ θ * Tc < (Tc - Tmin) / ((N : ℝ) - 1))) := by
  have hN1 : (0 : ℝ) < (N : ℝ) - 1 := by
    have : (2 : ℝ) ≤ N := by exact_mod_cast hN
    linarith
  refine ⟨?_, by nlinarith [mul_pos hθ hTc], fun hle => ?_⟩
  · rw [Nat.cast_sub (by omega)]
    push_cast
    field_simp
    ring
  · have hd : 0 ≤ (Tc - Tmin) / ((N : ℝ) - 1) := div_nonneg (by linarith) hN1.le
    set d := (Tc - Tmin) / ((N : ℝ) - 1)
    have e : ∀ i : ℕ, (1 - (Tc - ((1 - θ) * Tc - d * i + d)) / Tc) * Tc = (1 - θ) * Tc - d * i + d := by
      intro i; field_simp; ring
    unfold ancVerifyRefuses
    simp only [e]
    constructor
    · rintro ⟨i, _, hi⟩
      have : 0 ≤ d * i := mul_nonneg hd (Nat.cast_nonneg i)
      linarith
    · intro h
      exact ⟨0, by omega, by push_cast; linarith⟩

/-- C130. Too few points: when the step `(Tc - Tmin)/(Npts - 1)` is larger than `θ Tc`, the call either is refused with
`InvalidArgument` (with the default verification) or returns ancillaries whose coefficients are not numbers; it never
returns usable ancillaries.  `Npts = 1` gives coefficients that are not numbers, `Npts < 1` is undefined. -/
theorem anc_too_few_points (e : AncEnv) {Tc rhoc Tmin θ : ℝ} {Npts : ℤ} {verify : Bool} {fl : Option JTree} {g : ℝ × ℝ}
    (hfl : AncFlags.ofJson fl = .ok ⟨verify, Npts, θ⟩) (hc : e.crit = .ok (Tc, rhoc))
    (hg : e.extrap Tc rhoc ((1 - θ) * Tc) = .ok g) (hTc : 0 < Tc) (hTmin : Tmin ≤ Tc) :
    (Npts < 1 → ancBuild e Tmin fl = .ub) ∧ (Npts = 1 → ancBuild e Tmin fl = .nonFinite) ∧
    (2 ≤ Npts → θ * Tc < (Tc - Tmin) / ((Npts : ℝ) - 1) → 0 < θ →
      ∀ m, ancBuild e Tmin fl ≠ .ok m ∧
        ((∀ T a b, (∃ r, e.vle T a b = .ok r) ∨ e.vle T a b = .nonFinite) →
          ancBuild e Tmin fl = if verify then .throws .invalidArgument else .nonFinite)) := by
  unfold ancBuild
  simp only [hfl, Outcome.bind_ok, hc, hg]
  refine ⟨fun h => if_pos h, fun h => by subst h; rfl, fun h hstep hθ m => ?_⟩
  rw [if_neg (by omega), if_neg (by omega)]
  have hcast : ((Npts.toNat : ℕ) : ℝ) = (Npts : ℝ) := by
    have : ((Npts.toNat : ℕ) : ℤ) = Npts := Int.toNat_of_nonneg (by omega)
    exact_mod_cast this
  have href : ancVerifyRefuses Tc ((1 - θ) * Tc) ((Tc - Tmin) / ((Npts : ℝ) - 1)) Npts.toNat := by
    have := (anc_temperatures Tc Tmin θ Npts.toNat (by omega) hTc hθ).2.2 hTmin
    rw [hcast] at this
    exact this.2 hstep
  have hfirst : ∀ pts, ancLoop e Tc ((1 - θ) * Tc) ((Tc - Tmin) / ((Npts : ℝ) - 1)) Npts.toNat 0 g.1 g.2 = .ok pts →
      ∃ p ∈ pts, p.theta < 0 := by
    intro pts hp
    obtain ⟨k, hk⟩ : ∃ k, Npts.toNat = k + 1 := ⟨Npts.toNat - 1, by omega⟩
    rw [hk] at hp
    simp only [ancLoop] at hp
    obtain ⟨r, _, hp⟩ := Outcome.bind_eq_ok.1 hp
    obtain ⟨s, _, hp⟩ := Outcome.bind_eq_ok.1 hp
    obtain ⟨rest, _, hp⟩ := Outcome.bind_eq_ok.1 hp
    simp only [Outcome.ok.injEq] at hp
    subst hp
    refine ⟨_, List.mem_cons_self .., ?_⟩
    simp only [Nat.cast_zero, mul_zero, sub_zero]
    apply div_neg_of_neg_of_pos _ hTc
    linarith
  have hfit : ∀ pts, ancLoop e Tc ((1 - θ) * Tc) ((Tc - Tmin) / ((Npts : ℝ) - 1)) Npts.toNat 0 g.1 g.2 = .ok pts →
      ancFit e Tc rhoc (rhoc * e.R * Tc * (1 + Agenxy e.α 0 1 Tc rhoc)) Tmin pts = .nonFinite := by
    intro pts hp
    obtain ⟨p, hp1, hp2⟩ := hfirst pts hp
    unfold ancFit
    rw [if_pos (Or.inr (Or.inr ⟨p, hp1, Or.inl hp2⟩))]
  constructor
  · cases hloop : ancLoop e Tc ((1 - θ) * Tc) ((Tc - Tmin) / ((Npts : ℝ) - 1)) Npts.toNat 0 g.1 g.2 with
    | throws x => simp
    | ub => simp
    | nonFinite => simp only; split_ifs <;> simp
    | ok pts =>
      simp only [hfit pts hloop]
      split_ifs <;> simp
  · intro htot
    have hnr : ∀ k i a b, (∃ pts, ancLoop e Tc ((1 - θ) * Tc) ((Tc - Tmin) / ((Npts : ℝ) - 1)) k i a b = .ok pts) ∨
        ancLoop e Tc ((1 - θ) * Tc) ((Tc - Tmin) / ((Npts : ℝ) - 1)) k i a b = .nonFinite := by
      intro k
      induction k with
      | zero => intro i a b; exact Or.inl ⟨_, rfl⟩
      | succ k ih =>
        intro i a b
        simp only [ancLoop]
        rcases htot ((1 - θ) * Tc - (Tc - Tmin) / ((Npts : ℝ) - 1) * i) a b with ⟨r, hr⟩ | hr
        · rw [hr, Outcome.bind_ok]
          unfold ancSlopes
          split_ifs
          · right; rfl
          · rw [Outcome.bind_ok]
            rcases ih (i + 1) _ _ with ⟨pts, hp⟩ | hp
            · left; rw [hp]; exact ⟨_, rfl⟩
            · right; rw [hp]; rfl
        · right; rw [hr]; rfl
    rcases hnr Npts.toNat 0 g.1 g.2 with ⟨pts, hp⟩ | hp
    · rw [hp]
      simp only [hfit pts hp]
      cases verify <;> simp [href]
    · rw [hp]
      cases verify <;> simp [href]

/-- C129. The verification does not change the result: when no stored temperature is above the critical one, the call with
and without it return the same ancillaries. -/
theorem anc_verify_irrelevant (e : AncEnv) {Tc rhoc Tmin θ : ℝ} {Npts : ℤ} {f1 f2 : Option JTree}
    (h1 : AncFlags.ofJson f1 = .ok ⟨true, Npts, θ⟩) (h2 : AncFlags.ofJson f2 = .ok ⟨false, Npts, θ⟩)
    (hc : e.crit = .ok (Tc, rhoc)) (hTc : 0 < Tc) (hTmin : Tmin ≤ Tc) (hθ : 0 < θ)
    (hstep : (Tc - Tmin) / ((Npts : ℝ) - 1) ≤ θ * Tc) : ancBuild e Tmin f1 = ancBuild e Tmin f2 := by
  unfold ancBuild
  simp only [h1, h2, Outcome.bind_ok, hc]
  cases e.extrap Tc rhoc ((1 - θ) * Tc) with
  | ok g =>
    rw [Outcome.bind_ok, Outcome.bind_ok]
    by_cases hN1 : Npts < 1
    · rw [if_pos hN1, if_pos hN1]
    rw [if_neg hN1, if_neg hN1]
    by_cases hN2 : Npts = 1
    · rw [if_pos hN2, if_pos hN2]
    rw [if_neg hN2, if_neg hN2]
    have hcast : ((Npts.toNat : ℕ) : ℝ) = (Npts : ℝ) := by
      have : ((Npts.toNat : ℕ) : ℤ) = Npts := Int.toNat_of_nonneg (by omega)
      exact_mod_cast this
    have hno : ¬ ancVerifyRefuses Tc ((1 - θ) * Tc) ((Tc - Tmin) / ((Npts : ℝ) - 1)) Npts.toNat := by
      have := (anc_temperatures Tc Tmin θ Npts.toNat (by omega) hTc hθ).2.2 hTmin
      rw [hcast] at this
      rw [this]
      exact not_lt.2 hstep
    cases ancLoop e Tc ((1 - θ) * Tc) ((Tc - Tmin) / ((Npts : ℝ) - 1)) Npts.toNat 0 g.1 g.2 <;> simp [hno]
  | throws x => rfl
  | ub => rfl
  | nonFinite => rfl

/-- The flags: absent flags give the defaults; flags that are not an object are refused. -/
theorem anc_flags : AncFlags.ofJson none = .ok ⟨true, 1000, 0.01⟩ ∧
    (∀ xs, AncFlags.ofJson (some (.arr xs)) = .throws .jsonError) ∧
    (∀ s, AncFlags.ofJson (some (.obj [("verify", .str s)])) = .throws .jsonError) ∧
    AncFlags.ofJson (some (.obj [("Npts", .num 50.7), ("verify", .bool false)])) = .ok ⟨false, 50, 0.01⟩ := by
  refine ⟨rfl, fun xs => rfl, fun s => rfl, ?_⟩
  have h : (if (0 : ℝ) ≤ 50.7 then ⌊(50.7 : ℝ)⌋ else ⌈(50.7 : ℝ)⌉) = 50 := by
    rw [if_pos (by norm_num)]
    norm_num
  simp [AncFlags.ofJson, flagValue, List.lookup, JTree.toBool, JTree.toInt, Outcome.bind_ok, h]

/-- All flags are typed: each of them is taken from the document when it has the right type, with negative numbers of points
truncated towards zero, and refused otherwise; a truth value passes for a number of points, but not for a distance. -/
theorem anc_flags_typed (v : Bool) (x t : ℝ) (s : String) :
    AncFlags.ofJson (some (.obj [("verify", .bool v), ("Npts", .num x), ("Theta_nearcrit", .num t)]))
      = .ok ⟨v, if 0 ≤ x then ⌊x⌋ else ⌈x⌉, t⟩ ∧
    AncFlags.ofJson (some (.obj [("Npts", .str s)])) = .throws .jsonError ∧
    AncFlags.ofJson (some (.obj [("Theta_nearcrit", .str s)])) = .throws .jsonError ∧
    AncFlags.ofJson (some (.obj [("Npts", .bool true)])) = .ok ⟨true, 1, 0.01⟩ ∧
    AncFlags.ofJson (some (.obj [("Theta_nearcrit", .bool v)])) = .throws .jsonError := ⟨rfl, rfl, rfl, rfl, rfl⟩

example : AncFlags.ofJson (some (.obj [("verify", .bool true), ("Npts", .num (-2.5)), ("Theta_nearcrit", .num 0.1)])) = .ok ⟨true, -2, 0.1⟩ := by
  rw [(anc_flags_typed true (-2.5) 0.1 "").1, if_neg (by norm_num)]
  norm_num

/-- The exponents of all three ancillaries are the ten multiples of one half from zero on. -/
theorem anc_exponents : ancExponents = (List.range 10).map fun k : ℕ => (k : ℝ) / 2 := by
  simp only [ancExponents, List.range, List.range.loop, List.map_cons, List.map_nil, List.cons.injEq, and_true]
  norm_num

example : ancExponents[3]? = some (3 / 2) := by rw [anc_exponents]; rfl

/-! ## Cases -/

/-- A formal environment: no residual part, "saturation curve" `1/T` and `2/T`. -/
noncomputable def exAnc : AncEnv where
  α := fun _ _ => 0
  R := 8
  crit := .ok (300, 5)
  extrap := fun _ _ _ => .ok (1, 2)
  vle := fun T _ _ => .ok (1 / T, 2 / T)
  lsq := fun _ b => (b ++ List.replicate 10 0).take 10

theorem exAnc_A (i j : ℕ) (T r : ℝ) : Agenxy (fun _ _ : ℝ => (0 : ℝ)) i j T r = 0 := by
  rw [Agenxy_is_Lambda]; unfold Lambda; simp

theorem exAnc_slopes (T : ℝ) (hT : T ≠ 0) : ancSlopes exAnc.α exAnc.R T (1 / T) (2 / T) = .ok (-(1 / T ^ 2), -(2 / T ^ 2)) := by
  unfold ancSlopes drhodTsat dpsatdT
  simp only [exAnc, exAnc_A]
  rw [if_neg]
  · simp only [Outcome.ok.injEq, Prod.mk.injEq]
    constructor <;> field_simp <;> ring
  · simp only [not_or]
    refine ⟨by positivity, by positivity, ?_, ?_, ?_⟩
    · rw [div_eq_div_iff hT hT]
      intro h
      exact hT (by linear_combination -h)
    · intro h; simp at h; exact hT h
    · intro h; simp at h; exact hT h

/-- Two points of the formal environment: the first stored density, at 298 K, is not the one of the curve. -/
example : ∃ pts, ancLoop exAnc 300 297 1 2 0 1 2 = .ok pts ∧ ∀ h : 0 < pts.length, pts[0].rhoL ≠ 1 / 298 := by
  have hl : ∃ pts, ancLoop exAnc 300 297 1 2 0 1 2 = .ok pts := by
    simp only [ancLoop]
    have h1 : exAnc.vle = fun T _ _ => .ok (1 / T, 2 / T) := rfl
    simp only [h1, Outcome.bind_ok]
    rw [exAnc_slopes _ (by norm_num), Outcome.bind_ok, exAnc_slopes _ (by norm_num), Outcome.bind_ok]
    exact ⟨_, rfl⟩
  obtain ⟨pts, hp⟩ := hl
  refine ⟨pts, hp, fun h0 => ?_⟩
  have hder : ∀ T : ℝ, T ≠ 0 → HasDerivAt (fun T : ℝ => 1 / T) (-(1 / T ^ 2)) T := by
    intro T hT
    have := hasDerivAt_inv hT
    simpa [one_div] using this
  have := anc_points_not_saturated exAnc (Tc := 300) (Tclosec := 297) (dT := 1) (by norm_num) (fun T => 1 / T) (fun T => 2 / T)
    (fun _ _ _ => rfl) (by
      intro T sl hsl
      have hT : T ≠ 0 := by
        rintro rfl
        unfold ancSlopes at hsl
        rw [if_pos (Or.inl (by norm_num))] at hsl
        simp at hsl
      rw [exAnc_slopes T hT] at hsl
      simp only [Outcome.ok.injEq] at hsl
      rw [← hsl]
      exact hder T hT) 2 1 2 pts hp 0 h0 (by
      intro T hT
      have : T ≠ 0 := by
        have := hT.1
        norm_num at this
        linarith
      exact (hder T this).differentiableAt)
    (Or.inr (by
      intro a ha b hb hab
      have ha0 : 297 ≤ a := by have := ha.1; norm_num at this; exact this
      have hb0 : 297 ≤ b := by have := hb.1; norm_num at this; exact this
      rw [(hder a (by linarith)).deriv, (hder b (by linarith)).deriv]
      have : 1 / b ^ 2 < 1 / a ^ 2 := by
        apply one_div_lt_one_div_of_lt (by positivity)
        nlinarith
      linarith))
  norm_num at this ⊢
  exact this

/-- Three points between 150 K and 300 K: the step 75 K is larger than 3 K, the call is refused. -/
example : ancBuild exAnc 150 (some (.obj [("Npts", .num 3)])) = .throws .invalidArgument := by
  have hfl : AncFlags.ofJson (some (.obj [("Npts", .num 3)])) = .ok ⟨true, 3, 0.01⟩ := by
    simp [AncFlags.ofJson, flagValue, List.lookup, JTree.toInt, Outcome.bind_ok]
  have h := (anc_too_few_points exAnc (Tc := 300) (rhoc := 5) (Tmin := 150) (θ := 0.01) (Npts := 3) (verify := true) (g := (1, 2))
    hfl rfl rfl (by norm_num) (by norm_num)).2.2 (by norm_num) (by norm_num) (by norm_num)
    ⟨⟨0, 0, 0, "", [], [], 0, true, true⟩, ⟨0, 0, 0, "", [], [], 0, true, true⟩, ⟨0, 0, 0, "", [], [], 0, true, true⟩,
      ⟨0, 0, 0, "", [], [], 0, true, true⟩⟩
  exact h.2 fun T a b => Or.inl ⟨_, rfl⟩

/-- One point at the critical temperature whose data the fit meets: the liquid density comes back. -/
example : ∃ m, ancFit exAnc 300 5 7 100 [⟨0, 6, 4, 7⟩] = .ok m ∧ m.rhoL.eval ((1 - 0) * 300) = .ok 6 := by
  have hm : ∃ m, ancFit exAnc 300 5 7 100 [⟨0, 6, 4, 7⟩] = .ok m := by
    unfold ancFit
    rw [if_neg (by norm_num)]
    simp only [ancDocument_make]
    exact ⟨_, rfl⟩
  obtain ⟨m, hm⟩ := hm
  refine ⟨m, hm, ?_⟩
  have hz : ∀ x : ℝ, ancSeries 0 ((exAnc.lsq (ancMatrix [⟨0, 6, 4, 7⟩]) [x]).zip ancExponents) = x := by
    intro x
    simp [exAnc, ancSeries, ancExponents, List.replicate, List.zip]
  exact (anc_fit_roundtrip exAnc [⟨0, 6, 4, 7⟩] m hm ⟨0, 6, 4, 7⟩ (by simp) (by norm_num) (by norm_num)
    (fun b => by simp [exAnc]) (hz _) (hz _) (hz _)).1

/-- With the default flags the step is small enough: the verification makes no difference. -/
example : ancBuild exAnc 150 none = ancBuild exAnc 150 (some (.obj [("verify", .bool false)])) :=
  anc_verify_irrelevant exAnc (Tc := 300) (rhoc := 5) (θ := 0.01) (Npts := 1000) rfl rfl rfl (by norm_num) (by norm_num) (by norm_num)
    (by norm_num)

/-- The error bound for the formal environment. -/
example (pts : List AncPt) (h : ancLoop exAnc 300 297 1 2 0 1 2 = .ok pts) (h0 : 0 < pts.length) :
    |pts[0].rhoL - 1 / 298| ≤ 1 := by
  have hder : ∀ T : ℝ, T ≠ 0 → HasDerivAt (fun T : ℝ => 1 / T) (-(1 / T ^ 2)) T := by
    intro T hT
    have := hasDerivAt_inv hT
    simpa [one_div] using this
  have hpos : ∀ T ∈ Set.Icc (297 - 1 * ((0 : ℕ) : ℝ)) (297 - 1 * ((0 : ℕ) : ℝ) + 1), 297 ≤ T := by
    intro T hT; have := hT.1; norm_num at this; exact this
  have := anc_points_error exAnc (Tc := 300) (Tclosec := 297) (dT := 1) (M := 1) (by norm_num) (fun T => 1 / T) (fun T => 2 / T)
    (fun _ _ _ => rfl) (by
      intro T sl hsl
      have hT : T ≠ 0 := by
        rintro rfl
        unfold ancSlopes at hsl
        rw [if_pos (Or.inl (by norm_num))] at hsl
        simp at hsl
      rw [exAnc_slopes T hT] at hsl
      simp only [Outcome.ok.injEq] at hsl
      rw [← hsl]
      exact hder T hT) 2 1 2 pts h 0 h0
    (fun T hT => (hder T (by linarith [hpos T hT])).differentiableAt)
    (by
      intro T hT
      have h1 := hpos T hT
      have e : (297 : ℝ) - 1 * ((0 : ℕ) : ℝ) = 297 := by norm_num
      rw [e, (hder T (by linarith)).deriv, (hder 297 (by norm_num)).deriv]
      have e2 : -(1 / T ^ 2) - -(1 / (297 : ℝ) ^ 2) = (T - 297) * ((T + 297) / (T ^ 2 * 297 ^ 2)) := by
        have : T ≠ 0 := by linarith
        field_simp
        ring
      rw [e2, abs_mul, one_mul]
      refine mul_le_of_le_one_right (abs_nonneg _) ?_
      rw [abs_of_nonneg (by positivity), div_le_one (by positivity)]
      nlinarith)
  norm_num at this ⊢
  exact this

/-- C130. The slopes of the saturated densities are finite exactly when the densities are nonzero and different and neither phase is at a spinodal. -/
theorem anc_slopes_finite_iff (α : ℝ → ℝ → ℝ) (R T rhoL rhoV : ℝ) (hL : ContDiffAt ℝ 2 (α T) rhoL) (hV : ContDiffAt ℝ 2 (α T) rhoV) :
    ((∃ s, ancSlopes α R T rhoL rhoV = .ok s) ↔
      rhoL ≠ 0 ∧ rhoV ≠ 0 ∧ rhoL ≠ rhoV ∧ deriv (totalPressure α R T) rhoL ≠ 0 ∧ deriv (totalPressure α R T) rhoV ≠ 0) ∧
    ((∀ s, ancSlopes α R T rhoL rhoV ≠ .ok s) → ancSlopes α R T rhoL rhoV = .nonFinite) := by
  have e (r : ℝ) : R * T * (1 + 2 * r * drn α 1 T r + r ^ 2 * drn α 2 T r) = R * T * (1 + 2 * Agenxy α 0 1 T r + Agenxy α 0 2 T r) := by
    rw [Ar0, Ar0, pow_one]
    ring
  rw [(pressure_drho hL).deriv, (pressure_drho hV).deriv, e, e]
  unfold ancSlopes
  split_ifs with h
  · refine ⟨⟨fun ⟨s, hs⟩ => by simp at hs, fun ⟨h1, h2, h3, h4, h5⟩ => ?_⟩, fun _ => rfl⟩
    rcases h with h | h | h | h | h
    exacts [absurd h h1, absurd h h2, absurd h h3, absurd h h4, absurd h h5]
  · push Not at h
    exact ⟨⟨fun _ => h, fun _ => ⟨_, rfl⟩⟩, fun hs => absurd rfl (hs _)⟩

/-- An ideal gas has no spinodal, and the vapour of the second model is at one. -/
example : (∃ s, ancSlopes (fun _ _ => 0) 8 300 2 1 = .ok s) ∧ ancSlopes (fun _ r => -r / 2) 1 1 2 1 = .nonFinite := by
  have hd : ∀ r : ℝ, ContDiffAt ℝ 2 (fun r : ℝ => -r / 2) r := fun r => by fun_prop
  have hp : totalPressure (fun _ r => -r / 2) 1 1 = fun r => r - r ^ 2 / 2 := by
    funext r
    rw [pressure_eq]
    have : drn (fun _ r => -r / 2) 1 1 r = -1 / 2 := by
      have : HasDerivAt (fun r : ℝ => -r / 2) (-1 / 2) r := (hasDerivAt_neg r).div_const 2
      simp only [drn]
      exact this.deriv
    rw [this]
    ring
  have hp0 : totalPressure (fun _ _ => 0) 8 300 = fun r => 8 * 300 * r := by
    funext r
    rw [pressure_eq]
    have : drn (fun _ _ => (0 : ℝ)) 1 300 r = 0 := by simp only [drn, dr, deriv_const]
    rw [this]
    ring
  have hd0 (r : ℝ) : HasDerivAt (fun r : ℝ => 8 * 300 * r) (8 * 300) r := by simpa using (hasDerivAt_id r).const_mul (8 * 300)
  have hd1 : HasDerivAt (fun r : ℝ => r - r ^ 2 / 2) 0 1 :=
    ((hasDerivAt_id (1 : ℝ)).sub (((hasDerivAt_id (1 : ℝ)).pow 2).div_const 2)).congr_deriv (by norm_num)
  constructor
  · refine ((anc_slopes_finite_iff (fun _ _ => 0) 8 300 2 1 contDiffAt_const contDiffAt_const).1).2 ⟨by norm_num, by norm_num, by norm_num, ?_, ?_⟩ <;>
    · rw [hp0, (hd0 _).deriv]
      norm_num
  · refine (anc_slopes_finite_iff (fun _ r => -r / 2) 1 1 2 1 (hd 2) (hd 1)).2 fun s hs => ?_
    have := (((anc_slopes_finite_iff (fun _ r => -r / 2) 1 1 2 1 (hd 2) (hd 1)).1).1 ⟨s, hs⟩).2.2.2.2
    rw [hp] at this
    exact this hd1.deriv

end Teqp.Props
