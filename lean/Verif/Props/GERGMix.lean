import Verif.Props.GERGPure
import Verif.Props.ReducingFn
import Verif.Props.MultiFluid

/-! # GERG mixtures: construction, value, pure limit, relabelling, absent components -/

set_option autoImplicit false

namespace Teqp.Spec
open Model Finset

/-- Parameters of an ordered pair. -/
def gergPair (v : GVer) (a b : GFluid) : GBetas := (gergBetas v a b).getD ⟨1, 1, 1, 1⟩

/-- Critical data of a component. -/
def gergCrit (v : GVer) (f : GFluid) : GInfo := (gergInfo v f).getD ⟨1, 1, 1⟩

/-- The general multi-fluid reducing function with the parameters of the tables, each pair looked up in the order
in which it is used. -/
noncomputable def gergRed (v : GVer) {n : ℕ} (fl : Fin n → GFluid) : RedFn n where
  betaT i j := (gergPair v (fl i) (fl j)).betaT
  gammaT i j := (gergPair v (fl i) (fl j)).gammaT
  betaV i j := (gergPair v (fl i) (fl j)).betaV
  gammaV i j := (gergPair v (fl i) (fl j)).gammaV
  Tc i := (gergCrit v (fl i)).Tc
  vc i := 1 / ((gergCrit v (fl i)).rhoc * 1000)

/-- The residual Helmholtz energy of a pure component in reduced variables. -/
noncomputable def gergFluid (v : GVer) (f : GFluid) (tau delta : ℝ) : ℝ :=
  gergPureSum ((gergPure v f).getD {}).terms tau delta

/-- The departure function of a pair, times its weight. -/
noncomputable def gergExcess (a b : GFluid) (tau delta : ℝ) : ℝ :=
  (((gergF a b).getD 0 : ℚ) : ℝ) * gergDepSum ((gergDep a b).getD {}).terms tau delta

/-- Corresponding states and departure functions in reduced variables. -/
noncomputable def gergReduced (v : GVer) {n : ℕ} (fl : Fin n → GFluid) (tau delta : ℝ) (z : Fin n → ℝ) : ℝ :=
  ∑ i, z i * gergFluid v (fl i) tau delta +
    ∑ i, ∑ j ∈ univ.filter (i < ·), z i * z j * gergExcess (fl i) (fl j) tau delta

/-- The GERG mixture model as published. -/
noncomputable def gergMixture (v : GVer) {n : ℕ} (fl : Fin n → GFluid) (T rho : ℝ) (z : Fin n → ℝ) : ℝ :=
  gergReduced v fl ((gergRed v fl).Tr z / T) (rho / (gergRed v fl).rhor z) z

end Teqp.Spec

namespace Teqp.Props
open Model Spec Finset Lemmas Lemmas.Red

/-! ## Loops -/

theorem finLoop_ok {α : Type} {n : ℕ} (f : Fin n → Outcome α) (g : Fin n → α) (h : ∀ i, f i = .ok (g i)) :
    finLoop f = .ok g := by
  induction n with
  | zero => simp only [finLoop]; congr 1; exact Subsingleton.elim _ _
  | succ n ih =>
    simp only [finLoop]
    rw [h 0, Outcome.bind_ok, ih (fun i => f i.succ) (fun i => g i.succ) (fun i => h i.succ), Outcome.bind_ok]
    congr 1
    funext i
    refine Fin.cases ?_ (fun j => ?_) i <;> simp

theorem finLoop_throws {α : Type} {n : ℕ} (f : Fin n → Outcome α) (e : Err) (h : ∀ i, (∃ a, f i = .ok a) ∨ f i = .throws e)
    (k : Fin n) (hk : f k = .throws e) : finLoop f = .throws e := by
  induction n with
  | zero => exact k.elim0
  | succ n ih =>
    simp only [finLoop]
    rcases h 0 with ⟨a, ha⟩ | h0
    · rw [ha, Outcome.bind_ok]
      have hk0 : k ≠ 0 := by rintro rfl; rw [ha] at hk; cases hk
      obtain ⟨j, rfl⟩ := Fin.exists_succ_eq.2 hk0
      rw [ih (fun i => f i.succ) (fun i => h i.succ) j hk]; rfl
    · rw [h0]; rfl

theorem finLoop_total {α : Type} {n : ℕ} (f : Fin n → Outcome α) (e : Err) (h : ∀ i, (∃ a, f i = .ok a) ∨ f i = .throws e) :
    (∃ g, finLoop f = .ok g ∧ ∀ i, f i = .ok (g i)) ∨ finLoop f = .throws e := by
  by_cases hk : ∃ k, f k = .throws e
  · obtain ⟨k, hk⟩ := hk
    exact Or.inr (finLoop_throws f e h k hk)
  · push Not at hk
    have h' : ∀ i, ∃ a, f i = .ok a := fun i => (h i).resolve_right (hk i)
    choose g hg using h'
    exact Or.inl ⟨g, finLoop_ok f g hg, hg⟩

theorem gOrThrow_cases {α : Type} (o : Option α) : (∃ a, gOrThrow o = .ok a) ∨ gOrThrow o = .throws .stdInvalidArgument := by
  cases o with
  | none => exact Or.inr rfl
  | some a => exact Or.inl ⟨a, rfl⟩

/-! ## Construction -/

/-- A list of names is acceptable: components of the version, no one twice. -/
def GergNames (v : GVer) {n : ℕ} (names : Fin n → String) (fl : Fin n → GFluid) : Prop :=
  (∀ i, (fl i).name = names i ∧ fl i ∈ gergComponents v) ∧ Function.Injective fl

/-- The mixture that the tables describe. -/
def gergMixOf (v : GVer) {n : ℕ} (fl : Fin n → GFluid) : GMix n where
  info i := gergCrit v (fl i)
  betas i j := if i < j then gergPair v (fl i) (fl j) else ⟨1, 1, 1, 1⟩
  eos i := (gergPure v (fl i)).getD {}
  F i j := gFmat fl i j
  dep i j := if i ≠ j ∧ gFmat fl i j ≠ 0 then (gergDep (fl i) (fl j)).getD {} else {}

theorem gFmat_ne {n : ℕ} (fl : Fin n → GFluid) (i j : Fin n) (h : i ≠ j) :
    gFmat fl i j = (gergF (fl i) (fl j)).getD 0 := by
  unfold gFmat
  rcases lt_or_gt_of_ne h with h1 | h1
  · rw [if_pos h1]
  · rw [if_neg (not_lt.2 h1.le), if_pos h1, (gerg_departure (fl j) (fl i)).1]

theorem gFmat_dep {n : ℕ} (fl : Fin n → GFluid) (i j : Fin n) (h : i ≠ j) (hF : gFmat fl i j ≠ 0) :
    ∃ p, gergDep (fl i) (fl j) = some p := by
  rw [gFmat_ne fl i j h] at hF
  cases hw : gergF (fl i) (fl j) with
  | none => rw [hw] at hF; exact absurd rfl hF
  | some w =>
    rw [hw] at hF
    exact Option.isSome_iff_exists.1 ((gerg_departure (fl i) (fl j)).2.2.1.1 ⟨w, hw, hF⟩)

/-- C104. Every list of distinct components of the version is accepted, and the mixture holds what the tables
say about its components and pairs. -/
theorem gerg_build_ok (v : GVer) {n : ℕ} (names : Fin n → String) (fl : Fin n → GFluid) (h : GergNames v names fl) :
    gergBuild v names = .ok (gergMixOf v fl) := by
  obtain ⟨hn, hinj⟩ := h
  have h1 : (finLoop fun i => gFluidOf (names i)) = .ok fl := by
    refine finLoop_ok _ _ fun i => ?_
    unfold gFluidOf
    rw [(gerg_ofName (names i) (fl i)).2 (hn i).1]; rfl
  have h2 : (finLoop fun i => gOrThrow (gergInfo v (fl i))) = .ok fun i => gergCrit v (fl i) := by
    refine finLoop_ok _ _ fun i => ?_
    obtain ⟨x, hx, _⟩ := (gerg_info v (fl i)).1 (hn i).2
    unfold gergCrit
    rw [hx]; rfl
  have h3 : (finLoop fun i => finLoop fun j =>
      if i < j then gOrThrow (gergBetas v (fl i) (fl j)) else .ok ⟨1, 1, 1, 1⟩) =
      .ok fun i j => if i < j then gergPair v (fl i) (fl j) else ⟨1, 1, 1, 1⟩ := by
    refine finLoop_ok _ _ fun i => finLoop_ok _ _ fun j => ?_
    by_cases hij : i < j
    · rw [if_pos hij, if_pos hij]
      obtain ⟨g, _, hg, _⟩ := gerg_betas v (fl i) (fl j) (hn i).2 (hn j).2 fun e => hij.ne (hinj e)
      unfold gergPair
      rw [hg]; rfl
    · rw [if_neg hij, if_neg hij]
  have h4 : (finLoop fun i => gOrThrow (gergPure v (fl i))) = .ok fun i => (gergPure v (fl i)).getD {} := by
    refine finLoop_ok _ _ fun i => ?_
    obtain ⟨x, hx, _⟩ := (gerg_pure_table v (fl i)).1 (hn i).2
    rw [hx]; rfl
  have h5 : (finLoop fun i => finLoop fun j =>
      if i ≠ j ∧ gFmat fl i j ≠ 0 then gOrThrow (gergDep (fl i) (fl j)) else .ok {}) =
      .ok fun i j => if i ≠ j ∧ gFmat fl i j ≠ 0 then (gergDep (fl i) (fl j)).getD {} else {} := by
    refine finLoop_ok _ _ fun i => finLoop_ok _ _ fun j => ?_
    by_cases hij : i ≠ j ∧ gFmat fl i j ≠ 0
    · rw [if_pos hij, if_pos hij]
      obtain ⟨p, hp⟩ := gFmat_dep fl i j hij.1 hij.2
      rw [hp]; rfl
    · rw [if_neg hij, if_neg hij]
  unfold gergBuild
  rw [h1, Outcome.bind_ok, h2, Outcome.bind_ok, h3, Outcome.bind_ok, h4, Outcome.bind_ok, h5, Outcome.bind_ok]
  rfl

/-- C104. Every other list is refused with `std::invalid_argument`: an unknown name, a component that the version
does not have, or a component listed twice. -/
theorem gerg_build_refused (v : GVer) {n : ℕ} (names : Fin n → String) (h : ∀ fl, ¬ GergNames v names fl) :
    gergBuild v names = .throws .stdInvalidArgument := by
  unfold gergBuild
  rcases finLoop_total (fun i => gFluidOf (names i)) .stdInvalidArgument (fun i => gOrThrow_cases _) with ⟨fl, e, hfl⟩ | e
  swap
  · rw [e]; rfl
  rw [e, Outcome.bind_ok]
  have hname : ∀ i, (fl i).name = names i := fun i => by
    have := hfl i
    unfold gFluidOf at this
    refine (gerg_ofName (names i) (fl i)).1 ?_
    cases ho : GFluid.ofName (names i) with
    | none => rw [ho] at this; cases this
    | some x =>
      rw [ho] at this
      have : x = fl i := by injection this
      rw [this]
  rcases finLoop_total (fun i => gOrThrow (gergInfo v (fl i))) .stdInvalidArgument (fun i => gOrThrow_cases _) with ⟨info, e2, hinfo⟩ | e2
  swap
  · rw [e2]; rfl
  rw [e2, Outcome.bind_ok]
  have hcomp : ∀ i, fl i ∈ gergComponents v := fun i => by
    by_contra hc
    have := hinfo i
    rw [(gerg_info v (fl i)).2 hc] at this
    cases this
  have hni : ¬ Function.Injective fl := fun hi => h fl ⟨fun i => ⟨hname i, hcomp i⟩, hi⟩
  have hdup : ∃ i j, i < j ∧ fl i = fl j := by
    unfold Function.Injective at hni
    push Not at hni
    obtain ⟨i, j, he, hne⟩ := hni
    rcases lt_or_gt_of_ne hne with h1 | h1
    · exact ⟨i, j, h1, he⟩
    · exact ⟨j, i, h1, he.symm⟩
  obtain ⟨i, j, hij, he⟩ := hdup
  have inner : ∀ i, (∃ a, (finLoop fun j => if i < j then gOrThrow (gergBetas v (fl i) (fl j)) else .ok ⟨1, 1, 1, 1⟩) = .ok a) ∨
      (finLoop fun j => if i < j then gOrThrow (gergBetas v (fl i) (fl j)) else .ok ⟨1, 1, 1, 1⟩) = .throws .stdInvalidArgument := by
    intro i
    rcases finLoop_total (fun j => if i < j then gOrThrow (gergBetas v (fl i) (fl j)) else .ok ⟨1, 1, 1, 1⟩) .stdInvalidArgument
      (fun j => by
        by_cases hij : i < j
        · rw [if_pos hij]; exact gOrThrow_cases _
        · rw [if_neg hij]; exact Or.inl ⟨_, rfl⟩) with ⟨g, hg, _⟩ | hg
    · exact Or.inl ⟨g, hg⟩
    · exact Or.inr hg
  rw [finLoop_throws _ .stdInvalidArgument inner i (finLoop_throws _ .stdInvalidArgument (fun j => by
        by_cases hij : i < j
        · rw [if_pos hij]; exact gOrThrow_cases _
        · rw [if_neg hij]; exact Or.inl ⟨_, rfl⟩) j (by
      rw [if_pos hij, gerg_betas_none v (fl i) (fl j) (Or.inl he)]; rfl))]
  rfl

example : gergBuild .v2004 ![("methane" : String), "methane"] = .throws .stdInvalidArgument := by
  refine gerg_build_refused _ _ fun fl h => ?_
  have h0 := (h.1 0).1
  have h1 := (h.1 1).1
  have := h.2 (gerg_name_injective _ _ (h0.trans h1.symm))
  exact absurd this (by decide)

/-- Names of an accepted mixture. -/
theorem gerg_sample : GergNames .v2008 ![("n-decane" : String), "methane", "hydrogensulfide"] ![.nDecane, .methane, .hydrogenSulfide] := by
  refine ⟨fun i => by fin_cases i <;> exact ⟨rfl, by decide⟩, ?_⟩
  intro i j hij
  fin_cases i <;> fin_cases j <;> simp_all

example : gergBuild .v2008 ![("n-decane" : String), "methane", "hydrogensulfide"] =
    .ok (gergMixOf .v2008 ![.nDecane, .methane, .hydrogenSulfide]) := gerg_build_ok _ _ _ gerg_sample

/-! ## Value -/

theorem gergPair_pos (v : GVer) (a b : GFluid) (ha : a ∈ gergComponents v) (hb : b ∈ gergComponents v) (hab : a ≠ b) :
    0 < (gergPair v a b).betaT ∧ 0 < (gergPair v a b).betaV ∧ 0 < (gergPair v a b).gammaT ∧ 0 < (gergPair v a b).gammaV ∧
      (gergPair v b a).betaT = 1 / (gergPair v a b).betaT ∧ (gergPair v b a).betaV = 1 / (gergPair v a b).betaV ∧
      (gergPair v b a).gammaT = (gergPair v a b).gammaT ∧ (gergPair v b a).gammaV = (gergPair v a b).gammaV := by
  obtain ⟨g, h, hg, hh, r⟩ := gerg_betas v a b ha hb hab
  unfold gergPair
  rw [hg, hh]
  exact r

theorem gergCrit_pos (v : GVer) (f : GFluid) (hf : f ∈ gergComponents v) : 0 < (gergCrit v f).Tc ∧ 0 < (gergCrit v f).rhoc := by
  obtain ⟨i, hi, h1, h2, _⟩ := (gerg_info v f).1 hf
  unfold gergCrit
  rw [hi]
  exact ⟨h2, h1⟩

theorem gergRed_regular (v : GVer) {n : ℕ} (fl : Fin n → GFluid) (hf : ∀ i, fl i ∈ gergComponents v)
    (hinj : Function.Injective fl) : Regular (gergRed v fl) where
  betaT_pos i j hij := by
    have := (gergPair_pos v _ _ (hf i) (hf j) fun e => hij (hinj e)).1
    simp only [gergRed]; exact_mod_cast this
  betaV_pos i j hij := by
    have := (gergPair_pos v _ _ (hf i) (hf j) fun e => hij (hinj e)).2.1
    simp only [gergRed]; exact_mod_cast this
  betaT_inv i j hij := by
    have := (gergPair_pos v _ _ (hf i) (hf j) fun e => hij (hinj e)).2.2.2.2.1
    simp only [gergRed]; rw [this]; push_cast; rfl
  betaV_inv i j hij := by
    have := (gergPair_pos v _ _ (hf i) (hf j) fun e => hij (hinj e)).2.2.2.2.2.1
    simp only [gergRed]; rw [this]; push_cast; rfl
  gammaT_symm i j := by
    by_cases hij : i = j
    · rw [hij]
    · have := (gergPair_pos v _ _ (hf i) (hf j) fun e => hij (hinj e)).2.2.2.2.2.2.1
      simp only [gergRed]; rw [this]
  gammaV_symm i j := by
    by_cases hij : i = j
    · rw [hij]
    · have := (gergPair_pos v _ _ (hf i) (hf j) fun e => hij (hinj e)).2.2.2.2.2.2.2
      simp only [gergRed]; rw [this]

theorem gergY_eq {n : ℕ} (z Yc : Fin n → ℝ) (beta Y1 Y2 : Fin n → Fin n → ℝ) (hz : ∀ i, 0 ≤ z i)
    (hb : ∀ i j, i ≠ j → 0 < beta i j) (b' : Fin n → Fin n → ℝ) (hbb : ∀ i j, i < j → b' i j = beta i j)
    (hY : ∀ i j, i < j → Y2 i j = 2 * Y1 i j) : GMix.Y z Yc b' Y1 = redY z Yc beta Y2 := by
  unfold GMix.Y redY
  congr 1
  · exact sum_congr rfl fun i _ => by ring
  · refine sum_congr rfl fun i _ => sum_congr rfl fun j hj => ?_
    have hij : i < j := (mem_filter.mp hj).2
    rw [hbb i j hij, hY i j hij]
    unfold redTerm
    by_cases hd : beta i j * beta i j * z i + z j = 0
    · rw [if_neg (by rw [sq]; simpa using hd), if_neg (by simpa using hd)]
      have hbp := hb i j hij.ne
      have h1 := mul_nonneg (mul_pos hbp hbp).le (hz i)
      have hi : z i = 0 := by
        have : beta i j * beta i j * z i = 0 := by linarith [hz j]
        rcases mul_eq_zero.1 this with h | h
        · exact absurd h (mul_pos hbp hbp).ne'
        · exact h
      rw [hi]
      ring
    · rw [if_pos (by rw [sq]; exact hd), if_pos hd, sq]
      ring

/-- C104. The reducing functions of the code are the general multi-fluid reducing functions. -/
theorem gerg_reducing (v : GVer) {n : ℕ} (fl : Fin n → GFluid) (hf : ∀ i, fl i ∈ gergComponents v)
    (hinj : Function.Injective fl) (z : Fin n → ℝ) (hz : ∀ i, 0 ≤ z i) :
    (gergMixOf v fl).Tr z = (gergRed v fl).Tr z ∧ 1 / (gergMixOf v fl).vr z = (gergRed v fl).rhor z := by
  have hr := gergRed_regular v fl hf hinj
  constructor
  · unfold GMix.Tr RedFn.Tr
    refine gergY_eq z _ (gergRed v fl).betaT _ _ hz hr.betaT_pos _ (fun i j hij => ?_) fun i j hij => ?_
    · simp only [GMix.betaT, gergMixOf, gergRed, if_pos hij]
    · simp only [RedFn.YT, GMix.YT, GMix.betaT, GMix.gammaT, GMix.Tc, gergMixOf, gergRed, if_pos hij, if_neg hij.ne]
      ring
  · unfold GMix.vr RedFn.rhor
    congr 1
    refine gergY_eq z _ (gergRed v fl).betaV _ _ hz hr.betaV_pos _ (fun i j hij => ?_) fun i j hij => ?_
    · simp only [GMix.betaV, gergMixOf, gergRed, if_pos hij]
    · simp only [RedFn.Yv, GMix.Yv, GMix.betaV, GMix.gammaV, GMix.vc, gergMixOf, gergRed, if_pos hij, if_neg hij.ne]
      ring

theorem gergRed_pos (v : GVer) {n : ℕ} (fl : Fin n → GFluid) (hf : ∀ i, fl i ∈ gergComponents v)
    (hinj : Function.Injective fl) (z : Fin n → ℝ) (hz : ∀ i, 0 ≤ z i) (h1 : ∑ i, z i = 1) :
    0 < (gergRed v fl).Tr z ∧ 0 < (gergRed v fl).rhor z := by
  have key : ∀ i j, 0 ≤ (gergRed v fl).gammaT i j ∧ 0 ≤ (gergRed v fl).gammaV i j := by
    intro i j
    simp only [gergRed]
    by_cases hij : i = j
    · have : gergPair v (fl i) (fl j) = ⟨1, 1, 1, 1⟩ := by
        unfold gergPair; rw [gerg_betas_none v _ _ (Or.inl (by rw [hij]))]; rfl
      rw [this]; norm_num
    · obtain ⟨_, _, h1, h2, _⟩ := gergPair_pos v _ _ (hf i) (hf j) fun e => hij (hinj e)
      exact ⟨by exact_mod_cast h1.le, by exact_mod_cast h2.le⟩
  have hp := reducing_pos (gergRed v fl) (gergRed_regular v fl hf hinj)
    (fun i => by have := (gergCrit_pos v _ (hf i)).1; simp only [gergRed]; exact_mod_cast this)
    (fun i => by
      have := (gergCrit_pos v _ (hf i)).2
      have h' : (0 : ℝ) < (gergCrit v (fl i)).rhoc := by exact_mod_cast this
      simp only [gergRed]; positivity)
    (fun i j => (key i j).1) (fun i j => (key i j).2) z hz h1
  exact ⟨hp.1, hp.2.2⟩

/-- C104. The residual Helmholtz energy of an accepted mixture is the published expression, at every positive
temperature, every density including zero, and every composition including those with absent components. -/
theorem gerg_value (v : GVer) {n : ℕ} (names : Fin n → String) (fl : Fin n → GFluid) (h : GergNames v names fl) :
    ∃ m, gergBuild v names = .ok m ∧ ∀ (T rho : ℝ) (z : Fin n → ℝ), 0 < T → 0 ≤ rho → (∀ i, 0 ≤ z i) → ∑ i, z i = 1 →
      m.alphar T rho z = .ok (gergMixture v fl T rho z) := by
  refine ⟨_, gerg_build_ok v names fl h, fun T rho z hT hrho hz hs => ?_⟩
  obtain ⟨hn, hinj⟩ := h
  have hf := fun i => (hn i).2
  obtain ⟨e1, e2⟩ := gerg_reducing v fl hf hinj z hz
  obtain ⟨p1, p2⟩ := gergRed_pos v fl hf hinj z hz hs
  have hvr : (gergMixOf v fl).vr z ≠ 0 := by
    intro h0
    rw [h0, div_zero] at e2
    exact p2.ne e2
  unfold GMix.alphar gergMixture gergReduced
  rw [if_neg (by push Not; exact ⟨hT.ne', hvr⟩), e1, e2]
  have ht : 0 < (gergRed v fl).Tr z / T := div_pos p1 hT
  have hd : 0 ≤ rho / (gergRed v fl).rhor z := div_nonneg hrho p2.le
  generalize (gergRed v fl).Tr z / T = tau at *
  generalize rho / (gergRed v fl).rhor z = delta at *
  have hc : (gergMixOf v fl).corr tau delta z = .ok (∑ i, z i * gergFluid v (fl i) tau delta) := by
    unfold GMix.corr
    rw [finLoop_ok _ (fun i => gergFluid v (fl i) tau delta) fun i => ?_, Outcome.bind_ok]
    obtain ⟨p, hp, hv⟩ := gerg_pure_value v (fl i) (hf i)
    simp only [gergMixOf, gergFluid]
    rw [hp]
    exact hv tau delta ht hd
  have hdp : (gergMixOf v fl).depart tau delta z =
      .ok (∑ i, ∑ j ∈ univ.filter (i < ·), z i * z j * gergExcess (fl i) (fl j) tau delta) := by
    unfold GMix.depart
    rw [finLoop_ok _ (fun i j => if i < j then z i * z j * gergExcess (fl i) (fl j) tau delta else 0)
      fun i => finLoop_ok _ _ fun j => ?_, Outcome.bind_ok]
    · simp only [sum_filter]
    · by_cases hij : i < j
      · by_cases hF : gFmat fl i j = 0
        · rw [if_neg (by simp only [gergMixOf]; exact fun h => h.2 hF), if_pos hij]
          rw [gFmat_ne fl i j hij.ne] at hF
          unfold gergExcess
          rw [hF]
          norm_num
        · obtain ⟨p, hp⟩ := gFmat_dep fl i j hij.ne hF
          rw [if_pos (by simp only [gergMixOf]; exact ⟨hij, hF⟩), if_pos hij]
          simp only [gergMixOf]
          rw [if_pos ⟨hij.ne, hF⟩, hp]
          simp only [Option.getD_some]
          rw [gerg_dep_value _ _ p hp tau delta ht hd, Outcome.bind_ok]
          unfold gergExcess
          rw [hp, gFmat_ne fl i j hij.ne]
          simp only [Option.getD_some]
          congr 1
          ring
      · rw [if_neg fun h => hij h.1, if_neg hij]
  rw [hc, Outcome.bind_ok, hdp, Outcome.bind_ok]

example : ∃ m, gergBuild .v2008 ![("n-decane" : String), "methane", "hydrogensulfide"] = .ok m ∧
    m.alphar 300 1000 ![0.25, 0.75, 0] = .ok (gergMixture .v2008 ![.nDecane, .methane, .hydrogenSulfide] 300 1000 ![0.25, 0.75, 0]) := by
  obtain ⟨m, hm, hv⟩ := gerg_value _ _ _ gerg_sample
  exact ⟨m, hm, hv 300 1000 _ (by norm_num) (by norm_num) (fun i => by fin_cases i <;> norm_num)
    (by rw [Fin.sum_univ_three]; simp; norm_num)⟩

/-! ## Pure limit, zero density, relabelling, absent components -/

/-- C105. With one component only present, the mixture model is the equation of state of that component in terms
of its own critical temperature and density. -/
theorem gerg_pure_limit (v : GVer) {n : ℕ} (names : Fin n → String) (fl : Fin n → GFluid) (h : GergNames v names fl)
    (k : Fin n) (T rho : ℝ) (hT : 0 < T) (hrho : 0 ≤ rho) : ∃ m, gergBuild v names = .ok m ∧
      m.alphar T rho (Pi.single k 1) =
        .ok (gergFluid v (fl k) ((gergCrit v (fl k)).Tc / T) (rho / ((gergCrit v (fl k)).rhoc * 1000))) := by
  obtain ⟨m, hm, hv⟩ := gerg_value v names fl h
  have hz : ∀ i, 0 ≤ (Pi.single k 1 : Fin n → ℝ) i := fun i => by
    by_cases e : i = k
    · rw [e, Pi.single_eq_same]; norm_num
    · rw [Pi.single_eq_of_ne e]
  refine ⟨m, hm, (hv T rho _ hT hrho hz (by simp)).trans ?_⟩
  unfold gergMixture gergReduced
  rw [(reducing_pure (gergRed v fl) k).1, (reducing_pure (gergRed v fl) k).2]
  congr 1
  rw [sum_eq_single k (fun i _ hi => by rw [Pi.single_eq_of_ne hi]; ring) (fun h => absurd (mem_univ k) h),
    Pi.single_eq_same, sum_eq_zero fun i _ => sum_eq_zero fun j hj => ?_]
  · simp only [gergRed]
    rw [add_zero, one_mul, one_div_one_div]
  · have hij : i ≠ j := (mem_filter.mp hj).2.ne
    by_cases e : i = k
    · rw [Pi.single_eq_of_ne (fun e' => hij (e.trans e'.symm))]; ring
    · rw [Pi.single_eq_of_ne e]; ring

/-- C105. The residual Helmholtz energy vanishes at zero density. -/
theorem gerg_mixture_zero (v : GVer) {n : ℕ} (fl : Fin n → GFluid) (hf : ∀ i, fl i ∈ gergComponents v)
    (hinj : Function.Injective fl) (T : ℝ) (z : Fin n → ℝ) (hT : 0 < T) (hz : ∀ i, 0 ≤ z i) (hs : ∑ i, z i = 1) :
    gergMixture v fl T 0 z = 0 := by
  obtain ⟨p1, _⟩ := gergRed_pos v fl hf hinj z hz hs
  have ht : 0 < (gergRed v fl).Tr z / T := div_pos p1 hT
  have h1 : ∀ i, gergFluid v (fl i) ((gergRed v fl).Tr z / T) 0 = 0 := fun i => by
    obtain ⟨p, hp, h0⟩ := (gerg_zero_density v (fl i) (hf i) (fl i) (fl i) _ ht).1
    obtain ⟨p', hp', hv⟩ := gerg_pure_value v (fl i) (hf i)
    have : p' = p := Option.some.inj (hp'.symm.trans hp)
    subst this
    have := (hv _ 0 ht le_rfl).symm.trans h0
    unfold gergFluid
    rw [hp]
    injection this
  have h2 : ∀ i j, gergExcess (fl i) (fl j) ((gergRed v fl).Tr z / T) 0 = 0 := fun i j => by
    unfold gergExcess
    cases hd : gergDep (fl i) (fl j) with
    | none => simp [gergDepSum, GDep.terms, zipDep]
    | some q =>
      have h0 := (gerg_zero_density v (fl i) (hf i) (fl i) (fl j) _ ht).2 q hd
      have := (gerg_dep_value _ _ q hd _ 0 ht le_rfl).symm.trans h0
      simp only [Option.getD_some]
      have h3 : gergDepSum q.terms ((gergRed v fl).Tr z / T) 0 = 0 := by injection this
      rw [h3, mul_zero]
  unfold gergMixture gergReduced
  simp [h1, h2]

theorem gergExcess_symm (a b : GFluid) (tau delta : ℝ) : gergExcess a b tau delta = gergExcess b a tau delta := by
  unfold gergExcess
  rw [(gerg_departure a b).1, (gerg_departure a b).2.1]

/-- C105. Relabelling the components changes nothing. -/
theorem gerg_relabel (v : GVer) {n : ℕ} (names : Fin n → String) (fl : Fin n → GFluid) (h : GergNames v names fl)
    (σ : Equiv.Perm (Fin n)) : ∃ m m', gergBuild v names = .ok m ∧ gergBuild v (fun i => names (σ i)) = .ok m' ∧
      ∀ (T rho : ℝ) (z : Fin n → ℝ), 0 < T → 0 ≤ rho → (∀ i, 0 ≤ z i) → ∑ i, z i = 1 →
        m'.alphar T rho (fun i => z (σ i)) = m.alphar T rho z := by
  obtain ⟨m, hm, hv⟩ := gerg_value v names fl h
  have h' : GergNames v (fun i => names (σ i)) fun i => fl (σ i) := ⟨fun i => h.1 (σ i), fun i j e => σ.injective (h.2 e)⟩
  obtain ⟨m', hm', hv'⟩ := gerg_value v _ _ h'
  refine ⟨m, m', hm, hm', fun T rho z hT hrho hz hs => ?_⟩
  rw [hv T rho z hT hrho hz hs, hv' T rho _ hT hrho (fun i => hz (σ i)) ((Equiv.sum_comp σ z).trans hs)]
  congr 1
  have hr := reducing_relabel (gergRed v fl) (gergRed_regular v fl (fun i => (h.1 i).2) h.2) z hz σ
  have e1 : (gergRed v fun i => fl (σ i)).Tr (fun i => z (σ i)) = (gergRed v fl).Tr z := hr.1
  have e2 : (gergRed v fun i => fl (σ i)).rhor (fun i => z (σ i)) = (gergRed v fl).rhor z := hr.2
  unfold gergMixture gergReduced
  rw [e1, e2]
  congr 1
  · exact Equiv.sum_comp σ fun i => z i * gergFluid v (fl i) ((gergRed v fl).Tr z / T) (rho / (gergRed v fl).rhor z)
  · exact upper_sum_perm (fun i j => z i * z j * gergExcess (fl i) (fl j) ((gergRed v fl).Tr z / T) (rho / (gergRed v fl).rhor z))
      (fun i j _ => by rw [gergExcess_symm]; ring) σ

/-- C105. A component of mole fraction zero can be left out. -/
theorem gerg_absent (v : GVer) {n : ℕ} (names : Fin (n + 1) → String) (fl : Fin (n + 1) → GFluid) (h : GergNames v names fl)
    (k : Fin (n + 1)) : ∃ m m', gergBuild v names = .ok m ∧ gergBuild v (fun i => names (k.succAbove i)) = .ok m' ∧
      ∀ (T rho : ℝ) (z : Fin (n + 1) → ℝ), 0 < T → 0 ≤ rho → (∀ i, 0 ≤ z i) → ∑ i, z i = 1 → z k = 0 →
        m'.alphar T rho (fun i => z (k.succAbove i)) = m.alphar T rho z := by
  obtain ⟨m, hm, hv⟩ := gerg_value v names fl h
  have h' : GergNames v (fun i => names (k.succAbove i)) fun i => fl (k.succAbove i) :=
    ⟨fun i => h.1 _, fun i j e => Fin.succAbove_right_injective (h.2 e)⟩
  obtain ⟨m', hm', hv'⟩ := gerg_value v _ _ h'
  refine ⟨m, m', hm, hm', fun T rho z hT hrho hz hs hk => ?_⟩
  have hs' : ∑ i, z (k.succAbove i) = 1 := by rw [Fin.sum_univ_succAbove _ k, hk, zero_add] at hs; exact hs
  rw [hv T rho z hT hrho hz hs, hv' T rho _ hT hrho (fun i => hz _) hs']
  congr 1
  obtain ⟨e1, e2⟩ := redFn_remove (gergRed v fl) (gergRed v fun i => fl (k.succAbove i)) k z hk (fun i => rfl) (fun i => rfl)
    fun i j _ => ⟨rfl, rfl, rfl, rfl⟩
  unfold gergMixture gergReduced
  rw [e1, e2]
  congr 1
  · rw [Fin.sum_univ_succAbove (fun i => z i * gergFluid v (fl i) _ _) k, hk, zero_mul, zero_add]
  · rw [upper_sum_remove (fun i j => z i * z j * gergExcess (fl i) (fl j) _ _) k (fun j => by rw [hk]; ring)
      (fun i => by rw [hk]; ring)]

example : ∃ m m', gergBuild .v2008 ![("n-decane" : String), "methane", "hydrogensulfide"] = .ok m ∧
    gergBuild .v2008 (fun i => (![("n-decane" : String), "methane", "hydrogensulfide"] : Fin 3 → String) (Fin.succAbove 2 i)) = .ok m' ∧
    m'.alphar 300 1000 (fun i => (![0.25, 0.75, 0] : Fin 3 → ℝ) (Fin.succAbove 2 i)) = m.alphar 300 1000 ![0.25, 0.75, 0] := by
  obtain ⟨m, m', hm, hm', hv⟩ := gerg_absent _ _ _ gerg_sample 2
  exact ⟨m, m', hm, hm', hv 300 1000 _ (by norm_num) (by norm_num) (fun i => by fin_cases i <;> norm_num)
    (by rw [Fin.sum_univ_three]; simp; norm_num) rfl⟩

example : ∃ m, gergBuild .v2008 ![("n-decane" : String), "methane", "hydrogensulfide"] = .ok m ∧
    m.alphar 300 1000 (Pi.single 1 1) = .ok (gergFluid .v2008 .methane ((gergCrit .v2008 .methane).Tc / 300)
      (1000 / ((gergCrit .v2008 .methane).rhoc * 1000))) :=
  gerg_pure_limit _ _ _ gerg_sample 1 300 1000 (by norm_num) (by norm_num)

/-! ## Numbers of mole fractions -/

/-- C106. GERG-2008 refuses a wrong number of mole fractions; GERG-2004 refuses too few. -/
theorem gerg_sizes {n : ℕ} (m : GMix n) (T rho : ℝ) (z : List ℝ) :
    (z.length ≠ n → m.alpharV .v2008 T rho z = .throws .stdInvalidArgument) ∧
    (z.length < n → m.alpharV .v2004 T rho z = .throws .stdInvalidArgument) ∧
    ∀ v (h : z.length = n), m.alpharV v T rho z = m.alphar T rho fun i => z[i] := by
  refine ⟨fun h => ?_, fun h => ?_, fun v h => ?_⟩
  · unfold GMix.alpharV; rw [dif_neg h, if_neg fun h => by cases h.1]
  · unfold GMix.alpharV; rw [dif_neg h.ne, if_neg (by push Not; intro _; exact h.le)]
  · unfold GMix.alpharV; rw [dif_pos h]

/-- C106, the negation for GERG-2004: with more mole fractions than components the reducing function reads past
the end of the critical data before anything is checked. -/
theorem gerg2004_too_many {n : ℕ} (m : GMix n) (T rho : ℝ) (z : List ℝ) (h : n < z.length) :
    m.alpharV .v2004 T rho z = .ub := by
  unfold GMix.alpharV
  rw [dif_neg h.ne', if_pos ⟨rfl, h⟩]

example : (gergMixOf .v2004 ![.methane]).alpharV .v2004 300 1000 [0.5, 0.5] = .ub ∧
    (gergMixOf .v2008 ![.methane]).alpharV .v2008 300 1000 [0.5, 0.5] = .throws .stdInvalidArgument :=
  ⟨gerg2004_too_many _ _ _ _ (by decide), (gerg_sizes _ _ _ _).1 (by decide)⟩

/-! ## From JSON -/

/-- C104. The factory takes the list of names under `names` and nothing else. -/
theorem gerg_factory (v : GVer) (l : List String) (j : JTree) (hj : gergNamesOf j = .ok l) :
    (∀ fl, GergNames v (fun i : Fin l.length => l[i]) fl → gergFactory v j = .ok ⟨l.length, gergMixOf v fl⟩) ∧
      ((∀ fl, ¬ GergNames v (fun i : Fin l.length => l[i]) fl) → gergFactory v j = .throws .stdInvalidArgument) := by
  unfold gergFactory
  rw [hj, Outcome.bind_ok]
  constructor
  · intro fl h
    rw [gerg_build_ok v _ fl h, Outcome.bind_ok]
  · intro h
    rw [gerg_build_refused v _ h]; rfl

example : gergNamesOf (.obj [("names", .arr [.str "methane", .str "water"])]) = .ok ["methane", "water"] ∧
    gergNamesOf (.obj [("components", .arr [])]) = .throws .jsonError := ⟨rfl, rfl⟩

end Teqp.Props
