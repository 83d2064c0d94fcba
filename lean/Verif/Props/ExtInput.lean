import Verif.Props.MultiFluidExt
import Verif.Props.LKP
import Mathlib.Tactic

/-! # Tables and inputs of ammonia-water (C90), the corresponding-states mutant (C92) and Huber-Ely (C89) -/

set_option autoImplicit false

namespace Teqp.Spec

/-- Rows of the table of Tillner-Roth and Friend (IAPWS G4-01, table 2): coefficient, exponent of inverse temperature, exponent of density,
exponent of density in the exponential (zero for the one term without exponential). -/
noncomputable def tillnerRothFriend : List (ℝ × ℝ × ℕ × ℕ) := [
  (-1.855822e-2, 3 / 2, 4, 0), (5.258010e-2, 1 / 2, 5, 1), (3.552874e-10, 13 / 2, 15, 1), (5.451379e-6, 7 / 4, 12, 1), (-5.998546e-13, 15, 12, 1),
  (-3.687808e-6, 6, 15, 2), (0.2586192, -1, 4, 1), (-1.368072e-8, 4, 15, 1), (1.226146e-2, 7 / 2, 4, 1), (-7.181443e-2, 0, 5, 1),
  (9.970849e-2, -1, 6, 2), (1.0584086e-3, 8, 10, 2), (-0.1963687, 15 / 2, 6, 2), (-0.7777897, 4, 2, 2)]

/-- The value of one row. -/
noncomputable def trfTerm (tau delta : ℝ) (r : ℝ × ℝ × ℕ × ℕ) : ℝ :=
  r.1 * tau ^ r.2.1 * delta ^ r.2.2.1 * (if r.2.2.2 = 0 then 1 else Real.exp (-delta ^ r.2.2.2))

/-- The power of the mole fraction of ammonia that multiplies row `i`. -/
def trfPower (i : ℕ) : ℕ := if i < 6 then 0 else if i < 13 then 1 else 2

/-- The powers of density and inverse temperature that the six rows of the coefficient matrix of the mutant belong to. -/
def ecsPowers : List (ℕ × ℕ) := [(0, 0), (1, 0), (0, 1), (2, 0), (1, 1), (0, 2)]

/-- A polynomial of second degree in density and inverse temperature whose coefficients are quadratic in composition. -/
noncomputable def ecsSurface (c : ℕ → ℕ → ℝ) (x tau delta : ℝ) : ℝ :=
  ∑ k ∈ Finset.range 6, (∑ l ∈ Finset.range 3, c k l * x ^ l) * delta ^ (ecsPowers.getD k (0, 0)).1 * tau ^ (ecsPowers.getD k (0, 0)).2

end Teqp.Spec

namespace Teqp.Props
open Finset Teqp.Model Teqp.Spec Filter Topology

/-- **The departure function is the published one**: away from pure water it is the sum of the rows of the published table, each with its power of the
mole fraction. -/
theorem aw_table (tau delta x : ℝ) (hx : x ≠ 0) :
    awDeparture tau delta x = x * (1 - x ^ (0.5248379 : ℝ)) * ∑ i ∈ range 14, x ^ trfPower i * trfTerm tau delta (tillnerRothFriend.getD i (0, 0, 0, 0)) := by
  unfold awDeparture
  rw [if_neg hx]
  congr 1
  unfold awSum awTermE awTerm
  rw [show Icc 2 6 = ({2, 3, 4, 5, 6} : Finset ℕ) by decide, show Icc 7 13 = ({7, 8, 9, 10, 11, 12, 13} : Finset ℕ) by decide]
  simp only [Finset.sum_range_succ, Finset.sum_range_zero, trfTerm, trfPower, tillnerRothFriend, awA, awT, awD, awE]
  norm_num
  ring

example : awDeparture 1 0 1 = 0 ∧ trfTerm 1 1 (tillnerRothFriend.getD 0 (0, 0, 0, 0)) = -1.855822e-2 := by
  constructor
  · rw [aw_table _ _ _ one_ne_zero]; norm_num
  · norm_num [trfTerm, tillnerRothFriend]

/-- **The departure does not touch the second virial coefficient, and its third virial coefficient is one term**: at fixed temperature the departure
starts with the square of the density, with the coefficient of the last row of the table. -/
theorem aw_virial (tau x : ℝ) (hx : x ≠ 0) :
    HasDerivAt (fun d => awDeparture tau d x) 0 0 ∧
    Tendsto (fun d => awDeparture tau d x / d ^ 2) (𝓝[≠] 0) (𝓝 (x * (1 - x ^ (0.5248379 : ℝ)) * (x ^ 2 * (-0.7777897 * tau ^ (4 : ℝ))))) := by
  obtain ⟨G, hG, hc, h0⟩ : ∃ G : ℝ → ℝ, (∀ d, awDeparture tau d x = d ^ 2 * G d) ∧ ContinuousAt G 0 ∧
      G 0 = x * (1 - x ^ (0.5248379 : ℝ)) * (x ^ 2 * (-0.7777897 * tau ^ (4 : ℝ))) := by
    refine ⟨fun d => x * (1 - x ^ (0.5248379 : ℝ)) * ∑ i ∈ range 14, x ^ trfPower i *
      trfTerm tau d ((tillnerRothFriend.getD i (0, 0, 0, 0)).1, (tillnerRothFriend.getD i (0, 0, 0, 0)).2.1, (tillnerRothFriend.getD i (0, 0, 0, 0)).2.2.1 - 2,
        (tillnerRothFriend.getD i (0, 0, 0, 0)).2.2.2), fun d => ?_, ?_, ?_⟩
    · rw [aw_table _ _ _ hx, mul_left_comm, Finset.mul_sum (range 14) _ (d ^ 2)]
      congr 1
      refine Finset.sum_congr rfl fun i hi => ?_
      rw [mul_left_comm]
      congr 1
      unfold trfTerm
      have h2 : 2 ≤ (tillnerRothFriend.getD i (0, 0, 0, 0)).2.2.1 := by
        have hi := Finset.mem_range.mp hi
        interval_cases i <;> simp [tillnerRothFriend]
      dsimp only
      generalize (tillnerRothFriend.getD i (0, 0, 0, 0)).2.2.1 = n at h2 ⊢
      obtain ⟨k, rfl⟩ := Nat.exists_eq_add_of_le h2
      rw [Nat.add_sub_cancel_left, pow_add]
      ring
    · refine Continuous.continuousAt ?_
      unfold trfTerm
      refine continuous_const.mul (continuous_finsetSum _ fun i _ => continuous_const.mul ((continuous_const.mul (continuous_id.pow _)).mul ?_))
      split_ifs
      · exact continuous_const
      · exact ((continuous_id.pow _).neg).rexp
    · simp [Finset.sum_range_succ, trfTerm, trfPower, tillnerRothFriend]
  constructor
  · rw [show (fun d => awDeparture tau d x) = fun d => d ^ 2 * G d from funext hG]
    rw [hasDerivAt_iff_tendsto_slope_zero]
    have : Tendsto (fun t : ℝ => t * G t) (𝓝[≠] 0) (𝓝 0) := by
      have := (continuousAt_id (x := (0 : ℝ))).mul hc
      have := this.tendsto.mono_left (nhdsWithin_le_nhds (s := {0}ᶜ))
      have h' : (id * G) = fun t : ℝ => t * G t := rfl
      rw [h'] at this
      simpa using this
    refine this.congr' ?_
    filter_upwards [self_mem_nhdsWithin] with t ht
    have ht : t ≠ 0 := ht
    simp only [zero_add, smul_eq_mul]
    field_simp
    ring
  · rw [← h0]
    refine (hc.tendsto.mono_left nhdsWithin_le_nhds).congr' ?_
    filter_upwards [self_mem_nhdsWithin] with t ht
    have ht : t ≠ 0 := ht
    rw [hG]
    field_simp

/-! ## The corresponding-states mutant -/

/-- **The reducing temperature and volume are the published surfaces**: quadratic mixing of the critical values with a cross term that is a polynomial of
second degree in reduced density and inverse reduced temperature. -/
theorem ecs_surface (m : ECSMutant) (T rho x0 x1 : ℝ) :
    m.getTr T rho x0 x1 = x0 ^ 2 * m.Tc0 + x1 ^ 2 * m.Tc1 + 2 * x0 * x1 * (Real.sqrt (m.Tc0 * m.Tc1) * ecsSurface m.tr x0 (Real.sqrt (m.Tc0 * m.Tc1) / T) (rho * m.vScale)) ∧
    m.getVr T rho x0 x1 = x0 ^ 2 * m.vc0 + x1 ^ 2 * m.vc1 + 2 * x0 * x1 * (m.vScale * ecsSurface m.dr x0 (Real.sqrt (m.Tc0 * m.Tc1) / T) (rho * m.vScale)) := by
  have hp (c : ℕ → ℕ → ℝ) (tau delta : ℝ) : ECSMutant.poly c x0 tau delta = ecsSurface c x0 tau delta := by
    unfold ECSMutant.poly ECSMutant.coef ecsSurface
    simp only [Finset.sum_range_succ, Finset.sum_range_zero, ecsPowers]
    simp
    ring
  have sq : ∀ y : ℝ, y ^ (2 : ℝ) = y ^ 2 := fun y => by norm_cast
  constructor
  · unfold ECSMutant.getTr ECSMutant.tScale
    rw [hp, sq, sq, div_div_eq_mul_div, div_one]
    ring
  · unfold ECSMutant.getVr ECSMutant.tScale
    rw [hp, sq, sq, div_div_eq_mul_div, div_one, one_div_one_div]
    ring

example : ecsSurface (fun k l => if k = 4 ∧ l = 2 then 1 else 0) 3 5 7 = 9 * 35 := by
  simp [ecsSurface, Finset.sum_range_succ, ecsPowers]
  norm_num

/-- A matrix of numbers as a document. -/
noncomputable def ecsDoc (n k : ℕ) (f : ℕ → ℕ → ℝ) : JTree := .arr ((List.range n).map fun i => .arr ((List.range k).map fun l => .num (f i l)))

theorem mapOutcome_ok_of {α β γ : Type} (g : α → Outcome β) (h : γ → α) (k : γ → β) (hg : ∀ c, g (h c) = .ok (k c)) (l : List γ) :
    mapOutcome g (l.map h) = .ok (l.map k) := by
  induction l with
  | nil => rfl
  | cons a l ih => simp only [List.map_cons, mapOutcome, hg, ih, Outcome.bind_ok]

theorem ecsMatrix_doc (n k : ℕ) (f : ℕ → ℕ → ℝ) (hn : 0 < n) :
    ∃ g, ecsMatrix (ecsDoc n k f) = .ok (n, k, g) ∧ ∀ i < n, ∀ l < k, g i l = f i l := by
  obtain ⟨n, rfl⟩ : ∃ n', n = n' + 1 := ⟨n - 1, by omega⟩
  have hl : ((List.range k).map fun l => JTree.num (f 0 l)).length = k := by simp
  have hrow : ∀ i, (List.map (fun l => JTree.num (f i l)) (List.range k)).take k = List.map (fun l => JTree.num (f i l)) (List.range k) := by
    intro i
    exact List.take_of_length_le (by simp)
  have key := mapOutcome_ok_of (fun r : JTree => match r with
      | .arr r => if r.length < k then .throws .jsonError else mapOutcome JTree.toDouble (r.take k)
      | _ => if k = 0 then .ok [] else .throws .jsonError) (fun i => JTree.arr ((List.range k).map fun l => .num (f i l)))
      (fun i => (List.range k).map fun l => f i l)
      (fun i => by
        dsimp only
        rw [if_neg (by simp), hrow]
        exact mapOutcome_ok_of JTree.toDouble (fun l => JTree.num (f i l)) (fun l => f i l) (fun _ => rfl) _) (List.range (n + 1))
  refine ⟨fun i l => (((List.range (n + 1)).map fun i => (List.range k).map fun l => f i l).getD i []).getD l 0, ?_, ?_⟩
  · unfold ecsDoc
    rw [List.range_succ_eq_map, List.map_cons] at key ⊢
    unfold ecsMatrix
    simp only [hl]
    refine (congrArg (fun o => Outcome.bind o _) key).trans ?_
    simp [Outcome.bind]
  · intro i hi l hl
    simp [hi, hl]

/-- **Six rows and three columns are what evaluation needs**: from two rectangular matrices the constructor makes a mutant that can be evaluated exactly if both
have at least six rows and three columns, and its coefficients are the entries of the document; smaller ones give a mutant whose evaluation reads outside. -/
theorem ecs_sizes (Tc vc : Fin 2 → ℝ) (n1 k1 n2 k2 : ℕ) (f g : ℕ → ℕ → ℝ) (h1 : 0 < n1) (h2 : 0 < n2) :
    ∃ r, ecsMake Tc vc (.obj [("dr_coeffs", ecsDoc n2 k2 g), ("tr_coeffs", ecsDoc n1 k1 f)]) = .ok r ∧
      (r.isSome ↔ 6 ≤ n1 ∧ 3 ≤ k1 ∧ 6 ≤ n2 ∧ 3 ≤ k2) ∧
      ∀ m, r = some m → m.Tc0 = Tc 0 ∧ m.Tc1 = Tc 1 ∧ m.vc0 = vc 0 ∧ m.vc1 = vc 1 ∧ ∀ i < 6, ∀ l < 3, m.tr i l = f i l ∧ m.dr i l = g i l := by
  obtain ⟨F, hF, hF'⟩ := ecsMatrix_doc n1 k1 f h1
  obtain ⟨G, hG, hG'⟩ := ecsMatrix_doc n2 k2 g h2
  have e1 : (JTree.obj [("dr_coeffs", ecsDoc n2 k2 g), ("tr_coeffs", ecsDoc n1 k1 f)]).at "tr_coeffs" = .ok (ecsDoc n1 k1 f) := rfl
  have e2 : (JTree.obj [("dr_coeffs", ecsDoc n2 k2 g), ("tr_coeffs", ecsDoc n1 k1 f)]).at "dr_coeffs" = .ok (ecsDoc n2 k2 g) := rfl
  have c1 : (JTree.obj [("dr_coeffs", ecsDoc n2 k2 g), ("tr_coeffs", ecsDoc n1 k1 f)]).contains "tr_coeffs" = true := rfl
  have c2 : (JTree.obj [("dr_coeffs", ecsDoc n2 k2 g), ("tr_coeffs", ecsDoc n1 k1 f)]).contains "dr_coeffs" = true := rfl
  unfold ecsMake
  rw [if_neg (by rw [c1]; simp), if_neg (by rw [c2]; simp), e1, e2, Outcome.bind_ok, Outcome.bind_ok, hF, hG, Outcome.bind_ok, Outcome.bind_ok]
  dsimp only
  by_cases h : n1 < 6 ∨ k1 < 3 ∨ n2 < 6 ∨ k2 < 3
  · rw [if_pos h]
    exact ⟨none, rfl, by simp; omega, fun m hm => by cases hm⟩
  · rw [if_neg h]
    refine ⟨_, rfl, by simp; omega, fun m hm => ?_⟩
    cases hm
    exact ⟨rfl, rfl, rfl, rfl, fun i hi l hl => ⟨hF' i (by omega) l (by omega), hG' i (by omega) l (by omega)⟩⟩

example : ∃ r, ecsMake ![300, 400] ![1e-4, 2e-4] (.obj [("dr_coeffs", ecsDoc 6 3 fun _ _ => 1), ("tr_coeffs", ecsDoc 6 3 fun _ _ => 2)]) = .ok (some r) := by
  obtain ⟨r, h1, h2, -⟩ := ecs_sizes ![300, 400] ![1e-4, 2e-4] 6 3 6 3 (fun _ _ => 2) (fun _ _ => 1) (by norm_num) (by norm_num)
  obtain ⟨m, hm⟩ := Option.isSome_iff_exists.mp (h2.mpr (by norm_num))
  exact ⟨m, by rw [h1, hm]⟩

/-! ## Huber and Ely -/

/-- **Every number of the document reaches its place**: the model has the reference constants from `reference_fluid`, the constants and shape coefficients
from `fluid`, and the reference equation that the name stands for. -/
theorem huberEly_factory (build : String → Outcome (ℝ → ℝ → List ℝ → Outcome ℝ)) (name : String) (ref : ℝ → ℝ → List ℝ → Outcome ℝ) (o0 z0 t0 r0 o z t r : ℝ)
    (f h : List ℝ) (hb : build name = .ok ref) :
    HuberEly.make build (.obj [
      ("fluid", .obj [("Z_crit", .num z), ("acentric", .num o), ("T_crit / K", .num t), ("rhomolar_crit / mol/m^3", .num r),
        ("f_T_coeffs", .arr (f.map .num)), ("h_T_coeffs", .arr (h.map .num))]),
      ("reference_fluid", .obj [("name", .str name), ("acentric", .num o0), ("Z_crit", .num z0), ("T_crit / K", .num t0), ("rhomolar_crit / mol/m^3", .num r0)])]) =
    .ok ⟨o0, z0, t0, r0, o, z, t, r, f, h, ref⟩ := by
  have hrow (l : List ℝ) : (JTree.arr (l.map .num)).toRow = .ok l := by
    have := mapOutcome_ok_of JTree.toDouble JTree.num (fun x => x) (fun _ => rfl) l
    rw [List.map_id'] at this
    exact this
  have e1 : ∀ (a b : JTree), (JTree.obj [("fluid", a), ("reference_fluid", b)]).at "reference_fluid" = .ok b := fun _ _ => rfl
  have e2 : ∀ (a b : JTree), (JTree.obj [("fluid", a), ("reference_fluid", b)]).at "fluid" = .ok a := fun _ _ => rfl
  have f1 : ∀ a b c d e g : JTree, (JTree.obj [("Z_crit", a), ("acentric", b), ("T_crit / K", c), ("rhomolar_crit / mol/m^3", d), ("f_T_coeffs", e), ("h_T_coeffs", g)]).at "acentric" = .ok b := fun _ _ _ _ _ _ => rfl
  have f2 : ∀ a b c d e g : JTree, (JTree.obj [("Z_crit", a), ("acentric", b), ("T_crit / K", c), ("rhomolar_crit / mol/m^3", d), ("f_T_coeffs", e), ("h_T_coeffs", g)]).at "Z_crit" = .ok a := fun _ _ _ _ _ _ => rfl
  have f3 : ∀ a b c d e g : JTree, (JTree.obj [("Z_crit", a), ("acentric", b), ("T_crit / K", c), ("rhomolar_crit / mol/m^3", d), ("f_T_coeffs", e), ("h_T_coeffs", g)]).at "T_crit / K" = .ok c := fun _ _ _ _ _ _ => rfl
  have f4 : ∀ a b c d e g : JTree, (JTree.obj [("Z_crit", a), ("acentric", b), ("T_crit / K", c), ("rhomolar_crit / mol/m^3", d), ("f_T_coeffs", e), ("h_T_coeffs", g)]).at "rhomolar_crit / mol/m^3" = .ok d := fun _ _ _ _ _ _ => rfl
  have f5 : ∀ a b c d e g : JTree, (JTree.obj [("Z_crit", a), ("acentric", b), ("T_crit / K", c), ("rhomolar_crit / mol/m^3", d), ("f_T_coeffs", e), ("h_T_coeffs", g)]).at "f_T_coeffs" = .ok e := fun _ _ _ _ _ _ => rfl
  have f6 : ∀ a b c d e g : JTree, (JTree.obj [("Z_crit", a), ("acentric", b), ("T_crit / K", c), ("rhomolar_crit / mol/m^3", d), ("f_T_coeffs", e), ("h_T_coeffs", g)]).at "h_T_coeffs" = .ok g := fun _ _ _ _ _ _ => rfl
  have g1 : ∀ a b c d e : JTree, (JTree.obj [("name", a), ("acentric", b), ("Z_crit", c), ("T_crit / K", d), ("rhomolar_crit / mol/m^3", e)]).at "name" = .ok a := fun _ _ _ _ _ => rfl
  have g2 : ∀ a b c d e : JTree, (JTree.obj [("name", a), ("acentric", b), ("Z_crit", c), ("T_crit / K", d), ("rhomolar_crit / mol/m^3", e)]).at "acentric" = .ok b := fun _ _ _ _ _ => rfl
  have g3 : ∀ a b c d e : JTree, (JTree.obj [("name", a), ("acentric", b), ("Z_crit", c), ("T_crit / K", d), ("rhomolar_crit / mol/m^3", e)]).at "Z_crit" = .ok c := fun _ _ _ _ _ => rfl
  have g4 : ∀ a b c d e : JTree, (JTree.obj [("name", a), ("acentric", b), ("Z_crit", c), ("T_crit / K", d), ("rhomolar_crit / mol/m^3", e)]).at "T_crit / K" = .ok d := fun _ _ _ _ _ => rfl
  have g5 : ∀ a b c d e : JTree, (JTree.obj [("name", a), ("acentric", b), ("Z_crit", c), ("T_crit / K", d), ("rhomolar_crit / mol/m^3", e)]).at "rhomolar_crit / mol/m^3" = .ok e := fun _ _ _ _ _ => rfl
  have d1 (y : ℝ) : (JTree.num y).toDouble = .ok y := rfl
  have d2 (y : String) : (JTree.str y).toStr = .ok y := rfl
  unfold HuberEly.make
  simp only [e1, e2, f1, f2, f3, f4, f5, f6, g1, g2, g3, g4, g5, d1, d2, hrow, hb, Outcome.bind_ok]

end Teqp.Props
