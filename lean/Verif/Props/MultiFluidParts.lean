import Verif.Model.MultiFluidParts
import Verif.Props.MultiFluid
import Verif.Props.LowDensityMF

/-!
# C192: the separately evaluated parts of a multi-fluid model

A caller can ask for a single departure term (`get_alpharij`), a single fluid (`alphar_taudeltai`), and the
energy for molar densities.  These parts reproduce the mixture, and bad numbers are handled as stated.
-/

set_option autoImplicit false

namespace Teqp.Props
open Teqp.Model Finset

/-- C192. `get_alpharij` of Python refuses exactly the numbers outside `0 … N-1`, negative ones included, and
accepts all others. -/
theorem pyAlpharij_refuses {n : ℕ} (m : MultiFluid n) (hn : (n : ℤ) ≤ 2 ^ 63) (i j : ℤ) (hi : -2 ^ 31 ≤ i ∧ i < 2 ^ 31)
    (hj : -2 ^ 31 ≤ j ∧ j < 2 ^ 31) (tau delta : ℝ) :
    (m.pyAlpharij i j tau delta = .throws .invalidArgument ↔ ¬ (0 ≤ i ∧ i < n ∧ 0 ≤ j ∧ j < n)) ∧
    ((∃ a, m.pyAlpharij i j tau delta = .ok a) ↔ 0 ≤ i ∧ i < n ∧ 0 ≤ j ∧ j < n) := by
  have key : (n ≤ sizeT i ∨ n ≤ sizeT j) ↔ ¬ (0 ≤ i ∧ i < n ∧ 0 ≤ j ∧ j < n) := by
    unfold sizeT
    omega
  unfold MultiFluid.pyAlpharij MultiFluid.getAlpharij
  by_cases h : n ≤ sizeT i ∨ n ≤ sizeT j
  · rw [dif_pos h]
    exact ⟨by simp [key.1 h], ⟨fun ⟨a, ha⟩ => (by cases ha), fun h' => absurd h' (key.1 h)⟩⟩
  · rw [dif_neg h]
    have h' := not_not.1 fun h'' => h (key.2 h'')
    exact ⟨⟨fun ha => (by cases ha), fun h'' => absurd h' h''⟩, fun _ => h', fun _ => ⟨_, rfl⟩⟩

example : gasSample.pyAlpharij (-1) 0 2 1 = .throws .invalidArgument :=
  (pyAlpharij_refuses gasSample (by norm_num) (-1) 0 (by norm_num) (by norm_num) 2 1).1.2 (by norm_num)

example : ∃ a, gasSample.pyAlpharij 1 0 2 1 = .ok a :=
  (pyAlpharij_refuses gasSample (by norm_num) 1 0 (by norm_num) (by norm_num) 2 1).2.2 (by norm_num)

/-- The reduced energy that a caller assembles from the parts: the fluids weighted with the mole fractions, and
for each pair the product of mole fractions, binary parameter `F` and departure term. -/
def AssembledFrom {n : ℕ} (fluid : ℕ → Outcome ℝ) (weight term : ℕ → ℕ → Outcome ℝ) (z : Fin n → ℝ) (a : ℝ) : Prop :=
  ∃ (e : Fin n → ℝ) (F d : Fin n → Fin n → ℝ), (∀ i : Fin n, fluid i = .ok (e i)) ∧
    (∀ i j : Fin n, i < j → weight i j = .ok (F i j) ∧ term i j = .ok (d i j)) ∧
    a = ∑ i, z i * e i + ∑ i, ∑ j ∈ univ.filter (i < ·), z i * z j * F i j * d i j

/-- C192. The energy of a mixture of two or more fluids is assembled from the parts that a caller gets, at the
reduced temperature and density of the mixture. -/
theorem multifluid_assembled {n : ℕ} (m : MultiFluid n) (red : RedFn n) (hn : n ≠ 1) (T rho : ℝ) (z : List ℝ)
    (hz : z.length = n) : ∃ a, m.alpharV T rho z = .ok a ∧
      m.alpharTaudeltaV (m.Tr (fun i => z[i]) / T) (rho / m.rhor fun i => z[i]) z = .ok a ∧
      AssembledFrom (n := n) (m.alpharTaudeltai (m.Tr (fun i => z[i]) / T) (rho / m.rhor fun i => z[i]))
        (fun i j => m.getBIP red i j "F")
        (fun i j => m.getAlpharij i j (m.Tr (fun i => z[i]) / T) (rho / m.rhor fun i => z[i])) (fun i : Fin n => z[i]) a := by
  refine ⟨m.alphar T rho fun i => z[i], by rw [MultiFluid.alpharV, dif_pos hz], ?_, ?_⟩
  · rw [MultiFluid.alpharTaudeltaV, dif_pos hz, MultiFluid.alphar]
  · refine ⟨fun i => containerAlphar (m.eos i) (m.Tr (fun i => z[i]) / T) (rho / m.rhor fun i => z[i]), m.F,
      fun i j => containerAlphar (m.func i j) (m.Tr (fun i => z[i]) / T) (rho / m.rhor fun i => z[i]), fun i => ?_, fun i j _ => ⟨?_, ?_⟩, ?_⟩
    · rw [MultiFluid.alpharTaudeltai, dif_pos i.2]
    · show m.getBIP red i j "F" = _
      rw [MultiFluid.getBIP, if_pos (Or.inl rfl), dif_pos ⟨i.2, j.2⟩]
    · show m.getAlpharij i j _ _ = _
      rw [MultiFluid.getAlpharij, dif_neg (by have := i.2; have := j.2; omega)]
    · rw [MultiFluid.alphar, MultiFluid.alphar_taudelta, dif_neg hn, MultiFluid.corr, MultiFluid.dep]

example (red : RedFn 2) : ∃ a, gasSample.alpharV 100 3000 [0.25, 0.75] = .ok a ∧
    AssembledFrom (gasSample.alpharTaudeltai 2 0.3) (fun i j => gasSample.getBIP red i j "F")
      (fun i j => gasSample.getAlpharij i j 2 0.3) ![0.25, 0.75] a := by
  obtain ⟨a, h, _, h'⟩ := multifluid_assembled gasSample red (by norm_num) 100 3000 [0.25, 0.75] rfl
  refine ⟨a, h, ?_⟩
  have e1 : gasSample.Tr (fun i : Fin 2 => [(0.25 : ℝ), 0.75][i]) / 100 = 2 := by norm_num [gasSample]
  have e2 : 3000 / gasSample.rhor (fun i : Fin 2 => [(0.25 : ℝ), 0.75][i]) = 0.3 := by norm_num [gasSample]
  have e3 : (fun i : Fin 2 => [(0.25 : ℝ), 0.75][i]) = ![0.25, 0.75] := by
    funext i
    fin_cases i <;> rfl
  rw [e1, e2] at h'
  exact e3 ▸ h'

/-- C192. The energy of one fluid for a number past the end is undefined behaviour, where `get_alpharij` refuses. -/
theorem alphari_past_end {n : ℕ} (m : MultiFluid n) (i : ℕ) (hi : n ≤ i) (tau delta : ℝ) :
    m.alpharTaudeltai tau delta i = .ub ∧ m.getAlpharij i i tau delta = .throws .invalidArgument := by
  rw [MultiFluid.alpharTaudeltai, dif_neg (by omega), MultiFluid.getAlpharij, dif_pos (Or.inl hi)]
  exact ⟨rfl, rfl⟩

example : gasSample.alpharTaudeltai 2 1 2 = .ub := (alphari_past_end gasSample 2 le_rfl 2 1).1

/-- C192. In a mixture built from the collections the departure term of a pair does not depend on the order, and
that of a fluid with itself vanishes. -/
theorem alpharij_symm {n : ℕ} (pures : Fin n → PureData) (col : List BIPEntry) (deps : List DepEntry)
    (flags : BIPFlags) (codata : Bool) (m : MultiFluid n) (h : buildMixture pures col deps flags codata = .ok m)
    (i j : ℕ) (tau delta : ℝ) :
    m.getAlpharij j i tau delta = m.getAlpharij i j tau delta ∧ (i < n → m.getAlpharij i i tau delta = .ok 0) := by
  unfold buildMixture at h
  obtain ⟨F, _, h⟩ := Outcome.bind_eq_ok.1 h
  obtain ⟨D, hD, h⟩ := Outcome.bind_eq_ok.1 h
  obtain ⟨M, _, h⟩ := Outcome.bind_eq_ok.1 h
  cases h
  have hlt : ∀ p ∈ upperPairs n, p.1 < p.2 := fun p hp => ((upperPairs_mem n p.1 p.2).mp hp).1
  obtain ⟨h1, h2⟩ := symLoop_spec _ _ (upperPairs_nodup n) hlt _ _ hD
  have hs : ∀ a b, a < n → b < n → D b a = D a b := by
    intro a b ha hb
    rcases lt_trichotomy a b with hab | rfl | hab
    · exact (h1 a b ((upperPairs_mem n a b).2 ⟨hab, hb⟩)).2
    · rfl
    · exact ((h1 b a ((upperPairs_mem n b a).2 ⟨hab, ha⟩)).2).symm
  have h0 : ∀ a, D a a = [] := fun a => h2 a a (fun ha => lt_irrefl _ (hlt _ ha)) fun ha => lt_irrefl _ (hlt _ ha)
  constructor
  · unfold MultiFluid.getAlpharij
    by_cases hij : n ≤ i ∨ n ≤ j
    · rw [dif_pos hij, dif_pos hij.symm]
    · rw [dif_neg hij, dif_neg fun h => hij h.symm]
      simp only [assemble]
      rw [hs i j (by omega) (by omega)]
  · intro hi
    rw [MultiFluid.getAlpharij, dif_neg (by omega)]
    simp only [assemble]
    rw [h0]
    simp [containerAlphar]

example : ∃ m, buildMixture samplePures [sampleBIP] [] {} false = .ok m ∧
    m.getAlpharij 1 0 2 1 = m.getAlpharij 0 1 2 1 ∧ m.getAlpharij 1 1 2 1 = .ok 0 := by
  obtain ⟨m, hm⟩ := sample_built
  exact ⟨m, hm, (alpharij_symm _ _ _ _ _ m hm 0 1 2 1).1, (alpharij_symm _ _ _ _ _ m hm 1 1 2 1).2 (by norm_num)⟩

/-- C192. The energy for molar densities is that for the total density and the mole fractions, with or without the
total passed along. -/
theorem alpharRho_eq {n : ℕ} (m : MultiFluid n) (T rho : ℝ) (hr : rho ≠ 0) (z : List ℝ) (hz : z.sum = 1) :
    m.alpharRho T (z.map (rho * ·)) none = m.alpharV T rho z ∧
    m.alpharRho T (z.map (rho * ·)) (some rho) = m.alpharV T rho z := by
  have hs : (z.map (rho * ·)).sum = rho := by rw [List.sum_map_mul_left, List.map_id', hz, mul_one]
  have hm : (z.map (rho * ·)).map (· / rho) = z := by
    rw [List.map_map]
    conv_rhs => rw [← List.map_id z]
    refine List.map_congr_left fun x _ => ?_
    simp only [Function.comp, id]
    field_simp
  constructor
  · simp only [MultiFluid.alpharRho, Option.getD_none, hs]
    rw [if_neg fun h => hr h.1, hm]
  · simp only [MultiFluid.alpharRho, Option.getD_some]
    rw [if_neg fun h => hr h.1, hm]

example : gasSample.alpharRho 100 [1000, 3000] none = gasSample.alpharV 100 4000 [0.25, 0.75] := by
  have h := (alpharRho_eq gasSample 100 4000 (by norm_num) [0.25, 0.75] (by norm_num)).1
  norm_num at h ⊢
  exact h

/-- C192. The wrong number of densities is refused, and densities that cancel give no number. -/
theorem alpharRho_bad {n : ℕ} (m : MultiFluid n) (T : ℝ) (rhovec : List ℝ) :
    (rhovec.length ≠ n → ∀ r, m.alpharRho T rhovec r = .throws .invalidArgument) ∧
    (rhovec.length = n → rhovec.sum = 0 → m.alpharRho T rhovec none = .nonFinite) := by
  constructor
  · intro h r
    simp only [MultiFluid.alpharRho]
    rw [if_neg fun h' => h h'.2, MultiFluid.alpharV, dif_neg (by simpa using h)]
  · intro h h0
    simp only [MultiFluid.alpharRho, Option.getD_none]
    rw [if_pos ⟨h0, h⟩]

example : gasSample.alpharRho 100 [1, 2, 3] none = .throws .invalidArgument ∧
    gasSample.alpharRho 100 [0, 0] none = .nonFinite :=
  ⟨(alpharRho_bad gasSample 100 [1, 2, 3]).1 (by norm_num) none, (alpharRho_bad gasSample 100 [0, 0]).2 rfl (by norm_num)⟩

/-- C192. A total that is not the sum of the densities changes the answer: the mole fractions then do not add up to
one. -/
theorem alpharRho_total_false : ∃ (m : MultiFluid 2) (T : ℝ) (rhovec : List ℝ) (r : ℝ), 0 < r ∧ (∀ x ∈ rhovec, 0 < x) ∧
    ∃ a b, m.alpharRho T rhovec (some r) = .ok a ∧ m.alpharRho T rhovec none = .ok b ∧ a ≠ b := by
  let m : MultiFluid 2 := ⟨fun _ => 100, fun z => z 0 + z 1, fun _ => [.justPower [⟨1, 0, 1⟩]], fun _ _ => 1,
    fun _ _ => [.justPower [⟨1, 0, 1⟩]], none⟩
  have e1 : univ.filter ((0 : Fin 2) < ·) = {1} := by decide
  have e2 : univ.filter ((1 : Fin 2) < ·) = ∅ := by decide
  refine ⟨m, 100, [1, 1], 1, one_pos, by simp, 3 / 2, 5 / 2, ?_, ?_, by norm_num⟩
  · simp only [MultiFluid.alpharRho, Option.getD_some]
    rw [if_neg (by norm_num), MultiFluid.alpharV, dif_pos (by rfl)]
    simp [MultiFluid.alphar, MultiFluid.alphar_taudelta, MultiFluid.corr, MultiFluid.dep, m, containerAlphar,
      Fin.sum_univ_two, e1, e2, ResTerm.alphar, ResTerm.ordBranch, PolyC.ord]
    norm_num
    rw [Real.exp_neg, Real.exp_log two_pos]
    norm_num
  · simp only [MultiFluid.alpharRho, Option.getD_none]
    rw [if_neg (by norm_num), MultiFluid.alpharV, dif_pos (by rfl)]
    simp [MultiFluid.alphar, MultiFluid.alphar_taudelta, MultiFluid.corr, MultiFluid.dep, m, containerAlphar,
      Fin.sum_univ_two, e1, e2, ResTerm.alphar, ResTerm.ordBranch, PolyC.ord]
    norm_num
    rw [Real.exp_log two_pos]
    norm_num

end Teqp.Props
