import Verif.Props.LennardJones
import Verif.Props.Mie
import Mathlib.Analysis.Real.Pi.Bounds

/-! # Lennard-Jones tables, the input of the network, soft-SAFT documents -/

set_option autoImplicit false

namespace Teqp.Props
open Teqp.Model Teqp.Spec Finset

/-- Sums of the tables, formed from the source with another program. -/
theorem lj_tables :
    johnsonX.length = 33 ∧ johnsonX.sum = -36280096493224435116057 / 10 ^ 18 ∧
    ((List.range 33).map fun i : ℕ => ((i : ℝ) + 1) * jx i).sum = -968522806109504851633927 / 10 ^ 18 := by
  refine ⟨rfl, ?_, ?_⟩
  · norm_num [johnsonX]
  · simp only [List.range_succ, List.range_zero, List.nil_append, List.cons_append, List.map_cons, List.map_nil, List.sum_cons, List.sum_nil, jx, johnsonX,
      List.getD_cons_zero, List.getD_cons_succ, List.getD_nil]
    norm_num

/-- Sums of the tables of Kolafa and Nezbeda and of the contact value, row by row. -/
theorem lj_tables_other :
    knC.length = 19 ∧ (knC.map fun e => e.2.2).sum = -720728822 / 10 ^ 8 ∧
    (knC.map fun e => ((2 * e.1 + 3 * e.2.1 : ℤ) : ℝ) * e.2.1 * e.2.2).sum = -8183624337 / 10 ^ 8 ∧
    chainA.map List.length = [5, 5, 5, 5, 5] ∧
    chainA.map List.sum = [208239994129132 / 10 ^ 14, -645653444097302 / 10 ^ 14, 1289322169393 / 10 ^ 12, 94793275890765 / 10 ^ 13, -49295014298007 / 10 ^ 13] ∧
    (chainA.map fun r => ((List.range 5).map fun j : ℕ => ((j : ℝ) + 1) * r.getD j 0).sum) =
      [985668586601782 / 10 ^ 14, -2495542168370642 / 10 ^ 14, -5849957168306 / 10 ^ 12, 420246332661915 / 10 ^ 13, -20491992952487 / 10 ^ 12] := by
  refine ⟨rfl, ?_, ?_, rfl, ?_, ?_⟩
  · norm_num [knC]
  · norm_num [knC]
  · norm_num [chainA]
  · norm_num [chainA, List.range_succ]

/-- The second virial coefficients of both equations at the temperature one, in units of that of hard spheres, are that of the potential, -2.5381, within 0.001. -/
theorem lj_virials : ∃ f g : ℝ → ℝ, ∃ B C : ℝ, (∀ rho, johnsonAlphar 1 rho = .ok (f rho)) ∧ (∀ᶠ rho in nhds 0, knAlphar 1 rho = .ok (g rho)) ∧
    HasDerivAt f B 0 ∧ HasDerivAt g C 0 ∧ |B / (2 * Real.pi / 3) + 2.5381| < 0.001 ∧ |C / (2 * Real.pi / 3) + 2.5381| < 0.001 := by
  obtain ⟨f, d, hf, -, hd, h⟩ := johnson_pressure 1 one_pos
  obtain ⟨g, hg, -, hC⟩ := kn_virial 1 one_pos
  have p1 := Real.pi_gt_d4
  have p2 := Real.pi_lt_d4
  have pp : 0 < 2 * Real.pi / 3 := by positivity
  refine ⟨f, g, _, _, hf, hg, (h 0).1, hC, ?_, ?_⟩
  · rw [hd, abs_lt]
    simp only [jx, johnsonX, List.getD_cons_zero, List.getD_cons_succ, Real.sqrt_one]
    constructor
    · rw [← sub_lt_iff_lt_add, lt_div_iff₀ pp]; norm_num; linarith
    · rw [← lt_sub_iff_add_lt, div_lt_iff₀ pp]; norm_num; linarith
  · have hk : knDiam 1 = 0.011117524 - 0.076383859 + 1.080142248 + 0.000693129 := by
      simp only [knDiam, knPow, knD, List.map_cons, List.map_nil, List.sum_cons, List.sum_nil, Real.log_one, Real.one_rpow]; norm_num
    have hB : knDB2 1 = -0.58544978 + 0.43102052 + 0.87361369 - 4.13749995 + 2.90616279 - 7.02181962 + 0.02459877 := by
      simp only [knDB2, knPow, knB, List.map_cons, List.map_nil, List.sum_cons, List.sum_nil, Real.one_rpow]; norm_num
    rw [hk, hB, abs_lt]
    constructor
    · rw [← sub_lt_iff_lt_add, lt_div_iff₀ pp]; norm_num; linarith
    · rw [← lt_sub_iff_add_lt, div_lt_iff₀ pp]; norm_num; linarith

/-- With one hidden layer the network is this expression of the range parameter, the density and the inverse temperature. -/
theorem feann_one (l : Layer) (n : ℕ) (last : ℕ → ℝ) (r a T rho v : ℝ) (hl : l.nin = 3) (h : feannAlphar [l] n last r a T rho = .ok v) :
    T * v = ∑ j ∈ range n, (Real.tanh (mieAlpha r a * l.K 0 j + rho * l.K 1 j + l.K 2 j / T + l.b j)
      - Real.tanh (mieAlpha r a * l.K 0 j + l.K 2 j / T + l.b j)) * last j := by
  unfold feannAlphar at h
  split_ifs at h with hc
  injection h with h
  have hT : T ≠ 0 := fun e => hc (by simp [e])
  rw [← h, mul_div_cancel₀ _ hT]
  unfold feannForward
  rw [← sum_sub_distrib]
  refine sum_congr rfl fun j _ => ?_
  simp only [List.foldl_cons, List.foldl_nil, Layer.apply, hl, sum_range_succ, sum_range_zero, feannInput]
  norm_num
  rw [show (T⁻¹ * l.K 2 j : ℝ) = l.K 2 j / T by rw [mul_comm, div_eq_mul_inv]]
  ring

/-- What a soft-SAFT document is: three arrays with at least one element each; otherwise the constructor reads an element that is not there. -/
theorem soft_make (j : JTree) (m e s : List ℝ) (hm : (j.at "m").bind JTree.toRow = .ok m) (he : (j.at "epsilon/kB / K").bind JTree.toRow = .ok e)
    (hs : (j.at "sigma / m").bind JTree.toRow = .ok s) :
    (0 < m.length → 0 < e.length → 0 < s.length → SoftSAFT.make j = .ok ⟨m, e, s⟩) ∧
    (m.length = 0 ∨ e.length = 0 ∨ s.length = 0 → SoftSAFT.make j = .ub) := by
  unfold SoftSAFT.make
  rw [hm, he, hs, Outcome.bind_ok, Outcome.bind_ok, Outcome.bind_ok]
  simp only [List.length_pos_iff, List.length_eq_zero_iff]
  exact ⟨fun a b c => if_neg (by simp [a, b, c]), fun h => if_pos h⟩

example : SoftSAFT.make (.obj [("m", .arr [.num 1]), ("epsilon/kB / K", .arr [.num 100]), ("sigma / m", .arr [])]) = .ub :=
  (soft_make _ [1] [100] [] rfl rfl rfl).2 (by simp)

/-- One neuron that sees the density only. -/
example : ∃ v, feannAlphar [⟨3, 1, fun i _ => if i = 1 then 1 else 0, fun _ => 0⟩] 1 (fun _ => 2) 12 6 4 0.5 = .ok v ∧ v = Real.tanh 0.5 / 2 := by
  have h : ∃ v, feannAlphar [⟨3, 1, fun i _ => if i = 1 then 1 else 0, fun _ => 0⟩] 1 (fun _ => 2) 12 6 4 0.5 = .ok v := by
    unfold feannAlphar
    exact ⟨_, if_neg (by norm_num)⟩
  obtain ⟨v, h⟩ := h
  refine ⟨v, h, ?_⟩
  have := feann_one _ 1 (fun _ => 2) 12 6 4 0.5 v rfl h
  norm_num at this ⊢
  linarith

end Teqp.Props
