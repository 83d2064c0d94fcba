import Verif.Lemmas.PhaseEquil
import Verif.Lemmas.Outcome

/-! # The general phase-equilibrium system (C46) -/

set_option autoImplicit false

open Teqp.Calc Teqp.Model Teqp.Spec Teqp.Lemmas Teqp.MixVLE Teqp.PhaseEquil Filter Topology

namespace Teqp.Props

/-! ## Construction and layout -/

/-- **C46** The constructor finishes exactly when there is a phase, all phases have the same number of components, not none,
there are as many phase fractions as phases and two specifications. -/
theorem peConstruct_ok (sizes : List ℕ) (nb ns N P : ℕ) :
    peConstruct sizes nb ns = .ok (N, P) ↔
      (sizes ≠ [] ∧ (∀ N' ∈ sizes, N' = N) ∧ 0 < N ∧ sizes.length = P ∧ nb = P ∧ ns = 2) := by
  cases sizes with
  | nil => simp [peConstruct]
  | cons a rest =>
    simp only [peConstruct]
    by_cases h1 : ∃ N' ∈ rest, N' ≠ a
    · rw [if_pos h1]
      simp only [reduceCtorEq, false_iff]
      rintro ⟨-, h, -⟩
      obtain ⟨N', h2, h3⟩ := h1
      exact h3 ((h N' (List.mem_cons_of_mem _ h2)).trans (h a List.mem_cons_self).symm)
    rw [if_neg h1]
    push Not at h1
    by_cases h2 : a = 0
    · rw [if_pos h2]
      simp only [reduceCtorEq, false_iff]
      rintro ⟨-, h, h3, -⟩
      have := h a List.mem_cons_self
      omega
    rw [if_neg h2]
    by_cases h3 : nb ≠ (a :: rest).length
    · rw [if_pos h3]
      simp only [reduceCtorEq, false_iff]
      rintro ⟨-, -, -, h4, h5, -⟩
      exact h3 (h5.trans h4.symm)
    rw [if_neg h3]
    push Not at h3
    by_cases h4 : ns ≠ 2
    · rw [if_pos h4]
      simp only [reduceCtorEq, false_iff]
      rintro ⟨-, -, -, -, -, h5⟩
      exact h4 h5
    rw [if_neg h4]
    push Not at h4
    simp only [Outcome.ok.injEq, Prod.mk.injEq]
    constructor
    · rintro ⟨rfl, rfl⟩
      refine ⟨by simp, fun N' hN => ?_, by omega, h3.symm, rfl, h4⟩
      rcases List.mem_cons.mp hN with rfl | hN
      · rfl
      · exact h1 N' hN
    · rintro ⟨-, h, -, h5, h6, -⟩
      exact ⟨h a List.mem_cons_self, h6⟩

/-- **C46** is false of the code as far as errors go: phases of different sizes do not raise an exception the caller can
catch; the bare `throw;` ends the program. -/
theorem peConstruct_terminates : peConstruct [2, 3] 2 2 = .ub ∧ peConstruct [] 0 2 = .ub ∧ peConstruct [0] 1 2 = .ub ∧
    peConstruct [2, 2] 3 2 = .throws .invalidArgument := by decide

example : peConstruct [2, 2, 2] 3 2 = .ok (2, 3) := (peConstruct_ok _ _ _ _ _).mpr (by decide)

section layout
variable {n q : ℕ}

/-- **C46** Unpacking gives back what was packed. -/
theorem peUnpack_pack (u : PhaseVars n q) : peUnpack n q (pePack u) = u := by
  cases u with
  | mk T rho beta =>
    unfold peUnpack
    congr 1
    · exact pePack_T _
    · funext k j
      exact pePack_rho _ k j
    · funext k
      exact pePack_beta _ k

/-- **C46** Packing gives back every entry of what was unpacked. -/
theorem pePack_unpack (x : ℕ → ℝ) {c : ℕ} (hc : c < peSize n q) : pePack (peUnpack n q x) c = x c := by
  rcases Nat.eq_zero_or_pos c with rfl | h0
  · exact pePack_T _
  by_cases h1 : c < 1 + (q + 1) * (n + 1)
  · have hd : (c - 1) / (n + 1) < q + 1 := by
      rw [Nat.div_lt_iff_lt_mul (by omega)]
      omega
    have hm : (c - 1) % (n + 1) < n + 1 := Nat.mod_lt _ (by omega)
    have e : c = 1 + (⟨(c - 1) / (n + 1), hd⟩ : Fin (q + 1)) * (n + 1) + (⟨(c - 1) % (n + 1), hm⟩ : Fin (n + 1)) := by
      simp only
      have := Nat.div_add_mod (c - 1) (n + 1)
      rw [Nat.mul_comm] at this
      omega
    rw [e, pePack_rho]
    rfl
  · have hk : c - (peSize n q - (q + 1)) < q + 1 := by
      have := peSize_sub n q
      have := peSize_eq n q
      omega
    have e : c = peSize n q - (q + 1) + (⟨c - (peSize n q - (q + 1)), hk⟩ : Fin (q + 1)) := by
      simp only
      have := peSize_sub n q
      omega
    rw [e, pePack_beta]
    rfl

/-- The vector handed to `call`. -/
def peVector (u : PhaseVars n q) : List ℝ := (List.range (peSize n q)).map (pePack u)

theorem peVector_length (u : PhaseVars n q) : (peVector u).length = peSize n q := by simp [peVector]

theorem peVector_unpack (u : PhaseVars n q) : (peUnpack n q fun c => (peVector u).getD c 0) = u := by
  have e : ∀ c, c < peSize n q → (peVector u).getD c 0 = pePack u c := by
    intro c hc
    simp [peVector, List.getD_eq_getElem?_getD, List.getElem?_map, List.getElem?_range hc]
  conv_rhs => rw [← peUnpack_pack u]
  unfold peUnpack
  congr 1
  · exact e 0 (by unfold peSize; omega)
  · funext k j
    refine e _ ?_
    have := col_lt k j
    have := peSize_eq n q
    omega
  · funext k
    refine e _ ?_
    have := peSize_sub n q
    have := peSize_eq n q
    omega

/-- **C46** The order of the unknowns: temperature, the concentrations phase by phase, the phase fractions. -/
example : peVector (⟨300, ![![1, 2], ![3, 4]], ![5, 6]⟩ : PhaseVars 1 1) = [300, 1, 2, 3, 4, 5, 6] := by
  have h0 := pePack_T (⟨300, ![![1, 2], ![3, 4]], ![5, 6]⟩ : PhaseVars 1 1)
  have h1 := pePack_rho (⟨300, ![![1, 2], ![3, 4]], ![5, 6]⟩ : PhaseVars 1 1)
  have h2 := pePack_beta (⟨300, ![![1, 2], ![3, 4]], ![5, 6]⟩ : PhaseVars 1 1)
  have a1 := h1 0 0
  have a2 := h1 0 1
  have a3 := h1 1 0
  have a4 := h1 1 1
  have a5 := h2 0
  have a6 := h2 1
  have e : List.range (peSize 1 1) = [0, 1, 2, 3, 4, 5, 6] := by decide
  simp only [peVector, e, List.map_cons, List.map_nil]
  norm_num [peSize] at a1 a2 a3 a4 a5 a6
  rw [h0, a1, a2, a3, a4, a5, a6]

end layout

/-! ## The number of equations -/

section rows
variable {n q : ℕ} {m : EOS (Fin (n + 1))} {R : ℝ}

theorem peCommonRows_length (w : PhaseVars n q) (z : List ℝ) :
    (peCommonRows m R w z).length = q * (n + 1) + q + n + 1 := by
  simp [peCommonRows, List.length_flatMap]
  ring

theorem peSpecRows_length {w : PhaseVars n q} {ig : Option (EOS (Fin (n + 1)))} {specs : List PESpec} {rs : List PERow}
    (h : peSpecRows m R w ig specs = .ok rs) : rs.length = specs.length := by
  induction specs generalizing rs with
  | nil =>
    simp only [peSpecRows, Outcome.ok.injEq] at h
    subst h
    rfl
  | cons s ss ih =>
    rw [peSpecRows] at h
    obtain ⟨r, -, h1⟩ := Outcome.bind_eq_ok.mp h
    obtain ⟨rs', h2, h3⟩ := Outcome.bind_eq_ok.mp h1
    injection h3 with h3
    subst h3
    simp [ih h2]

theorem peCall_ok {z : List ℝ} {ig : Option (EOS (Fin (n + 1)))} {specs : List PESpec} {w : PhaseVars n q}
    {rows : List PERow} (h : peCall (q := q) m R z ig specs (peVector w) = .ok rows) :
    n ≤ z.length ∧ ¬(0 < q ∧ peSize n q < 1 + (n + 1) * (n + 1)) ∧ ¬peSingular R w ∧
      ∃ ss, peSpecRows m R w ig specs = .ok ss ∧ rows = peCommonRows m R w z ++ ss := by
  unfold peCall at h
  rw [if_neg (by rw [peVector_length]; simp)] at h
  by_cases hub : (0 < q ∧ peSize n q < 1 + (n + 1) * (n + 1)) ∨ z.length < n
  · rw [if_pos hub] at h; simp at h
  rw [if_neg hub, peVector_unpack] at h
  obtain ⟨ss, h1, h2⟩ := Outcome.bind_eq_ok.mp h
  push Not at hub
  by_cases hs : peSingular R w
  · rw [if_pos hs] at h2; simp at h2
  rw [if_neg hs] at h2
  injection h2 with h2
  exact ⟨hub.2, fun h' => absurd h'.2 (by have := hub.1 h'.1; omega), hs, ss, h1, h2.symm⟩

/-- **C46** With two specifications the system is square: as many equations as unknowns, for every number of phases and
components. -/
theorem peCall_square {z : List ℝ} {ig : Option (EOS (Fin (n + 1)))} {specs : List PESpec} (h2 : specs.length = 2)
    {w : PhaseVars n q} {rows : List PERow} (h : peCall (q := q) m R z ig specs (peVector w) = .ok rows) :
    rows.length = (peVector w).length := by
  obtain ⟨-, -, -, ss, h3, rfl⟩ := peCall_ok h
  rw [List.length_append, peCommonRows_length, peSpecRows_length h3, h2, peVector_length, peSize]
  ring

/-- **C46** A vector of any other size is refused. -/
theorem peCall_refuses (z : List ℝ) (ig : Option (EOS (Fin (n + 1)))) (specs : List PESpec) {x : List ℝ}
    (h : x.length ≠ 1 + (n + 2) * (q + 1)) : peCall (q := q) m R z ig specs x = .throws .invalidArgument := by
  unfold peCall
  rw [if_pos (show x.length ≠ peSize n q from h)]

/-- **C46** is false of the code: with at least two phases and more components than phases the Jacobian is written out of
bounds, whatever the state. -/
theorem peCall_out_of_bounds {z : List ℝ} {ig : Option (EOS (Fin (n + 1)))} {specs : List PESpec} (hq : 0 < q) (hn : q < n)
    (w : PhaseVars n q) : peCall (q := q) m R z ig specs (peVector w) = .ub := by
  unfold peCall
  rw [if_neg (by rw [peVector_length]; simp), if_pos]
  refine Or.inl ⟨hq, ?_⟩
  unfold peSize
  have : (n + 1 + 1) * (q + 1) ≤ (n + 1 + 1) * n := Nat.mul_le_mul_left _ hn
  have e : (n + 1) * (n + 1) = (n + 1 + 1) * n + 1 := by ring
  omega

example {m : EOS (Fin 3)} {R : ℝ} (w : PhaseVars 2 1) :
    peCall (q := 1) m R [1 / 3, 1 / 3, 1 / 3] none [.T 300, .p 1] (peVector w) = .ub :=
  peCall_out_of_bounds (by decide) (by decide) w

end rows

/-! ## The Jacobian -/

section jacobian
variable {n q : ℕ}

/-- The unknowns move along a curve, at `s` with the rates `v`. -/
structure Moves (w : ℝ → PhaseVars n q) (v : PhaseVars n q) (s : ℝ) : Prop where
  T : HasDerivAt (fun u => (w u).T) v.T s
  rho : ∀ k, HasDerivAt (fun u => (w u).rho k) (v.rho k) s
  beta : ∀ k, HasDerivAt (fun u => (w u).beta k) (v.beta k) s

/-- A row of the Jacobian times a vector of unknowns. -/
def rowDot (J : ℕ → ℝ) (v : PhaseVars n q) : ℝ := ∑ c ∈ Finset.range (peSize n q), J c * pePack v c

/-- The Jacobian of the row is the derivative of its residual. -/
def RowExact (f : PhaseVars n q → PERow) (w0 : PhaseVars n q) : Prop :=
  ∀ (w : ℝ → PhaseVars n q) (v : PhaseVars n q) (s : ℝ), Moves w v s → w s = w0 →
    HasDerivAt (fun u => (f (w u)).1) (rowDot (f w0).2 v) s

theorem rowDot_all (f : ℕ → Fin (n + 1) → ℝ) (b : Fin (q + 1) → ℝ) (base : ℕ → ℝ) (v : PhaseVars n q) :
    rowDot (setBlocks (q + 1) f (setBlock base (peSize n q - (q + 1)) b)) v =
      base 0 * v.T + (∑ k : Fin (q + 1), ∑ j, f k j * v.rho k j) + ∑ k, b k * v.beta k := by
  unfold rowDot
  rw [rowDot_eq]
  congr 1
  · congr 1
    · rw [setBlocks_beyond _ _ (Or.inl rfl), setBlock_out _ (Or.inl (by rw [peSize_sub]; omega))]
    · refine Finset.sum_congr rfl fun k _ => Finset.sum_congr rfl fun j _ => ?_
      rw [setBlocks_in _ k.isLt]
  · refine Finset.sum_congr rfl fun k _ => ?_
    rw [setBlocks_beyond _ _ (Or.inr (by rw [peSize_sub]; omega)), setBlock_in]

theorem rowDot_blocks (f : ℕ → Fin (n + 1) → ℝ) (a : ℝ) (v : PhaseVars n q) :
    rowDot (setBlocks (q + 1) f (Function.update (fun _ => 0) 0 a)) v =
      a * v.T + ∑ k : Fin (q + 1), ∑ j, f k j * v.rho k j := by
  unfold rowDot
  rw [rowDot_eq]
  have e : ∑ k : Fin (q + 1), setBlocks (q + 1) f (Function.update (fun _ => 0) 0 a) (peSize n q - (q + 1) + k) * v.beta k =
      0 := by
    refine Finset.sum_eq_zero fun k _ => ?_
    rw [setBlocks_beyond _ _ (Or.inr (by rw [peSize_sub]; omega)),
      Function.update_of_ne (by rw [peSize_sub]; omega), zero_mul]
  rw [e, add_zero]
  congr 1
  · rw [setBlocks_beyond _ _ (Or.inl rfl), Function.update_self]
  · refine Finset.sum_congr rfl fun k _ => Finset.sum_congr rfl fun j _ => ?_
    rw [setBlocks_in _ k.isLt]

theorem rowDot_first (g : Fin (n + 1) → ℝ) (a : ℝ) (v : PhaseVars n q) :
    rowDot (setBlock (Function.update (fun _ => 0) 0 a) 1 g) v = a * v.T + ∑ j, g j * v.rho 0 j := by
  unfold rowDot
  rw [rowDot_eq]
  have e : ∑ k : Fin (q + 1), setBlock (Function.update (fun _ => 0) 0 a) 1 g (peSize n q - (q + 1) + k) * v.beta k = 0 := by
    refine Finset.sum_eq_zero fun k _ => ?_
    have : n + 1 ≤ (q + 1) * (n + 1) := Nat.le_mul_of_pos_left _ (by omega)
    rw [setBlock_out _ (Or.inr (by rw [peSize_sub]; omega)), Function.update_of_ne (by rw [peSize_sub]; omega), zero_mul]
  have e0 : setBlock (Function.update (fun _ => 0) 0 a) 1 g 0 = a := by
    rw [setBlock_out _ (Or.inl (by omega)), Function.update_self]
  rw [e, add_zero, e0]
  congr 1
  · rw [Fin.sum_univ_succ]
    have e2 : ∑ k : Fin q, ∑ j : Fin (n + 1), setBlock (Function.update (fun _ => 0) 0 a) 1 g
        (1 + (k.succ : Fin (q + 1)) * (n + 1) + j) * v.rho k.succ j = 0 := by
      refine Finset.sum_eq_zero fun k _ => Finset.sum_eq_zero fun j _ => ?_
      have : n + 1 ≤ (k.val + 1) * (n + 1) := Nat.le_mul_of_pos_left _ (by omega)
      rw [setBlock_out _ (Or.inr (by simp only [Fin.val_succ]; omega)), Function.update_of_ne (by simp only [Fin.val_succ]; omega),
        zero_mul]
    rw [e2, add_zero]
    refine Finset.sum_congr rfl fun j _ => ?_
    have := setBlock_in (row := Function.update (fun _ => 0) 0 a) 1 g j
    simp only [Fin.val_zero, zero_mul, add_zero]
    rw [this]

theorem rowDot_fractions (b : Fin (q + 1) → ℝ) (v : PhaseVars n q) :
    rowDot (setBlock (fun _ => 0) (peSize n q - (q + 1)) b) v = ∑ k, b k * v.beta k := by
  have h := rowDot_all (n := n) (q := q) (fun _ _ => 0) b (fun _ => 0) v
  have e : setBlocks (q + 1) (fun _ (_ : Fin (n + 1)) => 0) (setBlock (fun _ => 0) (peSize n q - (q + 1)) b) =
      setBlock (fun _ => 0) (peSize n q - (q + 1)) b := by
    funext c
    by_cases h0 : c = 0 ∨ 1 + (q + 1) * (n + 1) ≤ c
    · exact setBlocks_beyond _ _ h0
    · push Not at h0
      have hd : (c - 1) / (n + 1) < q + 1 := by
        rw [Nat.div_lt_iff_lt_mul (by omega)]
        omega
      have hm : (c - 1) % (n + 1) < n + 1 := Nat.mod_lt _ (by omega)
      have e : c = 1 + (c - 1) / (n + 1) * (n + 1) + (⟨(c - 1) % (n + 1), hm⟩ : Fin (n + 1)) := by
        simp only
        have := Nat.div_add_mod (c - 1) (n + 1)
        rw [Nat.mul_comm] at this
        omega
      rw [e, setBlocks_in _ hd, ← e, setBlock_out _ (Or.inl (by rw [peSize_sub]; omega))]
  rw [e] at h
  rw [h]
  simp

/-! ### Rows that are right for every number of phases and components -/

theorem peSumRow_exact (w0 : PhaseVars n q) : RowExact peSumRow w0 := by
  intro w v s hw _
  simp only [peSumRow]
  rw [rowDot_fractions]
  refine ((HasDerivAt.fun_sum fun k _ => hw.beta k).sub_const 1).congr_deriv ?_
  simp

theorem peBalRow_exact {w0 : PhaseVars n q} (h0 : ∀ k, rhotot (w0.rho k) ≠ 0) (z : ℝ) (i : Fin (n + 1)) :
    RowExact (fun w => peBalRow w z i) w0 := by
  intro w v s hw hs
  subst hs
  simp only [peBalRow]
  rw [rowDot_all]
  have h1 : ∀ k, HasDerivAt (fun u => (w u).beta k * ((w u).rho k i / rhotot ((w u).rho k)))
      (v.beta k * ((w s).rho k i / rhotot ((w s).rho k)) + (w s).beta k *
        ((v.rho k i * rhotot ((w s).rho k) - (w s).rho k i * ∑ j, v.rho k j) / rhotot ((w s).rho k) ^ 2)) s := fun k =>
    (hw.beta k).mul ((hasDerivAt_pi.1 (hw.rho k) i).div (tot_curve (hw.rho k)) (h0 k))
  refine ((HasDerivAt.fun_sum fun k _ => h1 k).sub_const z).congr_deriv ?_
  rw [zero_mul, zero_add, ← Finset.sum_add_distrib]
  refine Finset.sum_congr rfl fun k _ => ?_
  simp only [phaseAt_val]
  have e : ∑ j, (w s).beta k * ((if i = j then 1 else 0) - (w s).rho k i / rhotot ((w s).rho k)) / rhotot ((w s).rho k) *
      v.rho k j = (w s).beta k / rhotot ((w s).rho k) * (v.rho k i - (w s).rho k i / rhotot ((w s).rho k) * ∑ j, v.rho k j) := by
    have : ∀ j, (w s).beta k * ((if i = j then (1 : ℝ) else 0) - (w s).rho k i / rhotot ((w s).rho k)) /
        rhotot ((w s).rho k) * v.rho k j = (w s).beta k / rhotot ((w s).rho k) *
          ((if i = j then v.rho k j else 0) - (w s).rho k i / rhotot ((w s).rho k) * v.rho k j) := by
      intro j
      by_cases hij : i = j
      · rw [if_pos hij, if_pos hij]; ring
      · rw [if_neg hij, if_neg hij]; ring
    simp only [this]
    rw [← Finset.mul_sum, Finset.sum_sub_distrib, Finset.sum_ite_eq, if_pos (Finset.mem_univ i), ← Finset.mul_sum]
  rw [e]
  have := h0 k
  field_simp
  ring

theorem peCaloric_exact {w0 : PhaseVars n q} (spec : ℝ) (F FT : PhaseVars n q → Fin (q + 1) → ℝ)
    (Fρ : PhaseVars n q → Fin (q + 1) → Fin (n + 1) → ℝ)
    (h : ∀ w v s, Moves w v s → w s = w0 → ∀ k, HasDerivAt (fun u => F (w u) k)
      (v.T * FT w0 k + ∑ j, Fρ w0 k j * v.rho k j) s) :
    RowExact (fun w => peCaloric w spec (F w) (FT w) (Fρ w)) w0 := by
  intro w v s hw hs
  simp only [peCaloric]
  rw [rowDot_all, Function.update_self]
  refine ((HasDerivAt.fun_sum fun k _ => (hw.beta k).mul (h w v s hw hs k)).sub_const spec).congr_deriv ?_
  subst hs
  rw [Finset.sum_mul, ← Finset.sum_add_distrib, ← Finset.sum_add_distrib]
  refine Finset.sum_congr rfl fun k _ => ?_
  simp only [phaseAt_val]
  have e : ∑ j, (w s).beta k * Fρ (w s) k j * v.rho k j = (w s).beta k * ∑ j, Fρ (w s) k j * v.rho k j := by
    rw [Finset.mul_sum]
    exact Finset.sum_congr rfl fun j _ => by ring
  rw [e]
  ring

/-- The state is one where the model is smooth, with the same gas constant everywhere. -/
structure PERegular (m : EOS (Fin (n + 1))) (ig : Option (EOS (Fin (n + 1)))) (R : ℝ) (w : PhaseVars n q) : Prop where
  R_pos : 0 < R
  T_pos : 0 < w.T
  rho_pos : ∀ k i, 0 < w.rho k i
  smooth : ∀ k, SmoothAt m w.T (w.rho k)
  R_eq : ∀ x, m.R x = R
  ig_smooth : ∀ g ∈ ig, ∀ k, SmoothAt g w.T (w.rho k)
  ig_R : ∀ g ∈ ig, ∀ x, g.R x = R

variable {m : EOS (Fin (n + 1))} {ig : Option (EOS (Fin (n + 1)))} {R : ℝ} {w0 : PhaseVars n q}

theorem peSpecRow_exact (hr : PERegular m ig R w0) (sp : PESpec) {r : PERow} (h : peSpecRow m R w0 ig sp = .ok r) :
    ∃ f, (∀ w, peSpecRow m R w ig sp = .ok (f w)) ∧ RowExact f w0 := by
  have hT := hr.T_pos.ne'
  cases sp with
  | T v0 =>
    refine ⟨fun w => _, fun w => rfl, fun w v s hw _ => ?_⟩
    have := rowDot_blocks (n := n) (q := q) (fun _ _ => 0) 1 v
    have e : setBlocks (q + 1) (fun _ (_ : Fin (n + 1)) => (0 : ℝ)) (Function.update (fun _ => 0) 0 1) =
        Function.update (fun _ => 0) 0 1 := by
      funext c
      by_cases h0 : c = 0 ∨ 1 + (q + 1) * (n + 1) ≤ c
      · exact setBlocks_beyond _ _ h0
      · push Not at h0
        have hd : (c - 1) / (n + 1) < q + 1 := by
          rw [Nat.div_lt_iff_lt_mul (by omega)]
          omega
        have hm : (c - 1) % (n + 1) < n + 1 := Nat.mod_lt _ (by omega)
        have e : c = 1 + (c - 1) / (n + 1) * (n + 1) + (⟨(c - 1) % (n + 1), hm⟩ : Fin (n + 1)) := by
          simp only
          have := Nat.div_add_mod (c - 1) (n + 1)
          rw [Nat.mul_comm] at this
          omega
        rw [e, setBlocks_in _ hd, ← e, Function.update_of_ne h0.1]
    rw [e] at this
    simp only
    rw [this]
    refine (hw.T.sub_const v0).congr_deriv ?_
    simp
  | beta v0 k =>
    by_cases hk : k < q + 1
    · refine ⟨fun w => (w.beta ⟨k, hk⟩ - v0, Function.update (fun _ => 0) (peSize n q - (q + 1) + k) 1),
        fun w => by simp only [peSpecRow]; rw [dif_pos hk], fun w v s hw _ => ?_⟩
      have e : Function.update (fun _ => 0) (peSize n q - (q + 1) + k) (1 : ℝ) =
          setBlock (fun _ => 0) (peSize n q - (q + 1)) fun j : Fin (q + 1) => if (⟨k, hk⟩ : Fin (q + 1)) = j then 1 else 0 := by
        funext c
        by_cases hc : peSize n q - (q + 1) ≤ c ∧ c - (peSize n q - (q + 1)) < q + 1
        · have e1 : c = peSize n q - (q + 1) + (⟨c - (peSize n q - (q + 1)), hc.2⟩ : Fin (q + 1)) := by
            simp only; omega
          conv_rhs => rw [e1, setBlock_in]
          by_cases hck : c = peSize n q - (q + 1) + k
          · rw [if_pos (Fin.ext (by simp only; omega))]
            exact Function.update_apply _ _ _ _ |>.trans (if_pos hck)
          · rw [Function.update_of_ne hck, if_neg]
            intro h'
            have := congrArg Fin.val h'
            simp only at this
            omega
        · rw [setBlock_out _ (by omega), Function.update_of_ne (by omega)]
      simp only
      rw [e, rowDot_fractions]
      refine ((hw.beta ⟨k, hk⟩).sub_const v0).congr_deriv ?_
      simp
    · simp only [peSpecRow] at h
      rw [dif_neg hk] at h
      simp at h
  | p v0 =>
    refine ⟨fun w => _, fun w => rfl, fun w v s hw hs => ?_⟩
    subst hs
    simp only
    rw [rowDot_first]
    refine ((peP_rate (hr.smooth 0) hr.R_eq hT hw.T (hw.rho 0)).sub_const v0).congr_deriv ?_
    ring
  | v v0 =>
    refine ⟨fun w => _, fun w => rfl, fun w v s hw hs => ?_⟩
    subst hs
    simp only
    rw [rowDot_all]
    refine ((HasDerivAt.fun_sum fun k _ => (hw.beta k).div (tot_curve (hw.rho k)) (hr.smooth k).tot).sub_const
      v0).congr_deriv ?_
    rw [zero_mul, zero_add, ← Finset.sum_add_distrib]
    refine Finset.sum_congr rfl fun k _ => ?_
    simp only [phaseAt_val]
    rw [← Finset.mul_sum]
    have := (hr.smooth k).tot
    field_simp
    ring
  | s v0 =>
    cases hig : ig with
    | none => rw [hig] at h; simp [peSpecRow] at h
    | some g =>
      refine ⟨fun w => _, fun w => rfl, ?_⟩
      refine peCaloric_exact v0 _ _ _ fun w v s hw hs k => ?_
      subst hs
      exact peS_rate (hr.smooth k) (hr.ig_smooth g (by rw [hig]; rfl) k) hr.R_eq (hr.ig_R g (by rw [hig]; rfl)) hT hw.T
        (hw.rho k)
  | u v0 =>
    cases hig : ig with
    | none => rw [hig] at h; simp [peSpecRow] at h
    | some g =>
      refine ⟨fun w => _, fun w => rfl, ?_⟩
      refine peCaloric_exact v0 _ _ _ fun w v s hw hs k => ?_
      subst hs
      exact peU_rate (hr.smooth k) (hr.ig_smooth g (by rw [hig]; rfl) k) hr.R_eq (hr.ig_R g (by rw [hig]; rfl)) hT hw.T
        (hw.rho k)
  | h v0 =>
    cases hig : ig with
    | none => rw [hig] at h; simp [peSpecRow] at h
    | some g =>
      refine ⟨fun w => _, fun w => rfl, ?_⟩
      refine peCaloric_exact v0 _ _ _ fun w v s hw hs k => ?_
      subst hs
      exact peH_rate (hr.smooth k) (hr.ig_smooth g (by rw [hig]; rfl) k) hr.R_eq (hr.ig_R g (by rw [hig]; rfl)) hT hw.T
        (hw.rho k)

/-! ### Rows that are right for two phases -/

theorem pePresRow_exact {n : ℕ} {m : EOS (Fin (n + 1))} {ig : Option (EOS (Fin (n + 1)))} {R : ℝ} {w0 : PhaseVars n 1}
    (hr : PERegular m ig R w0) : RowExact (fun w => pePresRow m R w 1) w0 := by
  intro w v s hw hs
  subst hs
  simp only [pePresRow]
  rw [rowDot_blocks]
  have hT := hr.T_pos.ne'
  refine ((peP_rate (hr.smooth 0) hr.R_eq hT hw.T (hw.rho 0)).sub
    (peP_rate (hr.smooth 1) hr.R_eq hT hw.T (hw.rho 1))).congr_deriv ?_
  rw [Fin.sum_univ_two]
  simp only [Fin.val_zero, Fin.val_one, if_true, one_ne_zero, if_false, neg_mul, Finset.sum_neg_distrib]
  ring

theorem peFugRow_exact {m : EOS (Fin 2)} {ig : Option (EOS (Fin 2))} {R : ℝ} {w0 : PhaseVars 1 1}
    (hr : PERegular m ig R w0) (i : Fin 2) : RowExact (fun w => peFugRow m R w 1 i) w0 := by
  intro w v s hw hs
  subst hs
  simp only [peFugRow]
  rw [rowDot_blocks]
  have hRT := mul_pos hr.R_pos hr.T_pos
  refine ((peLnf_rate (hr.smooth 0) hRT hw.T (hw.rho 0) i (hr.rho_pos 0 i)).sub
    (peLnf_rate (hr.smooth 1) hRT hw.T (hw.rho 1) i (hr.rho_pos 1 i))).congr_deriv ?_
  have e : ∀ g : Fin (1 + 1) → ℝ, ∑ k, g k = g 0 + g 1 := Fin.sum_univ_two
  simp only [e, Fin.isValue, Fin.coe_ofNat_eq_mod, Nat.zero_mod, Nat.mod_succ, if_true, one_ne_zero, if_false]
  ring

end jacobian

end Teqp.Props
