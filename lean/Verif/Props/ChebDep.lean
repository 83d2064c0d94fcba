import Verif.Model.ChebDep
import Verif.Props.Superanc
import Verif.Lemmas.Outcome

/-! # Departure functions from documents: C154 -/

set_option autoImplicit false

namespace Teqp.Props
open Teqp.Model Teqp.Spec Polynomial

/-! ## Dispatch -/

/-- C154. Every type of departure function is built by its own builder, with the two names of the GERG type meaning the same, and any other type is refused. -/
theorem departure_dispatch (o : JObj) (N : ℤ) :
    (o.type = .ok "Exponential" → buildDepFun o N = (buildPowerDep o).bind fun ts => .ok (.terms ts)) ∧
    (o.type = .ok "DoubleExponential" → buildDepFun o N = (buildDoubleExp o).bind fun ts => .ok (.terms ts)) ∧
    (o.type = .ok "GERG-2004" → buildDepFun o N = (buildCombined true o N).bind fun ts => .ok (.terms ts)) ∧
    (o.type = .ok "GERG-2008" → buildDepFun o N = (buildCombined true o N).bind fun ts => .ok (.terms ts)) ∧
    (o.type = .ok "Gaussian+Exponential" → buildDepFun o N = (buildCombined false o N).bind fun ts => .ok (.terms ts)) ∧
    (o.type = .ok "Chebyshev2D" → buildDepFun o N = (buildCheb o).bind fun e => .ok (.cheb e)) ∧
    (o.type = .ok "none" → ∃ d, buildDepFun o N = .ok d ∧ ∀ τ δ, d.alphar τ δ = .ok 0) ∧
    (∀ ty, o.type = .ok ty → ty ∉ ["Exponential", "GERG-2004", "GERG-2008", "Gaussian+Exponential", "none", "DoubleExponential", "Chebyshev2D"] →
      buildDepFun o N = .throws .stdInvalidArgument) := by
  refine ⟨?_, ?_, ?_, ?_, ?_, ?_, ?_, ?_⟩
  · intro h
    simp [buildDepFun, buildDeparture, h, Outcome.bind]
  · intro h
    simp [buildDepFun, buildDeparture, h, Outcome.bind]
  · intro h
    simp [buildDepFun, buildDeparture, h, Outcome.bind]
  · intro h
    simp [buildDepFun, buildDeparture, h, Outcome.bind]
  · intro h
    simp [buildDepFun, buildDeparture, h, Outcome.bind]
  · intro h
    simp [buildDepFun, h, Outcome.bind]
  · intro h
    refine ⟨.terms [.null], by simp [buildDepFun, buildDeparture, h, Outcome.bind], fun τ δ => ?_⟩
    simp [DepFun.alphar, containerAlphar, ResTerm.alphar, ResTerm.zeroBranch, ResTerm.ordBranch]
  · intro ty h hn
    simp only [List.mem_cons, List.not_mem_nil, or_false, not_or] at hn
    simp [buildDepFun, buildDeparture, h, Outcome.bind, hn]

example : buildDepFun [("type", .str "Gaussian")] 0 = .throws .stdInvalidArgument :=
  (departure_dispatch _ _).2.2.2.2.2.2.2 "Gaussian" rfl (by decide)

/-- C28. The types that a term of a pure fluid may have are accepted and every other type (other than the two whose documents are not flat arrays) is refused. -/
theorem eos_types (o : JObj) (ty : String) (h : o.type = .ok ty) :
    (ty ∈ ["ResidualHelmholtzPower", "ResidualHelmholtzGaussian", "ResidualHelmholtzNonAnalytic", "ResidualHelmholtzGaoB", "ResidualHelmholtzLemmon2005",
      "ResidualHelmholtzExponential", "ResidualHelmholtzDoubleExponential"] → getEOSTerms [o] = (buildTerm o).bind fun ts => .ok ts) ∧
    (ty ∉ ["ResidualHelmholtzPower", "ResidualHelmholtzGaussian", "ResidualHelmholtzNonAnalytic", "ResidualHelmholtzGaoB", "ResidualHelmholtzLemmon2005",
      "ResidualHelmholtzExponential", "ResidualHelmholtzDoubleExponential"] → getEOSTerms [o] = .throws .stdInvalidArgument) := by
  constructor
  · intro hm
    have hm' : ty ∈ allowedTypes := by
      revert hm
      simp [allowedTypes]
    simp only [getEOSTerms, checkTypes, h, Outcome.bind_ok, if_pos hm', buildTerms]
    rw [if_neg (by simp)]
    cases buildTerm o <;> simp [Outcome.bind]
  · intro hm
    have hm' : ty ∉ allowedTypes := by
      revert hm
      simp [allowedTypes]
    simp only [getEOSTerms, checkTypes, h, Outcome.bind_ok, if_neg hm']
    rw [if_neg (by simp)]
    rfl

example : getEOSTerms [[("type", .str "ResidualHelmholtzGaussians")]] = .throws .stdInvalidArgument := (eos_types _ _ rfl).2 (by decide)

/-! ## Chebyshev documents -/

/-- The entries of a document of a Chebyshev departure function. -/
structure ChebDoc (o : JObj) (Ntau Ndelta : ℤ) (c : List ℝ) (t0 t1 d0 d1 : ℝ) : Prop where
  type : o.type = .ok "Chebyshev2D"
  Ntau : o.int "Ntau" = .ok Ntau
  Ndelta : o.int "Ndelta" = .ok Ndelta
  a : o.arr "a" = .ok c
  t0 : o.num "taumin" = .ok t0
  t1 : o.num "taumax" = .ok t1
  d0 : o.num "deltamin" = .ok d0
  d1 : o.num "deltamax" = .ok d1

/-- What the document means: a polynomial of degree at most `Ntau` in the reciprocal temperature and at most `Ndelta` in the density. -/
def HasDegrees (f : ℝ → ℝ → ℝ) (Ntau Ndelta : ℕ) : Prop :=
  (∀ δ, ∃ P : ℝ[X], P.natDegree ≤ Ntau ∧ ∀ τ, f τ δ = P.eval τ) ∧ ∀ τ, ∃ P : ℝ[X], P.natDegree ≤ Ndelta ∧ ∀ δ, f τ δ = P.eval δ

theorem cheb_comp_degree (k : ℕ) (u v : ℝ) : ((Chebyshev.T ℝ (k : ℤ)).comp (C u * X + C v)).natDegree ≤ k := by
  refine natDegree_comp_le.trans ?_
  have h1 : (Chebyshev.T ℝ (k : ℤ)).natDegree ≤ k := by
    have := Chebyshev.degree_T ℝ (k : ℤ)
    exact (natDegree_le_of_degree_le (by simpa using this.le))
  have h2 : (C u * X + C v).natDegree ≤ 1 := natDegree_linear_le
  calc _ ≤ k * 1 := Nat.mul_le_mul h1 h2
    _ = k := mul_one k

theorem chebSum2D_degrees (n m : ℕ) (a : ℕ → ℕ → ℝ) (t0 t1 d0 d1 : ℝ) :
    HasDegrees (fun τ δ => chebSum2D (n + 1) (m + 1) a ((2 * τ - (t1 + t0)) / (t1 - t0)) ((2 * δ - (d1 + d0)) / (d1 - d0))) m n := by
  constructor
  · intro δ
    refine ⟨∑ j ∈ Finset.range (m + 1), ∑ k ∈ Finset.range (n + 1), C (halfFirst j * halfFirst k * a k j *
      (Chebyshev.T ℝ (k : ℤ)).eval ((2 * δ - (d1 + d0)) / (d1 - d0))) * (Chebyshev.T ℝ (j : ℤ)).comp (C (2 / (t1 - t0)) * X + C (-(t1 + t0) / (t1 - t0))), ?_, ?_⟩
    · refine natDegree_sum_le_of_forall_le _ _ fun j hj => natDegree_sum_le_of_forall_le _ _ fun k _ => ?_
      refine (natDegree_C_mul_le _ _).trans ((cheb_comp_degree j _ _).trans ?_)
      have := Finset.mem_range.mp hj
      omega
    · intro τ
      simp only [chebSum2D, eval_finsetSum, eval_mul, eval_C, eval_comp, eval_add, eval_X]
      refine Finset.sum_congr rfl fun j _ => Finset.sum_congr rfl fun k _ => ?_
      congr 2
      ring
  · intro τ
    refine ⟨∑ j ∈ Finset.range (m + 1), ∑ k ∈ Finset.range (n + 1), C (halfFirst j * halfFirst k * a k j *
      (Chebyshev.T ℝ (j : ℤ)).eval ((2 * τ - (t1 + t0)) / (t1 - t0))) * (Chebyshev.T ℝ (k : ℤ)).comp (C (2 / (d1 - d0)) * X + C (-(d1 + d0) / (d1 - d0))), ?_, ?_⟩
    · refine natDegree_sum_le_of_forall_le _ _ fun j _ => natDegree_sum_le_of_forall_le _ _ fun k hk => ?_
      refine (natDegree_C_mul_le _ _).trans ((cheb_comp_degree k _ _).trans ?_)
      have := Finset.mem_range.mp hk
      omega
    · intro δ
      simp only [chebSum2D, eval_finsetSum, eval_mul, eval_C, eval_comp, eval_add, eval_X]
      refine Finset.sum_congr rfl fun j _ => Finset.sum_congr rfl fun k _ => ?_
      rw [mul_right_comm]
      congr 2
      ring

/-- A document is refused exactly when the number of coefficients is not the product of the counts. -/
theorem cheb_refused {o : JObj} {Nt Nd : ℤ} {c : List ℝ} {t0 t1 d0 d1 : ℝ} (h : ChebDoc o Nt Nd c t0 t1 d0 d1) (N : ℤ) :
    buildDepFun o N = .throws .stdInvalidArgument ↔ (Nt + 1) * (Nd + 1) ≠ c.length := by
  rw [(departure_dispatch o N).2.2.2.2.2.1 h.type]
  unfold buildCheb chebOf
  rw [h.Ntau, h.Ndelta, h.a]
  simp only [Outcome.bind_ok]
  by_cases h1 : (Nt + 1) * (Nd + 1) ≠ c.length
  · rw [if_pos h1]
    exact ⟨fun _ => h1, fun _ => rfl⟩
  · rw [if_neg h1]
    refine ⟨fun h2 => ?_, fun h2 => absurd h2 h1⟩
    split_ifs at h2
    · cases h2
    · rw [h.t0, h.t1, h.d0, h.d1] at h2
      cases h2

/-- What is built from a document with the right number of coefficients. -/
theorem cheb_built {o : JObj} {Nt Nd : ℕ} {c : List ℝ} {t0 t1 d0 d1 : ℝ} (h : ChebDoc o Nt Nd c t0 t1 d0 d1) (hc : c.length = (Nt + 1) * (Nd + 1)) (N : ℤ) :
    buildDepFun o N = .ok (.cheb ⟨Nt + 1, Nd + 1, fun i j => c.getD (i + j * (Nt + 1)) 0, t0, t1, d0, d1⟩) := by
  rw [(departure_dispatch o N).2.2.2.2.2.1 h.type]
  unfold buildCheb chebOf
  rw [h.Ntau, h.Ndelta, h.a]
  simp only [Outcome.bind_ok]
  rw [if_neg (by rw [hc]; push_cast; simp), if_neg (by omega), h.t0, h.t1, h.d0, h.d1]
  simp only [Outcome.bind_ok]
  have : ((Nt : ℤ) + 1).toNat = Nt + 1 := by omega
  have h' : ((Nd : ℤ) + 1).toNat = Nd + 1 := by omega
  rw [this, h']

/-- C154 for equal degrees: every accepted document gives a polynomial of the stated degrees; the coefficient at position `i + j (N+1)` of the array belongs to `T_i` of the
density and `T_j` of the reciprocal temperature, and the coefficients of `T_0` count half. -/
theorem cheb_document_partial {o : JObj} {n : ℕ} {c : List ℝ} {t0 t1 d0 d1 : ℝ} (h : ChebDoc o n n c t0 t1 d0 d1) (hc : c.length = (n + 1) * (n + 1)) (N : ℤ) :
    ∃ d f, buildDepFun o N = .ok d ∧ (∀ τ δ, d.alphar τ δ = .ok (f τ δ)) ∧ HasDegrees f n n ∧
      ∀ τ δ, f τ δ = ∑ j ∈ Finset.range (n + 1), ∑ i ∈ Finset.range (n + 1), halfFirst j * halfFirst i * c.getD (i + j * (n + 1)) 0 *
        (Chebyshev.T ℝ (i : ℤ)).eval ((2 * δ - (d1 + d0)) / (d1 - d0)) * (Chebyshev.T ℝ (j : ℤ)).eval ((2 * τ - (t1 + t0)) / (t1 - t0)) := by
  refine ⟨_, _, cheb_built h hc N, fun τ δ => ?_, chebSum2D_degrees n n (fun i j => c.getD (i + j * (n + 1)) 0) t0 t1 d0 d1, fun τ δ => rfl⟩
  exact cheb2D_exact (n + 1) _ t0 t1 d0 d1 τ δ

/-- C154 is false of the code: a document with different degrees is accepted and its evaluation reads outside of its arrays, at every temperature and density. -/
theorem cheb_rectangular {o : JObj} {Nt Nd : ℕ} {c : List ℝ} {t0 t1 d0 d1 : ℝ} (h : ChebDoc o Nt Nd c t0 t1 d0 d1) (hc : c.length = (Nt + 1) * (Nd + 1))
    (hne : Nt ≠ Nd) (N : ℤ) : ∃ d, buildDepFun o N = .ok d ∧ ∀ τ δ, d.alphar τ δ = .ub :=
  ⟨_, cheb_built h hc N, fun _ _ => cheb2D_rectangular_ub _ _ (by simpa using hne) _ _ _ _ _ _ _⟩

/-- Negative degrees whose product matches the number of coefficients are not refused. -/
theorem cheb_negative {o : JObj} {Nt Nd : ℤ} {c : List ℝ} {t0 t1 d0 d1 : ℝ} (h : ChebDoc o Nt Nd c t0 t1 d0 d1) (hc : (Nt + 1) * (Nd + 1) = c.length)
    (hneg : Nt + 1 < 0 ∨ Nd + 1 < 0) (N : ℤ) : buildDepFun o N = .ub := by
  rw [(departure_dispatch o N).2.2.2.2.2.1 h.type]
  unfold buildCheb chebOf
  rw [h.Ntau, h.Ndelta, h.a]
  simp only [Outcome.bind_ok]
  rw [if_neg (by simpa using hc), if_pos hneg]
  rfl

/-- A document with the given degrees and coefficients on the range of the tests. -/
noncomputable def chebSample (Nt Nd : ℝ) (c : List ℝ) : JObj :=
  [("type", .str "Chebyshev2D"), ("a", .arr c), ("taumin", .num 1e-10), ("taumax", .num 5), ("deltamin", .num 1e-6), ("deltamax", .num 4), ("Ntau", .num Nt), ("Ndelta", .num Nd)]

theorem chebSample_doc (Nt Nd : ℤ) (c : List ℝ) : ChebDoc (chebSample Nt Nd c) Nt Nd c 1e-10 5 1e-6 4 := by
  have hcast : ∀ z : ℤ, castInt (z : ℝ) = z := by
    intro z
    unfold castInt
    split_ifs <;> simp
  refine ⟨rfl, ?_, ?_, rfl, rfl, rfl, rfl, rfl⟩
  · exact congrArg Outcome.ok (hcast Nt)
  · exact congrArg Outcome.ok (hcast Nd)

/-- Degrees one and zero: two coefficients, accepted, and not evaluated properly. -/
example : ∃ d, buildDepFun (chebSample (1 : ℤ) (0 : ℤ) [1, 2]) 0 = .ok d ∧ ∀ τ δ, d.alphar τ δ = .ub :=
  cheb_rectangular (Nt := 1) (Nd := 0) (chebSample_doc 1 0 _) rfl (by decide) 0

example : buildDepFun (chebSample (-3 : ℤ) (-2 : ℤ) [1, 2]) 0 = .ub :=
  cheb_negative (chebSample_doc (-3) (-2) _) (by norm_num) (Or.inl (by norm_num)) 0

example : buildDepFun (chebSample (1 : ℤ) (1 : ℤ) [1, 2, 3]) 0 = .throws .stdInvalidArgument :=
  (cheb_refused (chebSample_doc 1 1 _) 0).mpr (by norm_num)

/-- C154 is false of the code at zero density: an accepted Chebyshev departure function need not vanish there, so that a mixture with it is not an ideal gas in the limit of
zero density. -/
theorem cheb_zero_density : ∃ (o : JObj) (d : DepFun), buildDepFun o 0 = .ok d ∧ ∀ τ, d.alphar τ 0 = .ok 1 := by
  obtain ⟨d, f, h1, h2, -, h4⟩ := cheb_document_partial (n := 0) (chebSample_doc 0 0 [4]) rfl 0
  refine ⟨_, d, h1, fun τ => ?_⟩
  rw [h2, h4]
  norm_num [halfFirst]

end Teqp.Props
