import Verif.Props.ChebDep
import Verif.Props.EmbedDoc
import Verif.Props.LowDensityMF
import Verif.Props.SchemaCall

/-! # C158, C165: Chebyshev departure functions in mixtures -/

set_option autoImplicit false

namespace Teqp.Props
open Teqp.Model Teqp.Spec Polynomial

theorem intAt_toTree (o : JObj) (k : String) : intAt k o.toTree = o.int k := by
  unfold intAt JObj.int JObj.num
  rw [at_toTree]
  unfold JObj.at
  cases o.lookup k with
  | none => rfl
  | some v => cases v <;> rfl

/-- C158. The document of a Chebyshev departure function in the collection of a mixture is read like the others. -/
theorem departure_cheb (NA : ℝ) (o : JObj) (name : String) (N : ℤ) (hn : o.lookup "Name" = some (.str name)) (hc : o.type = .ok "Chebyshev2D") :
    DepIs (termReaders NA) o.toTree ⟨name, o, N⟩ := by
  refine ⟨?_, ?_⟩
  · rw [at_toTree]
    unfold JObj.at
    rw [hn]
    rfl
  · unfold departureTerms buildDeparture
    rw [termType_toTree, hc]
    simp only [Outcome.bind_ok, if_true]
    show chebReader o.toTree = _
    unfold chebReader
    have hr : (o.toTree.at "a").bind JTree.toRow = o.arr "a" := rowAt_toTree o "a"
    rw [intAt_toTree, intAt_toTree, hr, numAt_toTree, numAt_toTree, numAt_toTree, numAt_toTree]
    rfl

/-- C158. Degrees written as `true` and `false` are one and zero. -/
theorem cheb_bool_degrees (fs : List (String × JTree)) (b1 b2 : Bool) :
    chebReader (.obj (("Ntau", .bool b1) :: ("Ndelta", .bool b2) :: fs)) =
      chebReader (.obj (("Ntau", .num (b1.toNat : ℝ)) :: ("Ndelta", .num (b2.toNat : ℝ)) :: fs)) := by
  have h0 : castInt 0 = 0 := by simp [castInt]
  have h1 : castInt 1 = 1 := by simp [castInt]
  have e1 : intAt "Ntau" (.obj (("Ntau", .bool b1) :: ("Ndelta", .bool b2) :: fs)) =
      intAt "Ntau" (.obj (("Ntau", .num (b1.toNat : ℝ)) :: ("Ndelta", .num (b2.toNat : ℝ)) :: fs)) := by
    cases b1 <;> simp [intAt, JTree.at, List.lookup, Outcome.bind_ok, h0, h1]
  have e2 : intAt "Ndelta" (.obj (("Ntau", .bool b1) :: ("Ndelta", .bool b2) :: fs)) =
      intAt "Ndelta" (.obj (("Ntau", .num (b1.toNat : ℝ)) :: ("Ndelta", .num (b2.toNat : ℝ)) :: fs)) := by
    cases b2 <;> simp [intAt, JTree.at, List.lookup, Outcome.bind_ok, h0, h1]
  unfold chebReader
  rw [e1, e2]
  simp only [numAt, JTree.at, List.lookup]
  rfl

/-- A document with these fields. -/
example : chebReader (.obj [("Ntau", .bool true), ("Ndelta", .bool true), ("a", .arr [.num 1, .num 2, .num 3, .num 4]), ("taumin", .num 0), ("taumax", .num 2),
      ("deltamin", .num 0), ("deltamax", .num 2)]) =
    chebReader (.obj [("Ntau", .num 1), ("Ndelta", .num 1), ("a", .arr [.num 1, .num 2, .num 3, .num 4]), ("taumin", .num 0), ("taumax", .num 2),
      ("deltamin", .num 0), ("deltamax", .num 2)]) := by
  have := cheb_bool_degrees [("a", .arr [.num 1, .num 2, .num 3, .num 4]), ("taumin", .num 0), ("taumax", .num 2), ("deltamin", .num 0), ("deltamax", .num 2)] true true
  simpa using this

/-- C158/C154. What a mixture holds of a document with equal degrees: one term, the documented polynomial at every temperature and density; documents with different degrees are not
answered. -/
theorem departure_cheb_value {o : JObj} {n m : ℕ} {c : List ℝ} {t0 t1 d0 d1 : ℝ} (h : ChebDoc o n m c t0 t1 d0 d1) (hc : c.length = (n + 1) * (m + 1)) (N : ℤ) :
    (n = m → ∃ ts, buildDeparture o N = .ok ts ∧ ∀ τ δ, containerAlphar ts τ δ = ∑ j ∈ Finset.range (n + 1), ∑ i ∈ Finset.range (n + 1),
      halfFirst j * halfFirst i * c.getD (i + j * (n + 1)) 0 * (Chebyshev.T ℝ (i : ℤ)).eval ((2 * δ - (d1 + d0)) / (d1 - d0)) *
        (Chebyshev.T ℝ (j : ℤ)).eval ((2 * τ - (t1 + t0)) / (t1 - t0))) ∧
    (n ≠ m → buildDeparture o N = .ub) := by
  have hb : buildCheb o = .ok ⟨n + 1, m + 1, fun i j => c.getD (i + j * (n + 1)) 0, t0, t1, d0, d1⟩ := by
    have := cheb_built h hc N
    rw [(departure_dispatch o N).2.2.2.2.2.1 h.type] at this
    cases hq : buildCheb o with
    | ok e =>
      rw [hq, Outcome.bind_ok, Outcome.ok.injEq, DepFun.cheb.injEq] at this
      rw [this]
    | throws e => rw [hq] at this; cases this
    | ub => rw [hq] at this; cases this
    | nonFinite => rw [hq] at this; cases this
  have hd : buildDeparture o N = (buildCheb o).bind ChebDep.terms := by
    unfold buildDeparture
    rw [h.type]
    simp [Outcome.bind_ok]
  rw [hd, hb, Outcome.bind_ok]
  unfold ChebDep.terms
  constructor
  · rintro rfl
    refine ⟨_, if_pos rfl, fun τ δ => ?_⟩
    have hv (e : ChebTermC) : (ResTerm.cheb e).alphar τ δ = ResTerm.doc (.cheb e) τ δ := by
      unfold ResTerm.alphar
      split_ifs <;> exact chebTerm_value e τ δ
    simp only [containerAlphar, List.map_cons, List.map_nil, List.sum_cons, List.sum_nil, add_zero, hv]
    rfl
  · intro hne
    exact if_neg (by simpa using hne)

/-- An expansion of first degree with four coefficients. -/
noncomputable def chebPair : JObj := ("Name", .str "cheb") :: chebSample (1 : ℤ) (1 : ℤ) [1, 2, 3, 4]

theorem chebPair_doc : ChebDoc chebPair (1 : ℕ) (1 : ℕ) [1, 2, 3, 4] 1e-10 5 1e-6 4 := by
  have h := chebSample_doc 1 1 [1, 2, 3, 4]
  exact ⟨rfl, h.Ntau, h.Ndelta, rfl, rfl, rfl, rfl, rfl⟩

example (NA : ℝ) : DepIs (termReaders NA) chebPair.toTree ⟨"cheb", chebPair, 0⟩ := departure_cheb NA _ _ _ rfl rfl

example (NA : ℝ) : ∃ m, buildMixDoc (termReaders NA) sampleFluids (.arr [sampleBIPDoc]) (.arr [chebPair.toTree]) .null = .ok (m, .weighted [8.3, 8.4]) :=
  sample_documents _ _ _ (.cons (departure_cheb NA chebPair "cheb" 0 rfl rfl) .nil)

example : ∃ ts, buildDeparture chebPair 0 = .ok ts ∧ ∀ τ δ, containerAlphar ts τ δ = 1 / 4 + 2 / 2 * ((2 * δ - (4 + 1e-6)) / (4 - 1e-6))
    + 3 / 2 * ((2 * τ - (5 + 1e-10)) / (5 - 1e-10)) + 4 * ((2 * δ - (4 + 1e-6)) / (4 - 1e-6)) * ((2 * τ - (5 + 1e-10)) / (5 - 1e-10)) := by
  obtain ⟨ts, h1, h2⟩ := (departure_cheb_value chebPair_doc rfl 0).1 rfl
  refine ⟨ts, h1, fun τ δ => ?_⟩
  rw [h2]
  simp [Finset.sum_range_succ, halfFirst]
  ring

/-- C165. A mixture with a Chebyshev departure function is an ideal gas at low density, with the second virial coefficient of `multifluid_virial`, when the expansion vanishes at zero
density; here `1/2 + y` of the reduced density between 0 and 2. -/
example : GasTerm (.cheb ⟨2, fun k j => if j = 0 then (if k = 0 then 4 else 2) else 0, 0, 5, 0, 2⟩) ∧
    termVirial (.cheb ⟨2, fun k j => if j = 0 then (if k = 0 then 4 else 2) else 0, 0, 5, 0, 2⟩) 1 = 1 := by
  refine ⟨⟨by norm_num, by norm_num, fun j hj => ?_⟩, ?_⟩
  · have : j = 0 ∨ j = 1 := by
      have : j < 2 := hj
      omega
    rcases this with rfl | rfl <;> norm_num [Finset.sum_range_succ, halfFirst, chebOrigin]
  · norm_num [termVirial, Finset.sum_range_succ, halfFirst, chebOrigin]

/-- The same two fluids with a departure function that is constant. -/
noncomputable def chebMixture : MultiFluid 2 := { gasSample with func := fun _ _ => [.cheb ⟨1, fun _ _ => 4, 0, 5, 0, 2⟩] }

/-- C165 is false of the code for Chebyshev departure functions: an accepted one need not vanish at zero density, and then the mixture has a residual Helmholtz energy there and no second
virial coefficient. -/
theorem cheb_mixture_not_gas : chebMixture.alpharV 100 0 [0.25, 0.75] = .ok (0.25 * 0.75 * 0.5) ∧ ∀ B, ¬ HasVirial (fun r => chebMixture.alpharV 100 r [0.25, 0.75]) B := by
  have h0 : chebMixture.alpharV 100 0 [0.25, 0.75] = .ok (0.25 * 0.75 * 0.5) := by
    have p1 : powiV (0 : ℝ) (castInt 1) = 0 := by
      have := castInt_natCast 1
      rw [Nat.cast_one] at this
      rw [this, powiV_nat]; norm_num
    have p2 : powiV (0 : ℝ) (castInt 2) = 0 := by
      have := castInt_natCast 2
      rw [Nat.cast_ofNat] at this
      rw [this, powiV_nat]; norm_num
    have e1 : Finset.univ.filter ((0 : Fin 2) < ·) = {1} := by decide
    have e2 : Finset.univ.filter ((1 : Fin 2) < ·) = ∅ := by decide
    rw [MultiFluid.alpharV, dif_pos (show [(0.25 : ℝ), 0.75].length = 2 from rfl), MultiFluid.alphar, MultiFluid.alphar_taudelta, dif_neg (by norm_num)]
    simp [chebMixture, gasSample, MultiFluid.corr, MultiFluid.dep, Fin.sum_univ_two, e1, e2, containerAlphar, ResTerm.alphar, ResTerm.zeroBranch, chebTerm_value, ResTerm.doc,
      chebSum2D, halfFirst, PolyC.zero, p1, p2]
    norm_num
  refine ⟨h0, fun B hB => ?_⟩
  obtain ⟨f, hf, hz, -⟩ := hB
  have := hf.self_of_nhdsWithin (by simp)
  change chebMixture.alpharV 100 0 [0.25, 0.75] = _ at this
  rw [h0, Outcome.ok.injEq, hz] at this
  norm_num at this

end Teqp.Props
