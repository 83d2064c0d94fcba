import Verif.Props.SVRFactory
import Verif.Props.SVRHalley
import Verif.Spec.Lafitte
import Mathlib.Analysis.Real.Pi.Bounds

/-! # C113: entries, units and polar moments of SAFT-VR-Mie documents -/

set_option autoImplicit false

namespace Teqp.Props
open Model Spec Finset

/-! ## The sum of the terms -/

/-- C110. At given diameters the monomer term is the number of segments times a cubic polynomial of the reciprocal temperature, whose first
three coefficients over all ordered pairs of segments are the published ones. -/
theorem svr_mono_expansion {n : ℕ} (p : SVR n) (d : Fin n → ℝ) (T rhos : ℝ) (x : Fin n → ℝ) :
    p.mono d T rhos x = p.mbar x * (svrHS rhos (p.D d x) (fun l => p.D d x l * rhos)
      + (∑ i, ∑ j, p.xs x i * p.xs x j * (p.pair i j).a1 ((d i + d j) / 2) (p.zetaX d x rhos) rhos) * T⁻¹
      + (∑ i, ∑ j, p.xs x i * p.xs x j * (p.pair i j).a2 ((d i + d j) / 2) (p.zetaX d x rhos) (p.zetaBar x rhos) rhos) * T⁻¹ ^ 2
      + (∑ i, ∑ j, p.xs x i * p.xs x j * (p.pair i j).a3 (p.zetaBar x rhos)) * T⁻¹ ^ 3) := by
  have hd : ∀ i j, (d i + d j) / 2 = (d j + d i) / 2 := fun i j => by ring
  unfold SVR.mono
  simp only [svr_dIJ]
  rw [svr_pairSum _ _ _ fun i j => by rw [svr_pair_symm p i j, hd i j], svr_pairSum _ _ _ fun i j => by rw [svr_pair_symm p i j, hd i j],
    svr_pairSum _ _ _ fun i j => by rw [svr_pair_symm p i j]]
  simp only [div_eq_mul_inv, mul_inv]
  ring

/-- C110. The reported packing fraction is the share of the volume filled by the hard spheres of all segments, whose diameters are in Angstrom:
`x.length` components, `rho` in mol/m³. -/
theorem svr_packing {n : ℕ} (p : SVR n) (NA EPS T rho : ℝ) (x : List ℝ) (v : ℝ × ℝ) (h : p.core NA EPS T rho x = .ok v) :
    ∃ (hx : x.length = n) (d : Fin n → ℝ), (∀ i, p.dii EPS i T = .ok (d i)) ∧
      v.1 = ∑ i, (NA * rho * x.get (i.cast hx.symm) * p.m i) * (Real.pi / 6 * (d i * 1e-10) ^ 3) := by
  unfold SVR.core at h
  split at h
  · next hx =>
    obtain ⟨d, hd, h⟩ := Outcome.bind_eq_ok.1 h
    simp only at h
    split at h
    · next hf =>
      refine ⟨hx, d, finLoop_inv _ _ hd, ?_⟩
      rw [← Outcome.ok.inj h]
      have hm := hf.2.1
      unfold SVR.D SVR.rhos SVR.xs
      simp only
      rw [Finset.mul_sum, Finset.sum_mul]
      refine Finset.sum_congr rfl fun i _ => ?_
      have e : ∀ a b M : ℝ, M ≠ 0 → Real.pi / 6 * (a / M * b) * (rho * NA * M / 1e30) = Real.pi / 6 * a * b * (rho * NA) * 1e-30 := by
        intro a b M hM
        rw [show (1e-30 : ℝ) = 1 / 1e30 by norm_num]
        field_simp
      rw [e _ _ _ hm]
      ring
    · cases h
  · cases h

example (NA : ℝ) : ∃ v, svrBin.core NA (1 / 2 ^ 52) 300 0 [1 / 4, 3 / 4] = .ok v ∧ v.1 = 0 := by
  obtain ⟨v, hv⟩ := svrBin_core NA
  obtain ⟨hx, d, _, e⟩ := svr_packing _ _ _ _ _ _ _ hv
  exact ⟨v, hv, by rw [e]; simp⟩

/-- C113. With a Gross-Vrabec term the density and the packing fraction that it receives belong together: the density is the number of molecules
per cubic Angstrom. -/
theorem svr_polar_density (multi : String → List ℝ → List ℝ → ℝ → ℝ → ℝ → List ℝ → Outcome ℝ) (mx : SVRMixture) (c : GVMulti) (NA EPS T rho a : ℝ)
    (x : List ℝ) (hp : mx.polar = some (.grossVrabec c)) (h : mx.alphar multi NA EPS T rho x = .ok a) :
    ∃ (hx : x.length = mx.coeffs.length) (d : Fin mx.coeffs.length → ℝ) (r eta b v : ℝ), r * 1e30 = rho * NA ∧
      eta = Real.pi / 6 * r * ∑ i, x.get (i.cast hx.symm) * mx.terms.m i * d i ^ 3 ∧ (∀ i, mx.terms.dii EPS i T = .ok (d i)) ∧
      mx.terms.alphar NA EPS T rho x = .ok v ∧ c.eval T r eta x = .ok b ∧ a = v + b := by
  unfold SVRMixture.alphar at h
  obtain ⟨v, hv, h⟩ := Outcome.bind_eq_ok.1 h
  rw [hp] at h
  simp only at h
  obtain ⟨b, hb, h⟩ := Outcome.bind_eq_ok.1 h
  obtain ⟨hx, d, hd, he⟩ := svr_packing _ _ _ _ _ _ _ hv
  refine ⟨hx, d, _, _, b, v.2, ?_, ?_, hd, ?_, hb, (Outcome.ok.inj h).symm⟩
  · rw [mul_assoc]
    norm_num
  · rw [he, Finset.mul_sum]
    refine Finset.sum_congr rfl fun i _ => ?_
    norm_num
    ring
  · unfold SVR.alphar
    rw [hv, Outcome.bind_ok]

/-! ## Entries -/

/-- C113. The built-in fluids have the published parameters. -/
theorem svrLibrary_published (q : String × ℚ × ℚ × ℚ × ℚ) (hq : q ∈ lafitteAlkanes) :
    ∃ c, svrLibrary q.1 = .ok c ∧ c.name = q.1 ∧ c.m = q.2.1 ∧ c.sigma * 1e10 = q.2.2.1 ∧ c.lr = q.2.2.2.1 ∧ c.eps = q.2.2.2.2 ∧ c.la = 6 := by
  unfold lafitteAlkanes at hq
  simp only [List.mem_cons, List.not_mem_nil, or_false] at hq
  rcases hq with rfl | rfl | rfl
  all_goals
    refine ⟨_, by simp only [svrLibrary]; rfl, ?_⟩
    norm_num

/-- C113. There are no other built-in fluids. -/
theorem svrLibrary_unknown (name : String) (h : ∀ q ∈ lafitteAlkanes, q.1 ≠ name) : svrLibrary name = .throws .stdInvalidArgument := by
  simp only [lafitteAlkanes, List.mem_cons, List.not_mem_nil, or_false, forall_eq_or_imp, forall_eq] at h
  obtain ⟨h1, h2, h3⟩ := h
  simp [svrLibrary, h1.symm, h2.symm, h3.symm]

example : svrLibrary "Butane" = .throws .stdInvalidArgument := svrLibrary_unknown _ (by decide)

theorem jat_contains (j v : JTree) (k : String) (hk : j.at k = .ok v) : j.contains k = true := by
  cases j with
  | obj fs =>
    simp only [JTree.at, JTree.contains] at hk ⊢
    cases hl : fs.lookup k with
    | none => rw [hl] at hk; cases hk
    | some w => rfl
  | _ => cases hk

theorem svrNum_ok (j : JTree) (k : String) (v : ℝ) (hk : j.at k = .ok (.num v)) : numAt k j = .ok v := by
  unfold numAt
  rw [hk]
  rfl

/-- C113. The diameter of an entry is in metres, from metres or from Angstrom; metres win. -/
theorem svrSigma_units (j : JTree) (s : ℝ) :
    (j.at "sigma_m" = .ok (.num s) → svrSigma j = .ok s) ∧
      (j.contains "sigma_m" = false → j.at "sigma_Angstrom" = .ok (.num s) → ∃ t, svrSigma j = .ok t ∧ t * 1e10 = s) := by
  refine ⟨fun h => ?_, fun h0 h => ?_⟩
  · unfold svrSigma
    rw [if_pos (jat_contains _ _ _ h), svrNum_ok _ _ _ h]
  · refine ⟨s / 1e10, ?_, by norm_num⟩
    unfold svrSigma
    rw [h0, if_neg (by simp), svrNum_ok _ _ _ h, Outcome.bind_ok]

/-- C113. An entry is read key by key; reduced moments of the old form are added when their numbers of segments are there. -/
theorem svr_entry (j : JTree) (c : SVRCoeffs) (h : (svrCoeffs j).bind (svrLegacy j) = .ok c) :
    j.at "name" = .ok (.str c.name) ∧ j.at "m" = .ok (.num c.m) ∧ svrSigma j = .ok c.sigma ∧ j.at "epsilon_over_k" = .ok (.num c.eps)
      ∧ j.at "lambda_r" = .ok (.num c.lr) ∧ j.at "lambda_a" = .ok (.num c.la) ∧ j.at "BibTeXKey" = .ok (.str c.bibtex)
      ∧ (j.contains "(mu^*)^2" = true → j.contains "nmu" = true → j.at "(mu^*)^2" = .ok (.num c.mustar2) ∧ j.at "nmu" = .ok (.num c.nmu))
      ∧ (j.contains "(Q^*)^2" = true → j.contains "nQ" = true → j.at "(Q^*)^2" = .ok (.num c.Qstar2) ∧ j.at "nQ" = .ok (.num c.nQ)) := by
  have num : ∀ k v, numAt k j = .ok v → j.at k = .ok (.num v) := by
    intro k v hk
    unfold numAt at hk
    obtain ⟨w, hw, hk⟩ := Outcome.bind_eq_ok.1 hk
    cases w with
    | num r => rw [hw, ← Outcome.ok.inj hk]
    | _ => cases hk
  have str : ∀ k v, (j.at k).bind JTree.toStr = .ok v → j.at k = .ok (.str v) := by
    intro k v hk
    obtain ⟨w, hw, hk⟩ := Outcome.bind_eq_ok.1 hk
    cases w with
    | str r => rw [hw, ← Outcome.ok.inj hk]
    | _ => cases hk
  obtain ⟨b, hb, h⟩ := Outcome.bind_eq_ok.1 h
  unfold svrCoeffs at hb
  obtain ⟨name, h1, hb⟩ := Outcome.bind_eq_ok.1 hb
  obtain ⟨m, h2, hb⟩ := Outcome.bind_eq_ok.1 hb
  obtain ⟨sigma, h3, hb⟩ := Outcome.bind_eq_ok.1 hb
  obtain ⟨eps, h4, hb⟩ := Outcome.bind_eq_ok.1 hb
  obtain ⟨lr, h5, hb⟩ := Outcome.bind_eq_ok.1 hb
  obtain ⟨la, h6, hb⟩ := Outcome.bind_eq_ok.1 hb
  obtain ⟨bib, h7, hb⟩ := Outcome.bind_eq_ok.1 hb
  have eb := Outcome.ok.inj hb
  subst eb
  unfold svrLegacy at h
  obtain ⟨c1, hc1, h⟩ := Outcome.bind_eq_ok.1 h
  have g1 : c1.name = name ∧ c1.m = m ∧ c1.sigma = sigma ∧ c1.eps = eps ∧ c1.lr = lr ∧ c1.la = la ∧ c1.bibtex = bib ∧
      (j.contains "(mu^*)^2" = true → j.contains "nmu" = true → j.at "(mu^*)^2" = .ok (.num c1.mustar2) ∧ j.at "nmu" = .ok (.num c1.nmu)) := by
    split at hc1
    · obtain ⟨mu, hmu, hc1⟩ := Outcome.bind_eq_ok.1 hc1
      obtain ⟨nn, hnn, hc1⟩ := Outcome.bind_eq_ok.1 hc1
      rw [← Outcome.ok.inj hc1]
      exact ⟨rfl, rfl, rfl, rfl, rfl, rfl, rfl, fun _ _ => ⟨num _ _ hmu, num _ _ hnn⟩⟩
    · next hno =>
      rw [← Outcome.ok.inj hc1]
      exact ⟨rfl, rfl, rfl, rfl, rfl, rfl, rfl, fun a b => absurd ⟨a, b⟩ hno⟩
  obtain ⟨e1, e2, e3, e4, e5, e6, e7, e8⟩ := g1
  split at h
  · obtain ⟨Q, hQ, h⟩ := Outcome.bind_eq_ok.1 h
    obtain ⟨nn, hnn, h⟩ := Outcome.bind_eq_ok.1 h
    rw [← Outcome.ok.inj h]
    simp only [e1, e2, e3, e4, e5, e6, e7]
    exact ⟨str _ _ h1, num _ _ h2, h3, num _ _ h4, num _ _ h5, num _ _ h6, str _ _ h7, e8, fun _ _ => ⟨num _ _ hQ, num _ _ hnn⟩⟩
  · next hno =>
    rw [← Outcome.ok.inj h]
    simp only [e1, e2, e3, e4, e5, e6, e7]
    exact ⟨str _ _ h1, num _ _ h2, h3, num _ _ h4, num _ _ h5, num _ _ h6, str _ _ h7, e8, fun a b => absurd ⟨a, b⟩ hno⟩

example : (svrCoeffs (.obj [("name", .str "CO2"), ("m", .num 1.5), ("sigma_Angstrom", .num 3.18), ("epsilon_over_k", .num 163), ("lambda_r", .num 14),
    ("lambda_a", .num 6), ("BibTeXKey", .str "?"), ("(Q^*)^2", .num 0.8), ("nQ", .num 1)])).bind (svrLegacy (.obj [("name", .str "CO2"), ("m", .num 1.5),
    ("sigma_Angstrom", .num 3.18), ("epsilon_over_k", .num 163), ("lambda_r", .num 14), ("lambda_a", .num 6), ("BibTeXKey", .str "?"),
    ("(Q^*)^2", .num 0.8), ("nQ", .num 1)])) =
    .ok { name := "CO2", m := 1.5, sigma := 3.18 / 1e10, eps := 163, lr := 14, la := 6, bibtex := "?", Qstar2 := 0.8, nQ := 1 } := by
  simp [svrCoeffs, svrLegacy, svrSigma, numAt, JTree.at, JTree.contains, JTree.toStr, JTree.toDouble, Outcome.bind, List.lookup]

/-! ## Moments -/

/-- C113. The factor of the reduced moments is the Coulomb constant divided by the Boltzmann constant, up to one part in `10⁹`. -/
theorem svrPolarFactor_coulomb : |svrPolarFactor * 1.380649e-23 / coulombConst - 1| < 1e-9 := by
  have h1 := Real.pi_gt_d20
  have h2 := Real.pi_lt_d20
  have e : svrPolarFactor * 1.380649e-23 / coulombConst = 1 / (4 * Real.pi * 8.8541878128e-12 * coulombConst) := by
    unfold svrPolarFactor coulombConst
    field_simp
  rw [e, abs_sub_lt_iff]
  have hp : (0 : ℝ) < 4 * Real.pi * 8.8541878128e-12 * coulombConst := by
    unfold coulombConst
    positivity
  constructor
  · rw [sub_lt_iff_lt_add, div_lt_iff₀ hp]
    unfold coulombConst
    norm_num at h1 h2 ⊢
    linarith
  · rw [sub_lt_comm, lt_div_iff₀ hp]
    unfold coulombConst
    norm_num at h1 h2 ⊢
    linarith

/-- C113. Moments given in debye and debye Angstrom are those in SI units, up to two parts in a million; SI moments are taken as they are and
win over debye. -/
theorem svr_moment_units (j : JTree) (m eps sigma v : ℝ) :
    (j.contains "(mu^*)^2" = false → j.at "mu_Cm" = .ok (.num v) → svrDipole j m eps sigma = .ok v) ∧
    (j.contains "(Q^*)^2" = false → j.at "Q_Cm2" = .ok (.num v) → svrQuadrupole j m eps sigma = .ok v) ∧
    (j.contains "(mu^*)^2" = false → j.contains "mu_Cm" = false → j.at "mu_D" = .ok (.num v) →
      ∃ u, svrDipole j m eps sigma = .ok u ∧ |u - v * debyeCm| ≤ 2e-6 * |v * debyeCm|) ∧
    (j.contains "(Q^*)^2" = false → j.contains "Q_Cm2" = false → j.at "Q_DA" = .ok (.num v) →
      ∃ u, svrQuadrupole j m eps sigma = .ok u ∧ |u - v * debyeCm * 1e-10| ≤ 2e-6 * |v * debyeCm * 1e-10|) := by
  have key : ∀ w f : ℝ, |f - debyeCm| ≤ 2e-6 * debyeCm → |w * f - w * debyeCm| ≤ 2e-6 * |w * debyeCm| := by
    intro w f hf
    have hd : 0 < debyeCm := by unfold debyeCm; norm_num
    rw [← mul_sub, abs_mul, abs_mul, abs_of_pos hd]
    nlinarith [abs_nonneg w]
  have hD : |(3.33564e-30 : ℝ) - debyeCm| ≤ 2e-6 * debyeCm := by
    unfold debyeCm
    rw [abs_le]
    constructor <;> norm_num
  refine ⟨fun h0 h => ?_, fun h0 h => ?_, fun h0 h1 h => ⟨v * 3.33564e-30, ?_, key v _ hD⟩, fun h0 h1 h => ⟨v * 3.33564e-30 / 1e10, ?_, ?_⟩⟩
  · unfold svrDipole
    rw [if_neg (by simp [h0]), if_pos (jat_contains _ _ _ h), svrNum_ok _ _ _ h]
  · unfold svrQuadrupole
    rw [if_neg (by simp [h0]), if_pos (jat_contains _ _ _ h), svrNum_ok _ _ _ h]
  · unfold svrDipole
    rw [if_neg (by simp [h0]), if_neg (by simp [h1]), if_pos (jat_contains _ _ _ h), svrNum_ok _ _ _ h, Outcome.bind_ok]
  · unfold svrQuadrupole
    rw [if_neg (by simp [h0]), if_neg (by simp [h1]), if_pos (jat_contains _ _ _ h), svrNum_ok _ _ _ h, Outcome.bind_ok]
  · have := key (v * 1e-10) _ hD
    have e1 : v * 3.33564e-30 / 1e10 = v * 1e-10 * 3.33564e-30 := by norm_num; ring
    have e2 : v * debyeCm * 1e-10 = v * 1e-10 * debyeCm := by ring
    rw [e1, e2]
    exact this

/-- C113. The moments of the terms of Gubbins and Twu are reduced without the number of segments, those of Gross and Vrabec with it. -/
theorem svr_reduced_moments (q : SVRMoments) (hm : q.m ≠ 0) : q.mubar2 = q.m * q.mustar2 ∧ q.Qbar2 = q.m * q.Qstar2 := by
  unfold SVRMoments.mubar2 SVRMoments.mustar2 SVRMoments.Qbar2 SVRMoments.Qstar2
  constructor
  · rw [mul_assoc q.m q.eps, ← mul_div_assoc, mul_div_mul_left _ _ hm]
  · rw [mul_assoc q.m q.eps, ← mul_div_assoc, mul_div_mul_left _ _ hm]

/-- C113. The terms of Gray and Gubbins receive the moments in SI units as read, the terms of Gubbins and Twu the reduced squares, which do not
depend on the sign of the moments. -/
theorem svr_polar_moments (ms : List SVRMoments) :
    (∀ kind ∈ ["GrayGubbins+GubbinsTwu", "GrayGubbins+Luckas"],
      svrPolarOf kind ms = .ok (.multi kind (ms.map (·.mu)) (ms.map (·.Q)))) ∧
    (∀ kind ∈ ["GubbinsTwu+Luckas", "GubbinsTwu+GubbinsTwu", "GubbinsTwu+Gottschalk", "GubbinsTwu+Luckas+GubbinsTwuRhostar",
        "GubbinsTwu+GubbinsTwu+GubbinsTwuRhostar", "GrossVrabec"],
      svrPolarOf kind (ms.map fun q => { q with mu := -q.mu, Q := -q.Q }) = svrPolarOf kind ms) := by
  constructor
  · intro kind hk
    simp only [List.mem_cons, List.not_mem_nil, or_false] at hk
    rcases hk with rfl | rfl <;> simp [svrPolarOf]
  · intro kind hk
    have e1 : (ms.map fun q : SVRMoments => { q with mu := -q.mu, Q := -q.Q }).map SVRMoments.mubar2 = ms.map SVRMoments.mubar2 := by
      rw [List.map_map]
      refine List.map_congr_left fun q _ => ?_
      simp [SVRMoments.mubar2]
    have e2 : (ms.map fun q : SVRMoments => { q with mu := -q.mu, Q := -q.Q }).map SVRMoments.Qbar2 = ms.map SVRMoments.Qbar2 := by
      rw [List.map_map]
      refine List.map_congr_left fun q _ => ?_
      simp [SVRMoments.Qbar2]
    have e3 : svrGVArrays (ms.map fun q : SVRMoments => { q with mu := -q.mu, Q := -q.Q }) = svrGVArrays ms := by
      unfold svrGVArrays
      simp only [List.map_map]
      congr 1
      · exact List.map_congr_left fun q _ => by simp [SVRMoments.mustar2]
      · exact List.map_congr_left fun q _ => by simp [SVRMoments.Qstar2]
    unfold svrPolarOf
    rw [e1, e2, e3]
    simp only [List.mem_cons, List.not_mem_nil, or_false] at hk
    rcases hk with rfl | rfl | rfl | rfl | rfl | rfl <;> simp

/-- C113. A document without a polar model is read as one that asks for the model of Gross and Vrabec. -/
theorem svrFactory_default_polar (j j' : JTree) (h0 : j.contains "polar_model" = false) (h1 : j'.at "polar_model" = .ok (.str "GrossVrabec"))
    (hrest : ∀ k, k ≠ "polar_model" → j.at k = j'.at k ∧ j.contains k = j'.contains k) : svrFactory j = svrFactory j' := by
  have c1 := jat_contains _ _ _ h1
  unfold svrFactory pcKmat
  simp only [(hrest "kmat" (by decide)).1, (hrest "names" (by decide)).1, (hrest "names" (by decide)).2, (hrest "coeffs" (by decide)).1,
    (hrest "coeffs" (by decide)).2, (hrest "SAFTVRMie_flags" (by decide)).1, (hrest "SAFTVRMie_flags" (by decide)).2, h0, c1, h1]
  rfl

end Teqp.Props
