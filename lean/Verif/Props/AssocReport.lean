import Verif.Model.AssocReport
import Verif.Props.AssocAlphar
import Verif.Props.AssocSites
import Verif.Props.CPA
import Verif.Props.Dufal

/-! # C160: the association report -/

set_option autoImplicit false

namespace Teqp.Spec
open Finset Teqp.Model

/-- The Helmholtz energy of association as a user computes it from a report and the mole fractions. -/
noncomputable def reportEnergy (r : AssocReport) (x : List ℝ) : ℝ :=
  ∑ I ∈ range r.XA.length, x.getD (r.compSites.getD I (0, "")).1 0 *
    ((Real.log (r.XA.getD I 0) - r.XA.getD I 0 / 2 + 1 / 2) * (r.counts.getD I 0 : ℝ))

/-- One plus the sum of the law of mass action for a site, from the fields of a report. -/
noncomputable def reportBonds (r : AssocReport) (NA rho : ℝ) (x : List ℝ) (I : ℕ) : ℝ :=
  1 + ∑ J ∈ range r.XA.length, rho * NA * ((r.Delta.getD I []).getD J 0 * ((r.D.getD I []).getD J 0 : ℝ)) *
    x.getD (r.compSites.getD J (0, "")).1 0 * r.XA.getD J 0

/-- The fields of a report that are arrays over sites have one entry per site. -/
def ReportShape (r : AssocReport) (n : ℕ) : Prop :=
  r.compSites.length = n ∧ r.siteids.length = n ∧ r.counts.length = n ∧ r.XA.length = n ∧ r.Delta.length = n ∧
    ∀ row ∈ r.Delta, row.length = n

end Teqp.Spec

namespace Teqp.Props
open Teqp.Model Teqp.Spec Teqp.Lemmas Finset

/-! ## The fields -/

theorem mkAssocReport_shape (o : AssocOptions) (sites : List AssocSite) (D : List (List ℕ)) (Δ : ℕ → ℕ → ℝ)
    (X : Fin sites.length → ℝ) : ReportShape (mkAssocReport o sites D Δ X) sites.length := by
  refine ⟨by simp [mkAssocReport], by simp [mkAssocReport], by simp [mkAssocReport], by simp [mkAssocReport],
    by simp [mkAssocReport], ?_⟩
  intro row h
  simp only [mkAssocReport, List.mem_map] at h
  obtain ⟨s, -, rfl⟩ := h
  simp

theorem mkAssocReport_get (o : AssocOptions) (sites : List AssocSite) (D : List (List ℕ)) (Δ : ℕ → ℕ → ℝ)
    (X : Fin sites.length → ℝ) (I J : Fin sites.length) :
    (mkAssocReport o sites D Δ X).compSites.getD I (0, "") = ((sites.get I).comp, (sites.get I).name) ∧
    (mkAssocReport o sites D Δ X).counts.getD I 0 = (sites.get I).count ∧
    (mkAssocReport o sites D Δ X).XA.getD I 0 = X I ∧
    ((mkAssocReport o sites D Δ X).Delta.getD I []).getD J 0 = Δ (sites.get I).comp (sites.get J).comp := by
  refine ⟨?_, ?_, ?_, ?_⟩ <;> simp [mkAssocReport, List.getD_eq_getElem?_getD]

/-- The energy from the report is the sum of `alphar` when every site belongs to one of the components. -/
theorem reportEnergy_mk (o : AssocOptions) (sites : List AssocSite) (D : List (List ℕ)) (Δ : ℕ → ℕ → ℝ)
    (X : Fin sites.length → ℝ) (x : List ℝ) (hs : ∀ s ∈ sites, s.comp < x.length) :
    reportEnergy (mkAssocReport o sites D Δ X) x =
      assocSum x (fun I => (sites.get I).comp) (fun I => (sites.get I).count) X := by
  unfold reportEnergy assocSum
  have hlen : (mkAssocReport o sites D Δ X).XA.length = sites.length := by simp [mkAssocReport]
  rw [hlen, Finset.sum_range]
  simp only [Finset.mul_sum]
  rw [Finset.sum_comm]
  refine Finset.sum_congr rfl fun I _ => ?_
  obtain ⟨h1, h2, h3, -⟩ := mkAssocReport_get o sites D Δ X I I
  rw [h1, h2, h3, Finset.sum_eq_single (sites.get I).comp]
  · rw [if_pos rfl]
    change _ = _ * ((Real.log (X I) - X I * (1 / 2) + 1 / 2) * ((sites.get I).count : ℝ))
    ring
  · intro b _ hb
    rw [if_neg (Ne.symm hb), mul_zero]
  · intro h
    exact absurd (mem_range.mpr (hs _ (List.get_mem _ _))) h

theorem reportBonds_mk (o : AssocOptions) (sites : List AssocSite) (D : List (List ℕ)) (Δ : ℕ → ℕ → ℝ)
    (X : Fin sites.length → ℝ) (NA rho : ℝ) (x : List ℝ) (I : Fin sites.length) :
    reportBonds (mkAssocReport o sites D Δ X) NA rho x I =
      1 + ∑ J, rDDX rho NA (fun I J => Δ (sites.get I).comp (sites.get J).comp)
        (fun I J => (D.getD I []).getD J 0) (fun J => x.getD (sites.get J).comp 0) I J * X J := by
  unfold reportBonds
  have hlen : (mkAssocReport o sites D Δ X).XA.length = sites.length := by simp [mkAssocReport]
  rw [hlen, Finset.sum_range]
  congr 1
  refine Finset.sum_congr rfl fun J _ => ?_
  obtain ⟨h1, -, h3, -⟩ := mkAssocReport_get o sites D Δ X J J
  obtain ⟨-, -, -, h4⟩ := mkAssocReport_get o sites D Δ X I J
  rw [h1, h3, h4]
  rfl

theorem getDelta_ok_sites {R NA T rho : ℝ} {x : List ℝ} {d : CanonicalData} {sites : List AssocSite} {Δ : ℕ → ℕ → ℝ}
    (h : getDelta R NA T rho x d sites = .ok Δ) : ∀ s ∈ sites, s.comp < x.length := by
  unfold getDelta at h
  split_ifs at h with h1
  · intro s hs
    by_contra hcon
    exact h1 (Or.inr (Or.inr (Or.inr ⟨s, hs, not_lt.mp hcon⟩)))

/-! ## The report and `alphar` -/

/-- For the right number of mole fractions the report holds what `alphar` uses: its energy is the value of `alphar`
(which is not finite when a fraction is not positive), and whenever `alphar` has a value there is a report. -/
theorem assoc_report_alphar (a : AssocModel) (R NA T rho : ℝ) (x : List ℝ) (hx : x.length = a.ncomp) :
    (∀ r, a.report R NA T rho x = .ok r → ReportShape r a.sites.length ∧ r.D = a.D ∧ r.mask = a.opts.mask ∧
      ((∀ X ∈ r.XA, 0 < X) → a.alphar R NA T rho x = .ok (reportEnergy r x)) ∧
      ((∃ X ∈ r.XA, X ≤ 0) → a.alphar R NA T rho x = .nonFinite)) ∧
    (∀ v, a.alphar R NA T rho x = .ok v → ∃ r, a.report R NA T rho x = .ok r ∧ v = reportEnergy r x) := by
  have key : ∀ r, a.report R NA T rho x = .ok r → ReportShape r a.sites.length ∧ r.D = a.D ∧ r.mask = a.opts.mask ∧
      ((∀ X ∈ r.XA, 0 < X) → a.alphar R NA T rho x = .ok (reportEnergy r x)) ∧
      ((∃ X ∈ r.XA, X ≤ 0) → a.alphar R NA T rho x = .nonFinite) := by
    intro r h
    unfold AssocModel.report at h
    obtain ⟨Δ, hΔ, h⟩ := Outcome.bind_eq_ok.mp h
    obtain ⟨X, hX, h⟩ := Outcome.bind_eq_ok.mp h
    cases h
    refine ⟨mkAssocReport_shape _ _ _ _ _, rfl, rfl, ?_, ?_⟩
    · intro hp
      unfold AssocModel.alphar
      rw [if_neg (by simpa using hx), hX, Outcome.bind_ok, if_neg, reportEnergy_mk _ _ _ _ _ _ (getDelta_ok_sites hΔ)]
      rintro ⟨I, hI⟩
      exact absurd (hp (X I) (by simp [mkAssocReport])) (not_lt.mpr hI)
    · rintro ⟨Y, hY, hle⟩
      simp only [mkAssocReport, List.mem_ofFn] at hY
      obtain ⟨I, rfl⟩ := hY
      unfold AssocModel.alphar
      rw [if_neg (by simpa using hx), hX, Outcome.bind_ok, if_pos ⟨I, hle⟩]
  refine ⟨key, ?_⟩
  intro v hv
  unfold AssocModel.alphar at hv
  rw [if_neg (by simpa using hx)] at hv
  obtain ⟨X, hX, hv⟩ := Outcome.bind_eq_ok.mp hv
  have hΔ : ∃ Δ, getDelta R NA T rho x a.data a.sites = .ok Δ := by
    unfold AssocModel.fractions at hX
    split_ifs at hX
    obtain ⟨Δ, h, -⟩ := Outcome.bind_eq_ok.mp hX
    exact ⟨Δ, h⟩
  obtain ⟨Δ, hΔ⟩ := hΔ
  refine ⟨_, by unfold AssocModel.report; rw [hΔ, Outcome.bind_ok, hX, Outcome.bind_ok], ?_⟩
  split_ifs at hv
  rw [reportEnergy_mk _ _ _ _ _ _ (getDelta_ok_sites hΔ)]
  exact (Outcome.ok.inj hv).symm

/-- The same for the Dufal rule, when the sites belong to the components (which the constructor guarantees). -/
theorem dufal_report_alphar (a : DufalModel) (NA T rho : ℝ) (x : List ℝ) (hx : x.length = a.ncomp)
    (hs : ∀ s ∈ a.sites, s.comp < a.ncomp) :
    (∀ r, a.report NA T rho x = .ok r → ReportShape r a.sites.length ∧ r.D = a.D ∧
      ((∀ X ∈ r.XA, 0 < X) → a.alphar NA T rho x = .ok (reportEnergy r x)) ∧
      ((∃ X ∈ r.XA, X ≤ 0) → a.alphar NA T rho x = .nonFinite)) ∧
    (∀ v, a.alphar NA T rho x = .ok v → ∃ r, a.report NA T rho x = .ok r ∧ v = reportEnergy r x) := by
  have hs' : ∀ s ∈ a.sites, s.comp < x.length := fun s h => hx ▸ hs s h
  have hn : ¬∃ s ∈ a.sites, x.length ≤ s.comp := by
    rintro ⟨s, h1, h2⟩
    exact absurd (hs' s h1) (not_lt.mpr h2)
  constructor
  · intro r h
    unfold DufalModel.report at h
    obtain ⟨Δ, hΔ, h⟩ := Outcome.bind_eq_ok.mp h
    rw [if_neg hn] at h
    obtain ⟨X, hX, h⟩ := Outcome.bind_eq_ok.mp h
    cases h
    refine ⟨mkAssocReport_shape _ _ _ _ _, rfl, ?_, ?_⟩
    · intro hp
      unfold DufalModel.alphar
      rw [if_neg (by simpa using hx), hX, Outcome.bind_ok, if_neg, reportEnergy_mk _ _ _ _ _ _ hs']
      rintro ⟨I, hI⟩
      exact absurd (hp (X I) (by simp [mkAssocReport])) (not_lt.mpr hI)
    · rintro ⟨Y, hY, hle⟩
      simp only [mkAssocReport, List.mem_ofFn] at hY
      obtain ⟨I, rfl⟩ := hY
      unfold DufalModel.alphar
      rw [if_neg (by simpa using hx), hX, Outcome.bind_ok, if_pos ⟨I, hle⟩]
  · intro v hv
    unfold DufalModel.alphar at hv
    rw [if_neg (by simpa using hx)] at hv
    obtain ⟨X, hX, hv⟩ := Outcome.bind_eq_ok.mp hv
    have hΔ : ∃ Δ, dufalDelta NA T rho x a.data a.sites = .ok Δ := by
      unfold DufalModel.fractions at hX
      obtain ⟨Δ, h, -⟩ := Outcome.bind_eq_ok.mp hX
      exact ⟨Δ, h⟩
    obtain ⟨Δ, hΔ⟩ := hΔ
    refine ⟨_, by unfold DufalModel.report; rw [hΔ, Outcome.bind_ok, if_neg hn, hX, Outcome.bind_ok], ?_⟩
    split_ifs at hv
    rw [reportEnergy_mk _ _ _ _ _ _ hs']
    exact (Outcome.ok.inj hv).symm

example : ∃ r, waterLike.report 8 6e23 300 1000 [1] = .ok r ∧ waterLike.alphar 8 6e23 300 1000 [1] = .ok (reportEnergy r [1]) := by
  obtain ⟨v, hv, -⟩ := assoc_alphar_nonpos waterLike 8 6e23 300 1000 [1] waterLike_valid
  obtain ⟨r, hr, h⟩ := (assoc_report_alphar waterLike 8 6e23 300 1000 [1] rfl).2 v hv
  exact ⟨r, hr, h ▸ hv⟩

example (NA rho : ℝ) : ∃ (a : DufalModel) (r : AssocReport), a.ncomp = 1 ∧ a.sites.length = 2 ∧ a.report NA 298.15 rho [1] = .ok r := by
  have h : ∃ d, dufalMix true 8.31446261815324 dufalWater = .ok d := by
    simp [dufalMix, dufalWater]
  obtain ⟨d, h⟩ := h
  obtain ⟨Δ, hΔ, -⟩ := dufal_delta_partial h rfl dufalWater_physical (by norm_num) (by norm_num [dufalWater]) NA rho
    (by norm_num : (298.15 : ℝ) ≠ 0) [⟨0, "H", 2⟩, ⟨0, "e", 2⟩] (by simp)
  have hr : ∃ r, (⟨{}, 1, [⟨0, "H", 2⟩, ⟨0, "e", 2⟩], [[0, 2], [2, 0]], d.copy.copy⟩ : DufalModel).report NA 298.15 rho [1] =
      .ok r := ⟨_, by
    unfold DufalModel.report DufalModel.fractions
    simp only
    rw [hΔ, Outcome.bind_ok, if_neg (by simp), Outcome.bind_ok, Outcome.bind_ok]⟩
  obtain ⟨r, hr⟩ := hr
  exact ⟨_, r, rfl, rfl, hr⟩

/-! ## The report can be checked -/

/-- With enough iterations the fractions of the loop satisfy the law of mass action up to the tolerance. -/
theorem ssLoop_enough {n : ℕ} (α rtol atol : ℝ) (h0 : 0 ≤ α) (h1 : α < 1) (hr : 0 ≤ rtol) (ha : 0 < atol)
    (K : Fin n → Fin n → ℝ) (hK : ∀ i j, 0 ≤ K i j) :
    ∃ N, ∀ m ≥ N, ∀ i, (1 - α) * |ssLoop α rtol atol K m (fun _ => 1) i *
        (1 + ∑ j, K i j * ssLoop α rtol atol K m (fun _ => 1) j) - 1| <
          (rtol + atol) * (1 + ∑ j, K i j * ssLoop α rtol atol K m (fun _ => 1) j) := by
  obtain ⟨Y, hY, -⟩ := massAction_exists_unique K hK
  obtain ⟨-, N, k, -, hN⟩ := ssLoop_converges α rtol atol h0 h1 hr ha K hK Y hY
  refine ⟨N, fun m hm => ?_⟩
  rcases ssLoop_massAction α rtol atol h0 h1 hr K hK m with ⟨-, -, -, h⟩ | h
  · exact h
  · rcases ssLoop_massAction α rtol atol h0 h1 hr K hK (m + 1) with ⟨-, -, -, h'⟩ | h'
    · rw [hN (m + 1) (by omega)] at h'
      rw [hN m hm]
      exact h'
    · have hu := maG_iterate_unit h0 h1.le hK (fun i => ⟨one_pos, le_rfl⟩ : Unit01 (fun _ : Fin n => (1 : ℝ))) m
      have hfix : maG α K ((maG α K)^[m] (fun _ => 1)) = (maG α K)^[m] (fun _ => 1) := by
        rw [← Function.iterate_succ_apply' (maG α K) m, ← h', ← h, hN (m + 1) (by omega), hN m hm]
      rw [h]
      intro i
      set X := (maG α K)^[m] (fun _ => 1)
      have hd : 0 < 1 + ∑ j, K i j * X j := by
        have := ma_sum_nonneg hK (fun i => (hu i).1.le) i
        linarith
      have hi := congrFun hfix i
      have e : X i * (1 + ∑ j, K i j * X j) - 1 = 0 := by
        unfold maG maF at hi
        have hi' : (1 - α) * (X i * (1 + ∑ j, K i j * X j) - 1) = 0 := by
          field_simp at hi
          linarith
        rcases mul_eq_zero.mp hi' with h | h
        · linarith
        · exact h
      rw [e, abs_zero, mul_zero]
      exact mul_pos (by linarith) hd

/-- The report of a model and a state in the physical range satisfies the law of mass action with its own fields: in the loop
up to the tolerance, if enough iterations are allowed.  `_partial`: see `report_masked_inconsistent` for the closed form. -/
theorem assoc_report_checks_partial (a : AssocModel) (R NA T rho : ℝ) (x : List ℝ) (h : AssocValid a R NA T rho x)
    (hα : a.opts.alpha < 1) (hr : 0 ≤ a.opts.rtol) (ha : 0 < a.opts.atol)
    (he : a.opts.allowExplicit = false ∨ a.ncomp ≠ 1 ∨ a.sites.length ≠ 2) :
    ∃ N : ℕ, ∀ m : ℤ, N ≤ m → ∃ r, ({ a with opts := { a.opts with maxIters := m } } : AssocModel).report R NA T rho x = .ok r ∧
      ∀ I < a.sites.length, 0 < r.XA.getD I 0 ∧ r.XA.getD I 0 ≤ 1 ∧
        (1 - a.opts.alpha) * |r.XA.getD I 0 * reportBonds r NA rho x I - 1| <
          (a.opts.rtol + a.opts.atol) * reportBonds r NA rho x I := by
  obtain ⟨Δ, hΔ, hΔ0⟩ := getDelta_ok a R NA T rho x h
  have hxn : ∀ i, 0 ≤ x.getD i 0 := fun i => by
    by_cases hi : i < x.length
    · exact h.hx i hi
    · simp [List.getD_eq_getElem?_getD, not_lt.mp hi]
  set K := rDDX rho NA (fun I J => Δ (a.sites.get I).comp (a.sites.get J).comp) a.Dmat
    (fun I => x.getD (a.sites.get I).comp 0) with hKdef
  have hK : ∀ i j, 0 ≤ K i j := fun i j => by
    rw [hKdef]
    unfold rDDX
    have : (0 : ℝ) ≤ ADScalar.ofR (a.Dmat i j : ℝ) := Nat.cast_nonneg (α := ℝ) _
    exact mul_nonneg (mul_nonneg (mul_nonneg h.hrho h.hNA.le) (mul_nonneg (hΔ0 _ _) this)) (hxn _)
  have hone : ∀ I : Fin a.sites.length, (List.replicate a.sites.length (1 : ℝ)).getD I 0 = 1 := fun I => by
    simp [List.getD_eq_getElem?_getD, I.2]
  obtain ⟨N, hN⟩ := ssLoop_enough a.opts.alpha a.opts.rtol a.opts.atol h.halpha0 hα hr ha K hK
  refine ⟨N, fun m hm => ?_⟩
  set X := ssLoop a.opts.alpha a.opts.rtol a.opts.atol K m.toNat (fun _ => 1) with hX
  have hfr : ({ a with opts := { a.opts with maxIters := m } } : AssocModel).fractions R NA T rho x
      (List.replicate a.sites.length 1) = .ok X := by
    unfold AssocModel.fractions
    rw [if_neg (by simp), hΔ, Outcome.bind_ok]
    simp only [hone]
    unfold assocSolve
    simp only
    rw [dif_neg]
    · rfl
    · rintro ⟨h1, h2, h3, -⟩
      rcases he with he | he | he
      · exact absurd (he.symm.trans h1) (by decide)
      · exact he (h.hxlen.symm.trans h2)
      · exact he h3
  refine ⟨_, by unfold AssocModel.report; rw [hΔ, Outcome.bind_ok, hfr, Outcome.bind_ok], ?_⟩
  intro I hI
  have hphys := ssLoop_physical a.opts.alpha a.opts.rtol a.opts.atol h.halpha0 hα.le K hK m.toNat (fun _ => 1)
    (fun _ => ⟨one_pos, le_rfl⟩) ⟨I, hI⟩
  have hx3 := (mkAssocReport_get { a.opts with maxIters := m } a.sites a.D Δ X ⟨I, hI⟩ ⟨I, hI⟩).2.2.1
  have hb := reportBonds_mk { a.opts with maxIters := m } a.sites a.D Δ X NA rho x ⟨I, hI⟩
  change (mkAssocReport { a.opts with maxIters := m } a.sites a.D Δ X).XA.getD I 0 = _ at hx3
  change reportBonds (mkAssocReport { a.opts with maxIters := m } a.sites a.D Δ X) NA rho x I = _ at hb
  rw [hx3, hb]
  exact ⟨hphys.1, hphys.2, hN m.toNat (by omega) ⟨I, hI⟩⟩

/-- The same fluid without the closed form, so that the loop is used. -/
example : ∃ N : ℕ, ∀ m : ℤ, N ≤ m → ∃ r, ({ waterLike with opts := { waterLike.opts with allowExplicit := false, maxIters := m } } :
    AssocModel).report 8 6e23 300 1000 [1] = .ok r ∧ ∀ I < 2, (1 - 1/2) * |r.XA.getD I 0 * reportBonds r 6e23 1000 [1] I - 1| <
      (1e-12 + 1e-12) * reportBonds r 6e23 1000 [1] I := by
  have h := waterLike_valid
  obtain ⟨N, hN⟩ := assoc_report_checks_partial { waterLike with opts := { waterLike.opts with allowExplicit := false } }
    8 6e23 300 1000 [1]
    { hR := h.hR, hNA := h.hNA, hT := h.hT, hrho := h.hrho, hxlen := rfl, hx := h.hx, hblen := rfl, hbetalen := rfl,
      hepslen := rfl, hb := h.hb, hbeta := h.hbeta, heps := h.heps, hsites := h.hsites, hrd := h.hrd,
      halpha0 := h.halpha0, halpha1 := h.halpha1 }
    (by norm_num [waterLike]) (by norm_num [waterLike]) (by norm_num [waterLike]) (Or.inl rfl)
  refine ⟨N, fun m hm => ?_⟩
  obtain ⟨r, hr, h⟩ := hN m hm
  exact ⟨r, hr, fun I hI => (h I hI).2.2⟩

/-- For a pure fluid with two kinds of sites that do not bond with themselves the closed form does not read the
interaction matrix. -/
theorem explicit_ignores_D (o : AssocOptions) (rho NA d : ℝ) (c : Fin 2 → ℕ) (D D' : Fin 2 → Fin 2 → ℕ)
    (hD : ∀ i, D i i = 0) (hD' : ∀ i, D' i i = 0) (he : o.allowExplicit = true) :
    assocSolve o 1 rho NA (fun _ _ => d) D c (fun _ => 1) (fun _ => 1) =
      assocSolve o 1 rho NA (fun _ _ => d) D' c (fun _ => 1) (fun _ => 1) := by
  have key : ∀ E : Fin 2 → Fin 2 → ℕ, (∀ i, E i i = 0) →
      useExplicit o 1 (rDDX rho NA (fun _ _ => d) E fun _ : Fin 2 => (1 : ℝ)) := by
    intro E hE
    refine ⟨he, rfl, rfl, fun i => ?_⟩
    unfold rDDX
    rw [hE i]
    change rho * NA * (d * ((0 : ℕ) : ℝ)) * 1 = 0
    simp
  unfold assocSolve
  simp only
  rw [dif_pos (key D hD), dif_pos (key D' hD')]

/-- What the closed form reports, whatever the entries of the interaction matrix off its diagonal: the fractions of a fluid
whose sites bond with each other. -/
theorem twoSite_report (o : AssocOptions) (n0 n1 : String) (c0 c1 d01 d10 : ℕ) (data : CanonicalData) (R NA T rho : ℝ)
    (h : AssocValid ⟨o, 1, [⟨0, n0, c0⟩, ⟨0, n1, c1⟩], [[0, d01], [d10, 0]], data⟩ R NA T rho [1]) (he : o.allowExplicit = true)
    (hc0 : 0 < c0) (hc1 : 0 < c1) (hrho : 0 < rho)
    (hb : 0 < data.b.getD 0 0) (hbeta : 0 < data.beta.getD 0 0) (heps : 0 < data.epsilon.getD 0 0) :
    ∃ r d, (⟨o, 1, [⟨0, n0, c0⟩, ⟨0, n1, c1⟩], [[0, d01], [d10, 0]], data⟩ : AssocModel).report R NA T rho [1] = .ok r ∧
      0 < d ∧ r.compSites = [(0, n0), (0, n1)] ∧ r.D = [[0, d01], [d10, 0]] ∧ r.Delta = [[d, d], [d, d]] ∧
      ∃ X0 X1, r.XA = [X0, X1] ∧ 0 < X0 ∧ X0 < 1 ∧ 0 < X1 ∧ X1 < 1 ∧
        X0 * (1 + rho * NA * (d * c1) * X1) = 1 ∧ X1 * (1 + rho * NA * (d * c0) * X0) = 1 := by
  set a : AssocModel := ⟨o, 1, [⟨0, n0, c0⟩, ⟨0, n1, c1⟩], [[0, d01], [d10, 0]], data⟩ with hadef
  obtain ⟨rd, hrd, heta⟩ := h.hrd
  obtain ⟨Δ, hΔ, -⟩ := getDelta_ok a R NA T rho [1] h
  have hd : 0 < Δ 0 0 := by
    have hΔ' := hΔ
    unfold getDelta at hΔ'
    rw [hrd] at hΔ'
    simp only at hΔ'
    split_ifs at hΔ'
    have hg := assocG_pos rd _ heta
    rw [← Outcome.ok.inj hΔ']
    unfold cr1Delta
    have hexp : 0 < Real.exp ((data.epsilon.getD 0 0 + data.epsilon.getD 0 0) / 2 / (R * T)) - 1 := by
      rw [sub_pos, Real.one_lt_exp_iff]
      have := h.hR
      have := h.hT
      positivity
    have := h.hNA
    have hs : 0 < Real.sqrt (data.beta.getD 0 0 * data.beta.getD 0 0) := Real.sqrt_pos.mpr (mul_pos hbeta hbeta)
    change 0 < _ * ((data.b.getD 0 0 + data.b.getD 0 0) / 2) * Real.sqrt (data.beta.getD 0 0 * data.beta.getD 0 0) *
      (Real.exp ((data.epsilon.getD 0 0 + data.epsilon.getD 0 0) / 2 / (R * T)) - 1) / NA
    positivity
  have hsol := assocSolve_explicit o rho NA (Δ 0 0) (fun _ _ => Δ 0 0) ![c0, c1] (fun i j => if i = j then 0 else ![c0, c1] j)
    (fun _ => 1) hrho h.hNA hd (by rw [Fin.forall_fin_two]; exact ⟨hc0, hc1⟩) (fun _ _ => rfl) (fun _ _ => rfl) he
  set X := assocSolve o 1 rho NA (fun _ _ => Δ 0 0) (fun i j : Fin 2 => if i = j then 0 else ![c0, c1] j) ![c0, c1]
    (fun _ => 1) (fun _ => 1) with hX
  have hcomp : ∀ I : Fin 2, (a.sites.get I).comp = 0 := by rw [Fin.forall_fin_two]; exact ⟨rfl, rfl⟩
  have hcnt : (fun I : Fin 2 => (a.sites.get I).count) = ![c0, c1] := by
    funext i
    fin_cases i <;> rfl
  have hfr : a.fractions R NA T rho [1] (List.replicate a.sites.length 1) = .ok X := by
    unfold AssocModel.fractions
    rw [if_neg (by simp), hΔ, Outcome.bind_ok]
    congr 1
    change assocSolve o 1 rho NA (fun I J : Fin 2 => Δ (a.sites.get I).comp (a.sites.get J).comp) a.Dmat
      (fun I : Fin 2 => (a.sites.get I).count) (fun I : Fin 2 => ([1] : List ℝ).getD (a.sites.get I).comp 0)
      (fun I : Fin 2 => (List.replicate 2 (1 : ℝ)).getD I 0) = X
    have e1 : (fun I J : Fin 2 => Δ (a.sites.get I).comp (a.sites.get J).comp) = fun _ _ => Δ 0 0 := by
      funext I J
      rw [hcomp I, hcomp J]
    have e2 : (fun I : Fin 2 => ([1] : List ℝ).getD (a.sites.get I).comp 0) = fun _ => 1 := by
      funext I
      rw [hcomp I]
      rfl
    have e3 : (fun I : Fin 2 => (List.replicate 2 (1 : ℝ)).getD I 0) = fun _ => 1 := by
      funext I
      fin_cases I <;> rfl
    rw [e1, e2, e3, hcnt]
    exact explicit_ignores_D o rho NA (Δ 0 0) ![c0, c1] _ _ (by rw [Fin.forall_fin_two]; exact ⟨rfl, rfl⟩) (by simp) he
  refine ⟨_, Δ 0 0, by unfold AssocModel.report; rw [hΔ, Outcome.bind_ok, hfr, Outcome.bind_ok], hd, rfl, rfl, rfl,
    X 0, X 1, ?_, ?_⟩
  · change List.ofFn X = _
    simp
  have h0 := hsol.1.1 0
  have h1 := hsol.1.1 1
  have m0 := hsol.1.2 0
  have m1 := hsol.1.2 1
  rw [Fin.sum_univ_two] at m0 m1
  have k00 : rDDX rho NA (fun _ _ => Δ 0 0) (fun i j : Fin 2 => if i = j then 0 else ![c0, c1] j) (fun _ => (1 : ℝ)) 0 0 = 0 := by
    change rho * NA * (Δ 0 0 * ((0 : ℕ) : ℝ)) * 1 = 0
    simp
  have k11 : rDDX rho NA (fun _ _ => Δ 0 0) (fun i j : Fin 2 => if i = j then 0 else ![c0, c1] j) (fun _ => (1 : ℝ)) 1 1 = 0 := by
    change rho * NA * (Δ 0 0 * ((0 : ℕ) : ℝ)) * 1 = 0
    simp
  have k01 : rDDX rho NA (fun _ _ => Δ 0 0) (fun i j : Fin 2 => if i = j then 0 else ![c0, c1] j) (fun _ => (1 : ℝ)) 0 1 =
      rho * NA * (Δ 0 0 * c1) := by
    change rho * NA * (Δ 0 0 * ((c1 : ℕ) : ℝ)) * 1 = _
    ring
  have k10 : rDDX rho NA (fun _ _ => Δ 0 0) (fun i j : Fin 2 => if i = j then 0 else ![c0, c1] j) (fun _ => (1 : ℝ)) 1 0 =
      rho * NA * (Δ 0 0 * c0) := by
    change rho * NA * (Δ 0 0 * ((c0 : ℕ) : ℝ)) * 1 = _
    ring
  rw [k00, k01, zero_mul, zero_add] at m0
  rw [k10, k11, zero_mul, add_zero] at m1
  have hNA := h.hNA
  have hc0' : (0 : ℝ) < c0 := by exact_mod_cast hc0
  have hc1' : (0 : ℝ) < c1 := by exact_mod_cast hc1
  have p0 : 0 < X 0 * (rho * NA * (Δ 0 0 * c1) * X 1) := by positivity
  have p1 : 0 < X 1 * (rho * NA * (Δ 0 0 * c0) * X 0) := by positivity
  refine ⟨h0, by nlinarith, h1, by nlinarith, m0, m1⟩

/-- A pure fluid with two kinds of sites that only bond with each other: the closed form satisfies the law of mass action
exactly with the fields of the report. -/
theorem assoc_report_exact (o : AssocOptions) (n0 n1 : String) (c0 c1 : ℕ) (data : CanonicalData) (R NA T rho : ℝ)
    (h : AssocValid ⟨o, 1, [⟨0, n0, c0⟩, ⟨0, n1, c1⟩], [[0, c1], [c0, 0]], data⟩ R NA T rho [1]) (he : o.allowExplicit = true)
    (hc0 : 0 < c0) (hc1 : 0 < c1) (hrho : 0 < rho)
    (hb : 0 < data.b.getD 0 0) (hbeta : 0 < data.beta.getD 0 0) (heps : 0 < data.epsilon.getD 0 0) :
    ∃ r, (⟨o, 1, [⟨0, n0, c0⟩, ⟨0, n1, c1⟩], [[0, c1], [c0, 0]], data⟩ : AssocModel).report R NA T rho [1] = .ok r ∧
      r.XA.length = 2 ∧ ∀ I < 2, 0 < r.XA.getD I 0 ∧ r.XA.getD I 0 < 1 ∧ r.XA.getD I 0 * reportBonds r NA rho [1] I = 1 := by
  obtain ⟨r, d, hr, -, hcs, hD, hDel, X0, X1, hXA, h1, h2, h3, h4, h5, h6⟩ :=
    twoSite_report o n0 n1 c0 c1 c1 c0 data R NA T rho h he hc0 hc1 hrho hb hbeta heps
  refine ⟨r, hr, by rw [hXA]; rfl, ?_⟩
  intro I hI
  have hI' : I = 0 ∨ I = 1 := by omega
  unfold reportBonds
  rw [hXA, hcs, hD, hDel]
  rcases hI' with rfl | rfl
  · simpa [Finset.sum_range_succ] using ⟨h1, h2, h5⟩
  · simpa [Finset.sum_range_succ] using ⟨h3, h4, h6⟩

example : ∃ r, waterLike.report 8 6e23 300 1000 [1] = .ok r ∧ r.XA.length = 2 ∧
    ∀ I < 2, 0 < r.XA.getD I 0 ∧ r.XA.getD I 0 < 1 ∧ r.XA.getD I 0 * reportBonds r 6e23 1000 [1] I = 1 :=
  assoc_report_exact _ _ _ _ _ _ _ _ _ _ waterLike_valid rfl (by norm_num) (by norm_num) (by norm_num) (by norm_num)
    (by norm_num) (by norm_num)

/-- With self-association masked the report contradicts itself: no two sites may interact, yet sites are bonded. -/
theorem report_masked_inconsistent (o : AssocOptions) (n0 n1 : String) (c0 c1 : ℕ) (data : CanonicalData) (R NA T rho : ℝ)
    (h : AssocValid ⟨o, 1, [⟨0, n0, c0⟩, ⟨0, n1, c1⟩], [[0, 0], [0, 0]], data⟩ R NA T rho [1]) (he : o.allowExplicit = true)
    (hc0 : 0 < c0) (hc1 : 0 < c1) (hrho : 0 < rho)
    (hb : 0 < data.b.getD 0 0) (hbeta : 0 < data.beta.getD 0 0) (heps : 0 < data.epsilon.getD 0 0) :
    ∃ r, (⟨o, 1, [⟨0, n0, c0⟩, ⟨0, n1, c1⟩], [[0, 0], [0, 0]], data⟩ : AssocModel).report R NA T rho [1] = .ok r ∧
      ∀ I < 2, reportBonds r NA rho [1] I = 1 ∧ r.XA.getD I 0 < 1 := by
  obtain ⟨r, d, hr, -, hcs, hD, hDel, X0, X1, hXA, h1, h2, h3, h4, h5, h6⟩ :=
    twoSite_report o n0 n1 c0 c1 0 0 data R NA T rho h he hc0 hc1 hrho hb hbeta heps
  refine ⟨r, hr, ?_⟩
  intro I hI
  have hI' : I = 0 ∨ I = 1 := by omega
  unfold reportBonds
  rw [hXA, hcs, hD, hDel]
  rcases hI' with rfl | rfl
  · simpa [Finset.sum_range_succ] using h2
  · simpa [Finset.sum_range_succ] using h4

/-- The masked fluid of `waterLike`. -/
noncomputable def maskedWater : AssocModel :=
  ⟨{ partners := [("H", ["e"]), ("e", ["H"])], mask := [false] }, 1, [⟨0, "H", 2⟩, ⟨0, "e", 2⟩], [[0, 0], [0, 0]],
    ⟨[15e-6], [0.07], [16000], some .CS⟩⟩

theorem maskedWater_made : makeD maskedWater.opts 1 maskedWater.sites = .ok maskedWater.D := rfl

theorem maskedWater_valid : AssocValid maskedWater 8 6e23 300 1000 [1] :=
  have h := waterLike_valid
  { hR := h.hR, hNA := h.hNA, hT := h.hT, hrho := h.hrho, hxlen := rfl, hx := h.hx, hblen := rfl, hbetalen := rfl,
    hepslen := rfl, hb := h.hb, hbeta := h.hbeta, heps := h.heps, hsites := h.hsites, hrd := h.hrd,
    halpha0 := h.halpha0, halpha1 := h.halpha1 }

example : ∃ r, maskedWater.report 8 6e23 300 1000 [1] = .ok r ∧
    ∀ I < 2, reportBonds r 6e23 1000 [1] I = 1 ∧ r.XA.getD I 0 < 1 :=
  report_masked_inconsistent _ _ _ _ _ _ _ _ _ _ maskedWater_valid rfl (by norm_num) (by norm_num) (by norm_num)
    (by norm_num) (by norm_num) (by norm_num)

/-! ## Compositions of another size -/

/-- `alphar` refuses another number of mole fractions; the report is undefined behaviour. -/
theorem report_size_unchecked (a : AssocModel) (R NA T rho : ℝ) (x : List ℝ) (h : x.length ≠ a.ncomp)
    (hb : a.data.b.length = a.ncomp) :
    a.alphar R NA T rho x = .throws .invalidArgument ∧ a.report R NA T rho x = .ub := by
  refine ⟨(assoc_sizes_refused a R NA T rho x []).1 h, ?_⟩
  unfold AssocModel.report getDelta
  rw [if_pos (Or.inl fun hcon => h (hcon.symm.trans hb))]
  rfl

example : waterLike.report 8 6e23 300 1000 [1/2, 1/2] = .ub :=
  (report_size_unchecked waterLike 8 6e23 300 1000 [1/2, 1/2] (by norm_num [waterLike]) rfl).2

/-- The same for the Dufal rule and too few mole fractions. -/
theorem dufal_report_size_unchecked (a : DufalModel) (NA T rho : ℝ) (x : List ℝ) (h : x.length < a.ncomp)
    (hs : ∃ s ∈ a.sites, x.length ≤ s.comp) (Δ : ℕ → ℕ → ℝ) (hΔ : dufalDelta NA T rho x a.data a.sites = .ok Δ) :
    a.alphar NA T rho x = .throws .invalidArgument ∧ a.report NA T rho x = .ub := by
  constructor
  · unfold DufalModel.alphar
    rw [if_pos h.ne]
  · unfold DufalModel.report
    rw [hΔ, Outcome.bind_ok, if_pos hs]

/-! ## The two maps -/

/-- In the report of a model that was built, `to_siteid` inverts `to_CompSite`, and the entries of `counts` are the
multiplicities in the molecules. -/
theorem report_maps (d : CanonicalData) (mols : List (List String)) (o : AssocOptions) (a : AssocModel)
    (ha : AssocModel.make d mols o = .ok a) (R NA T rho : ℝ) (x : List ℝ) (r : AssocReport)
    (hr : a.report R NA T rho x = .ok r) :
    (∀ cs k, (cs, k) ∈ r.siteids ↔ r.compSites[k]? = some cs) ∧
    (∀ (k k' : ℕ) cs, r.compSites[k]? = some cs → r.compSites[k']? = some cs → k = k') ∧
    (∀ i name, (i, name) ∈ r.compSites ↔ ∃ mol, mols[i]? = some mol ∧ name ∈ mol) ∧
    (∀ (k i : ℕ) name, r.compSites[k]? = some (i, name) → r.counts[k]? = some ((mols.getD i []).count name)) := by
  unfold AssocModel.report at hr
  obtain ⟨Δ, -, hr⟩ := Outcome.bind_eq_ok.mp hr
  obtain ⟨X, -, hr⟩ := Outcome.bind_eq_ok.mp hr
  cases hr
  unfold AssocModel.make makeMapper at ha
  split_ifs at ha with hbig
  · cases ha
  rw [Outcome.bind_ok] at ha
  obtain ⟨D, -, ha⟩ := Outcome.bind_eq_ok.mp ha
  cases ha
  refine ⟨?_, ?_, ?_, ?_⟩
  · rintro cs k
    simp only [mkAssocReport, List.mem_map, Prod.exists, Prod.mk.injEq, List.getElem?_map, Option.map_eq_some_iff]
    constructor
    · rintro ⟨s, j, hm, rfl, rfl⟩
      exact ⟨s, List.mem_zipIdx_iff_getElem?.mp hm, rfl⟩
    · rintro ⟨s, hm, rfl⟩
      exact ⟨s, k, List.mem_zipIdx_iff_getElem?.mpr hm, rfl, rfl⟩
  · intro k k' cs h h'
    have hn := mapSites_nodup mols 0
    simp only [mkAssocReport] at h h'
    have hk := (List.getElem?_eq_some_iff.mp h).1
    exact (List.nodup_iff_getElem?_ne_getElem?.mp hn |> fun hne => by
      by_contra hcon
      have hk' := (List.getElem?_eq_some_iff.mp h').1
      rcases lt_or_gt_of_ne hcon with hlt | hgt
      · exact hne k k' hlt hk' (h.trans h'.symm)
      · exact hne k' k hgt hk (h'.trans h.symm))
  · intro i name
    simp only [mkAssocReport, List.mem_map, mem_mapSites, Prod.mk.injEq]
    constructor
    · rintro ⟨s, ⟨k, mol, h1, h2, h3, -⟩, rfl, rfl⟩
      refine ⟨mol, ?_, h3⟩
      rw [h2, zero_add]
      exact h1
    · rintro ⟨mol, h1, h2⟩
      exact ⟨⟨i, name, mol.count name⟩, ⟨i, mol, h1, (zero_add i).symm, h2, rfl⟩, rfl, rfl⟩
  · intro k i name h
    simp only [mkAssocReport, List.getElem?_map, Option.map_eq_some_iff, Prod.mk.injEq] at h ⊢
    obtain ⟨s, hs, rfl, rfl⟩ := h
    refine ⟨s, hs, ?_⟩
    obtain ⟨k', mol, h1, h2, -, h4⟩ := (mem_mapSites mols 0 s).mp (List.mem_of_getElem? hs)
    rw [h4, h2, zero_add, List.getD_eq_getElem?_getD, h1]
    rfl

/-- A molecule with two sites of one kind. -/
example (R NA T rho : ℝ) (hR : R * T ≠ 0) : ∃ a r, AssocModel.make ⟨[0], [1], [2], some .CS⟩ [["A", "A"]] {} = .ok a ∧
    a.report R NA T rho [1] = .ok r ∧ r.compSites = [(0, "A")] ∧ r.counts = [2] := by
  have e : uniqueSites ["A", "A"] = ["A"] := by decide +kernel
  have hm : AssocModel.make ⟨[0], [1], [2], some .CS⟩ [["A", "A"]] {} = .ok ⟨{}, 1, [⟨0, "A", 2⟩], [[2]], ⟨[0], [1], [2], some .CS⟩⟩ := by
    simp [AssocModel.make, makeMapper, mapSites, e, makeD, mapOutcome, getDIJ, Outcome.bind_ok]
  have hr : ∃ Δ X, (⟨{}, 1, [⟨0, "A", 2⟩], [[2]], ⟨[0], [1], [2], some .CS⟩⟩ : AssocModel).report R NA T rho [1] =
      .ok (mkAssocReport {} [⟨0, "A", 2⟩] [[2]] Δ X) := by
    have hΔ : getDelta R NA T rho [1] ⟨[0], [1], [2], some .CS⟩ [⟨0, "A", 2⟩] = .ok (cr1Delta R NA T (assocG .CS 0) ⟨[0], [1], [2], some .CS⟩) := by
      unfold getDelta
      rw [if_neg (by simp)]
      simp only
      rw [if_neg]
      · simp
      · rintro (h | h | ⟨i, hi, j, hj, h⟩)
        · exact hR h
        · simp at h
        · have hi' : i = 0 := by simpa using hi
          have hj' : j = 0 := by simpa using hj
          subst hi' hj'
          norm_num at h
    refine ⟨cr1Delta R NA T (assocG .CS 0) ⟨[0], [1], [2], some .CS⟩, assocSolve {} 1 rho NA
      (fun _ _ => cr1Delta R NA T (assocG .CS 0) ⟨[0], [1], [2], some .CS⟩ 0 0) (fun _ _ => 2) (fun _ => 2) (fun _ => 1) (fun _ => 1), ?_⟩
    unfold AssocModel.report AssocModel.fractions
    rw [if_neg (by simp), hΔ, Outcome.bind_ok, Outcome.bind_ok, Outcome.bind_ok]
    congr 2
    congr 1 <;> funext i <;> fin_cases i <;> try rfl
    all_goals (funext j; fin_cases j; rfl)
  obtain ⟨Δ, X, hr⟩ := hr
  exact ⟨_, _, hm, hr, rfl, rfl⟩

/-! ## The older association class of CPA -/

/-- For a pure fluid the report of the older class holds what `alphar` uses. -/
theorem cpa_report_alphar (a : CPAAssoc) (T rho x0 : ℝ) (N : ℕ) (hN : a.nSites[0]? = some N) (r : CPAReport)
    (h : a.report T rho [x0] = .ok r) :
    r.bmix = a.b.getD 0 0 * x0 ∧ ((∀ X ∈ r.XA, 0 < X) →
      a.alphar T rho [x0] = .ok (x0 * ((r.XA.map fun X => Real.log X - X / 2).sum + N / 2))) := by
  unfold CPAAssoc.report at h
  split_ifs at h with hb
  simp only at h
  split at h
  · rename_i c e be N' hc he hbe hN'
    obtain ⟨XA, hX, h⟩ := Outcome.bind_eq_ok.mp h
    cases h
    rw [hN] at hN'
    cases hN'
    refine ⟨by simp, fun hp => ?_⟩
    unfold CPAAssoc.alphar
    rw [if_neg hb]
    simp only [hc, he, hbe, hN, hX, Outcome.bind_ok]
    unfold cpaLoop
    rw [if_neg (by
      rintro ⟨X, hm, hle⟩
      exact absurd (hp X hm) (not_lt.mpr hle))]
    have hh : a.nSites.head? = some N := by rw [List.head?_eq_getElem?]; exact hN
    rw [hh]
    simp only [cpaLoop]
    congr 1
    ring
  · cases h

/-- The older class reports something for every scheme with sites that attract each other. -/
theorem cpa_report_ok (c : AssocClass) (N : ℕ) (hN : cpaSites c = .ok N) (d : RadialDist) (eps beta b R T rho Δ : ℝ)
    (hΔ : cpaDelta d eps beta b (R * T) rho = .ok Δ) (h : 0 < rho * Δ) :
    ∃ a r, CPAAssoc.make [c] d [eps] [beta] [b] R = .ok a ∧ a.report T rho [1] = .ok r ∧ r.bmix = b ∧ r.XA.length = N ∧
      ∀ X ∈ r.XA, 0 < X ∧ X ≤ 1 := by
  refine ⟨⟨[c], d, [eps], [beta], [b], [N], R⟩, ?_⟩
  obtain ⟨X, hX, h1, hm, -⟩ := cpa_massAction c N hN d eps beta b (R * T) rho Δ hΔ h
  refine ⟨⟨b, List.ofFn X⟩, ?_, ?_, rfl, by simp, ?_⟩
  · unfold CPAAssoc.make
    simp [mapOutcome, hN]
  · unfold CPAAssoc.report
    rw [if_neg (by simp)]
    simp only [List.length_singleton, Finset.sum_range_one, List.getElem?_cons_zero, List.getD_cons_zero, mul_one]
    rw [hX, Outcome.bind_ok]
  · intro Y hY
    obtain ⟨i, rfl⟩ := (List.mem_ofFn).mp hY
    exact ⟨hm.1 i, h1 i⟩

example : ∃ a r, CPAAssoc.make [.a4C] .KG [20000] [0.01] [4e-5] 8 = .ok a ∧ a.report 312.5 1000 [1] = .ok r ∧ r.bmix = 4e-5 ∧
    r.XA.length = 4 ∧ ∀ X ∈ r.XA, 0 < X ∧ X ≤ 1 := by
  have h : ∃ Δ, cpaDelta .KG 20000 0.01 4e-5 (8 * 312.5) 1000 = .ok Δ ∧ 0 < 1000 * Δ := by
    unfold cpaDelta
    simp only
    rw [if_neg (by norm_num), Outcome.bind_ok, if_neg (by norm_num)]
    refine ⟨_, rfl, ?_⟩
    have : 0 < Real.exp (20000 / (8 * 312.5)) - 1 := by
      rw [sub_pos, Real.one_lt_exp_iff]; norm_num
    norm_num at this ⊢
  obtain ⟨Δ, hΔ, hp⟩ := h
  exact cpa_report_ok .a4C 4 rfl .KG 20000 0.01 4e-5 8 312.5 1000 Δ hΔ hp

/-- For mixtures it still reports fractions, those of the first component in the mixture, where `alphar` reads out of
bounds. -/
theorem cpa_report_mixture (a : CPAAssoc) (T rho x0 x1 : ℝ) (xs : List ℝ) (r : CPAReport)
    (h : a.report T rho (x0 :: x1 :: xs) = .ok r) (hp : ∀ X ∈ r.XA, 0 < X) :
    a.alphar T rho (x0 :: x1 :: xs) = .ub := by
  unfold CPAAssoc.report at h
  split_ifs at h with hb
  simp only at h
  split at h
  · rename_i c e be N hc he hbe hN
    obtain ⟨XA, hX, h⟩ := Outcome.bind_eq_ok.mp h
    cases h
    unfold CPAAssoc.alphar
    rw [if_neg hb]
    simp only [hc, he, hbe, hN, hX, Outcome.bind_ok]
    unfold cpaLoop
    rw [if_neg (by
      rintro ⟨X, hm, hle⟩
      exact absurd (hp X hm) (not_lt.mpr hle))]
    have hh : a.nSites.head? = some N := by rw [List.head?_eq_getElem?]; exact hN
    rw [hh]
    simp only [cpaLoop]
  · cases h

/-- The wrapper of CPA passes on the report of the class it holds. -/
theorem cpa_variant_report (R0 NA : ℝ) (m : CPAEOS) (T rho : ℝ) (x : List ℝ) (r : AssocReport)
    (h : m.assoc.report R0 NA T rho x = .ok (.inr r)) :
    ∃ a, m.assoc = .new a ∧ a.report R0 NA T rho x = .ok r ∧
      (x.length = a.ncomp → (∀ X ∈ r.XA, 0 < X) → ∀ c, x.length = m.cubic.a0.length → m.cubic.alphar T rho x = .ok c →
        m.alphar R0 NA T rho x = .ok (c + reportEnergy r x)) := by
  unfold CPAAssocVariant.report at h
  split at h
  · obtain ⟨r', -, h⟩ := Outcome.bind_eq_ok.mp h
    cases h
  · rename_i a ha
    obtain ⟨r', hr, h⟩ := Outcome.bind_eq_ok.mp h
    cases h
    refine ⟨a, ha, hr, fun hx hp c hc hcub => ?_⟩
    have := ((assoc_report_alphar a R0 NA T rho x hx).1 r hr).2.2.2.1 hp
    unfold CPAEOS.alphar
    rw [if_neg (by simpa using hc), hcub, Outcome.bind_ok, ha]
    simp only [CPAAssocVariant.alphar]
    rw [this, Outcome.bind_ok]

example (c : CPACubic) : ∃ r, (⟨c, .new waterLike⟩ : CPAEOS).assoc.report 8 6e23 300 1000 [1] = .ok (.inr r) := by
  obtain ⟨v, hv, -⟩ := assoc_alphar_nonpos waterLike 8 6e23 300 1000 [1] waterLike_valid
  obtain ⟨r, hr, h⟩ := (assoc_report_alphar waterLike 8 6e23 300 1000 [1] rfl).2 v hv
  exact ⟨r, by simp only [CPAAssocVariant.report]; rw [hr, Outcome.bind_ok]⟩

end Teqp.Props
