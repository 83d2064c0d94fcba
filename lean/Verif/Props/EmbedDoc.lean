import Verif.Props.EmbedTerm
import Verif.Props.MixDocBuild

/-! # C169 on documents: fluids given by a cubic equation in a mixture -/

set_option autoImplicit false

namespace Teqp.Props
open Teqp Teqp.Model Teqp.Spec Teqp.Lemmas

/-- The document `t` of a fluid whose first equation of state has one term, the document `c` of type `ty`: its identifiers, its reducing state, its
gas constant. -/
structure OneTermDoc (ty : String) (t c : JTree) (info : FluidInfo) (Tr rhor Rf : ℝ) : Prop where
  info : ∃ i, t.at "INFO" = .ok i ∧ i.at "NAME" = .ok (.str info.name) ∧ i.at "CAS" = .ok (.str info.cas) ∧
    i.at "REFPROP_NAME" = .ok (.str info.refprop) ∧ (∀ h, info.hash = some h → i.at "HASH" = .ok (.str h)) ∧
    (info.hash = none → i.contains "HASH" = false)
  eos : ∃ e rest s r, t.at "EOS" = .ok (.arr (e :: rest)) ∧ e.at "STATES" = .ok s ∧ s.at "reducing" = .ok r ∧
    HoldsNum r "T" Tr ∧ HoldsNum r "rhomolar" rhor ∧ HoldsNum e "gas_constant" Rf ∧ e.at "alphar" = .ok (.arr [c])
  type : c.at "type" = .ok (.str ty)

/-- The term is a cubic equation. -/
abbrev CubicFluidDoc (t c : JTree) (info : FluidInfo) (Tr rhor Rf : ℝ) : Prop := OneTermDoc "ResidualHelmholtzGenericCubic" t c info Tr rhor Rf

/-- The term is PC-SAFT. -/
abbrev PCFluidDoc (t c : JTree) (info : FluidInfo) (Tr rhor Rf : ℝ) : Prop := OneTermDoc "ResidualHelmholtzPCSAFTGrossSadowski2001" t c info Tr rhor Rf

/-- The data of such a fluid. -/
noncomputable def cubicData (e : CubicTermC) (Tr rhor Rf : ℝ) : PureData := ⟨"", Tr, 1 / rhor, Rf, [.cubic e]⟩

theorem CubicFluidDoc.is {sp : SpecialTerms} (hs : sp.cubic = cubicReader) {t c : JTree} {info : FluidInfo} {Tr rhor Rf : ℝ} {e : CubicTermC}
    (h : CubicFluidDoc t c info Tr rhor Rf) (hc : cubicTermOf c = .ok e) (hr : rhor ≠ 0) : FluidIs sp t info (cubicData e Tr rhor Rf) where
  info := h.info
  eos := by
    obtain ⟨e', rest, s, r, h1, h2, h3, h4, h5, h6, h7⟩ := h.eos
    refine ⟨e', rest, s, r, rhor, [c], h1, h2, h3, h4, h5, hr, rfl, h6, h7, by simp, [[.cubic e]], .cons (.cubic c _ h.type ?_) .nil, rfl⟩
    rw [hs, cubicReader, hc]; rfl

/-- The pressure from the terms of such a fluid. -/
theorem cubicData_pressure (e : CubicTermC) {Tr rhor Rf R T ρ : ℝ} (h0 : 0 < e.Tred) (h1 : 0 < e.rhored) (h2 : 0 < Tr) (h3 : 0 < rhor)
    (hR : 0 < e.R) (hT : 0 < T) (hb : 0 < e.b) (hρ : 0 < ρ) (h : e.b * (ρ * (e.rhored / rhor)) < 1) (hD : e.Delta1 ≠ e.Delta2)
    (hD1 : -1 < e.Delta1) (hD2 : -1 < e.Delta2) :
    totalPressure (fun T r => containerAlphar (cubicData e Tr rhor Rf).terms ((cubicData e Tr rhor Rf).Tc / T) (r * (cubicData e Tr rhor Rf).vc)) R T ρ
      = R / (e.R * (e.Tred / Tr) * (e.rhored / rhor)) *
        cubicPressure e.R (e.a0 * e.alpha.eval (T * (e.Tred / Tr))) e.b e.Delta1 e.Delta2 (T * (e.Tred / Tr)) (1 / (ρ * (e.rhored / rhor))) := by
  have key := cubicFluid_pressure (oneCubic Tr rhor none e) e rfl (Rf := R) (T := T) (ρ := ρ) (fun _ => 1) rfl rfl (div_pos h0 h2) (div_pos h1 h3)
    hR hT hb hρ h hD hD1 hD2
  rw [show (oneCubic Tr rhor none e).Tr (fun _ => 1) = Tr from rfl, show (oneCubic Tr rhor none e).rhor (fun _ => 1) = rhor from rfl] at key
  rw [← key]
  congr 1
  funext T r
  rw [cubicFluid_alphar _ e rfl]
  have e1 : e.Tred / (Tr / T) = T * (e.Tred / Tr) := by rw [div_div_eq_mul_div]; ring
  have e2 : r * (1 / rhor) * e.rhored = r * (e.rhored / rhor) := by ring
  unfold containerAlphar cubicData
  simp only [List.map_cons, List.map_nil, List.sum_cons, List.sum_nil, add_zero]
  unfold ResTerm.alphar ResTerm.zeroBranch ResTerm.ordBranch CubicTermC.value
  simp only [ite_self, e1, e2]
  rfl

/-- C169. **A fluid read from its documents**: whatever binary data and flags are given, a single fluid whose document holds one cubic equation is accepted, and
its pressure is the one of the equation with `a₀ = Ω_A (R T_c)²/p_c` and `b = Ω_B R T_c/p_c` at a scaled temperature and density, with the gas constant in
the numerator being the one of the fluid or, if the flags ask for it, the CODATA value. -/
theorem cubicDocument {sp : SpecialTerms} (hs : sp.cubic = cubicReader) (t c al col deps j : JTree) (info : FluidInfo)
    {Tc pc R D1 D2 Tred rhored OA OB Tr rhor Rf Rco : ℝ} {f : AlphaFn} (ht : CubicFluidDoc t c info Tr rhor Rf)
    (c1 : HoldsNum c "Tcrit / K" Tc) (c2 : HoldsNum c "pcrit / Pa" pc) (c3 : HoldsNum c "R / J/mol/K" R)
    (c4 : HoldsNum c "Delta1" D1) (c5 : HoldsNum c "Delta2" D2) (c6 : HoldsNum c "Tred / K" Tred)
    (c7 : HoldsNum c "rhored / mol/m^3" rhored) (c8 : HoldsNum c "OmegaA" OA) (c9 : HoldsNum c "OmegaB" OB)
    (ca : c.at "alpha" = .ok (.arr [al])) (cf : buildAlphaJson Tc al = .ok f)
    (hTc : 0 < Tc) (hpc : 0 < pc) (hR : 0 < R) (hOB : 0 < OB) (h0 : 0 < Tred) (h1 : 0 < rhored) (h2 : 0 < Tr) (h3 : 0 < rhor)
    (hD : D1 ≠ D2) (hD1 : -1 < D1) (hD2 : -1 < D2) :
    ∃ m g, buildMixDoc sp ![t] col deps j = .ok (m, g) ∧ m.R Rco ![1] = (if asksCodata j then Rco else Rf) ∧
      ∀ T ρ, 0 < T → 0 < ρ → OB * R * Tc / pc * (ρ * (rhored / rhor)) < 1 →
        totalPressure (fun T r => m.alphar T r ![1]) (m.R Rco ![1]) T ρ
          = (if asksCodata j then Rco else Rf) / (R * (Tred / Tr) * (rhored / rhor)) *
            cubicPressure R (OA * (R * Tc) ^ 2 / pc * f.eval (T * (Tred / Tr))) (OB * R * Tc / pc) D1 D2 (T * (Tred / Tr)) (1 / (ρ * (rhored / rhor))) := by
  have hc := cubicTerm_reads c1 c2 c3 c4 c5 c6 c7 c8 c9 ca cf
  obtain ⟨m, g, hm, hv⟩ := documents_single sp ![t] col deps j info _ (ht.is hs hc h3.ne')
  have hR' : m.R Rco ![1] = if asksCodata j then Rco else Rf := (hv 1 1 Rco).2
  refine ⟨m, g, hm, hR', fun T ρ hT hρ hb => ?_⟩
  rw [hR']
  have ha : (fun T r => m.alphar T r ![1]) = fun T r => containerAlphar (cubicData ⟨R, D1, D2, Tred, rhored, OA * (R * Tc) ^ 2 / pc, OB * R * Tc / pc, f⟩ Tr rhor Rf).terms
      ((cubicData ⟨R, D1, D2, Tred, rhored, OA * (R * Tc) ^ 2 / pc, OB * R * Tc / pc, f⟩ Tr rhor Rf).Tc / T)
      (r * (cubicData ⟨R, D1, D2, Tred, rhored, OA * (R * Tc) ^ 2 / pc, OB * R * Tc / pc, f⟩ Tr rhor Rf).vc) := by
    funext T r; exact (hv T r Rco).1
  rw [ha]
  exact cubicData_pressure ⟨R, D1, D2, Tred, rhored, OA * (R * Tc) ^ 2 / pc, OB * R * Tc / pc, f⟩ h0 h1 h2 h3 hR hT (by positivity) hρ hb hD hD1 hD2

/-- C169. **In a mixture**: a component whose document holds one cubic equation has, as a pure limit of the mixture, the pressure of that equation at the scaled
state, whatever the other components are. -/
theorem cubicComponent {n : ℕ} {sp : SpecialTerms} (hs : sp.cubic = cubicReader) (pures : Fin n → JTree) (els ds : List JTree) (j : JTree)
    (infos : Fin n → FluidInfo) (data : Fin n → PureData) (col : List BIPEntry) (deps : List DepEntry) (f : BIPFlags)
    (k : Fin n) {c : JTree} {e : CubicTermC} {Tr rhor Rf : ℝ} (ht : CubicFluidDoc (pures k) c (infos k) Tr rhor Rf) (hce : cubicTermOf c = .ok e)
    (hp : ∀ i, i ≠ k → FluidIs sp (pures i) (infos i) (data i)) (hc : List.Forall₂ EntryIs els col) (hd : List.Forall₂ (DepIs sp) ds deps) (hf : FlagsAre j f)
    (hsh : NoneShared infos) (m : MultiFluid n) (g : GasR) (hb : buildMixDoc sp pures (.arr els) (.arr ds) j = .ok (m, g))
    (h0 : 0 < e.Tred) (h1 : 0 < e.rhored) (h2 : 0 < Tr) (h3 : 0 < rhor) {T ρ Rco : ℝ}
    (hR : 0 < e.R) (hT : 0 < T) (heb : 0 < e.b) (hρ : 0 < ρ) (h : e.b * (ρ * (e.rhored / rhor)) < 1) (hD : e.Delta1 ≠ e.Delta2)
    (hD1 : -1 < e.Delta1) (hD2 : -1 < e.Delta2) :
    totalPressure (fun T r => m.alphar T r (Pi.single k 1)) (m.R Rco (Pi.single k 1)) T ρ
      = (if asksCodata j then Rco else Rf) / (e.R * (e.Tred / Tr) * (e.rhored / rhor)) *
        cubicPressure e.R (e.a0 * e.alpha.eval (T * (e.Tred / Tr))) e.b e.Delta1 e.Delta2 (T * (e.Tred / Tr)) (1 / (ρ * (e.rhored / rhor))) := by
  have hall : ∀ i, FluidIs sp (pures i) (infos i) (Function.update data k (cubicData e Tr rhor Rf) i) := fun i => by
    by_cases hi : i = k
    · subst hi; rw [Function.update_self]; exact ht.is hs hce h3.ne'
    · rw [Function.update_of_ne hi]; exact hp i hi
  have hv := fun T rho => documents_pure sp pures els ds j infos _ col deps f hall hc hd hf hsh m g hb k T rho Rco
  simp only [Function.update_self] at hv
  rw [(hv 1 1).2]
  have ha : (fun T r => m.alphar T r (Pi.single k 1)) = fun T r => containerAlphar (cubicData e Tr rhor Rf).terms
      ((cubicData e Tr rhor Rf).Tc / T) (r * (cubicData e Tr rhor Rf).vc) := by
    funext T r; exact (hv T r).1
  rw [ha]
  exact cubicData_pressure e h0 h1 h2 h3 hR hT heb hρ h hD hD1 hD2

/-! ## PC-SAFT -/

/-- The data of a fluid with a PC-SAFT term. -/
noncomputable def pcData (NA : ℝ) (e : PCTerm) (Tr rhor Rf : ℝ) : PureData := ⟨"", Tr, 1 / rhor, Rf, [.pcsaft NA e]⟩

theorem PCFluidDoc.is {NA : ℝ} {t c : JTree} {info : FluidInfo} {Tr rhor Rf : ℝ} {e : PCTerm}
    (h : PCFluidDoc t c info Tr rhor Rf) (hc : pcTermOf c = .ok e) (hr : rhor ≠ 0) : FluidIs (termReaders NA) t info (pcData NA e Tr rhor Rf) where
  info := h.info
  eos := by
    obtain ⟨e', rest, s, r, h1, h2, h3, h4, h5, h6, h7⟩ := h.eos
    refine ⟨e', rest, s, r, rhor, [c], h1, h2, h3, h4, h5, hr, rfl, h6, h7, by simp, [[.pcsaft NA e]], .cons (.pcsaft c _ h.type ?_) .nil, rfl⟩
    show pcReader NA c = _
    rw [pcReader, hc]; rfl

/-- The Helmholtz energy from the terms of such a fluid. -/
theorem pcData_alphar (NA : ℝ) (e : PCTerm) (Tr rhor Rf T r : ℝ) :
    containerAlphar (pcData NA e Tr rhor Rf).terms ((pcData NA e Tr rhor Rf).Tc / T) (r * (pcData NA e Tr rhor Rf).vc)
      = grossSadowski pureCoeff e.m e.sigma e.eps (T * (e.Tred / Tr)) (r * (e.rhored / rhor) * NA / 1e30) := by
  have h := pcFluid_alphar (onePCFluid Tr rhor NA e) NA e rfl T r fun _ => 1
  rw [show (onePCFluid Tr rhor NA e).Tr (fun _ => 1) = Tr from rfl, show (onePCFluid Tr rhor NA e).rhor (fun _ => 1) = rhor from rfl, pcPure_is] at h
  rw [← h]
  unfold MultiFluid.alphar MultiFluid.alphar_taudelta pcData
  simp only [dite_true]
  rw [mul_one_div]
  rfl

/-- C169. **A PC-SAFT fluid read from its documents**: it is accepted whatever the binary data and flags are, and its residual Helmholtz energy is the one of Gross
and Sadowski with the three parameters of the document, at the temperature and density scaled by the ratios of the two reducing states; with equal reducing states it is
that equation at the temperature and density of the call. -/
theorem pcDocument {NA : ℝ} (t c col deps j : JTree) (info : FluidInfo) {m sigma eps Tred rhored Tr rhor Rf Rco : ℝ}
    (ht : PCFluidDoc t c info Tr rhor Rf) (c1 : HoldsNum c "Tred / K" Tred) (c2 : HoldsNum c "rhored / mol/m^3" rhored) (c3 : HoldsNum c "m" m)
    (c4 : HoldsNum c "sigma / A" sigma) (c5 : HoldsNum c "epsilon_over_k" eps) (h3 : rhor ≠ 0) :
    ∃ M g, buildMixDoc (termReaders NA) ![t] col deps j = .ok (M, g) ∧ M.R Rco ![1] = (if asksCodata j then Rco else Rf) ∧
      (∀ T ρ, M.alphar T ρ ![1] = grossSadowski pureCoeff m sigma eps (T * (Tred / Tr)) (ρ * (rhored / rhor) * NA / 1e30)) ∧
      (Tr = Tred → rhor = rhored → Tr ≠ 0 → ∀ T ρ, M.alphar T ρ ![1] = grossSadowski pureCoeff m sigma eps T (ρ * NA / 1e30)) := by
  have hc := pcTerm_reads c1 c2 c3 c4 c5
  obtain ⟨M, g, hm, hv⟩ := documents_single (termReaders NA) ![t] col deps j info _ (ht.is hc h3)
  have ha : ∀ T ρ, M.alphar T ρ ![1] = grossSadowski pureCoeff m sigma eps (T * (Tred / Tr)) (ρ * (rhored / rhor) * NA / 1e30) := fun T ρ => by
    rw [show M.alphar T ρ ![1] = _ from (hv T ρ Rco).1, pcData_alphar]
  refine ⟨M, g, hm, (hv 1 1 Rco).2, ha, fun e1 e2 e3 T ρ => ?_⟩
  subst e1 e2
  rw [ha, div_self e3, div_self h3, mul_one, mul_one]

/-- C169. **In a mixture**: a component whose document holds PC-SAFT has, as a pure limit of the mixture, the Helmholtz energy of that equation at the scaled
state, whatever the other components are. -/
theorem pcComponent {n : ℕ} {NA : ℝ} (pures : Fin n → JTree) (els ds : List JTree) (j : JTree)
    (infos : Fin n → FluidInfo) (data : Fin n → PureData) (col : List BIPEntry) (deps : List DepEntry) (f : BIPFlags)
    (k : Fin n) {c : JTree} {e : PCTerm} {Tr rhor Rf : ℝ} (ht : PCFluidDoc (pures k) c (infos k) Tr rhor Rf) (hce : pcTermOf c = .ok e)
    (hp : ∀ i, i ≠ k → FluidIs (termReaders NA) (pures i) (infos i) (data i)) (hc : List.Forall₂ EntryIs els col)
    (hd : List.Forall₂ (DepIs (termReaders NA)) ds deps) (hf : FlagsAre j f)
    (hsh : NoneShared infos) (m : MultiFluid n) (g : GasR) (hb : buildMixDoc (termReaders NA) pures (.arr els) (.arr ds) j = .ok (m, g)) (h3 : rhor ≠ 0) (T ρ Rco : ℝ) :
    m.alphar T ρ (Pi.single k 1) = grossSadowski pureCoeff e.m e.sigma e.eps (T * (e.Tred / Tr)) (ρ * (e.rhored / rhor) * NA / 1e30) ∧
      m.R Rco (Pi.single k 1) = if asksCodata j then Rco else Rf := by
  have hall : ∀ i, FluidIs (termReaders NA) (pures i) (infos i) (Function.update data k (pcData NA e Tr rhor Rf) i) := fun i => by
    by_cases hi : i = k
    · subst hi; rw [Function.update_self]; exact ht.is hce h3
    · rw [Function.update_of_ne hi]; exact hp i hi
  have hv := documents_pure (termReaders NA) pures els ds j infos _ col deps f hall hc hd hf hsh m g hb k T ρ Rco
  simp only [Function.update_self] at hv
  refine ⟨?_, hv.2⟩
  rw [hv.1, pcData_alphar]

/-- A document for methane with PC-SAFT. -/
noncomputable def methanePCDoc (Rf : ℝ) : JTree :=
  .obj [("INFO", .obj [("NAME", .str "M"), ("CAS", .str "2"), ("REFPROP_NAME", .str "M")]),
    ("EOS", .arr [.obj [("STATES", .obj [("reducing", .obj [("T", .num 190.564), ("rhomolar", .num 10139)])]), ("gas_constant", .num Rf),
      ("alphar", .arr [.obj [("type", .str "ResidualHelmholtzPCSAFTGrossSadowski2001"), ("Tred / K", .num 190.564), ("rhored / mol/m^3", .num 10139), ("m", .num 1),
        ("sigma / A", .num 3.7039), ("epsilon_over_k", .num 150.03)]])]])]

example : ∃ M g, buildMixDoc (termReaders 6.02214076e23) ![methanePCDoc 8.314] .null .null .null = .ok (M, g) ∧
    M.alphar 300 1000 ![1] = grossSadowski pureCoeff 1 3.7039 150.03 300 (1000 * 6.02214076e23 / 1e30) := by
  obtain ⟨M, g, hm, -, -, h⟩ := pcDocument (NA := 6.02214076e23) (methanePCDoc 8.314) _ .null .null .null { name := "M", cas := "2", refprop := "M" }
    (Tr := 190.564) (rhor := 10139) (Rf := 8.314) (Rco := 8)
    ⟨⟨_, rfl, rfl, rfl, rfl, (fun _ h => by cases h), fun _ => rfl⟩, ⟨_, [], _, _, rfl, rfl, rfl, rfl, rfl, rfl, rfl⟩, rfl⟩ rfl rfl rfl rfl rfl (by norm_num)
  exact ⟨M, g, hm, h rfl rfl (by norm_num) 300 1000⟩

/-! ## Methane -/

/-- A document for methane with a cubic equation. -/
noncomputable def methaneFluidDoc (Rf : ℝ) : JTree :=
  .obj [("INFO", .obj [("NAME", .str "M"), ("CAS", .str "2"), ("REFPROP_NAME", .str "M")]),
    ("EOS", .arr [.obj [("STATES", .obj [("reducing", .obj [("T", .num 190.564), ("rhomolar", .num 10139)])]), ("gas_constant", .num Rf),
      ("alphar", .arr [methaneCubicDoc 8.314 190.564 10139 [pr78Doc 0.011]])]])]

theorem methaneFluidDoc_is (Rf : ℝ) : CubicFluidDoc (methaneFluidDoc Rf) (methaneCubicDoc 8.314 190.564 10139 [pr78Doc 0.011])
    { name := "M", cas := "2", refprop := "M" } 190.564 10139 Rf where
  info := ⟨_, rfl, rfl, rfl, rfl, (fun _ h => by cases h), fun _ => rfl⟩
  eos := ⟨_, [], _, _, rfl, rfl, rfl, rfl, rfl, rfl, rfl⟩
  type := rfl

/-- With the CODATA constant asked for, the pressure of methane is too high by a factor of 8.31446261815324/8.314. -/
example (p1 p2 : JTree → Outcome (List ResTerm)) : ∃ m g, buildMixDoc ⟨cubicReader, p1, p2⟩ ![methaneFluidDoc 8.314] .null .null (.obj [("Rmodel", .str "CODATA")]) = .ok (m, g) ∧
    totalPressure (fun T r => m.alphar T r ![1]) (m.R RCodata2017 ![1]) 250 10000 = RCodata2017 / 8.314 *
      cubicPressure 8.314 (0.42748 * (8.314 * 190.564) ^ 2 / 4599200 * (AlphaFn.basic 190.564 (mPR 0.011)).eval 250) (0.08664 * 8.314 * 190.564 / 4599200) 1 0 250
        (1 / 10000) := by
  obtain ⟨m, g, hm, _, hp⟩ := cubicDocument (sp := ⟨cubicReader, p1, p2⟩) rfl (methaneFluidDoc 8.314) _ (pr78Doc 0.011) .null .null (.obj [("Rmodel", .str "CODATA")]) _
    (Rco := RCodata2017) (methaneFluidDoc_is 8.314) rfl rfl rfl rfl rfl rfl rfl rfl rfl rfl (f := .basic 190.564 (mPR 0.011)) (by
      simp [buildAlphaJson, pr78Doc, JTree.at, JTree.toStr, JTree.toDouble, Outcome.bind, buildAlpha, List.lookup])
    (by norm_num) (by norm_num) (by norm_num) (by norm_num) (by norm_num) (by norm_num) (by norm_num) (by norm_num) (by norm_num) (by norm_num) (by norm_num)
  refine ⟨m, g, hm, ?_⟩
  rw [hp 250 10000 (by norm_num) (by norm_num) (by norm_num)]
  have : asksCodata (.obj [("Rmodel", .str "CODATA")]) = true := rfl
  rw [this]
  norm_num

/-- A fluid with another equation and methane. -/
noncomputable def besideMethane : Fin 2 → JTree := ![sampleFluid "e" "1" 305 10 8.3 1, methaneFluidDoc 8.314]

theorem besideMethane_built (p1 p2 : JTree → Outcome (List ResTerm)) :
    ∃ m g, buildMixDoc ⟨cubicReader, p1, p2⟩ besideMethane (.arr [sampleBIPDoc]) (.arr []) .null = .ok (m, g) := by
  obtain ⟨data, hd⟩ : ∃ data : Fin 2 → PureData, data = ![⟨"e", 305, 1 / 10, 8.3, gaussTerms 1⟩, cubicData (methaneCubic 8.314 190.564 10139) 190.564 10139 8.314] := ⟨_, rfl⟩
  have h := (mixture_of_documents ⟨cubicReader, p1, p2⟩ besideMethane [sampleBIPDoc] [] .null sampleInfos data [sampleBIP] [] {}
    (fun i => by
      subst hd
      fin_cases i
      · exact sampleFluid_is _ "e" "1" 305 10 8.3 1 "e" (by norm_num)
      · exact (methaneFluidDoc_is 8.314).is rfl (methaneCubic_reads 8.314 190.564 10139) (by norm_num))
    (.cons sampleBIPDoc_is .nil) .nil ⟨rfl, rfl, rfl⟩).2 _ sample_ids
  obtain ⟨m, hm⟩ := build_ok (fun i => { data i with id := ![("e" : String), "M"] i }) [sampleBIP] [] {} false fun i k hik => by
    have hi : i = 0 := by omega
    have hk : k = 1 := by omega
    subst hi hk
    refine ⟨0, [.null], ⟨2, 3, 4, 5⟩, ⟨sampleBIP, false, sample_lookup, rfl, rfl⟩, ?_, ?_⟩
    · change (getBIPdep [sampleBIP] "e" "M" {}).bind _ = _
      rw [sample_lookup]; rfl
    · exact ⟨by norm_num, by norm_num⟩
  refine ⟨m, .weighted (List.ofFn fun i => (data i).R), ?_⟩
  rw [h]
  change (buildMixture _ _ _ _ false).bind _ = _
  rw [hm]
  rfl

/-- In the mixture, methane at 250 K and 10 mol/L has the pressure of its cubic equation. -/
example (p1 p2 : JTree → Outcome (List ResTerm)) : ∃ m g, buildMixDoc ⟨cubicReader, p1, p2⟩ besideMethane (.arr [sampleBIPDoc]) (.arr []) .null = .ok (m, g) ∧
    totalPressure (fun T r => m.alphar T r (Pi.single 1 1)) (m.R RCodata2017 (Pi.single 1 1)) 250 10000 =
      cubicPressure 8.314 (0.42748 * (8.314 * 190.564) ^ 2 / 4599200 * (AlphaFn.basic 190.564 (mPR 0.011)).eval 250) (0.08664 * 8.314 * 190.564 / 4599200) 1 0 250
        (1 / 10000) := by
  obtain ⟨m, g, hb⟩ := besideMethane_built p1 p2
  refine ⟨m, g, hb, ?_⟩
  have := cubicComponent (sp := ⟨cubicReader, p1, p2⟩) rfl besideMethane [sampleBIPDoc] [] .null sampleInfos (fun _ => ⟨"e", 305, 1 / 10, 8.3, gaussTerms 1⟩)
    [sampleBIP] [] {} 1 (methaneFluidDoc_is 8.314) (methaneCubic_reads 8.314 190.564 10139)
    (fun i hi => by fin_cases i; exacts [sampleFluid_is _ "e" "1" 305 10 8.3 1 "e" (by norm_num), absurd rfl hi]) (.cons sampleBIPDoc_is .nil) .nil ⟨rfl, rfl, rfl⟩
    sampleInfos_shared m g hb
    (by norm_num [methaneCubic]) (by norm_num [methaneCubic]) (by norm_num) (by norm_num) (T := 250) (ρ := 10000) (Rco := RCodata2017)
    (by norm_num [methaneCubic]) (by norm_num) (by norm_num [methaneCubic]) (by norm_num) (by norm_num [methaneCubic]) (by norm_num [methaneCubic])
    (by norm_num [methaneCubic]) (by norm_num [methaneCubic])
  rw [this]
  have h : asksCodata .null = false := rfl
  rw [h]
  norm_num [methaneCubic]

end Teqp.Props
