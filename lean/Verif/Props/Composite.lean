import Verif.Model.Composite
import Verif.Props.TwoCenter
import Mathlib.Tactic

/-! # Gas constants (C99), models made of parts (C100) and documents of multi-fluid models (C101) -/

set_option autoImplicit false

namespace Teqp.Props
open Finset Teqp.Model

/-! ## Gas constants -/

/-- The gas constant of CODATA 2018. -/
theorem codataR_val : codataR = 8.31446261815324 := by unfold codataR; norm_num

/-- **The gas constant of a mixture lies between those of its components** when the mole fractions are not negative and add up to one, and there are as many as fluids. -/
theorem gasR_between (Rs x : List ℝ) (lo hi : ℝ) (hn : x.length = Rs.length) (hx : ∀ v ∈ x, 0 ≤ v) (hs : x.sum = 1) (hR : ∀ r ∈ Rs, lo ≤ r ∧ r ≤ hi) :
    ∃ R, (GasR.weighted Rs).get x = .ok R ∧ lo ≤ R ∧ R ≤ hi := by
  refine ⟨_, if_neg (by omega), ?_⟩
  have key : ∀ x Rs : List ℝ, x.length = Rs.length → (∀ v ∈ x, 0 ≤ v) → (∀ r ∈ Rs, lo ≤ r ∧ r ≤ hi) →
      lo * x.sum ≤ (List.zipWith (· * ·) x Rs).sum ∧ (List.zipWith (· * ·) x Rs).sum ≤ hi * x.sum := by
    intro x
    induction x with
    | nil => simp
    | cons v x ih =>
      intro Rs hn hx hR
      cases Rs with
      | nil => simp at hn
      | cons r Rs =>
        obtain ⟨h1, h2⟩ := ih Rs (by simpa using hn) (fun v hv => hx v (List.mem_cons_of_mem _ hv)) (fun r hr => hR r (List.mem_cons_of_mem _ hr))
        have hv := hx v List.mem_cons_self
        obtain ⟨r1, r2⟩ := hR r List.mem_cons_self
        simp only [List.zipWith_cons_cons, List.sum_cons]
        constructor
        · nlinarith [mul_le_mul_of_nonneg_left r1 hv]
        · nlinarith [mul_le_mul_of_nonneg_left r2 hv]
  have := key x Rs hn hx hR
  rw [hs, mul_one, mul_one] at this
  exact this

/-- **A pure fluid keeps its own gas constant**, alone and as the only one present in a mixture. -/
theorem gasR_pure (Rs : List ℝ) (i : ℕ) (hi : i < Rs.length) :
    (GasR.weighted Rs).get ((List.range Rs.length).map fun k => if k = i then 1 else 0) = .ok (Rs.getD i 0) := by
  refine (if_neg (by simp)).trans ?_
  congr 1
  have key : ∀ (Rs : List ℝ) (s i : ℕ), s ≤ i → i < s + Rs.length →
      (List.zipWith (· * ·) ((List.range' s Rs.length).map fun k => if k = i then (1 : ℝ) else 0) Rs).sum = Rs.getD (i - s) 0 := by
    intro Rs
    induction Rs with
    | nil => intro s i h1 h2; simp at h2; omega
    | cons r Rs ih =>
      intro s i h1 h2
      rw [List.length_cons, List.range'_succ, List.map_cons, List.zipWith_cons_cons, List.sum_cons]
      by_cases h : s = i
      · subst h
        rw [if_pos rfl, one_mul, Nat.sub_self, List.getD_cons_zero]
        have z : ∀ (Rs : List ℝ) (t : ℕ), s < t → (List.zipWith (· * ·) ((List.range' t Rs.length).map fun k => if k = s then (1 : ℝ) else 0) Rs).sum = 0 := by
          intro Rs
          induction Rs with
          | nil => simp
          | cons r Rs ih2 =>
            intro t ht
            rw [List.length_cons, List.range'_succ, List.map_cons, List.zipWith_cons_cons, List.sum_cons, if_neg (by omega), zero_mul, zero_add]
            exact ih2 (t + 1) (by omega)
        rw [z Rs (s + 1) (by omega), add_zero]
      · rw [if_neg h, zero_mul, zero_add, ih (s + 1) i (by omega) (by simp at h2; omega)]
        have e : i - s = (i - (s + 1)) + 1 := by omega
        rw [e, List.getD_cons_succ]
  have := key Rs 0 i (Nat.zero_le _) (by omega)
  rwa [← List.range_eq_range', Nat.sub_zero] at this

/-- **More mole fractions than fluids read past the end of the gas constants.** -/
theorem gasR_too_long (Rs x : List ℝ) (h : Rs.length < x.length) : (GasR.weighted Rs).get x = .ub := if_pos h

/-- **The choice of the gas constant**: the flag `Rmodel` with value `CODATA` selects the universal one; without the flag it is weighted with the constants of the documents. -/
theorem gasR_choice (pures : List JTree) (Rs : List ℝ) (hp : mapOutcome fluidR pures = .ok Rs) :
    gasROf pures (.obj [("Rmodel", .str "CODATA")]) = .ok .codata ∧ gasROf pures .null = .ok (.weighted Rs) := by
  unfold gasROf
  rw [hp]
  exact ⟨rfl, rfl⟩

/-- **An unknown value of the flag is ignored**, so that a typing error selects the other gas constant. -/
theorem gasR_unknown (pures : List JTree) (Rs : List ℝ) (s : String) (hs : s ≠ "CODATA") (hp : mapOutcome fluidR pures = .ok Rs) :
    gasROf pures (.obj [("Rmodel", .str s)]) = .ok (.weighted Rs) := by
  unfold gasROf
  rw [hp]
  have h1 : (JTree.obj [("Rmodel", .str s)]).contains "Rmodel" = true := rfl
  have h2 : (JTree.obj [("Rmodel", .str s)]).at "Rmodel" = .ok (.str s) := rfl
  simp only [Outcome.bind_ok, h1, h2, if_true, if_neg hs]

/-- **Without a gas constant, no model**: a document without the entry, without the list of equations or with an empty list throws. -/
theorem fluidR_missing (rest : List JTree) (flags : JTree) : gasROf (.obj [("EOS", .arr [.obj []])] :: rest) flags = .throws .jsonError
    ∧ gasROf (.obj [("EOS", .arr [])] :: rest) flags = .throws .jsonError ∧ gasROf (.obj [] :: rest) flags = .throws .jsonError := ⟨rfl, rfl, rfl⟩

example : (GasR.weighted [8, 9]).get [0.25, 0.75] = .ok 8.75 := by
  unfold GasR.get
  simp
  norm_num
example : ∃ R, (GasR.weighted [8.314, 8.3145]).get [0.25, 0.75] = .ok R ∧ 8.314 ≤ R ∧ R ≤ 8.3145 :=
  gasR_between _ _ _ _ rfl (by simp; norm_num) (by simp; norm_num) (by simp; norm_num)
example : (GasR.weighted [8, 9, 10]).get [0, 1, 0] = .ok 9 := gasR_pure [8, 9, 10] 1 (by simp)
example : (GasR.weighted [8]).get [0.5, 0.5] = .ub := gasR_too_long _ _ (by simp)
example : gasROf [.obj [("EOS", .arr [.obj [("gas_constant", .num 8.3145)]])]] (.obj [("Rmodel", .str "codata")]) = .ok (.weighted [8.3145]) :=
  gasR_unknown _ _ _ (by decide) rfl

/-! ## Models made of parts -/

/-- **The names of the nonpolar kinds**: eight names for four kinds, and nothing else is accepted. -/
theorem nonpolar_names (s : String) :
    (NonpolarKind.ofName s = .ok .pcsaft ↔ s ∈ ["PCSAFT", "PC-SAFT"]) ∧ (NonpolarKind.ofName s = .ok .saftvrmie ↔ s ∈ ["SAFTVRMie", "SAFT-VR-Mie"])
    ∧ (NonpolarKind.ofName s = .ok .softsaft ↔ s ∈ ["Johnson+Johnson", "softSAFT"]) ∧ (NonpolarKind.ofName s = .ok .twoCenter ↔ s ∈ ["2CLJF", "2CLJ"])
    ∧ (s ∉ ["PCSAFT", "PC-SAFT", "SAFTVRMie", "SAFT-VR-Mie", "Johnson+Johnson", "softSAFT", "2CLJF", "2CLJ"] → NonpolarKind.ofName s = .throws .stdInvalidArgument) := by
  unfold NonpolarKind.ofName
  by_cases h1 : s = "PCSAFT"
  · subst h1; decide
  by_cases h2 : s = "PC-SAFT"
  · subst h2; decide
  by_cases h3 : s = "SAFTVRMie"
  · subst h3; decide
  by_cases h4 : s = "SAFT-VR-Mie"
  · subst h4; decide
  by_cases h5 : s = "Johnson+Johnson"
  · subst h5; decide
  by_cases h6 : s = "softSAFT"
  · subst h6; decide
  by_cases h7 : s = "2CLJF"
  · subst h7; decide
  by_cases h8 : s = "2CLJ"
  · subst h8; decide
  simp [h1, h2, h3, h4, h5, h6, h7, h8]

/-- **The residual Helmholtz energy is that of the parts**: a document with a chain model gives the model that its constructor gives for the entry `model`, and with an
association part the sum of the two. -/
theorem generic_alphar (build : NonpolarKind → JTree → Outcome Part) (ba : JTree → Outcome Part) (s a : String) (m am : JTree) (k : NonpolarKind) (np as : Part)
    (hk : NonpolarKind.ofName s = .ok k) (hk2 : k ≠ .twoCenter) (hb : build k m = .ok np) (ha : a = "canonical" ∨ a = "Dufal") (hab : ba am = .ok as) :
    (∃ g, genericMake build ba (.obj [("nonpolar", .obj [("kind", .str s), ("model", m)])]) = .ok g ∧ g.alphar = np.alphar)
    ∧ ∃ g, genericMake build ba (.obj [("nonpolar", .obj [("kind", .str s), ("model", m)]), ("association", .obj [("kind", .str a), ("model", am)])]) = .ok g
      ∧ ∀ T rho x u v, np.alphar T rho x = .ok u → as.alphar T rho x = .ok v → g.alphar T rho x = .ok (u + v) := by
  have hn : makeNonpolar build (.obj [("kind", .str s), ("model", m)]) = .ok np := by
    unfold makeNonpolar
    have e1 : ((JTree.obj [("kind", .str s), ("model", m)]).at "kind").bind JTree.toStr = .ok s := rfl
    have e2 : (JTree.obj [("kind", .str s), ("model", m)]).at "model" = .ok m := rfl
    rw [e1, Outcome.bind_ok, hk, Outcome.bind_ok, e2, Outcome.bind_ok]
    cases k with
    | twoCenter => exact absurd rfl hk2
    | pcsaft => exact hb
    | saftvrmie => exact hb
    | softsaft => exact hb
  have hs : makeAssociation ba (.obj [("kind", .str a), ("model", am)]) = .ok as := by
    unfold makeAssociation
    have e1 : ((JTree.obj [("kind", .str a), ("model", am)]).at "kind").bind JTree.toStr = .ok a := rfl
    have e2 : (JTree.obj [("kind", .str a), ("model", am)]).at "model" = .ok am := rfl
    rw [e1, Outcome.bind_ok, if_pos ha, e2, Outcome.bind_ok, hab]
  constructor
  · refine ⟨genericPart np none, ?_, rfl⟩
    unfold genericMake
    have e1 : (JTree.obj [("nonpolar", .obj [("kind", .str s), ("model", m)])]).at "nonpolar" = .ok (.obj [("kind", .str s), ("model", m)]) := rfl
    have e2 : (JTree.obj [("nonpolar", .obj [("kind", .str s), ("model", m)])]).contains "association" = false := rfl
    rw [e1, Outcome.bind_ok, hn, Outcome.bind_ok, e2]
    rfl
  · refine ⟨genericPart np (some as), ?_, ?_⟩
    · unfold genericMake
      have e1 : (JTree.obj [("nonpolar", .obj [("kind", .str s), ("model", m)]), ("association", .obj [("kind", .str a), ("model", am)])]).at "nonpolar"
        = .ok (.obj [("kind", .str s), ("model", m)]) := rfl
      have e2 : (JTree.obj [("nonpolar", .obj [("kind", .str s), ("model", m)]), ("association", .obj [("kind", .str a), ("model", am)])]).contains "association" = true := rfl
      have e3 : (JTree.obj [("nonpolar", .obj [("kind", .str s), ("model", m)]), ("association", .obj [("kind", .str a), ("model", am)])]).at "association"
        = .ok (.obj [("kind", .str a), ("model", am)]) := rfl
      rw [e1, Outcome.bind_ok, hn, Outcome.bind_ok, e2, if_pos rfl, e3, Outcome.bind_ok, hs, Outcome.bind_ok]
    · intro T rho x u v hu hv
      simp only [genericPart, addOut, hu, hv, Outcome.bind_ok]

/-- **An unknown kind of either part is refused**, and so is a document without the nonpolar part. -/
theorem generic_refuses (build : NonpolarKind → JTree → Outcome Part) (ba : JTree → Outcome Part) (s : String) (m am : JTree) (np : Part)
    (hs : s ∉ ["PCSAFT", "PC-SAFT", "SAFTVRMie", "SAFT-VR-Mie", "Johnson+Johnson", "softSAFT", "2CLJF", "2CLJ"]) (hb : build .pcsaft m = .ok np)
    (a : String) (ha : a ≠ "canonical") (ha2 : a ≠ "Dufal") :
    genericMake build ba (.obj [("nonpolar", .obj [("kind", .str s), ("model", m)])]) = .throws .stdInvalidArgument
    ∧ genericMake build ba (.obj [("nonpolar", .obj [("kind", .str "PCSAFT"), ("model", m)]), ("association", .obj [("kind", .str a), ("model", am)])]) = .throws .stdInvalidArgument
    ∧ genericMake build ba (.obj []) = .throws .jsonError := by
  refine ⟨?_, ?_, rfl⟩
  · unfold genericMake makeNonpolar
    have e1 : (JTree.obj [("nonpolar", .obj [("kind", .str s), ("model", m)])]).at "nonpolar" = .ok (.obj [("kind", .str s), ("model", m)]) := rfl
    have e2 : ((JTree.obj [("kind", .str s), ("model", m)]).at "kind").bind JTree.toStr = .ok s := rfl
    rw [e1, Outcome.bind_ok, e2, Outcome.bind_ok, (nonpolar_names s).2.2.2.2 hs]
    rfl
  · have hn : makeNonpolar build (.obj [("kind", .str "PCSAFT"), ("model", m)]) = .ok np := hb
    unfold genericMake
    have e1 : (JTree.obj [("nonpolar", .obj [("kind", .str "PCSAFT"), ("model", m)]), ("association", .obj [("kind", .str a), ("model", am)])]).at "nonpolar"
      = .ok (.obj [("kind", .str "PCSAFT"), ("model", m)]) := rfl
    have e2 : (JTree.obj [("nonpolar", .obj [("kind", .str "PCSAFT"), ("model", m)]), ("association", .obj [("kind", .str a), ("model", am)])]).contains "association" = true := rfl
    have e3 : (JTree.obj [("nonpolar", .obj [("kind", .str "PCSAFT"), ("model", m)]), ("association", .obj [("kind", .str a), ("model", am)])]).at "association"
      = .ok (.obj [("kind", .str a), ("model", am)]) := rfl
    have e4 : makeAssociation ba (.obj [("kind", .str a), ("model", am)]) = .throws .stdInvalidArgument := by
      unfold makeAssociation
      have e5 : ((JTree.obj [("kind", .str a), ("model", am)]).at "kind").bind JTree.toStr = .ok a := rfl
      rw [e5, Outcome.bind_ok, if_neg (by simp [ha, ha2])]
    rw [e1, Outcome.bind_ok, hn, Outcome.bind_ok, e2, if_pos rfl, e3, Outcome.bind_ok, e4]
    rfl

/-- **The pressure of a model is kept by wrapping it exactly when its gas constant is that of CODATA** (at any state where it is not zero). -/
theorem wrap_pressure (R T rho : ℝ) (f : ℝ → ℝ) (hT : T ≠ 0) (hrho : rho ≠ 0) (hZ : 1 + rho * deriv f rho ≠ 0) :
    Part.pressure codataR T rho f = Part.pressure R T rho f ↔ R = codataR := by
  unfold Part.pressure
  constructor
  · intro h
    have h2 : (rho * T * (1 + rho * deriv f rho)) * codataR = (rho * T * (1 + rho * deriv f rho)) * R := by linarith
    exact (mul_left_cancel₀ (mul_ne_zero (mul_ne_zero hrho hT) hZ) h2).symm
  · rintro rfl
    rfl

/-- **A two-centre fluid inside the generic model has another pressure than by itself**: the residual Helmholtz energy is the same, the gas constant is `8.314…` and not one, so every
pressure is multiplied by it. -/
theorem generic_two_center (build : NonpolarKind → JTree → Outcome Part) (ba : JTree → Outcome Part) (s a : String) (L : ℝ) (t : TwoCenterModel)
    (hs : s = "2CLJF" ∨ s = "2CLJ") (ht : twoCenterBuild a L = .ok t) :
    ∃ g, genericMake build ba (.obj [("nonpolar", .obj [("kind", .str s), ("model", .obj [("author", .str a), ("L^*", .num L)])])]) = .ok g
      ∧ twoCenterFactory "2CLJF" (.obj [("author", .str a), ("L^*", .num L)]) = .ok t
      ∧ g.alphar = (twoCenterPart t).alphar ∧ ∀ x, g.R x = .ok 8.31446261815324 ∧ (twoCenterPart t).R x = .ok 1
      ∧ ∀ (T rho : ℝ) (f : ℝ → ℝ), Part.pressure 8.31446261815324 T rho f = 8.31446261815324 * Part.pressure 1 T rho f := by
  refine ⟨genericPart (twoCenterPart t) none, ?_, ht, rfl, fun x => ⟨?_, rfl, fun T rho f => ?_⟩⟩
  · have e : ∀ s' : String, NonpolarKind.ofName s' = .ok .twoCenter →
        genericMake build ba (.obj [("nonpolar", .obj [("kind", .str s'), ("model", .obj [("author", .str a), ("L^*", .num L)])])])
          = ((twoCenterBuild a L).bind fun t => .ok (twoCenterPart t)).bind fun np => .ok (genericPart np none) := by
      intro s' h
      unfold genericMake makeNonpolar
      have e1 : (JTree.obj [("nonpolar", .obj [("kind", .str s'), ("model", .obj [("author", .str a), ("L^*", .num L)])])]).at "nonpolar"
        = .ok (.obj [("kind", .str s'), ("model", .obj [("author", .str a), ("L^*", .num L)])]) := rfl
      have e2 : ((JTree.obj [("kind", .str s'), ("model", .obj [("author", .str a), ("L^*", .num L)])]).at "kind").bind JTree.toStr = .ok s' := rfl
      rw [e1, Outcome.bind_ok, e2, Outcome.bind_ok, h]
      rfl
    rw [e s (by rcases hs with h | h <;> subst h <;> rfl), ht]
    rfl
  · rw [← codataR_val]; rfl
  · unfold Part.pressure
    ring

/-- **Association that does nothing still changes the pressure of a multi-fluid model**, unless all gas constants of its fluids are that of CODATA: the residual Helmholtz energy is
that of the multi-fluid part, the gas constant is not. -/
theorem multifluidAssoc_R (Rs x : List ℝ) (mf as : Part) (hR : mf.R = (GasR.weighted Rs).get) (h0 : ∀ T rho x, as.alphar T rho x = .ok 0) :
    (∀ T rho u, mf.alphar T rho x = .ok u → (multifluidAssocPart mf as).alphar T rho x = .ok u)
    ∧ (multifluidAssocPart mf as).R x = .ok 8.31446261815324
    ∧ ((multifluidAssocPart mf as).R x = mf.R x ↔ x.length ≤ Rs.length ∧ (List.zipWith (· * ·) x Rs).sum = 8.31446261815324) := by
  refine ⟨fun T rho u hu => ?_, ?_, ?_⟩
  · simp only [multifluidAssocPart, addOut, hu, h0, Outcome.bind_ok, add_zero]
  · rw [← codataR_val]; rfl
  · rw [← codataR_val, hR]
    show (Outcome.ok codataR = if Rs.length < x.length then .ub else .ok (List.zipWith (· * ·) x Rs).sum) ↔ _
    by_cases h : Rs.length < x.length
    · rw [if_pos h]
      constructor
      · exact nofun
      · rintro ⟨h', -⟩; omega
    · rw [if_neg h]
      constructor
      · intro e
        injection e with e
        exact ⟨by omega, e.symm⟩
      · rintro ⟨-, e⟩
        rw [e]

example : twoCenterBuild "2CLJF_Mecke" 0.5 = .ok ⟨.mecke, .dipole, 0.5, 0⟩ := rfl
/-- Argon has `8.31451` in its document. -/
example (mf as : Part) (hR : mf.R = (GasR.weighted [8.31451]).get) (h0 : ∀ T rho x, as.alphar T rho x = .ok 0) : (multifluidAssocPart mf as).R [1] ≠ mf.R [1] := by
  rw [ne_eq, (multifluidAssoc_R [8.31451] [1] mf as hR h0).2.2]
  norm_num
example : Part.pressure codataR 300 1 (fun _ => 0) = Part.pressure codataR 300 1 (fun _ => 0) :=
  (wrap_pressure codataR 300 1 (fun _ => 0) (by norm_num) (by norm_num) (by simp)).2 rfl

/-! ## Documents of multi-fluid models -/

variable (fs : String → PathInfo) (parse : String → Option JTree)

/-- **A single component needs no interaction parameters**: the entries `BIP` and `departure` are not looked at, whatever they are. -/
theorem collections_single (b d c : JTree) :
    multifluidCollections fs parse (.obj [("components", .arr [c])]) = .ok (.arr [], .arr [])
    ∧ multifluidCollections fs parse (.obj [("components", .arr [c]), ("BIP", b), ("departure", d)]) = .ok (.arr [], .arr []) := ⟨rfl, rfl⟩

/-- **Two components need the entry `BIP`.** -/
theorem collections_missing (c1 c2 : JTree) (cs : List JTree) : multifluidCollections fs parse (.obj [("components", .arr (c1 :: c2 :: cs))]) = .throws .jsonError := by
  unfold multifluidCollections
  have h : 1 < (JTree.arr (c1 :: c2 :: cs)).size := by simp [JTree.size]
  have e1 : (JTree.obj [("components", .arr (c1 :: c2 :: cs))]).at "components" = .ok (.arr (c1 :: c2 :: cs)) := rfl
  have e2 : (JTree.obj [("components", .arr (c1 :: c2 :: cs))]).contains "root" = false := rfl
  rw [e2, if_neg (by decide), Outcome.bind_ok, e1, Outcome.bind_ok, if_pos h]
  rfl

theorem collections_two (c1 c2 b d : JTree) (root : String) :
    multifluidCollections fs parse (.obj [("root", .str root), ("components", .arr [c1, c2]), ("BIP", b)])
      = (jsonTreeLoad fs parse (some (defaultBIP root)) b).bind (fun B => .ok (B, .arr []))
    ∧ multifluidCollections fs parse (.obj [("root", .str root), ("components", .arr [c1, c2]), ("BIP", b), ("departure", d)])
      = (jsonTreeLoad fs parse (some (defaultBIP root)) b).bind (fun B =>
        (if root = "" then loadDeparture fs parse d else jsonTreeLoad fs parse (some (defaultDeparture root)) d).bind fun D => .ok (B, D)) := ⟨rfl, rfl⟩

/-- **The files below the root are the defaults**: with an empty entry, the interaction parameters and the departure functions come from `root/dev/mixtures`. -/
theorem collections_default (c1 c2 : JTree) (root : String) (hr : root ≠ "") (B D : String) (vB vD : JTree)
    (hB : fs (root ++ "/dev/mixtures/mixture_binary_pairs.json") = .content B) (hD : fs (root ++ "/dev/mixtures/mixture_departure_functions.json") = .content D)
    (pB : parse B = some vB) (pD : parse D = some vD) :
    multifluidCollections fs parse (.obj [("root", .str root), ("components", .arr [c1, c2]), ("BIP", .str ""), ("departure", .str "")]) = .ok (vB, vD) := by
  rw [(collections_two fs parse c1 c2 _ _ root).2, if_neg hr]
  have e1 : ∀ p, jsonTreeLoad fs parse (some p) (.str "") = loadJsonFile fs parse p := fun p => rfl
  rw [e1, e1]
  unfold loadJsonFile defaultBIP defaultDeparture
  rw [hB, hD]
  simp only [pB, pD, Outcome.bind_ok]

/-- **Data given in the document are used as they are**, for the interaction parameters and for the departure functions, with a root and without. -/
theorem collections_given (c1 c2 b d : JTree) (bs ds : List JTree) (root : String) :
    multifluidCollections fs parse (.obj [("root", .str root), ("components", .arr [c1, c2]), ("BIP", .arr (b :: bs)), ("departure", .arr (d :: ds))])
      = .ok (.arr (b :: bs), .arr (d :: ds)) := by
  rw [(collections_two fs parse c1 c2 _ _ root).2]
  by_cases h : root = ""
  · rw [if_pos h]; rfl
  · rw [if_neg h]; rfl

/-- **The prefix `PATH::` is understood without a root only.**  Without a root, the departure functions are read from the file after the prefix; with a root, the same document throws
unless there happens to be a file with the prefix in its name. -/
theorem collections_prefix (c1 c2 b : JTree) (bs : List JTree) (p root t : String) (v : JTree) (hr : root ≠ "") (hp : ("PATH::" ++ p).startsWith "PATH::" = true)
    (hd : (("PATH::" ++ p).drop 6).toString = p) (hf : fs p = .content t) (hv : parse t = some v) (hn : fs ("PATH::" ++ p) = .noFile) (hnp : parse ("PATH::" ++ p) = none)
    (hne : "PATH::" ++ p ≠ "") :
    multifluidCollections fs parse (.obj [("root", .str ""), ("components", .arr [c1, c2]), ("BIP", .arr (b :: bs)), ("departure", .str ("PATH::" ++ p))]) = .ok (.arr (b :: bs), v)
    ∧ multifluidCollections fs parse (.obj [("root", .str root), ("components", .arr [c1, c2]), ("BIP", .arr (b :: bs)), ("departure", .str ("PATH::" ++ p))]) = .throws .jsonError := by
  constructor
  · rw [(collections_two fs parse c1 c2 _ _ "").2, if_pos rfl]
    have e : loadDeparture fs parse (.str ("PATH::" ++ p)) = .ok v := by
      unfold loadDeparture
      simp only [hp, if_true, hd]
      unfold loadJsonFile
      simp only [hf, hv]
    rw [e]
    rfl
  · rw [(collections_two fs parse c1 c2 _ _ root).2, if_neg hr]
    have e : jsonTreeLoad fs parse (some (defaultDeparture root)) (.str ("PATH::" ++ p)) = .throws .jsonError := by
      unfold jsonTreeLoad
      simp only [hne, if_false, hn, hnp]
    rw [e]
    rfl

/-- **An empty entry for the departure functions without a root is refused** with the library's exception; so is one that is neither a list nor a text. -/
theorem collections_departure_refused (c1 c2 b : JTree) (bs : List JTree) (x : ℝ) (hp : parse "" = none) :
    multifluidCollections fs parse (.obj [("root", .str ""), ("components", .arr [c1, c2]), ("BIP", .arr (b :: bs)), ("departure", .arr [])]) = .throws .invalidArgument
    ∧ multifluidCollections fs parse (.obj [("root", .str ""), ("components", .arr [c1, c2]), ("BIP", .arr (b :: bs)), ("departure", .num x)]) = .throws .invalidArgument
    ∧ multifluidCollections fs parse (.obj [("root", .str ""), ("components", .arr [c1, c2]), ("BIP", .arr (b :: bs)), ("departure", .str "")]) = .throws .invalidArgument := by
  refine ⟨rfl, rfl, ?_⟩
  rw [(collections_two fs parse c1 c2 _ _ "").2, if_pos rfl]
  have e : loadDeparture fs parse (.str "") = .throws .invalidArgument := by
    unfold loadDeparture
    have hs : "".startsWith "PATH::" = false := by decide +kernel
    have : jsonTreeLoad fs parse none (.str "") = .throws .invalidArgument := rfl
    simp only [hs, this, hp, Bool.false_eq_true, if_false]
  rw [e]
  rfl

example : multifluidCollections (fun _ => .noFile) (fun _ => none) (.obj [("root", .str "data"), ("components", .arr [.str "Methane", .str "Ethane"]),
    ("BIP", .arr [.obj []]), ("departure", .arr [.obj []])]) = .ok (.arr [.obj []], .arr [.obj []]) := collections_given _ _ _ _ _ _ _ _ _
example : multifluidCollections (fun s => if s = "dep.json" then .content "[]" else .noFile) (fun s => if s = "[]" then some (.arr []) else none)
    (.obj [("root", .str "data"), ("components", .arr [.str "Methane", .str "Ethane"]), ("BIP", .arr [.obj []]), ("departure", .str ("PATH::" ++ "dep.json"))]) = .throws .jsonError :=
  (collections_prefix _ _ _ _ _ _ "dep.json" "data" "[]" (.arr []) (by decide) (by decide +kernel) (by decide +kernel) rfl rfl rfl rfl (by decide)).2

end Teqp.Props
