import Verif.Model.SAFTVRMie
import Verif.Model.PCSAFT

/-! # Building SAFT-VR-Mie models (`/repo/include/teqp/models/saftvrmie.hpp`)

Line numbers refer to that file. -/

set_option autoImplicit false

namespace Teqp.Model

/-- `SAFTVRMieCoeffs`, lines 23-35; `sigma` in metres. -/
structure SVRCoeffs where
  name : String
  m : ℝ := -1
  sigma : ℝ := -1
  eps : ℝ := -1
  la : ℝ := -1
  lr : ℝ := -1
  mustar2 : ℝ := 0
  nmu : ℝ := 0
  Qstar2 : ℝ := 0
  nQ : ℝ := 0
  bibtex : String := ""

/-- `SAFTVRMieLibrary`, lines 46-82. -/
noncomputable def svrLibrary (name : String) : Outcome SVRCoeffs :=
  if name = "Methane" then .ok { name := name, m := 1, sigma := 3.7412e-10, eps := 153.36, lr := 12.650, la := 6, bibtex := "Lafitte-JCP-2001" }
  else if name = "Ethane" then .ok { name := name, m := 1.4373, sigma := 3.7257e-10, eps := 206.12, lr := 12.400, la := 6, bibtex := "Lafitte-JCP-2001" }
  else if name = "Propane" then .ok { name := name, m := 1.6845, sigma := 3.9056e-10, eps := 239.89, lr := 13.006, la := 6, bibtex := "Lafitte-JCP-2001" }
  else .throws .stdInvalidArgument

/-- `get_epsilon_ij(flags)`, lines 239-247: the table of the enumeration (lines 39-44) turns anything that is not in it into its
first entry. -/
def svrRule (flags : Option JTree) : SVRRule :=
  match flags with
  | none => .lafitte
  | some j =>
    match j.at "epsilon_ij" with
    | .ok (.str s) => if s = "Lorentz-Berthelot" then .lorentzBerthelot else if s = "Lafitte" then .lafitte else .invalid
    | .ok _ => .invalid
    | _ => .lafitte

/-- The arrays of the components, lines 816-826 and 961-971. -/
noncomputable def svrTerms (cs : List SVRCoeffs) (k : ℕ → ℕ → ℝ) (lb : Bool) : SVR cs.length :=
  { m := fun i => (cs.get i).m, eps := fun i => (cs.get i).eps, sigma := fun i => (cs.get i).sigma * 1e10, lr := fun i => (cs.get i).lr
    la := fun i => (cs.get i).la, k := fun i j => k i j, lb := lb }

/-- `check_kmat`, `build_chain` and the constructor of the terms, lines 264-283, 782-792 and 812-834.  A matrix is square here.  A matrix
without elements passes the check, and the loops of `get_epsilon_ij` (lines 164-189) then read elements that do not exist. -/
noncomputable def svrChain (cs : List SVRCoeffs) (k : Option SqMat) (flags : Option JTree) : Outcome (SVR cs.length) :=
  Outcome.bind (match k with
    | some k => if k.n ≠ 0 ∧ k.n ≠ cs.length then .throws .invalidArgument else .ok ()
    | none => .ok ()) fun _ =>
  Outcome.bind (match svrRule flags with
    | .lafitte => .ok false
    | .lorentzBerthelot => .ok true
    | .invalid => .throws .stdInvalidArgument) fun lb =>
  match k with
  | some k => if k.n = 0 ∧ cs.length ≠ 0 then .ub else .ok (svrTerms cs k.val lb)
  | none => .ok (svrTerms cs (fun _ _ => 0) lb)

/-- The polar term of a mixture.  The contributions of Gubbins and Twu and of Gray and Gubbins are kept as their name and moments; their
evaluation is modelled elsewhere. -/
inductive SVRPolar where
  | grossVrabec (c : GVMulti)
  | multi (kind : String) (mu Q : List ℝ)

/-- `SAFTVRMieMixture`, lines 925-928. -/
structure SVRMixture where
  coeffs : List SVRCoeffs
  terms : SVR coeffs.length
  polar : Option SVRPolar

/-- The arrays of `build_polar`, lines 982-990. -/
noncomputable def svrPolarArrays (cs : List SVRCoeffs) : GVArrays :=
  { m := cs.map (·.m), sigma := cs.map fun c => c.sigma * 1e10, eps := cs.map (·.eps), mustar2 := cs.map (·.mustar2), nmu := cs.map (·.nmu)
    Qstar2 := cs.map (·.Qstar2), nQ := cs.map (·.nQ) }

open Classical in
/-- `build_polar`, lines 981-1000, as written: the two flags are true when the sums ARE zero. -/
noncomputable def svrBuildPolar (cs : List SVRCoeffs) : Outcome (Option SVRPolar) :=
  let has_dipolar := (cs.map fun c => |c.mustar2 * c.nmu|).sum = 0
  let has_quadrupolar := (cs.map fun c => |c.Qstar2 * c.nQ|).sum = 0
  if ¬has_dipolar ∧ ¬has_quadrupolar then .ok none
  else (GVMulti.make (svrPolarArrays cs)).bind fun c => .ok (some (.grossVrabec c))

/-- The constructor from coefficients, line 1004. -/
noncomputable def SVRMixture.ofCoeffs (cs : List SVRCoeffs) (k : Option SqMat) (flags : Option JTree) : Outcome SVRMixture :=
  (svrChain cs k flags).bind fun t => (svrBuildPolar cs).bind fun pol => .ok ⟨cs, t, pol⟩

/-- `SAFTVRMieMixture::alphar`, lines 1079-1110. -/
noncomputable def SVRMixture.alphar (multi : String → List ℝ → List ℝ → ℝ → ℝ → ℝ → List ℝ → Outcome ℝ) (mx : SVRMixture) (NA EPS T rho : ℝ)
    (x : List ℝ) : Outcome ℝ :=
  (mx.terms.core NA EPS T rho x).bind fun v =>
  match mx.polar with
  | none => .ok v.2
  | some (.grossVrabec c) => (c.eval T (rho * NA * 1e-30) v.1 x).bind fun a => .ok (v.2 + a)
  | some (.multi kind mu Q) => (multi kind mu Q T (rho * NA) v.1 x).bind fun a => .ok (v.2 + a)

/-- `sigma_m` or `sigma_Angstrom`, lines 1135 and 1174. -/
noncomputable def svrSigma (j : JTree) : Outcome ℝ :=
  if j.contains "sigma_m" then numAt "sigma_m" j else (numAt "sigma_Angstrom" j).bind fun s => .ok (s / 1e10)

/-- One entry of `coeffs`, lines 1130-1140 and 1169-1179. -/
noncomputable def svrCoeffs (j : JTree) : Outcome SVRCoeffs :=
  ((j.at "name").bind JTree.toStr).bind fun name =>
  (numAt "m" j).bind fun m =>
  (svrSigma j).bind fun sigma =>
  (numAt "epsilon_over_k" j).bind fun eps =>
  (numAt "lambda_r" j).bind fun lr =>
  (numAt "lambda_a" j).bind fun la =>
  ((j.at "BibTeXKey").bind JTree.toStr).bind fun bib =>
  .ok { name := name, m := m, sigma := sigma, eps := eps, la := la, lr := lr, bibtex := bib }

/-- The reduced moments in the old form, lines 1181-1191. -/
noncomputable def svrLegacy (j : JTree) (c : SVRCoeffs) : Outcome SVRCoeffs :=
  Outcome.bind (if j.contains "(mu^*)^2" ∧ j.contains "nmu" then
    (numAt "(mu^*)^2" j).bind fun mu => (numAt "nmu" j).bind fun n => .ok { c with mustar2 := mu, nmu := n } else .ok c) fun c =>
  if j.contains "(Q^*)^2" ∧ j.contains "nQ" then
    (numAt "(Q^*)^2" j).bind fun Q => (numAt "nQ" j).bind fun n => .ok { c with Qstar2 := Q, nQ := n } else .ok c

/-- Whether an entry speaks about polar moments, lines 1181-1194. -/
def svrIsPolar (j : JTree) : Bool :=
  (j.contains "(mu^*)^2" && j.contains "nmu") || (j.contains "(Q^*)^2" && j.contains "nQ") ||
    j.contains "Q_Cm2" || j.contains "Q_DA" || j.contains "mu_Cm" || j.contains "mu_D"

/-- `SAFTVRMieNonpolarfactory`, lines 1114-1150. -/
noncomputable def svrNonpolarFactory (j : JTree) : Outcome SVRMixture :=
  (pcKmat j).bind fun k =>
  if j.contains "names" then
    ((j.at "names").bind JTree.toStrs).bind fun names =>
    (pcKmatFits k names.length).bind fun _ =>
    (mapOutcome svrLibrary names).bind fun cs => (svrChain cs k none).bind fun t => .ok ⟨cs, t, none⟩
  else if j.contains "coeffs" then
    (j.at "coeffs").bind fun jc =>
    (mapOutcome svrCoeffs jc.items).bind fun cs =>
    (pcKmatFits k cs.length).bind fun _ => (svrChain cs k none).bind fun t => .ok ⟨cs, t, none⟩
  else .throws .stdInvalidArgument

/-- `mustar2factor` and `Qstar2factor`, lines 1225-1226. -/
noncomputable def svrPolarFactor : ℝ := 1 / (4 * Real.pi * 8.8541878128e-12 * 1.380649e-23)

/-- `get_dipole_Cm`, lines 1234-1249.  A negative square in the old form gives NaN, which the tests `> 0` later treat like the zero that the
real square root gives here. -/
noncomputable def svrDipole (j : JTree) (m eps sigma : ℝ) : Outcome ℝ :=
  if j.contains "(mu^*)^2" ∧ j.contains "nmu" then
    (numAt "(mu^*)^2" j).bind fun q => .ok (Real.sqrt (q * (m * eps * sigma ^ 3) / svrPolarFactor))
  else if j.contains "mu_Cm" then numAt "mu_Cm" j
  else if j.contains "mu_D" then (numAt "mu_D" j).bind fun q => .ok (q * 3.33564e-30)
  else .ok 0

/-- `get_quadrupole_Cm2`, lines 1250-1265. -/
noncomputable def svrQuadrupole (j : JTree) (m eps sigma : ℝ) : Outcome ℝ :=
  if j.contains "(Q^*)^2" ∧ j.contains "nQ" then
    (numAt "(Q^*)^2" j).bind fun q => .ok (Real.sqrt (q * (m * eps * sigma ^ 5) / svrPolarFactor))
  else if j.contains "Q_Cm2" then numAt "Q_Cm2" j
  else if j.contains "Q_DA" then (numAt "Q_DA" j).bind fun q => .ok (q * 3.33564e-30 / 1e10)
  else .ok 0

/-- The moments of one component in SI units, lines 1230-1270. -/
structure SVRMoments where
  m : ℝ
  sigma : ℝ
  eps : ℝ
  mu : ℝ
  Q : ℝ
  nmu : ℝ
  nQ : ℝ

/-- The second loop over the entries, lines 1230-1270. -/
noncomputable def svrMoments (j : JTree) : Outcome SVRMoments :=
  (numAt "m" j).bind fun m =>
  (svrSigma j).bind fun sigma =>
  (numAt "epsilon_over_k" j).bind fun eps =>
  (svrDipole j m eps sigma).bind fun mu =>
  (svrQuadrupole j m eps sigma).bind fun Q =>
  Outcome.bind (if j.contains "nmu" then numAt "nmu" j else .ok 0) fun nmu =>
  Outcome.bind (if j.contains "nQ" then numAt "nQ" j else .ok 0) fun nQ => .ok ⟨m, sigma, eps, mu, Q, nmu, nQ⟩

/-- `mustar2`, line 1279. -/
noncomputable def SVRMoments.mustar2 (q : SVRMoments) : ℝ := svrPolarFactor * q.mu ^ 2 / (q.m * q.eps * q.sigma ^ 3)
/-- `Qstar2`, line 1280. -/
noncomputable def SVRMoments.Qstar2 (q : SVRMoments) : ℝ := svrPolarFactor * q.Q ^ 2 / (q.m * q.eps * q.sigma ^ 5)
/-- `mubar2`, line 1286. -/
noncomputable def SVRMoments.mubar2 (q : SVRMoments) : ℝ := svrPolarFactor * q.mu ^ 2 / (q.eps * q.sigma ^ 3)
/-- `Qbar2`, line 1287. -/
noncomputable def SVRMoments.Qbar2 (q : SVRMoments) : ℝ := svrPolarFactor * q.Q ^ 2 / (q.eps * q.sigma ^ 5)

/-- The arrays of the Gross-Vrabec term, lines 1278-1281. -/
noncomputable def svrGVArrays (ms : List SVRMoments) : GVArrays :=
  { m := ms.map (·.m), sigma := ms.map fun q => q.sigma * 1e10, eps := ms.map (·.eps), mustar2 := ms.map SVRMoments.mustar2, nmu := ms.map (·.nmu)
    Qstar2 := ms.map SVRMoments.Qstar2, nQ := ms.map (·.nQ) }

/-- The choice of the polar model, lines 1277-1337.  The constructors of the other contributions are taken to succeed. -/
noncomputable def svrPolarOf (kind : String) (ms : List SVRMoments) : Outcome SVRPolar :=
  if kind = "GrossVrabec" then (GVMulti.make (svrGVArrays ms)).bind fun c => .ok (.grossVrabec c)
  else if kind ∈ ["GubbinsTwu+Luckas", "GubbinsTwu+GubbinsTwu", "GubbinsTwu+Gottschalk", "GubbinsTwu+Luckas+GubbinsTwuRhostar",
      "GubbinsTwu+GubbinsTwu+GubbinsTwuRhostar"] then .ok (.multi kind (ms.map SVRMoments.mubar2) (ms.map SVRMoments.Qbar2))
  else if kind ∈ ["GrayGubbins+GubbinsTwu", "GrayGubbins+Luckas"] then .ok (.multi kind (ms.map (·.mu)) (ms.map (·.Q)))
  else .throws .invalidArgument

/-- `SAFTVRMiefactory`, lines 1152-1343. -/
noncomputable def svrFactory (j : JTree) : Outcome SVRMixture :=
  (pcKmat j).bind fun k =>
  if j.contains "names" then
    ((j.at "names").bind JTree.toStrs).bind fun names =>
    (pcKmatFits k names.length).bind fun _ =>
    (mapOutcome svrLibrary names).bind fun cs => SVRMixture.ofCoeffs cs k none
  else if j.contains "coeffs" then
    (j.at "coeffs").bind fun jc =>
    (mapOutcome (fun e => (svrCoeffs e).bind (svrLegacy e)) jc.items).bind fun cs =>
    (pcKmatFits k cs.length).bind fun _ =>
    if ¬jc.items.any svrIsPolar then (svrChain cs k none).bind fun t => .ok ⟨cs, t, none⟩
    else
      Outcome.bind (if j.contains "polar_model" then (j.at "polar_model").bind JTree.toStr else .ok "GrossVrabec") fun kind =>
      (mapOutcome svrMoments jc.items).bind fun ms =>
      (svrChain cs k (if j.contains "SAFTVRMie_flags" then (match j.at "SAFTVRMie_flags" with | .ok f => some f | _ => none) else none)).bind fun t =>
      (svrPolarOf kind ms).bind fun pol => .ok ⟨cs, t, some pol⟩
  else .throws .stdInvalidArgument

end Teqp.Model
