import Verif.Model.AdvPR
import Verif.Model.SVRFactory
import Verif.Model.TwoCenter
import Verif.Model.LKP
import Verif.Model.VdW
import Verif.Model.Ideal
import Verif.Model.QCRK

/-! # The schemas of the model documents

The archive `/repo/dev/model_schemas.tar.xz` holds `model_schemas.json`, to which the line numbers of the schemas refer, and the same text as
bytes in `model_schemas.cpp`; the build compiles the latter (`/repo/CMakeLists.txt` lines 117-123 and 187) and
`/repo/interface/CPP/teqp_impl_factory.cpp` lines 9 and 114-119 use it.  A schema is modelled as the set of the documents it admits: of the schema
language only the part that the file uses is needed.  Titles, descriptions and defaults have no effect on validation, references are replaced by
what they refer to. -/

set_option autoImplicit false

namespace Teqp.Model

/-- The documents that a schema admits (`JSONValidator::is_valid`, `/repo/include/teqp/json_tools.hpp` line 162). -/
abbrev JSchema := JTree → Bool

/-- `"type": "number"`. -/
def sNumber : JSchema
  | .num _ => true
  | _ => false

/-- `"type": "string"`. -/
def sString : JSchema
  | .str _ => true
  | _ => false

/-- `"type": "null"`. -/
def sNull : JSchema
  | .null => true
  | _ => false

/-- `"type": "object"` without further conditions. -/
def sAnyObject : JSchema
  | .obj _ => true
  | _ => false

/-- `"enum"` with strings; a `"const"` is one with a single string. -/
def sEnum (vs : List String) : JSchema
  | .str s => vs.contains s
  | _ => false

/-- `"type": "array"` with `"items"`. -/
def sArray (item : JSchema) : JSchema
  | .arr xs => xs.all item
  | _ => false

/-- An array with equal `"minItems"` and `"maxItems"`. -/
def sTuple (n : ℕ) (item : JSchema) : JSchema
  | .arr xs => xs.all item && xs.length == n
  | _ => false

/-- `"anyOf"`. -/
def sAnyOf (ss : List JSchema) : JSchema := fun j => ss.any fun s => s j

/-- `"anyOf"` with a schema and null. -/
def sOrNull (s : JSchema) : JSchema := sAnyOf [s, sNull]

/-- `"type": "object"` with `"properties"`, `"required"` and `"additionalProperties": false`. -/
def sObject (props : List (String × JSchema)) (req : List String) : JSchema
  | .obj fs => (fs.all fun p => match props.lookup p.1 with
      | some s => s p.2
      | none => false) && req.all fun k => (fs.lookup k).isSome
  | _ => false

/-- A matrix of numbers; the rows may have any lengths. -/
def sMatrix : JSchema := sArray (sArray sNumber)

/-- `vdW1`, lines 2-22. -/
def schemaVdW1 : JSchema := sObject [("a", sNumber), ("b", sNumber)] ["a", "b"]

/-- `vdW`, lines 23-49. -/
def schemaVdW : JSchema :=
  sObject [("Tcrit / K", sArray sNumber), ("pcrit / Pa", sArray sNumber)] ["Tcrit / K", "pcrit / Pa"]

/-- `PR`, lines 50-104. -/
def schemaPR : JSchema :=
  sObject [("Tcrit / K", sArray sNumber), ("pcrit / Pa", sArray sNumber), ("acentric", sArray sNumber), ("kmat", sOrNull sMatrix)]
    ["Tcrit / K", "pcrit / Pa", "acentric"]

/-- `CubicAlpha`, lines 115-146. -/
def schemaAlpha : JSchema := sObject [("type", sEnum ["Twu", "Mathias-Copeman"]), ("c", sTuple 3 sNumber)] ["type", "c"]

/-- `cubic`, lines 105-219. -/
def schemaCubic : JSchema :=
  sObject [("type", sEnum ["PR", "SRK"]), ("Tcrit / K", sArray sNumber), ("pcrit / Pa", sArray sNumber), ("acentric", sArray sNumber),
    ("alpha", sArray schemaAlpha), ("kmat", sOrNull sMatrix)] ["type", "Tcrit / K", "pcrit / Pa", "acentric"]

/-- `CPAPure`, lines 230-273. -/
def schemaCPAPure : JSchema :=
  sObject [("a0i / Pa m^6/mol^2", sNumber), ("bi / m^3/mol", sNumber), ("c1", sNumber), ("Tc / K", sNumber), ("epsABi / J/mol", sNumber),
    ("betaABi", sNumber), ("class", sString)]
    ["a0i / Pa m^6/mol^2", "bi / m^3/mol", "c1", "Tc / K", "epsABi / J/mol", "betaABi", "class"]

/-- `CPA`, lines 220-311. -/
def schemaCPA : JSchema :=
  sObject [("cubic", sEnum ["PR", "SRK"]), ("pures", sArray schemaCPAPure), ("radial_dist", sEnum ["CS", "KG"]), ("R_gas / J/mol/K", sNumber)]
    ["cubic", "pures", "radial_dist", "R_gas / J/mol/K"]

/-- `PCSAFTCoeff`, lines 322-407. -/
def schemaPCCoeff : JSchema :=
  sObject [("name", sString), ("m", sNumber), ("sigma_Angstrom", sNumber), ("epsilon_over_k", sNumber), ("BibTeXKey", sString),
    ("(mu^*)^2", sOrNull sNumber), ("nmu", sOrNull sNumber), ("(Q^*)^2", sOrNull sNumber), ("nQ", sOrNull sNumber)]
    ["name", "m", "sigma_Angstrom", "epsilon_over_k", "BibTeXKey"]

/-- `PCSAFTABEnum`, lines 314-321, or null. -/
def schemaAB : JSchema := sOrNull (sEnum ["Liang-IECR-2012", "Liang-IECR-2014"])

/-- `PCSAFTWithNames`, lines 463-510. -/
def schemaPCNames : JSchema := sObject [("kmat", sOrNull sMatrix), ("ab", schemaAB), ("names", sArray sString)] ["names"]

/-- `PCSAFTWithCoeffs`, lines 408-462. -/
def schemaPCCoeffs : JSchema :=
  sObject [("kmat", sOrNull sMatrix), ("ab", schemaAB), ("coeffs", sOrNull (sArray schemaPCCoeff))] ["coeffs"]

/-- `PCSAFT`, lines 312-520. -/
def schemaPCSAFT : JSchema := sAnyOf [schemaPCNames, schemaPCCoeffs]

/-- `ECSHuberEly1994ReferenceFluid`, lines 595-628. -/
def schemaECSRef : JSchema :=
  sObject [("name", sString), ("acentric", sNumber), ("Z_crit", sNumber), ("T_crit / K", sNumber), ("rhomolar_crit / mol/m^3", sNumber)]
    ["name", "acentric", "Z_crit", "T_crit / K", "rhomolar_crit / mol/m^3"]

/-- `ECSHuberEly1994Fluid`, lines 523-594. -/
def schemaECSFluid : JSchema :=
  sObject [("name", sOrNull sString), ("acentric", sNumber), ("Z_crit", sNumber), ("T_crit / K", sNumber), ("rhomolar_crit / mol/m^3", sNumber),
    ("f_T_coeffs", sTuple 2 sNumber), ("h_T_coeffs", sTuple 2 sNumber)]
    ["acentric", "Z_crit", "T_crit / K", "rhomolar_crit / mol/m^3", "f_T_coeffs", "h_T_coeffs"]

/-- `multifluid-ECS-HuberEly1994`, lines 521-646. -/
def schemaECS : JSchema := sObject [("reference_fluid", schemaECSRef), ("fluid", schemaECSFluid)] ["reference_fluid", "fluid"]

/-- `SW_EspindolaHeredia2009`, `EXP6_Kataoka1992` and `Mie_Pohl2023`, lines 647-691: an object with one number. -/
def schemaOne (k : String) : JSchema := sObject [(k, sNumber)] [k]

/-- `2CLJF-Dipole` and `2CLJF-Quadrupole`, lines 692-761. -/
def schemaTwoCenter (k : String) : JSchema :=
  sObject [("author", sEnum ["2CLJF_Mecke", "2CLJF_Lisal"]), ("L^*", sNumber), (k, sNumber)] ["author", "L^*", k]

/-- A term of the ideal gas: its name, numbers and arrays; every entry is required, the gas constant too. -/
def schemaTerm (name : String) (fields : List (String × JSchema)) : JSchema :=
  sObject (("type", sEnum [name]) :: ("R", sNumber) :: fields) ("type" :: "R" :: fields.map Prod.fst)

/-- `"anyOf"` with a number and an array of numbers. -/
def sNumberOrArray : JSchema := sAnyOf [sNumber, sArray sNumber]

/-- The ten terms, lines 764-1144 and 1155-1187, in the order of the latter. -/
def schemaTerms : JSchema := sAnyOf [
  schemaTerm "Constant" [("a", sNumber)],
  schemaTerm "Lead" [("a_1", sNumber), ("a_2", sNumber)],
  schemaTerm "LogT" [("a", sNumber)],
  schemaTerm "PowerT" [("n", sArray sNumber), ("t", sArray sNumber)],
  schemaTerm "PlanckEinstein" [("n", sArray sNumber), ("theta", sArray sNumber)],
  schemaTerm "PlanckEinsteinGeneralized" [("n", sArray sNumber), ("c", sArray sNumber), ("d", sArray sNumber), ("theta", sArray sNumber)],
  schemaTerm "GERG2004Cosh" [("n", sArray sNumber), ("theta", sArray sNumber)],
  schemaTerm "GERG2004Sinh" [("n", sArray sNumber), ("theta", sArray sNumber)],
  schemaTerm "Cp0Constant" [("c", sNumberOrArray), ("T_0", sNumberOrArray)],
  schemaTerm "Cp0PowerT" [("c", sNumberOrArray), ("t", sNumberOrArray), ("T_0", sNumberOrArray)]]

/-- `IdealHelmholtzPure`, lines 1145-1197. -/
def schemaIdealPure : JSchema := sObject [("R", sNumber), ("terms", sArray schemaTerms)] ["R", "terms"]

/-- `IdealHelmholtz`, lines 762-1203. -/
def schemaIdeal : JSchema := sArray schemaIdealPure

/-- `SAFTVRMieCoeffsigmaAngstrom` and `SAFTVRMieCoeffsigmaMeter`, lines 1206-1457; `k` is the name of the diameter. -/
def schemaSVRCoeff (k : String) : JSchema :=
  sObject [("name", sString), ("m", sNumber), ("epsilon_over_k", sNumber), ("BibTeXKey", sString), ("lambda_r", sNumber), ("lambda_a", sNumber),
    ("mu_Cm", sOrNull sNumber), ("mu_D", sOrNull sNumber), ("Q_Cm2", sOrNull sNumber), ("Q_DA", sOrNull sNumber), ("nmu", sOrNull sNumber),
    ("nQ", sOrNull sNumber), (k, sNumber)] ["name", "m", "epsilon_over_k", "BibTeXKey", "lambda_r", "lambda_a", k]

/-- The entries that both forms of the document have, lines 1461-1504 and 1534-1577. -/
def svrCommon : List (String × JSchema) :=
  [("kmat", sOrNull sMatrix), ("polar_model", sOrNull sString), ("SAFTVRMie_flags", sOrNull sAnyObject), ("polar_flags", sOrNull sAnyObject)]

/-- `SAFTVRMieWithNames`, lines 1531-1591. -/
def schemaSVRNames : JSchema := sObject (svrCommon ++ [("names", sArray sString)]) ["names"]

/-- `SAFTVRMieWithCoeffs`, lines 1458-1530. -/
def schemaSVRCoeffs : JSchema :=
  sObject (svrCommon ++ [("coeffs", sArray (sAnyOf [schemaSVRCoeff "sigma_Angstrom", schemaSVRCoeff "sigma_m"]))]) ["coeffs"]

/-- `SAFT-VR-Mie`, lines 1204-1610. -/
def schemaSVR : JSchema := sAnyOf [schemaSVRNames, schemaSVRCoeffs]

/-- `model_schema_library`. -/
def schemaLibrary : List (String × JSchema) :=
  [("vdW1", schemaVdW1), ("vdW", schemaVdW), ("PR", schemaPR), ("cubic", schemaCubic), ("CPA", schemaCPA), ("PCSAFT", schemaPCSAFT),
   ("multifluid-ECS-HuberEly1994", schemaECS), ("SW_EspindolaHeredia2009", schemaOne "lambda"), ("EXP6_Kataoka1992", schemaOne "alpha"),
   ("Mie_Pohl2023", schemaOne "lambda_r"), ("2CLJF-Dipole", schemaTwoCenter "(mu^*)^2"), ("2CLJF-Quadrupole", schemaTwoCenter "(Q^*)^2"),
   ("IdealHelmholtz", schemaIdeal), ("SAFT-VR-Mie", schemaSVR)]

/-- The schema of a kind, if there is one. -/
def modelSchema (kind : String) : Option JSchema := schemaLibrary.lookup kind

/-! ## Factories that the other modules do not have -/

/-- `vdW1`, `/repo/interface/CPP/teqp_impl_factory.cpp` line 53: the parameters `a` and `b`. -/
def vdW1Factory (j : JTree) : Outcome (ℝ × ℝ) := (numAt "a" j).bind fun a => (numAt "b" j).bind fun b => .ok (a, b)

/-- `vdW`, `/repo/interface/CPP/teqp_impl_factory.cpp` line 54. -/
noncomputable def vdWFactory (j : JTree) : Outcome VdWAny :=
  (rowAt j "Tcrit / K").bind fun Tc => (rowAt j "pcrit / Pa").bind fun pc => vdWCtor Tc pc

/-- `make_canonicalPR` and `make_canonicalSRK`, `/repo/include/teqp/models/cubics.hpp` lines 290-297 and 335-342: without `kmat` the matrix has no
elements. -/
noncomputable def canonicalFactory (pr : Bool) (j : JTree) : Outcome CubicRT :=
  (rowAt j "Tcrit / K").bind fun Tc =>
  (rowAt j "pcrit / Pa").bind fun pc =>
  (rowAt j "acentric").bind fun w =>
  (optEntry j "kmat" buildSquareMatrix).bind fun k =>
  (if pr then canonicalPR_RT else canonicalSRK_RT) Tc pc w (some (k.getD ⟨0, fun _ _ => 0⟩).toMat) RCodata2017

/-- `make_SW_EspindolaHeredia2009`, `make_EXP6_Kataoka1992` and `make_Mie_Pohl2023`,
`/repo/interface/CPP/model_factory_model_potentials.cpp` lines 13-21: one number, which the constructors take as it is. -/
def oneFactory (k : String) (j : JTree) : Outcome ℝ := numAt k j

/-- One entry of `terms` in the constructor of `PureIdealHelmholtz`, `/repo/include/teqp/ideal_eosterms.hpp` lines 250-286, for a document. -/
noncomputable def idealTermTree (j : JTree) : Outcome IdealTerm :=
  match j with
  | .obj _ => (j.at "type").bind fun ty =>
    match ty with
    | .str "Constant" => (numAt "a" j).bind fun a => .ok (.constant a)
    | .str "Lead" => (numAt "a_1" j).bind fun a1 => (numAt "a_2" j).bind fun a2 => .ok (.lead a1 a2)
    | .str "LogT" => (numAt "a" j).bind fun a => .ok (.logT a)
    | .str "PowerT" => (rowAt j "n").bind fun n => (rowAt j "t").bind fun t => .ok (.powerT n t)
    | .str "PlanckEinstein" => (rowAt j "n").bind fun n => (rowAt j "theta").bind fun th => .ok (.planckEinstein n th)
    | .str "PlanckEinsteinGeneralized" =>
        (rowAt j "n").bind fun n => (rowAt j "c").bind fun c => (rowAt j "d").bind fun d => (rowAt j "theta").bind fun th =>
        .ok (.planckEinsteinGen n c d th)
    | .str "GERG2004Cosh" => (rowAt j "n").bind fun n => (rowAt j "theta").bind fun th => .ok (.gergCosh n th)
    | .str "GERG2004Sinh" => (rowAt j "n").bind fun n => (rowAt j "theta").bind fun th => .ok (.gergSinh n th)
    | .str "Cp0Constant" => (numAt "c" j).bind fun c => (numAt "T_0" j).bind fun T0 => .ok (.cp0Constant c T0)
    | .str "Cp0PowerT" =>
        (numAt "c" j).bind fun c => (numAt "t" j).bind fun t => (numAt "T_0" j).bind fun T0 => .ok (.cp0PowerT c t T0)
    | .str _ => .throws .invalidArgument
    | _ => .throws .jsonError
  | _ => .throws .invalidArgument

/-- The constructor of `PureIdealHelmholtz`, `/repo/include/teqp/ideal_eosterms.hpp` lines 244-289. -/
noncomputable def idealPureTree (j : JTree) : Outcome (List IdealTerm) :=
  match j with
  | .arr _ => .throws .invalidArgument
  | _ => (numAt "R" j).bind fun _ => (j.at "terms").bind fun ts => mapOutcome idealTermTree ts.items

/-- The constructor of `IdealHelmholtz`, `/repo/include/teqp/ideal_eosterms.hpp` lines 316-323. -/
noncomputable def idealFactory (j : JTree) : Outcome (List (List IdealTerm)) :=
  match j with
  | .arr ps => mapOutcome idealPureTree ps
  | _ => .throws .invalidArgument

/-- A flat document as a document. -/
def JVal.toTree : JVal → JTree
  | .num x => .num x
  | .arr xs => .arr (xs.map JTree.num)
  | .str s => .str s

/-- A flat object as a document. -/
def JObj.toTree (o : JObj) : JTree := .obj (o.map fun p => (p.1, p.2.toTree))

/-- What `convert_CoolProp_idealgas` returns, `/repo/include/teqp/ideal_eosterms.hpp` lines 508-527. -/
noncomputable def convertIdealDocument (os : List JObj) (Tri rhori R : ℝ) : Outcome JTree :=
  (convertIdealTerms os Tri rhori R).bind fun ts => .ok (.obj [("terms", .arr (ts.map JObj.toTree)), ("R", .num R)])

end Teqp.Model
