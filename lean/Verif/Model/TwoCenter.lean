import Verif.Model.CPA
import Mathlib.Analysis.SpecialFunctions.Pow.Real
import Mathlib.Analysis.SpecialFunctions.ExpDeriv
import Mathlib.Analysis.Real.Sqrt

/-! # The two-centre Lennard-Jones fluid

`/repo/include/teqp/models/model_potentials/2center_ljf.hpp`, to which all line numbers refer unless a file is named. -/

set_option autoImplicit false

namespace Teqp.Model
open Finset

/-- `model_types_2CLJF`, line 20. -/
inductive TwoCenter
  | mecke
  | lisal
  deriving DecidableEq

/-- `modelmap.at`, line 22: an unknown name throws `std::out_of_range`. -/
def TwoCenter.ofName (s : String) : Outcome TwoCenter :=
  if s = "2CLJF_Mecke" then .ok .mecke else if s = "2CLJF_Lisal" then .ok .lisal else .throws .stdOutOfRange

/-- `p_alpha`, lines 28-31. -/
noncomputable def tcAlphaTab : TwoCenter → List ℝ
  | .mecke => [
    1, 0.5296092, -0.4531784, 0.4421075]
  | .lisal => [
    1, 0.5296092, -0.4531784, 0.4421075]

/-- `p_eta_rho`, lines 37-40. -/
noncomputable def tcEtaTab : TwoCenter → List ℝ
  | .mecke => [
    0.5256, 3.2088804, -3.1499114, 0.43049357]
  | .lisal => [
    0.5256, 3.2088804, -3.1499114, 0.43049357]

/-- `p_rho`, lines 46-49. -/
noncomputable def tcRhoTab : TwoCenter → List ℝ
  | .mecke => [
    0.3128, 1.11519758, 3.48878614, 6.10644999]
  | .lisal => [
    0.31258137, 1.2240569, 3.7974509, 6.5490937]

/-- `p_t`, lines 56-59. -/
noncomputable def tcTTab : TwoCenter → List ℝ
  | .mecke => [
    34.0122223, 17.2324198, 0.52922987, 12.7653979]
  | .lisal => [
    34.037352, 17.733741, 0.53237307, 12.860239]

/-- `c`, lines 66-69. -/
noncomputable def tcC : TwoCenter → List ℝ
  | .mecke => [
    -0.25359778252, 0.94270769752e-2, 0.10937076431e-3, -0.45230360227e-5, -0.98945319827, 0.77816220730e1, -0.19338901724e2,
    0.16188444167e2, -0.47837698146e1, -0.37128104806e-5, 0.11481369341e1, -0.13600256513e1, -0.34629572236e-5, -0.48388274860,
    0.92061274747, -0.38763633820, -0.20652959726e1, 0.53102723110e1, -0.45202666343e1, 0.12858167202e1, 0.31043103969e-3,
    0.76115392332e-5, -0.15141679018e1, 0.26132719232e1, -0.88015285297, -0.48730358072e-2, -0.14612399648e-1, -0.19908427778e-3,
    -0.29960728655, 0.25016932001, 0.16495699794e-1, 0.35210453535, -0.43243419699, -0.31194438133e-1]
  | .lisal => [
    -0.64211055047e-1, 0.17682583145e-2, -0.62963373291, -0.35320115512, 0.11339264270e2, -0.33311941616e2, 0.37022843830e2,
    -0.18683743554e2, 0.34566448842e1, -0.11216048862e-5, 0.69315597535, -0.95242644353, 0.13303429920e-1, -0.17518819492e-4,
    0.30942693727e-5, 0.44671277084e-1, -0.84065404026, 0.12662354443e1, -0.43706789738, 0.34751432401e-5, -0.52988956334e-6,
    0.37399304905e-1, -0.32905342462, 0.63121341882e-1, -0.20913100716e-2, -0.26852824281e-1, 0.70733527178e-1, 0.58291227149e-1,
    -0.76337837062e-1, -0.37502524667e-1, 0.19201247728e-2, -0.76922623587e-1, 0.12939011597, -0.37539710780e-1]

/-- `m`, lines 75-78. -/
noncomputable def tcM : TwoCenter → List ℝ
  | .mecke => [
    -1.5, -1.5, -1.5, -1.5, -1, -1, -1, -1, -1, -1, -0.5, -0.5, -0.5, 0, 0, 0, 0, 0, 0, 0, 0, 0, -2, -2,
    -2, -2, 0, 0, -4, -4, -4, -3, -3, -3]
  | .lisal => [
    -1.5, -1.5, -1, -1, -1, -1, -1, -1, -1, -1, -0.5, -0.5, -0.5, -0.5, -0.5, 0, 0, 0, 0, 0,
    0, -3, -2, -2, -2, -1, 0, -4, -4, -4, -4, 0, 0, 0]

/-- `n`, lines 84-87. -/
noncomputable def tcN : TwoCenter → List ℕ
  | .mecke => [
    1, 3, 7, 9, 1, 2, 2, 2, 2, 9, 1, 1, 9, 1, 1, 1, 3, 3, 3, 3, 5, 8, 2, 2, 2, 5, 5, 9, 2, 2, 4, 1, 1, 4]
  | .lisal => [
    2, 5, 1, 1, 2, 2, 2, 2, 2, 10, 1, 1, 3, 9, 10, 1, 2, 2, 2, 9, 10, 1, 1, 3, 6, 3, 3, 1, 1, 2, 6, 1, 1, 1]

/-- `o`, lines 93-96. -/
noncomputable def tcO : TwoCenter → List ℤ
  | .mecke => [
    0, -1, -2, -3, 0, -3, -2, -1, 0, -3, -3, -2, -3, -3, -1, 0, 1, 2, 3, 4, 4, -1, -2, -1, 0, -1, 3, 2, -3, -2, -1, -3, -1, 4]
  | .lisal => [
    -3, -2, 0, 1, -3, -2, -1, 0, 1, -3, -3, -2, -1, -3, -2, 0, -3, -2, -1, 0, 2, -2, 0, 0, 1, 2, -1, -3, 0, -3, -2, -3, 1, 3]

/-- `p`, lines 102-105. -/
noncomputable def tcP : TwoCenter → List ℝ
  | .mecke => [
    0, 0, 0, 0, 0, 0, 0, 0, 0, 0, 0, 0, 0, 0, 0, 0, 0, 0, 0, 0, 0, 0, -1, -1, -1, -1,
    -1, -1, -1, -1, -1, -1, -1, -1]
  | .lisal => [
    0, 0, 0, 0, 0, 0, 0, 0, 0, 0, 0, 0, 0, 0, 0, 0, 0, 0, 0, 0, 0, -1, -1, -1, -1, -1,
    -1, -1, -1, -1, -1, -1, -1, -1]

/-- `q`, lines 111-114. -/
noncomputable def tcQ : TwoCenter → List ℕ
  | .mecke => [
    0, 0, 0, 0, 0, 0, 0, 0, 0, 0, 0, 0, 0, 0, 0, 0, 0, 0, 0, 0, 0, 0, 1, 1, 1, 1, 1, 1, 2, 2, 2, 2, 2, 2]
  | .lisal => [
    0, 0, 0, 0, 0, 0, 0, 0, 0, 0, 0, 0, 0, 0, 0, 0, 0, 0, 0, 0, 0, 1, 1, 1, 1, 1, 1, 2, 2, 2, 2, 2, 2, 2]

/-- `cd`, lines 121-124: the same for both models. -/
noncomputable def tdC : List ℝ := [
    -0.423652173318e-1, 0.204459397242e-1, 0.664266837321e-1, -0.324168341478e-1, -0.741263275720e-2, -0.160855507113e-1,
    0.435623305093e-2, -0.105933370736e-3, -0.132000046519e-5, 0.838157718194e-5, 0.109144074057e-1, 0.257960188278e-1, -0.544140085185e-3,
    0.349568484468e-2, -0.421407562467e-1, -0.745992658113e-2, 0.146102252152e-3, 0.566611094911e-3, -0.378643890614e-2,
    -0.365824539450e-1, 0.169287932475e-1, 0.663866480778e-2, 0.294409406715e-1, -0.112110434947e-1, -0.182144939032e-5, 0.758594753989e-7,
    -0.216942306418e-4, -0.274025042954e-5]

/-- `nd`, lines 130-133: the same for both models. -/
def tdN : List ℤ := [
    -5, -8, -4, -3, -10, -7, -10, -11, -15, -10, -2, -2, -1, -5, -3, -1, 1, -9, -7, -2, -1, -5, -2, -1, -8, -5, 1, -4]

/-- `md`, lines 139-142: the same for both models. -/
def tdM : List ℕ := [
    2, 2, 2, 2, 2, 2, 2, 2, 2, 3, 2, 3, 6, 2, 3, 3, 6, 2, 2, 2, 2, 3, 3, 3, 10, 16, 4, 9]

/-- `kd`, lines 148-151: the same for both models. -/
def tdK : List ℕ := [
    5, 6, 7, 7, 9, 9, 11, 15, 18, 18, 5, 5, 5, 6, 6, 6, 6, 7, 7, 7, 7, 7, 7, 7, 7, 7, 8, 10]

/-- `od`, lines 157-160: the same for both models. -/
def tdO : List ℕ := [
    1, 1, 1, 1, 1, 1, 1, 1, 1, 1, 0, 0, 0, 0, 0, 0, 0, 0, 0, 0, 0, 0, 0, 0, 0, 0, 0, 0]

/-- `cq`, lines 167-170: the same for both models. -/
noncomputable def tqC : List ℝ := [
    -0.41215428089610e-2, 0.35578044173610e-2, -0.88809379838910e-3, 0.97379155960910e-4, -0.60423371932610e-7, -0.30447863314610e-4,
    -0.37893019633710e-3, -0.27538826735210e-1, 0.11830188842010e-1, -0.28345123056210e-2, -0.56770387482810e-4, 0.31470857321210e-2,
    0.96378605256910e-3, -0.12759100242410e-2, 0.36374646323810e-3, 0.30106794309610e-4, 0.29177823112810e-6]

/-- `nq`, lines 176-179: the same for both models. -/
def tqN : List ℤ := [
    -8, -6, -4, -10, -20, -8, -3, -3, -2, 0, -5, -1, -3, -1, 0, 0, -10]

/-- `mq`, lines 185-188: the same for both models. -/
def tqM : List ℕ := [
    2, 2, 2, 2, 2, 2, 8, 2, 2, 2, 8, 2, 5, 5, 5, 8, 7]

/-- `kq`, lines 194-197: the same for both models. -/
def tqK : List ℕ := [
    11, 12, 13, 16, 19, 20, 7, 8, 8, 8, 8, 9, 10, 10, 10, 10, 18]

/-- `oq`, lines 203-206: the same for both models. -/
def tqO : List ℕ := [
    1, 1, 1, 1, 1, 1, 0, 0, 0, 0, 0, 0, 0, 0, 0, 0, 0]

/-- `get_alpha_star`, lines 219-221. -/
noncomputable def tcAlpha (v : TwoCenter) (L : ℝ) : ℝ :=
  (tcAlphaTab v).getD 0 0 + (tcAlphaTab v).getD 1 0 * L ^ 2 + (tcAlphaTab v).getD 2 0 * L ^ (3.5 : ℝ) + (tcAlphaTab v).getD 3 0 * L ^ 4
/-- `get_eta_over_rho`, lines 224-226. -/
noncomputable def tcEta (v : TwoCenter) (L : ℝ) : ℝ :=
  (tcEtaTab v).getD 0 0 + (tcEtaTab v).getD 1 0 * L ^ 2 + (tcEtaTab v).getD 2 0 * L ^ (2.5 : ℝ) + (tcEtaTab v).getD 3 0 * L ^ 4
/-- `get_rho_red`, lines 229-231. -/
noncomputable def tcRhoRed (v : TwoCenter) (L : ℝ) : ℝ :=
  ((tcRhoTab v).getD 0 0 + (tcRhoTab v).getD 1 0 * L) / (1 + (tcRhoTab v).getD 2 0 * L + (tcRhoTab v).getD 3 0 * L ^ 2)

open Classical in
/-- `get_T_red`, lines 239-247. -/
noncomputable def tcTRed (v : TwoCenter) (L : ℝ) : ℝ :=
  let r := Real.sqrt (((tcTTab v).getD 0 0 + (tcTTab v).getD 1 0 * L) / (1 + (tcTTab v).getD 2 0 * L + (tcTTab v).getD 3 0 * L ^ 2))
  if L = 0 then 0.25 * r else r

/-- One term of `AttractiveContribution::alphar`, line 261. -/
noncomputable def tcAttrTerm (v : TwoCenter) (tau delta alpha : ℝ) (i : ℕ) : ℝ :=
  (tcC v).getD i 0 * tau ^ (tcM v).getD i 0 * delta ^ (tcN v).getD i 0 * alpha ^ (tcO v).getD i 0 * Real.exp ((tcP v).getD i 0 * delta ^ (tcQ v).getD i 0)
/-- `AttractiveContribution::alphar`, lines 256-264. -/
noncomputable def tcAttr (v : TwoCenter) (tau delta alpha : ℝ) : ℝ := ∑ i ∈ range (tcC v).length, tcAttrTerm v tau delta alpha i

/-- The packing of line 277. -/
noncomputable def tcPacking (tau delta : ℝ) : ℝ := delta / (0.67793 + (1 - 0.67793) * tau ^ (0.3674 : ℝ))
/-- `HardSphereContribution::alphar`, lines 275-280, as a function of the packing. -/
noncomputable def tcHard (alpha eta : ℝ) : ℝ :=
  (alpha ^ 2 - 1) * Real.log (1 - eta) + ((alpha ^ 2 + 3 * alpha) * eta - 3 * alpha * eta ^ 2) / (1 - eta) ^ 2

/-- Which of the two polar contributions a model has; both are objects of the class `DipolarContribution` (lines 387-407) that differ in their tables. -/
inductive Pole
  | dipole
  | quadrupole
  deriving DecidableEq

/-- The rows of the tables: coefficient, exponents of temperature, density and moment, flag of the exponential. -/
structure PoleTab where
  c : List ℝ
  n : List ℤ
  m : List ℕ
  k : List ℕ
  o : List ℕ

/-- Lines 387-407. -/
noncomputable def Pole.tab : Pole → PoleTab
  | .dipole => ⟨tdC, tdN, tdM, tdK, tdO⟩
  | .quadrupole => ⟨tqC, tqN, tqM, tqK, tqO⟩

/-- One term of `DipolarContribution::alphar`, line 293. -/
noncomputable def poleTerm (t : PoleTab) (tau delta musq : ℝ) (i : ℕ) : ℝ :=
  t.c.getD i 0 * tau ^ ((t.n.getD i 0 : ℝ) / 2) * delta ^ ((t.m.getD i 0 : ℝ) / 2) * musq ^ ((t.k.getD i 0 : ℝ) / 4) * Real.exp (-(t.o.getD i 0 : ℝ) * delta ^ (2 : ℝ))
/-- `DipolarContribution::alphar`, lines 288-296. -/
noncomputable def poleSum (t : PoleTab) (tau delta musq : ℝ) : ℝ := ∑ i ∈ range t.c.length, poleTerm t tau delta musq i

/-- The members of `Twocenterljf`, lines 314-322. -/
structure TwoCenterModel where
  v : TwoCenter
  pole : Pole
  L : ℝ
  musq : ℝ

/-- `build_two_center_model`, lines 410-426. -/
def twoCenterBuild (name : String) (L : ℝ) : Outcome TwoCenterModel := (TwoCenter.ofName name).bind fun v => .ok ⟨v, .dipole, L, 0⟩
/-- `build_two_center_model_dipole`, lines 429-444. -/
def twoCenterDipole (name : String) (L musq : ℝ) : Outcome TwoCenterModel := (TwoCenter.ofName name).bind fun v => .ok ⟨v, .dipole, L, musq⟩
/-- `build_two_center_model_quadrupole`, lines 447-464. -/
def twoCenterQuadrupole (name : String) (L Qsq : ℝ) : Outcome TwoCenterModel := (TwoCenter.ofName name).bind fun v => .ok ⟨v, .quadrupole, L, Qsq⟩

/-- `make_2CLJF`, `make_2CLJF_Dipole` and `make_2CLJF_Quadrupole`, `/repo/interface/CPP/model_factory_model_potentials.cpp` lines 25-33. -/
noncomputable def twoCenterFactory (kind : String) (j : JTree) : Outcome TwoCenterModel :=
  ((j.at "author").bind JTree.toStr).bind fun name =>
  ((j.at "L^*").bind JTree.toDouble).bind fun L =>
  if kind = "2CLJF" then twoCenterBuild name L
  else if kind = "2CLJF-Dipole" then ((j.at "(mu^*)^2").bind JTree.toDouble).bind fun m => twoCenterDipole name L m
  else ((j.at "(Q^*)^2").bind JTree.toDouble).bind fun q => twoCenterQuadrupole name L q

namespace TwoCenterModel
variable (t : TwoCenterModel)

/-- `tau`, line 336. -/
noncomputable def tau (T : ℝ) : ℝ := T / tcTRed t.v t.L
/-- `delta`, line 335. -/
noncomputable def delta (rho : ℝ) : ℝ := rho / tcRhoRed t.v t.L
/-- The packing that the hard contribution uses, lines 337 and 277. -/
noncomputable def packing (T rho : ℝ) : ℝ := tcPacking (t.tau T) (rho * tcEta t.v t.L)

open Classical in
/-- `alphar`, lines 326-345.  Fractional powers of a negative elongation, temperature or squared moment are not a number, likewise a fractional
power of a negative density and the logarithm of a packing above one. -/
noncomputable def alphar (T rho : ℝ) : Outcome ℝ :=
  if t.L < 0 ∨ T ≤ 0 ∨ 1 ≤ t.packing T rho then .nonFinite
  else
    let val := tcHard (tcAlpha t.v t.L) (t.packing T rho) + tcAttr t.v (t.tau T) (t.delta rho) (tcAlpha t.v t.L)
    if t.musq = 0 then .ok val
    else if t.musq < 0 ∨ rho < 0 then .nonFinite
    else .ok (val + poleSum t.pole.tab (t.tau T) (t.delta rho) t.musq)

end TwoCenterModel

end Teqp.Model
