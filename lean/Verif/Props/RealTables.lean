import Verif.Spec.Fingerprint
import Verif.Model.Polar
import Verif.Model.SAFTVRMie
import Verif.Model.LennardJones
import Verif.Model.Potentials
import Verif.Model.SquareWell
import Verif.Model.TwoCenter
import Verif.Model.MultiFluidExt
import Verif.Model.LKP
import Verif.Model.PCSAFT
import Verif.Model.SVRFactory
import Verif.Model.Dufal
import Verif.Model.LJThol
import Mathlib.Tactic

/-! # C163: the transcribed tables of real numbers

As in `Verif.Props.Tables`, the values on the right were found by a script in the text of the C++ files. -/

set_option autoImplicit false

namespace Teqp.Props
open Teqp.Spec Teqp.Model

/-- The entries of a table by rows. -/
noncomputable def flatMat {n k : ℕ} (t : Fin n → Fin k → ℝ) : List ℝ :=
  (List.finRange n).flatMap fun r => (List.finRange k).map (t r)
/-- Exponents and coefficients. -/
noncomputable def flatExp (l : List (ℤ × ℝ)) : List ℝ := l.flatMap fun e => [(e.1 : ℝ), e.2]
/-- Natural numbers as real numbers. -/
noncomputable def castN (l : List ℕ) : List ℝ := l.map fun k => (k : ℝ)
/-- Integers as real numbers. -/
noncomputable def castZ (l : List ℤ) : List ℝ := l.map fun k => (k : ℝ)
/-- The parameters of a fluid in the order of the source. -/
noncomputable def flatLKP (f : LKPFluid) : List ℝ :=
  [f.b1, f.b2, f.b3, f.b4, f.c1, f.c2, f.c3, f.c4, f.d1, f.d2, f.beta, f.gamma, f.omega]

/-- The universal constants of PC-SAFT (three sources and the class for pure fluids) and the two matrices of SAFT-VR-Mie. -/
theorem saft_fingerprints :
    fingerprint (flatMat (n := 3) (k := 7) gsA) = (21, 10469048319 / 10 ^ 9, 1117087001505 / 10 ^ 10) ∧
    fingerprint (flatMat (n := 3) (k := 7) gsB) = (21, -2553164103603 / 10 ^ 10, -27342622171825 / 10 ^ 10) ∧
    fingerprint (flatMat (n := 3) (k := 7) liang12A) = (21, -459613387422693718 / 10 ^ 16, -457258335882508716 / 10 ^ 15) ∧
    fingerprint (flatMat (n := 3) (k := 7) liang12B) = (21, -1958112238209929459 / 10 ^ 16, -45188927254009724315 / 10 ^ 16) ∧
    fingerprint (flatMat (n := 3) (k := 7) liang14A) = (21, 19380377 / 10 ^ 7, 200128385 / 10 ^ 7) ∧
    fingerprint (flatMat (n := 3) (k := 7) liang14B) = (21, -578347785 / 10 ^ 7, -12529682875 / 10 ^ 7) ∧
    fingerprint (flatMat (n := 7) (k := 6) pureCoeff) = (42, -2448473620413 / 10 ^ 10, -123632584734576 / 10 ^ 10) ∧
    fingerprint (svrPhi.flatten) = (49, -71841814783 / 10 ^ 6, -26799513242884 / 10 ^ 7) ∧
    fingerprint (svrA.flatten) = (16, -8230314 / 10 ^ 5, -242067054 / 10 ^ 5) := by
  refine ⟨?_, ?_, ?_, ?_, ?_, ?_, ?_, ?_, ?_⟩
  · norm_num [fingerprint, weighted, flatMat, gsA, List.finRange_succ]
  · norm_num [fingerprint, weighted, flatMat, gsB, List.finRange_succ]
  · norm_num [fingerprint, weighted, flatMat, liang12A, List.finRange_succ]
  · norm_num [fingerprint, weighted, flatMat, liang12B, List.finRange_succ]
  · norm_num [fingerprint, weighted, flatMat, liang14A, List.finRange_succ]
  · norm_num [fingerprint, weighted, flatMat, liang14B, List.finRange_succ]
  · norm_num [fingerprint, weighted, flatMat, pureCoeff, List.finRange_succ]
  · norm_num [fingerprint, weighted, svrPhi]
  · norm_num [fingerprint, weighted, svrA]

/-- The coefficients of the polar terms of Gross and Vrabec, rows of five. -/
theorem polar_fingerprints :
    fingerprint (flatMat (n := 3) (k := 5) tabDDa) = (15, -1012527 / 10 ^ 7, -81756389 / 10 ^ 7) ∧
    fingerprint (flatMat (n := 3) (k := 5) tabDDb) = (15, 42879141 / 10 ^ 7, 61678976 / 10 ^ 6) ∧
    fingerprint (flatMat (n := 3) (k := 5) tabDDc) = (15, -17146374 / 10 ^ 7, -236006961 / 10 ^ 7) ∧
    fingerprint (flatMat (n := 3) (k := 5) tabQQa) = (15, 400166219 / 10 ^ 7, 3278398582 / 10 ^ 7) ∧
    fingerprint (flatMat (n := 3) (k := 5) tabQQb) = (15, -176329661 / 10 ^ 7, -2298889967 / 10 ^ 7) ∧
    fingerprint (flatMat (n := 3) (k := 5) tabQQc) = (15, 236060722 / 10 ^ 7, 214192115 / 10 ^ 6) ∧
    fingerprint (flatMat (n := 3) (k := 5) tabDQa) = (15, 82297371 / 10 ^ 7, 805275371 / 10 ^ 7) ∧
    fingerprint (flatMat (n := 3) (k := 5) tabDQb) = (15, -15348121 / 10 ^ 7, -3422094 / 10 ^ 6) ∧
    fingerprint (flatMat (n := 3) (k := 5) tabDQc) = (15, -35163405 / 10 ^ 6, -460156732 / 10 ^ 6) := by
  refine ⟨?_, ?_, ?_, ?_, ?_, ?_, ?_, ?_, ?_⟩
  · norm_num [fingerprint, weighted, flatMat, tabDDa, gvTable, List.finRange_succ]
  · norm_num [fingerprint, weighted, flatMat, tabDDb, gvTable, List.finRange_succ]
  · norm_num [fingerprint, weighted, flatMat, tabDDc, gvTable, List.finRange_succ]
  · norm_num [fingerprint, weighted, flatMat, tabQQa, gvTable, List.finRange_succ]
  · norm_num [fingerprint, weighted, flatMat, tabQQb, gvTable, List.finRange_succ]
  · norm_num [fingerprint, weighted, flatMat, tabQQc, gvTable, List.finRange_succ]
  · norm_num [fingerprint, weighted, flatMat, tabDQa, gvTable, List.finRange_succ]
  · norm_num [fingerprint, weighted, flatMat, tabDQb, gvTable, List.finRange_succ]
  · norm_num [fingerprint, weighted, flatMat, tabDQc, gvTable, List.finRange_succ]

/-- The coefficients of the two Lennard-Jones equations and of the chain. -/
theorem lj_fingerprints :
    fingerprint (flatExp knD) = (8, -984430958 / 10 ^ 9, 8203098132 / 10 ^ 9) ∧
    fingerprint (flatExp knB) = (14, -3450937358 / 10 ^ 8, -2091609597 / 10 ^ 7) ∧
    fingerprint (knC.flatMap fun e => [(e.1 : ℝ), (e.2.1 : ℝ), e.2.2]) = (57, 3179271178 / 10 ^ 8, 86550915185 / 10 ^ 8) ∧
    fingerprint (johnsonX) = (33, -36280096493224435116057 / 10 ^ 18, -968522806109504851633927 / 10 ^ 18) ∧
    fingerprint ([knLn, knGamma, johnsonGamma]) = (3, 4865151812 / 10 ^ 9, 12794224592 / 10 ^ 9) ∧
    fingerprint (chainA.flatten) = (25, 14650138289871 / 10 ^ 13, 247943820569083 / 10 ^ 13) := by
  refine ⟨?_, ?_, ?_, ?_, ?_, ?_⟩
  · norm_num [fingerprint, weighted, flatExp, knD]
  · norm_num [fingerprint, weighted, flatExp, knB]
  · norm_num [fingerprint, weighted, knC]
  · norm_num [fingerprint, weighted, johnsonX]
  · norm_num [fingerprint, weighted, knLn, knGamma, johnsonGamma]
  · norm_num [fingerprint, weighted, chainA]

set_option maxRecDepth 8000 in
/-- The exp-6, Mie and square-well fluids. -/
theorem potential_fingerprints :
    fingerprint (kataokaTab.flatMap fun e => [(e.p : ℝ), e.q, e.r, e.A]) = (300, 3428438225 / 10 ^ 7, 623920996008 / 10 ^ 7) ∧
    fingerprint (pohlC1pol ++ pohlC1exp ++ pohlC1gbs ++ pohlC2pol ++ pohlC2exp ++ pohlC2gbs ++ pohlTpol ++ pohlTexp ++ pohlTgbs ++ castN pohlDpol ++ castN pohlDexp ++ castN pohlDgbs ++ castN pohlP ++ pohlEta ++ pohlBeta ++ pohlGam ++ pohlEps) = (86, 661133356 / 10 ^ 7, 38874624956 / 10 ^ 7) ∧
    fingerprint (swPhiVals 1 ++ swPhiVals 2) = (16, -174 / 10 ^ 5, -19312 / 10 ^ 4) ∧
    fingerprint (swThetaVals 3 ++ swThetaVals 4) = (16, -514031 / 10 ^ 4, 28384123 / 10 ^ 5) ∧
    fingerprint (swGammaVals 1 ++ swGammaVals 2 ++ swGammaVals 3 ++ swGammaVals 4) = (60, 9203604752526 / 10 ^ 10, 256357589750235 / 10 ^ 10) := by
  refine ⟨?_, ?_, ?_, ?_, ?_⟩
  · norm_num [fingerprint, weighted, kataokaTab]
  · norm_num [fingerprint, weighted, pohlC1pol, pohlC1exp, pohlC1gbs, pohlC2pol, pohlC2exp, pohlC2gbs, pohlTpol, pohlTexp, pohlTgbs, castN, pohlDpol, pohlDexp, pohlDgbs, pohlP, pohlEta, pohlBeta, pohlGam, pohlEps]
  · norm_num [fingerprint, weighted, swPhiVals]
  · norm_num [fingerprint, weighted, swThetaVals]
  · norm_num [fingerprint, weighted, swGammaVals]

/-- The two-centre Lennard-Jones fluids; the polar tables are the same for both models. -/
theorem twocenter_fingerprints :
    fingerprint (tcAlphaTab .mecke ++ tcAlphaTab .lisal) = (8, 30370766 / 10 ^ 7, 110103796 / 10 ^ 7) ∧
    fingerprint (tcEtaTab .mecke ++ tcEtaTab .lisal) = (8, 203012514 / 10 ^ 8, 249145204 / 10 ^ 8) ∧
    fingerprint (tcRhoTab .mecke ++ tcRhoTab .lisal) = (8, 2290641658 / 10 ^ 8, 12531750769 / 10 ^ 8) ∧
    fingerprint (tcTTab .mecke ++ tcTTab .lisal) = (8, 12970297494 / 10 ^ 8, 5043240726 / 10 ^ 7) ∧
    fingerprint (tcC .mecke ++ tcC .lisal) = (68, -314373117711890244 / 10 ^ 17, -79429426724643658 / 10 ^ 15) ∧
    fingerprint (tcM .mecke ++ tcM .lisal) = (68, -82, -3071) ∧
    fingerprint (castN (tcN .mecke) ++ castN (tcN .lisal)) = (68, 225, 7586) ∧
    fingerprint (castZ (tcO .mecke) ++ castZ (tcO .lisal)) = (68, -53, -1732) ∧
    fingerprint (tcP .mecke ++ tcP .lisal) = (68, -25, -1148) ∧
    fingerprint (castN (tcQ .mecke) ++ castN (tcQ .lisal)) = (68, 38, 1792) ∧
    fingerprint (tdC) = (28, -149739664127075111 / 10 ^ 19, -1976955257670816586 / 10 ^ 19) ∧
    fingerprint (castZ tdN) = (28, -139, -1654) ∧
    fingerprint (castN tdM) = (28, 102, 1868) ∧
    fingerprint (castN tdK) = (28, 225, 3138) ∧
    fingerprint (castN tdO) = (28, 10, 55) ∧
    fingerprint (tqC) = (17, -1713470530712770451 / 10 ^ 20, -10655033802184985535 / 10 ^ 20) ∧
    fingerprint (castZ tqN) = (17, -84, -573) ∧
    fingerprint (castN tqM) = (17, 66, 721) ∧
    fingerprint (castN tqK) = (17, 197, 1700) ∧
    fingerprint (castN tqO) = (17, 6, 21) := by
  refine ⟨?_, ?_, ?_, ?_, ?_, ?_, ?_, ?_, ?_, ?_, ?_, ?_, ?_, ?_, ?_, ?_, ?_, ?_, ?_, ?_⟩
  · norm_num [fingerprint, weighted, tcAlphaTab]
  · norm_num [fingerprint, weighted, tcEtaTab]
  · norm_num [fingerprint, weighted, tcRhoTab]
  · norm_num [fingerprint, weighted, tcTTab]
  · norm_num [fingerprint, weighted, tcC]
  · norm_num [fingerprint, weighted, tcM]
  · norm_num [fingerprint, weighted, castN, tcN]
  · norm_num [fingerprint, weighted, castZ, tcO]
  · norm_num [fingerprint, weighted, tcP]
  · norm_num [fingerprint, weighted, castN, tcQ]
  · norm_num [fingerprint, weighted, tdC]
  · norm_num [fingerprint, weighted, castZ, tdN]
  · norm_num [fingerprint, weighted, castN, tdM]
  · norm_num [fingerprint, weighted, castN, tdK]
  · norm_num [fingerprint, weighted, castN, tdO]
  · norm_num [fingerprint, weighted, tqC]
  · norm_num [fingerprint, weighted, castZ, tqN]
  · norm_num [fingerprint, weighted, castN, tqM]
  · norm_num [fingerprint, weighted, castN, tqK]
  · norm_num [fingerprint, weighted, castN, tqO]

/-- Ammonia and water, and the two fluids of Lee, Kesler and Ploecker. -/
theorem mixture_fingerprints :
    fingerprint (awA) = (15, -6403016411550324546 / 10 ^ 19, -116835114576699295276 / 10 ^ 19) ∧
    fingerprint (awT) = (15, 5625 / 10 ^ 2, 49125 / 10 ^ 2) ∧
    fingerprint (castN awD) = (15, 115, 898) ∧
    fingerprint (castN awE) = (15, 18, 178) ∧
    fingerprint (flatLKP lkpSimple) = (13, 13682220117 / 10 ^ 10, 97234792742 / 10 ^ 10) ∧
    fingerprint (flatLKP lkpRef) = (13, 256688633936 / 10 ^ 11, 217807758576 / 10 ^ 10) := by
  refine ⟨?_, ?_, ?_, ?_, ?_, ?_⟩
  · norm_num [fingerprint, weighted, awA]
  · norm_num [fingerprint, weighted, awT]
  · norm_num [fingerprint, weighted, castN, awD]
  · norm_num [fingerprint, weighted, castN, awE]
  · norm_num [fingerprint, weighted, flatLKP, lkpSimple]
  · norm_num [fingerprint, weighted, flatLKP, lkpRef]

/-- The coefficients of the association kernel of Dufal et al. and of the Lennard-Jones fluid of Thol et al. -/
theorem kernel_fingerprints :
    fingerprint (dufalB0.flatten) = (121, 3422086499034000767959 / 10 ^ 23, 89897186868905196902549 / 10 ^ 23) ∧
    fingerprint (dufalB1.flatten) = (121, -2956808452871485361335 / 10 ^ 24, -57643749274786186617785 / 10 ^ 24) ∧
    fingerprint (dufalB2.flatten) = (121, 2011693902387132651604 / 10 ^ 25, 11582724883807160706624 / 10 ^ 25) ∧
    fingerprint (dufalB3.flatten) = (121, -740689218236854989408 / 10 ^ 26, 4562622661721747851112 / 10 ^ 26) ∧
    fingerprint (dufalB4.flatten) = (121, 1546808037314014883087 / 10 ^ 28, -25943176515205765230243 / 10 ^ 28) ∧
    fingerprint (dufalB5.flatten) = (121, -17221218180477809592949 / 10 ^ 31, 452888477215167432464961 / 10 ^ 31) ∧
    fingerprint (dufalB6.flatten) = (121, 794340843510677978293 / 10 ^ 32, -27573568800172609676777 / 10 ^ 32) ∧
    fingerprint (ljtPd ++ ljtPl ++ ljtPn ++ ljtPt) = (48, 48827613978 / 10 ^ 9, 975910438885 / 10 ^ 9) ∧
    fingerprint (ljtGbeta ++ ljtGd ++ ljtGepsilon ++ ljtGeta ++ ljtGgamma ++ ljtGn ++ ljtGt) = (77, 508849052333 / 10 ^ 9, 8288175628648 / 10 ^ 9) := by
  refine ⟨?_, ?_, ?_, ?_, ?_, ?_, ?_, ?_, ?_⟩ <;> decide +kernel

/-- The library of fluids: the parameters found under each name. -/
theorem pcsaft_library_values :
    (∃ c, pcLibrary "Methane" = .ok c ∧ c.name = "Methane" ∧ fingerprint [c.m, c.sigma, c.eps] = (3, 1547339 / 10 ^ 4, 4584978 / 10 ^ 4)) ∧
    (∃ c, pcLibrary "Ethane" = .ok c ∧ c.name = "Ethane" ∧ fingerprint [c.m, c.sigma, c.eps] = (3, 1965475 / 10 ^ 4, 5829081 / 10 ^ 4)) ∧
    (∃ c, pcLibrary "Propane" = .ok c ∧ c.name = "Propane" ∧ fingerprint [c.m, c.sigma, c.eps] = (3, 2137304 / 10 ^ 4, 6335688 / 10 ^ 4)) := by
  refine ⟨?_, ?_, ?_⟩ <;> simp [pcLibrary, fingerprint, weighted] <;> norm_num

/-- The library of fluids: the parameters found under each name. -/
theorem svr_library_values :
    (∃ c, svrLibrary "Methane" = .ok c ∧ c.name = "Methane" ∧ fingerprint [c.m, c.sigma, c.eps, c.lr, c.la] = (5, 17301000000037412 / 10 ^ 14, 54168000000074824 / 10 ^ 14)) ∧
    (∃ c, svrLibrary "Ethane" = .ok c ∧ c.name = "Ethane" ∧ fingerprint [c.m, c.sigma, c.eps, c.lr, c.la] = (5, 22595730000037257 / 10 ^ 14, 69939730000074514 / 10 ^ 14)) ∧
    (∃ c, svrLibrary "Propane" = .ok c ∧ c.name = "Propane" ∧ fingerprint [c.m, c.sigma, c.eps, c.lr, c.la] = (5, 26058050000039056 / 10 ^ 14, 80337850000078112 / 10 ^ 14)) := by
  refine ⟨?_, ?_, ?_⟩ <;> simp [svrLibrary, fingerprint, weighted] <;> norm_num

example : (flatMat gsA).take 2 = [0.9105631445, 0.6361281449] := by norm_num [flatMat, gsA, List.finRange_succ]

end Teqp.Props
