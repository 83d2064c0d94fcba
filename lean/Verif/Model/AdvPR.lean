import Verif.Model.Cubic
import Verif.Model.Activity
import Verif.Model.CPA
import Verif.Model.Superanc

/-! # Peng-Robinson with excess-energy mixing rules, generalised cubics from documents, saturated densities of cubics

`/repo/include/teqp/models/cubics.hpp`, to which all line numbers refer. -/

set_option autoImplicit false

namespace Teqp.Model
open Finset

/-- `constants::R_CODATA2017`, `/repo/include/teqp/constants.hpp` line 10. -/
noncomputable def RCodata2017 : ℝ := 8.31446261815324

/-! ## Alpha functions from documents -/

/-- One entry of `build_alpha_functions`, lines 106-133. -/
noncomputable def buildAlphaJson (Tci : ℝ) (j : JTree) : Outcome AlphaFn :=
  ((j.at "type").bind JTree.toStr).bind fun type =>
  if type = "Twu" then ((j.at "c").bind JTree.toRow).bind fun c => buildAlpha Tci (.twu c)
  else if type = "Mathias-Copeman" then ((j.at "c").bind JTree.toRow).bind fun c => buildAlpha Tci (.mathiasCopeman c)
  else if type = "PR78" then ((j.at "acentric").bind JTree.toDouble).bind fun w => buildAlpha Tci (.pr78 w)
  else buildAlpha Tci .other

/-- `build_alpha_functions`, lines 99-135. -/
noncomputable def buildAlphasJson (Tc : List ℝ) (j : JTree) : Outcome (List AlphaFn) :=
  if j.size ≠ Tc.length then .throws .invalidArgument
  else mapOutcome (fun p => buildAlphaJson p.1 p.2) (Tc.zip j.items)

/-! ## The generalised cubic -/

/-- A matrix from a document. -/
def SqMat.toMat (m : SqMat) : Mat := ⟨m.n, m.n, m.val⟩

/-- An optional entry of a document. -/
def optEntry {α : Type} (j : JTree) (k : String) (conv : JTree → Outcome α) : Outcome (Option α) :=
  if j.contains k then ((j.at k).bind conv).bind fun v => .ok (some v) else .ok none

/-- The alpha functions of `make_generalizedcubic`, lines 379-398 and 402-415; `mOf` is the slope from the acentric factor.  The acentric factors are read without
check. -/
noncomputable def genAlphas (j : JTree) (Tc acentric : List ℝ) (mOf : ℝ → ℝ) : Outcome (List AlphaFn) :=
  if j.contains "alpha" then (j.at "alpha").bind fun al => match al with
    | .arr _ => buildAlphasJson Tc al
    | _ => .throws .invalidArgument
  else if acentric.length < Tc.length then .ub
  else .ok (List.zipWith (fun t w => AlphaFn.basic t (mOf w)) Tc acentric)

/-- `make_generalizedcubic`, lines 345-439, without the metadata. -/
noncomputable def genCubic (j : JTree) : Outcome CubicRT :=
  ((j.at "Tcrit / K").bind JTree.toRow).bind fun Tc =>
  ((j.at "pcrit / Pa").bind JTree.toRow).bind fun pc =>
  ((j.at "acentric").bind JTree.toRow).bind fun acentric =>
  (optEntry j "kmat" buildSquareMatrix).bind fun kmat =>
  (optEntry j "R / J/mol/K" JTree.toDouble).bind fun R =>
  (j.at "type").bind fun type => match type with
    | .str s =>
      if s = "PR" then (genAlphas j Tc acentric mPR).bind fun al =>
        cubicCtor (1 + Real.sqrt 2) (1 - Real.sqrt 2) OmegaA_PR OmegaB_PR Tc pc al ((kmat.map SqMat.toMat).getD (Mat.zero Tc.length)) (R.getD RCodata2017)
      else if s = "SRK" then (genAlphas j Tc acentric mSRK).bind fun al =>
        cubicCtor 1 0 OmegaA_SRK OmegaB_SRK Tc pc al ((kmat.map SqMat.toMat).getD (Mat.zero Tc.length)) (R.getD RCodata2017)
      else .throws .invalidArgument
    | _ => .throws .invalidArgument

/-! ## Excess-energy mixing rules -/

/-- `AdvancedPRaEMixingRules`, line 441. -/
inductive BRule where
  | notSpecified
  | linear
  | quadratic
  deriving DecidableEq

/-- The serialisation of lines 443-447: what is not listed is the first entry. -/
def BRule.ofJson : JTree → BRule
  | .str s => if s = "Linear" then .linear else if s = "Quadratic" then .quadratic else .notSpecified
  | _ => .notSpecified

/-- `AdvancedPRaEOptions`, lines 449-454. -/
structure AdvOptions where
  brule : BRule := .quadratic
  s : ℝ := 2
  CEoS : ℝ := -Real.sqrt 2 / 2 * Real.log (1 + Real.sqrt 2)
  R : ℝ := RCodata2017

/-- `from_json`, lines 456-463. -/
noncomputable def advOptions (j : JTree) : Outcome AdvOptions :=
  (j.at "brule").bind fun b =>
  ((j.at "s").bind JTree.toDouble).bind fun s =>
  ((j.at "CEoS").bind JTree.toDouble).bind fun c =>
  (optEntry j "R / J/mol/K" JTree.toDouble).bind fun R =>
  .ok ⟨BRule.ofJson b, s, c, R.getD RCodata2017⟩

/-- The members of `AdvancedPRaEres`, lines 483-497. -/
structure AdvPR where
  ai : List ℝ
  bi : List ℝ
  alphas : List AlphaFn
  ares : ActivityModel
  lmat : Mat
  o : AdvOptions

/-- The constructor, lines 521-531; `check_lmat`, lines 506-518, is the same as `check_kmat`. -/
noncomputable def AdvPR.make (Tc pc : List ℝ) (alphas : List AlphaFn) (ares : ActivityModel) (lmat : Mat) (o : AdvOptions) : Outcome AdvPR :=
  if pc.length < Tc.length then .ub
  else (checkKmat lmat Tc.length).bind fun l => .ok
    { ai := List.zipWith (fun t p => OmegaA_PR * (o.R * t) ^ 2 / p) Tc pc
      bi := List.zipWith (fun t p => OmegaB_PR * o.R * t / p) Tc pc
      alphas := alphas, ares := ares, lmat := l, o := o }

namespace AdvPR
variable (m : AdvPR)

/-- `get_ai`, lines 499-503. -/
noncomputable def aOf (T : ℝ) (i : ℕ) : ℝ := el m.ai i * (m.alphas.getD i (.basic 1 0)).eval T

/-- `bij` of `get_b`, line 597. -/
noncomputable def bij (i j : ℕ) : ℝ := (1 - m.lmat.get i j) * ((el m.bi i ^ (1 / m.o.s) + el m.bi j ^ (1 / m.o.s)) / 2) ^ m.o.s

open Classical in
/-- `get_b`, lines 585-611.  Subscripts are not checked.  Powers of negative covolumes and a zero exponent are not finite here. -/
noncomputable def getB (x : List ℝ) : Outcome ℝ :=
  match m.o.brule with
  | .quadratic =>
    if m.bi.length < x.length ∨ m.lmat.rows < x.length ∨ m.lmat.cols < x.length then .ub
    else if x ≠ [] ∧ m.o.s = 0 ∨ ∃ i < x.length, el m.bi i < 0 then .nonFinite
    else .ok (∑ i ∈ range x.length, ∑ j ∈ range x.length, el x i * el x j * m.bij i j)
  | .linear => if m.bi.length < x.length then .ub else .ok (∑ i ∈ range x.length, el x i * el m.bi i)
  | .notSpecified => .throws .invalidArgument

open Classical in
/-- `get_am_over_bm`, lines 575-583. -/
noncomputable def amOverBm (T : ℝ) (x : List ℝ) : Outcome ℝ :=
  (m.ares.eval T x).bind fun e =>
  if m.ai.length < x.length ∨ m.bi.length < x.length ∨ m.alphas.length < x.length then .ub
  else if m.o.CEoS = 0 ∨ ∃ i < x.length, el m.bi i = 0 then .nonFinite
  else .ok (e * m.o.R * T / m.o.CEoS + ∑ i ∈ range x.length, el x i * m.aOf T i / el m.bi i)

/-- `get_a`, lines 570-573. -/
noncomputable def getA (T : ℝ) (x : List ℝ) : Outcome ℝ :=
  (m.amOverBm T x).bind fun ab => (m.getB x).bind fun b => .ok (ab * b)

open Classical in
/-- `alphar`, lines 619-635. -/
noncomputable def alphar (T rho : ℝ) (x : List ℝ) : Outcome ℝ :=
  if x.length ≠ m.alphas.length then .throws .stdInvalidArgument
  else (m.getB x).bind fun b => (m.amOverBm T x).bind fun ab =>
    if b = 0 ∨ m.o.R * T = 0 ∨ 1 - b * rho ≤ 0 ∨ ((1 + Real.sqrt 2) * b * rho + 1) / ((1 - Real.sqrt 2) * b * rho + 1) ≤ 0 then .nonFinite
    else .ok (cubicAlphar m.o.R (ab * b) b (1 + Real.sqrt 2) (1 - Real.sqrt 2) T rho)

end AdvPR

/-- The static `get_bi`, lines 539-543. -/
noncomputable def advStaticB (Tc pc : ℝ) : ℝ := 0.077796073903888455972 * 8.31446261815324 * Tc / pc

/-- `get_ares_model`, lines 645-660. -/
noncomputable def advAres (Tc pc : List ℝ) (j : JTree) : Outcome ActivityModel :=
  ((j.at "type").bind JTree.toStr).bind fun type =>
  if type = "Wilson" then
    if pc.length < Tc.length then .ub
    else ((j.at "m").bind buildSquareMatrix).bind fun mw => ((j.at "n").bind buildSquareMatrix).bind fun nw =>
      .ok (.wilson ⟨List.zipWith advStaticB Tc pc, mw, nw⟩)
  else .throws .invalidArgument

/-- `make_AdvancedPRaEres`, lines 638-666; the matrix of the covolumes is always the zero matrix of size two. -/
noncomputable def advFactory (j : JTree) : Outcome AdvPR :=
  ((j.at "Tcrit / K").bind JTree.toRow).bind fun Tc =>
  ((j.at "pcrit / Pa").bind JTree.toRow).bind fun pc =>
  ((j.at "alphas").bind (buildAlphasJson Tc)).bind fun al =>
  ((j.at "aresmodel").bind (advAres Tc pc)).bind fun ar =>
  ((j.at "options").bind advOptions).bind fun o => AdvPR.make Tc pc al ar (Mat.zero 2) o

/-! ## Saturated densities -/

/-- The composition of `superanc_rhoLV`, lines 190-203 and 551-564: one for a single component, otherwise that of the chosen one. -/
def superancX (N : ℕ) (ifluid : Option ℕ) : Outcome (List ℝ) :=
  if 1 < N then match ifluid with
    | none => .throws .invalidArgument
    | some k => if N - 1 < k then .throws .invalidArgument else .ok ((List.range N).map fun i => if i = k then 1 else 0)
  else .ok (List.replicate N 1)

open Classical in
/-- `superanc_rhoLV`, lines 188-213 and 549-573, for the values `b` and `a` of the composition. -/
noncomputable def superancRhoLV (t : SuperTables) (code : Int) (R T : ℝ) (N : ℕ) (ifluid : Option ℕ) (b a : List ℝ → Outcome ℝ) : Outcome (ℝ × ℝ) :=
  (superancX N ifluid).bind fun x => (b x).bind fun b => (a x).bind fun a =>
  if a = 0 then .nonFinite
  else (supercubic t code 101 (R * T * b / a)).bind fun l => (supercubic t code 102 (R * T * b / a)).bind fun v =>
    if b = 0 then .nonFinite else .ok (l / b, v / b)

/-- `GenericCubic::get_b`, lines 235-242, without check of sizes. -/
noncomputable def CubicRT.getB (m : CubicRT) (x : List ℝ) : Outcome ℝ :=
  if m.bi.length < x.length then .ub else .ok (∑ i ∈ range x.length, el x i * el m.bi i)

/-- `GenericCubic::get_a`, lines 219-233, without check of sizes. -/
noncomputable def CubicRT.getA (m : CubicRT) (T : ℝ) (x : List ℝ) : Outcome ℝ :=
  if m.ai.length < x.length ∨ m.alphas.length < x.length ∨ m.kmat.rows < x.length ∨ m.kmat.cols < x.length then .ub
  else .ok (∑ i ∈ range x.length, ∑ j ∈ range x.length, el x i * el x j * ((1 - m.kmat.get i j)
    * Real.sqrt (el m.ai i * (m.alphas.getD i (.basic 1 0)).eval T * (el m.ai j * (m.alphas.getD j (.basic 1 0)).eval T))))

/-- `superanc_rhoLV` of a cubic model. -/
noncomputable def CubicRT.superanc (t : SuperTables) (code : Int) (m : CubicRT) (T : ℝ) (ifluid : Option ℕ) : Outcome (ℝ × ℝ) :=
  superancRhoLV t code m.R T m.ai.length ifluid m.getB (m.getA T)

/-- `superanc_rhoLV` of the model with excess-energy mixing rules. -/
noncomputable def AdvPR.superanc (t : SuperTables) (m : AdvPR) (T : ℝ) (ifluid : Option ℕ) : Outcome (ℝ × ℝ) :=
  superancRhoLV t 2 m.o.R T m.ai.length ifluid m.getB (m.getA T)

end Teqp.Model
