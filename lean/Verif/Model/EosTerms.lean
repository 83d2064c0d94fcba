import Verif.Model.Powi
import Verif.Model.Json
import Verif.Model.Cubic
import Verif.Model.Superanc
import Verif.Model.PCSAFT
import Mathlib.Analysis.SpecialFunctions.Pow.Real

/-! # Residual Helmholtz-energy terms

Models `/repo/include/teqp/models/multifluid_eosterms.hpp` and the builders of these terms in
`/repo/include/teqp/models/multifluid.hpp` lines 227-762.

Each term holds several coefficient arrays of equal length; the model holds one list of records.  The
`PCSAFTGrossSadowski2001Term` is not part of this file.  Sums over a list are written as sums; the code
accumulates from the left, which makes no difference over the reals. -/

set_option autoImplicit false

namespace Teqp.Model

/-- Conversion of a floating-point number to `int`: truncation toward zero (values outside the range of
`int` are not modelled). -/
noncomputable def castInt (x : ℝ) : ℤ := if 0 ≤ x then ⌊x⌋ else ⌈x⌉

/-- One entry of `JustPowerEOSTerm` (`multifluid_eosterms.hpp` lines 13-15). -/
structure PolyC where
  n : ℝ
  t : ℝ
  d : ℝ

/-- The summand at zero density (`multifluid_eosterms.hpp` line 25). -/
noncomputable def PolyC.zero (e : PolyC) (tau delta : ℝ) : ℝ :=
  e.n * Real.exp (e.t * Real.log tau) * powiV delta (castInt e.d)

/-- The summand elsewhere (`multifluid_eosterms.hpp` line 31). -/
noncomputable def PolyC.ord (e : PolyC) (tau delta : ℝ) : ℝ :=
  e.n * Real.exp (e.t * Real.log tau + e.d * Real.log delta)

/-- One entry of `PowerEOSTerm` (`multifluid_eosterms.hpp` lines 43-46); `li` is `l_i`. -/
structure PowC where
  n : ℝ
  t : ℝ
  d : ℝ
  c : ℝ
  li : ℤ

/-- `multifluid_eosterms.hpp` line 61. -/
noncomputable def PowC.zero (e : PowC) (tau delta : ℝ) : ℝ :=
  e.n * Real.exp (e.t * Real.log tau - e.c * powiV delta e.li) * powiV delta (castInt e.d)

/-- `multifluid_eosterms.hpp` lines 69-71. -/
noncomputable def PowC.ord (e : PowC) (tau delta : ℝ) : ℝ :=
  e.n * Real.exp (e.t * Real.log tau + (e.d * Real.log delta - e.c * powiV delta e.li))

/-- One entry of `ExponentialEOSTerm` (`multifluid_eosterms.hpp` lines 83-84). -/
structure ExpC where
  n : ℝ
  t : ℝ
  d : ℝ
  g : ℝ
  li : ℤ

/-- `multifluid_eosterms.hpp` line 92. -/
noncomputable def ExpC.zero (e : ExpC) (tau delta : ℝ) : ℝ :=
  e.n * Real.exp (e.t * Real.log tau - e.g * powiV delta e.li) * powiV delta (castInt e.d)

/-- `multifluid_eosterms.hpp` line 98. -/
noncomputable def ExpC.ord (e : ExpC) (tau delta : ℝ) : ℝ :=
  e.n * Real.exp (e.t * Real.log tau + e.d * Real.log delta - e.g * powiV delta e.li)

/-- One entry of `DoubleExponentialEOSTerm` (`multifluid_eosterms.hpp` lines 110-111). -/
structure DExpC where
  n : ℝ
  t : ℝ
  d : ℝ
  gd : ℝ
  ldi : ℤ
  gt : ℝ
  lt : ℝ

/-- `multifluid_eosterms.hpp` line 122. -/
noncomputable def DExpC.zero (e : DExpC) (tau delta : ℝ) : ℝ :=
  e.n * powiV delta (castInt e.d) *
    Real.exp (e.t * Real.log tau - e.gd * powiV delta e.ldi - e.gt * tau ^ e.lt)

/-- `multifluid_eosterms.hpp` line 128. -/
noncomputable def DExpC.ord (e : DExpC) (tau delta : ℝ) : ℝ :=
  e.n * Real.exp (e.t * Real.log tau + e.d * Real.log delta - e.gd * powiV delta e.ldi - e.gt * tau ^ e.lt)

/-- One entry of `GaussianEOSTerm` (`multifluid_eosterms.hpp` line 140) and of `GERG2004EOSTerm`
(line 173). -/
structure GaussC where
  n : ℝ
  t : ℝ
  d : ℝ
  eta : ℝ
  beta : ℝ
  gamma : ℝ
  epsilon : ℝ

/-- `multifluid_eosterms.hpp` line 149. -/
noncomputable def GaussC.zero (e : GaussC) (tau delta : ℝ) : ℝ :=
  e.n * Real.exp (e.t * Real.log tau - e.eta * ((delta - e.epsilon) * (delta - e.epsilon))
    - e.beta * ((tau - e.gamma) * (tau - e.gamma))) * powiV delta (castInt e.d)

/-- `multifluid_eosterms.hpp` lines 158-161. -/
noncomputable def GaussC.ord (e : GaussC) (tau delta : ℝ) : ℝ :=
  let d1 := delta - e.epsilon
  let d2 := d1 * d1
  let t1 := tau - e.gamma
  let t2 := t1 * t1
  e.n * Real.exp (e.t * Real.log tau + e.d * Real.log delta - e.eta * d2 - e.beta * t2)

/-- `multifluid_eosterms.hpp` line 182. -/
noncomputable def GaussC.zeroGERG (e : GaussC) (tau delta : ℝ) : ℝ :=
  e.n * Real.exp (e.t * Real.log tau - e.eta * ((delta - e.epsilon) * (delta - e.epsilon))
    - e.beta * (delta - e.gamma)) * powiV delta (castInt e.d)

/-- `multifluid_eosterms.hpp` line 188. -/
noncomputable def GaussC.ordGERG (e : GaussC) (tau delta : ℝ) : ℝ :=
  e.n * Real.exp (e.t * Real.log tau + e.d * Real.log delta
    - e.eta * ((delta - e.epsilon) * (delta - e.epsilon)) - e.beta * (delta - e.gamma))

/-- One entry of `Lemmon2005EOSTerm` (`multifluid_eosterms.hpp` lines 201-202). -/
structure LemmonC where
  n : ℝ
  t : ℝ
  d : ℝ
  li : ℤ
  m : ℝ

/-- `multifluid_eosterms.hpp` line 210. -/
noncomputable def LemmonC.zero (e : LemmonC) (tau delta : ℝ) : ℝ :=
  e.n * Real.exp (e.t * Real.log tau - powiV delta e.li - tau ^ e.m) * powiV delta (castInt e.d)

/-- `multifluid_eosterms.hpp` line 216. -/
noncomputable def LemmonC.ord (e : LemmonC) (tau delta : ℝ) : ℝ :=
  e.n * Real.exp (e.t * Real.log tau + e.d * Real.log delta - powiV delta e.li - tau ^ e.m)

/-- One entry of `GaoBEOSTerm` (`multifluid_eosterms.hpp` line 228). -/
structure GaoBC where
  n : ℝ
  t : ℝ
  d : ℝ
  eta : ℝ
  beta : ℝ
  gamma : ℝ
  epsilon : ℝ
  b : ℝ

/-- `multifluid_eosterms.hpp` line 238. -/
noncomputable def GaoBC.zero (e : GaoBC) (tau delta : ℝ) : ℝ :=
  e.n * Real.exp (e.t * Real.log tau - e.eta * ((delta - e.epsilon) * (delta - e.epsilon))
    + 1 / (e.beta * ((tau - e.gamma) * (tau - e.gamma)) + e.b)) * powiV delta (castInt e.d)

/-- `multifluid_eosterms.hpp` line 244. -/
noncomputable def GaoBC.ord (e : GaoBC) (tau delta : ℝ) : ℝ :=
  e.n * Real.exp (e.t * Real.log tau + e.d * Real.log delta
    - e.eta * ((delta - e.epsilon) * (delta - e.epsilon))
    + 1 / (e.beta * ((tau - e.gamma) * (tau - e.gamma)) + e.b))

/-- One entry of `NonAnalyticEOSTerm` (`multifluid_eosterms.hpp` line 334). -/
structure NonAC where
  A : ℝ
  B : ℝ
  C : ℝ
  D : ℝ
  a : ℝ
  b : ℝ
  beta : ℝ
  n : ℝ

/-- One summand of the non-analytic term (`multifluid_eosterms.hpp` lines 345-349). -/
noncomputable def NonAC.value (e : NonAC) (tau delta : ℝ) : ℝ :=
  let dm := (delta - 1) * (delta - 1)
  let Psi := Real.exp (-e.C * dm - e.D * ((tau - 1) * (tau - 1)))
  let k := 1 / (2 * e.beta)
  let theta := (1 - tau) + e.A * dm ^ k
  let Delta := theta * theta + e.B * dm ^ e.a
  e.n * Delta ^ e.b * delta * Psi

/-- `GenericCubicTerm` (`multifluid_eosterms.hpp` lines 367-388). -/
structure CubicTermC where
  R : ℝ
  Delta1 : ℝ
  Delta2 : ℝ
  Tred : ℝ
  rhored : ℝ
  a0 : ℝ
  b : ℝ
  alpha : AlphaFn

/-- `GenericCubicTerm::alphar` (`multifluid_eosterms.hpp` lines 390-400). -/
noncomputable def CubicTermC.value (e : CubicTermC) (tau delta : ℝ) : ℝ :=
  let T := e.Tred / tau
  let rho := delta * e.rhored
  cubicAlphar e.R (e.a0 * e.alpha.eval T) e.b e.Delta1 e.Delta2 T rho

/-- `PCSAFTGrossSadowski2001Term`, `multifluid_eosterms.hpp` lines 405-408, with the data of
`PCSAFTPureGrossSadowski2001`, `/repo/include/teqp/models/saft/pcsaftpure.hpp` lines 13-14. -/
structure PCTerm where
  Tred : ℝ
  rhored : ℝ
  m : ℝ
  sigma : ℝ
  eps : ℝ

/-- `PCSAFTPureGrossSadowski2001::alphar`, `pcsaftpure.hpp` lines 36-88, as a function of the molar density; `NA` is the Avogadro constant. -/
noncomputable def pcPureAlphar (NA m sigma eps T rho : ℝ) : ℝ :=
  let v := pureEval m sigma eps T (rho * NA / 1e30)
  v.hc + v.disp

/-- `PCSAFTGrossSadowski2001Term::alphar`, `multifluid_eosterms.hpp` lines 416-421. -/
noncomputable def PCTerm.value (NA : ℝ) (e : PCTerm) (tau delta : ℝ) : ℝ :=
  let T := e.Tred / tau
  let rhomolar := delta * e.rhored
  pcPureAlphar NA e.m e.sigma e.eps T rhomolar

/-- The same with the branch for zero density, `pcsaftpure.hpp` lines 58-66. -/
noncomputable def PCTerm.zero (NA : ℝ) (e : PCTerm) (tau delta : ℝ) : ℝ :=
  pureEvalZero e.m e.sigma e.eps (e.Tred / tau) (delta * e.rhored * NA / 1e30)

/-- A `Chebyshev2DEOSTerm` with a square matrix of `n` rows (`multifluid_eosterms.hpp` lines 256-257); others cannot be evaluated
(`clenshawByRow` in `Verif.Model.Superanc`). -/
structure ChebTermC where
  n : ℕ
  a : ℕ → ℕ → ℝ
  taumin : ℝ
  taumax : ℝ
  deltamin : ℝ
  deltamax : ℝ

/-- `Chebyshev2DEOSTerm::alphar` of a square matrix, `multifluid_eosterms.hpp` lines 275-318. -/
noncomputable def ChebTermC.value (e : ChebTermC) (tau delta : ℝ) : ℝ :=
  let x := (2 * tau - (e.taumax + e.taumin)) / (e.taumax - e.taumin)
  let y := (2 * delta - (e.deltamax + e.deltamin)) / (e.deltamax - e.deltamin)
  clenshawVec ((List.range e.n).map fun j => clenshaw1D y (fun k => e.a k j) (e.n - 1) (0, 0)) x

/-- The alternatives of the two `EOSTermContainer` types (`multifluid_eosterms.hpp` lines 459-461). -/
inductive ResTerm where
  | justPower (l : List PolyC)
  | power (l : List PowC)
  | exponential (l : List ExpC)
  | doubleExp (l : List DExpC)
  | gaussian (l : List GaussC)
  | gerg2004 (l : List GaussC)
  | lemmon2005 (l : List LemmonC)
  | gaoB (l : List GaoBC)
  | nonAnalytic (l : List NonAC)
  | cubic (e : CubicTermC)
  | pcsaft (NA : ℝ) (e : PCTerm)
  | cheb (e : ChebTermC)
  | null

/-- The branch taken when the base value of `delta` is zero; automatic differentiation differentiates
this expression at `delta = 0`.  Terms without a special branch use the same expression everywhere.
Lines as for the summands.  For the non-analytic term, a non-finite sum is replaced by zero (lines
354-360); over the reals the sum is always finite. -/
noncomputable def ResTerm.zeroBranch : ResTerm → ℝ → ℝ → ℝ
  | .justPower l, tau, delta => (l.map fun e => e.zero tau delta).sum
  | .power l, tau, delta => (l.map fun e => e.zero tau delta).sum
  | .exponential l, tau, delta => (l.map fun e => e.zero tau delta).sum
  | .doubleExp l, tau, delta => (l.map fun e => e.zero tau delta).sum
  | .gaussian l, tau, delta => (l.map fun e => e.zero tau delta).sum
  | .gerg2004 l, tau, delta => (l.map fun e => e.zeroGERG tau delta).sum
  | .lemmon2005 l, tau, delta => (l.map fun e => e.zero tau delta).sum
  | .gaoB l, tau, delta => (l.map fun e => e.zero tau delta).sum
  | .nonAnalytic l, tau, delta => (l.map fun e => e.value tau delta).sum
  | .cubic e, tau, delta => e.value tau delta
  | .pcsaft NA e, tau, delta => e.zero NA tau delta
  | .cheb e, tau, delta => e.value tau delta
  | .null, _, _ => 0

/-- The branch taken when the base value of `delta` is not zero. -/
noncomputable def ResTerm.ordBranch : ResTerm → ℝ → ℝ → ℝ
  | .justPower l, tau, delta => (l.map fun e => e.ord tau delta).sum
  | .power l, tau, delta => (l.map fun e => e.ord tau delta).sum
  | .exponential l, tau, delta => (l.map fun e => e.ord tau delta).sum
  | .doubleExp l, tau, delta => (l.map fun e => e.ord tau delta).sum
  | .gaussian l, tau, delta => (l.map fun e => e.ord tau delta).sum
  | .gerg2004 l, tau, delta => (l.map fun e => e.ordGERG tau delta).sum
  | .lemmon2005 l, tau, delta => (l.map fun e => e.ord tau delta).sum
  | .gaoB l, tau, delta => (l.map fun e => e.ord tau delta).sum
  | .nonAnalytic l, tau, delta => (l.map fun e => e.value tau delta).sum
  | .cubic e, tau, delta => e.value tau delta
  | .pcsaft NA e, tau, delta => e.value NA tau delta
  | .cheb e, tau, delta => e.value tau delta
  | .null, _, _ => 0

/-- `alphar` of a term. -/
noncomputable def ResTerm.alphar (t : ResTerm) (tau delta : ℝ) : ℝ :=
  if delta = 0 then t.zeroBranch tau delta else t.ordBranch tau delta

/-- `EOSTermContainer::alphar` (`multifluid_eosterms.hpp` lines 438-456). -/
noncomputable def containerAlphar (ts : List ResTerm) (tau delta : ℝ) : ℝ :=
  (ts.map fun t => t.alphar tau delta).sum

/-! ## Building the terms -/

/-- `term[name].empty()`: missing, null and empty arrays are empty. -/
def JObj.isEmpty (o : JObj) (k : String) : Bool :=
  match o.lookup k with
  | none => true
  | some (.arr []) => true
  | some _ => false

/-- `all_same_length` (`/repo/include/teqp/json_tools.hpp` lines 39-43). -/
def allSameLength (o : JObj) (ks : List String) : Outcome Bool :=
  match ks with
  | [] => .ok false
  | k :: ks => (o.arr k).bind fun a0 =>
    ks.foldr (fun k acc => (o.arr k).bind fun a => acc.bind fun b => .ok (b && a.length == a0.length))
      (.ok true)

/-- `eigorzero` (`multifluid.hpp` lines 238-245 and 546-553). -/
def eigOrZero (o : JObj) (k : String) (N : ℕ) : Outcome (List ℝ) :=
  if o.isEmpty k then .ok (List.replicate N 0) else o.arr k

/-- One listed power term. -/
structure PowerEntry where
  n : ℝ
  t : ℝ
  d : ℝ
  l : ℝ

/-- `c_i`, `l_i` of an entry (`multifluid.hpp` lines 269-274, 293; 569-574, 589). -/
noncomputable def PowerEntry.toPow (e : PowerEntry) : PowC :=
  ⟨e.n, e.t, e.d, if e.l > 0 then 1 else 0, castInt e.l⟩

/-- The polynomial part of an entry. -/
def PowerEntry.toPoly (e : PowerEntry) : PolyC := ⟨e.n, e.t, e.d⟩

/-- Number of entries with `l == 0` (`multifluid.hpp` lines 278-282; 578-582). -/
noncomputable def nlZero (es : List PowerEntry) : ℕ := (es.filter fun e => e.l = 0).length

/-- Common end of the two `build_power` functions (`multifluid.hpp` lines 300-335; 595-630): refuse
non-integer `l`, then split.  `contiguous` is `contiguous_lzero`. -/
noncomputable def splitPower (es : List PowerEntry) (contiguous : Bool) : Outcome (List ResTerm) :=
  if ∃ e ∈ es, (castInt e.l : ℝ) ≠ e.l then .throws .stdInvalidArgument
  else if (es.map PowerEntry.l).sum = 0 then .ok [.justPower (es.map PowerEntry.toPoly)]
  else if (es.map PowerEntry.l).sum > 0 ∧ contiguous = true then
    .ok [.justPower ((es.take (nlZero es)).map PowerEntry.toPoly),
      .power ((es.drop (nlZero es)).map PowerEntry.toPow)]
  else .ok [.power (es.map PowerEntry.toPow)]

/-- The records made of four arrays of length `N`. -/
noncomputable def powerEntries (N : ℕ) (n t d l : List ℝ) : List PowerEntry :=
  (List.range N).map fun i => ⟨n.getD i 0, t.getD i 0, d.getD i 0, l.getD i 0⟩

/-- `contiguous_lzero`: whether the first entry has `l == 0` (`multifluid.hpp` lines 277, 577). -/
noncomputable def firstLZero : List PowerEntry → Bool
  | [] => false
  | e :: _ => decide (e.l = 0)

/-- `build_power` of a pure fluid (`multifluid.hpp` lines 541-631).  The lengths of the arrays are not
compared; a mismatch reads out of bounds here or when the term is evaluated, and is reported as undefined
behaviour. -/
noncomputable def buildPowerPure (o : JObj) : Outcome (List ResTerm) :=
  let N := match o.lookup "n" with
    | some (.arr a) => a.length
    | _ => 0
  (eigOrZero o "n" N).bind fun n => (eigOrZero o "t" N).bind fun t => (eigOrZero o "d" N).bind fun d =>
  (eigOrZero o "l" N).bind fun l =>
  if t.length ≠ n.length ∨ d.length ≠ n.length ∨ l.length ≠ n.length then .ub
  else
    let es := powerEntries N n t d l
    splitPower es (firstLZero es)

/-- `build_power` of a departure function (`multifluid.hpp` lines 228-336): lengths are compared, and a
list that starts with `l == 0` must have all its zeros first. -/
noncomputable def buildPowerDep (o : JObj) : Outcome (List ResTerm) :=
  let N := match o.lookup "n" with
    | some (.arr a) => a.length
    | _ => 0
  if N = 0 then .ok []
  else
    (eigOrZero o "n" N).bind fun n => (eigOrZero o "t" N).bind fun t => (eigOrZero o "d" N).bind fun d =>
    (allSameLength o (if o.isEmpty "l" then ["n", "t", "d"] else ["n", "t", "d", "l"])).bind fun same =>
    if same = false then .throws .stdInvalidArgument
    else
      (eigOrZero o "l" N).bind fun l =>
      let es := powerEntries N n t d l
      let contiguous := !o.isEmpty "l" && firstLZero es
      if contiguous = true ∧ ∃ e ∈ es.drop (nlZero es), e.l = 0 then .throws .stdInvalidArgument
      else splitPower es contiguous

/-- `build_Lemmon2005` (`multifluid.hpp` lines 633-648). -/
noncomputable def buildLemmon (o : JObj) : Outcome (List ResTerm) :=
  (o.arr "n").bind fun n => (o.arr "t").bind fun t => (o.arr "d").bind fun d => (o.arr "m").bind fun m =>
  (o.arr "l").bind fun l => (allSameLength o ["n", "t", "d", "m", "l"]).bind fun same =>
  if same = false then .throws .stdInvalidArgument
  else if ∃ x ∈ l, (castInt x : ℝ) ≠ x then .throws .stdInvalidArgument
  else .ok [.lemmon2005 ((List.range n.length).map fun i =>
    ⟨n.getD i 0, t.getD i 0, d.getD i 0, castInt (l.getD i 0), m.getD i 0⟩)]

/-- The records of a Gaussian-like term. -/
noncomputable def gaussEntries (N : ℕ) (n t d eta beta gamma epsilon : List ℝ) : List GaussC :=
  (List.range N).map fun i => ⟨n.getD i 0, t.getD i 0, d.getD i 0, eta.getD i 0, beta.getD i 0,
    gamma.getD i 0, epsilon.getD i 0⟩

/-- The names of the arrays of a Gaussian-like term. -/
def gaussKeys : List String := ["n", "t", "d", "eta", "beta", "gamma", "epsilon"]

/-- `build_gaussian` (`multifluid.hpp` lines 650-663). -/
noncomputable def buildGaussian (o : JObj) : Outcome (List ResTerm) :=
  (o.arr "n").bind fun n => (o.arr "t").bind fun t => (o.arr "d").bind fun d =>
  (o.arr "eta").bind fun eta => (o.arr "beta").bind fun beta => (o.arr "gamma").bind fun gamma =>
  (o.arr "epsilon").bind fun epsilon => (allSameLength o gaussKeys).bind fun same =>
  if same = false then .throws .stdInvalidArgument
  else .ok [.gaussian (gaussEntries n.length n t d eta beta gamma epsilon)]

/-- `build_exponential` (`multifluid.hpp` lines 665-677): `l` is converted to `int` without a check. -/
noncomputable def buildExponential (o : JObj) : Outcome (List ResTerm) :=
  (o.arr "n").bind fun n => (o.arr "t").bind fun t => (o.arr "d").bind fun d => (o.arr "g").bind fun g =>
  (o.arr "l").bind fun l => (allSameLength o ["n", "t", "d", "g", "l"]).bind fun same =>
  if same = false then .throws .stdInvalidArgument
  else .ok [.exponential ((List.range n.length).map fun i =>
    ⟨n.getD i 0, t.getD i 0, d.getD i 0, g.getD i 0, castInt (l.getD i 0)⟩)]

/-- `build_doubleexponential` (`multifluid.hpp` lines 338-352 and 679-693): `ld` is converted to `int`
without a check. -/
noncomputable def buildDoubleExp (o : JObj) : Outcome (List ResTerm) :=
  (allSameLength o ["n", "t", "d", "ld", "gd", "lt", "gt"]).bind fun same =>
  if same = false then .throws .stdInvalidArgument
  else
    (o.arr "n").bind fun n => (o.arr "t").bind fun t => (o.arr "d").bind fun d => (o.arr "ld").bind fun ld =>
    (o.arr "gd").bind fun gd => (o.arr "lt").bind fun lt => (o.arr "gt").bind fun gt =>
    .ok [.doubleExp ((List.range n.length).map fun i =>
      ⟨n.getD i 0, t.getD i 0, d.getD i 0, gd.getD i 0, castInt (ld.getD i 0), gt.getD i 0, lt.getD i 0⟩)]

/-- `build_GaoB` (`multifluid.hpp` lines 695-710), which stores `-eta`. -/
noncomputable def buildGaoB (o : JObj) : Outcome (List ResTerm) :=
  (o.arr "n").bind fun n => (o.arr "t").bind fun t => (o.arr "d").bind fun d =>
  (o.arr "eta").bind fun eta => (o.arr "beta").bind fun beta => (o.arr "gamma").bind fun gamma =>
  (o.arr "epsilon").bind fun epsilon => (o.arr "b").bind fun b =>
  (allSameLength o ["n", "t", "d", "eta", "beta", "gamma", "epsilon", "b"]).bind fun same =>
  if same = false then .throws .stdInvalidArgument
  else .ok [.gaoB ((List.range n.length).map fun i =>
    ⟨n.getD i 0, t.getD i 0, d.getD i 0, -eta.getD i 0, beta.getD i 0, gamma.getD i 0,
      epsilon.getD i 0, b.getD i 0⟩)]

/-- `build_na` (`multifluid.hpp` lines 712-727). -/
noncomputable def buildNonAnalytic (o : JObj) : Outcome (List ResTerm) :=
  (o.arr "n").bind fun n => (o.arr "A").bind fun A => (o.arr "B").bind fun B => (o.arr "C").bind fun C =>
  (o.arr "D").bind fun D => (o.arr "a").bind fun a => (o.arr "b").bind fun b =>
  (o.arr "beta").bind fun beta =>
  (allSameLength o ["n", "A", "B", "C", "D", "a", "b", "beta"]).bind fun same =>
  if same = false then .throws .stdInvalidArgument
  else .ok [.nonAnalytic ((List.range n.length).map fun i =>
    ⟨A.getD i 0, B.getD i 0, C.getD i 0, D.getD i 0, a.getD i 0, b.getD i 0, beta.getD i 0, n.getD i 0⟩)]

/-- The power part of the combined departure functions (`multifluid.hpp` lines 389-401, 420-432): the
first `Npower` entries; `l` is converted to `int` without a check, and its length is not compared. -/
noncomputable def headPower (o : JObj) (Npower : ℕ) (n t d : List ℝ) : Outcome ResTerm :=
  match o.lookup "l" with
  | none => .ok (.power ((powerEntries Npower n t d []).map PowerEntry.toPow))
  | some v => v.toArr.bind fun l =>
    if l.length < Npower then .ub
    else .ok (.power ((powerEntries Npower n t d l).map PowerEntry.toPow))

/-- `build_GERG2004` and `build_GaussianExponential` (`multifluid.hpp` lines 382-443): the first `Npower`
entries are power terms, the others GERG (`gerg = true`) or Gaussian terms.  `Npower` outside of the array
is undefined behaviour (`head`, `tail`). -/
noncomputable def buildCombined (gerg : Bool) (o : JObj) (Npower : ℤ) : Outcome (List ResTerm) :=
  (allSameLength o gaussKeys).bind fun same =>
  if same = false then .throws .stdInvalidArgument
  else
    (o.arr "n").bind fun n => (o.arr "t").bind fun t => (o.arr "d").bind fun d =>
    (o.arr "eta").bind fun eta => (o.arr "beta").bind fun beta => (o.arr "gamma").bind fun gamma =>
    (o.arr "epsilon").bind fun epsilon =>
    if Npower < 0 ∨ (n.length : ℤ) < Npower then .ub
    else (headPower o Npower.toNat n t d).bind fun p =>
      let g := (gaussEntries n.length n t d eta beta gamma epsilon).drop Npower.toNat
      .ok [p, if gerg then .gerg2004 g else .gaussian g]

/-- The types that `get_EOS_terms` accepts (`multifluid.hpp` line 525), without the two
types `ResidualHelmholtzGenericCubic` and `ResidualHelmholtzPCSAFTGrossSadowski2001`, whose documents are not
flat arrays. -/
def allowedTypes : List String := ["ResidualHelmholtzPower", "ResidualHelmholtzGaussian",
  "ResidualHelmholtzNonAnalytic", "ResidualHelmholtzGaoB", "ResidualHelmholtzLemmon2005",
  "ResidualHelmholtzExponential", "ResidualHelmholtzDoubleExponential"]

/-- The type of a term document. -/
def JObj.type (o : JObj) : Outcome String :=
  (o.at "type").bind fun v => match v with
    | .str s => .ok s
    | _ => .throws .jsonError

/-- Dispatch on the type (`multifluid.hpp` lines 728-760). -/
noncomputable def buildTerm (o : JObj) : Outcome (List ResTerm) :=
  o.type.bind fun ty =>
  if ty = "ResidualHelmholtzPower" then buildPowerPure o
  else if ty = "ResidualHelmholtzGaussian" then buildGaussian o
  else if ty = "ResidualHelmholtzNonAnalytic" then buildNonAnalytic o
  else if ty = "ResidualHelmholtzLemmon2005" then buildLemmon o
  else if ty = "ResidualHelmholtzGaoB" then buildGaoB o
  else if ty = "ResidualHelmholtzExponential" then buildExponential o
  else if ty = "ResidualHelmholtzDoubleExponential" then buildDoubleExp o
  else .throws .stdInvalidArgument

/-- The check of all types before anything is built (`multifluid.hpp` lines 531-537). -/
def checkTypes : List JObj → Outcome Unit
  | [] => .ok ()
  | o :: os => o.type.bind fun ty => if ty ∈ allowedTypes then checkTypes os else .throws .stdInvalidArgument

/-- Building the terms one after the other. -/
noncomputable def buildTerms : List JObj → Outcome (List ResTerm)
  | [] => .ok []
  | o :: os => (buildTerm o).bind fun ts => (buildTerms os).bind fun ts' => .ok (ts ++ ts')

/-- `get_EOS_terms` (`multifluid.hpp` lines 516-762). -/
noncomputable def getEOSTerms (docs : List JObj) : Outcome (List ResTerm) :=
  if docs = [] then .throws .invalidArgument
  else (checkTypes docs).bind fun _ => buildTerms docs

/-- The data of a `Chebyshev2DEOSTerm`, `multifluid_eosterms.hpp` lines 256-257. -/
structure ChebDep where
  rows : ℕ
  cols : ℕ
  a : ℕ → ℕ → ℝ
  taumin : ℝ
  taumax : ℝ
  deltamin : ℝ
  deltamax : ℝ

/-- `build_Chebyshev2D`, `multifluid.hpp` lines 353-367, for the results of the conversions in their order.  The product of the two counts is compared with the number of
coefficients; negative counts are not refused and are invalid sizes of `reshaped` (an assertion of Eigen that is absent from release builds).  `reshaped` is column-major.
Overflow of the product of the two `int` is not modelled. -/
noncomputable def chebOf (Ntau Ndelta : Outcome ℤ) (a : Outcome (List ℝ)) (taumin taumax deltamin deltamax : Outcome ℝ) : Outcome ChebDep :=
  Ntau.bind fun Ntau =>
  Ndelta.bind fun Ndelta =>
  a.bind fun c =>
  if (Ntau + 1) * (Ndelta + 1) ≠ c.length then .throws .stdInvalidArgument
  else if Ntau + 1 < 0 ∨ Ndelta + 1 < 0 then .ub
  else
    taumin.bind fun taumin =>
    taumax.bind fun taumax =>
    deltamin.bind fun deltamin =>
    deltamax.bind fun deltamax =>
    .ok ⟨(Ntau + 1).toNat, (Ndelta + 1).toNat, fun i j => c.getD (i + j * (Ntau + 1).toNat) 0, taumin, taumax, deltamin, deltamax⟩

/-- `j.at(key)` converted to `int`: the fraction is cut off. -/
noncomputable def JObj.int (o : JObj) (k : String) : Outcome ℤ := (o.num k).bind fun x => .ok (castInt x)

/-- `build_Chebyshev2D`, `multifluid.hpp` lines 353-367. -/
noncomputable def buildCheb (o : JObj) : Outcome ChebDep :=
  chebOf (o.int "Ntau") (o.int "Ndelta") (o.arr "a") (o.num "taumin") (o.num "taumax") (o.num "deltamin") (o.num "deltamax")

/-- The term in a mixture.  The code accepts a matrix that is not square, and leaves its arrays at every evaluation (`Model/ChebDep`); here that is noted with the mixture. -/
noncomputable def ChebDep.terms (e : ChebDep) : Outcome (List ResTerm) :=
  if e.rows = e.cols then .ok [.cheb ⟨e.rows, e.a, e.taumin, e.taumax, e.deltamin, e.deltamax⟩] else .ub

/-- `build_departure_function` (`multifluid.hpp` lines 445-470). -/
noncomputable def buildDeparture (o : JObj) (Npower : ℤ) : Outcome (List ResTerm) :=
  o.type.bind fun ty =>
  if ty = "Exponential" then buildPowerDep o
  else if ty = "DoubleExponential" then buildDoubleExp o
  else if ty = "GERG-2004" ∨ ty = "GERG-2008" then buildCombined true o Npower
  else if ty = "Gaussian+Exponential" then buildCombined false o Npower
  else if ty = "none" then .ok [.null]
  else if ty = "Chebyshev2D" then (buildCheb o).bind ChebDep.terms
  else .throws .stdInvalidArgument

end Teqp.Model
