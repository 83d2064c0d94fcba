import Verif.Basic
import Verif.Model.CorrTables
import Verif.Model.Multipolar
import Mathlib.Analysis.SpecialFunctions.Log.Basic

/-! # The correlation integrals

`/repo/include/teqp/models/saft/correlation_integrals.hpp`: three families of correlations of the integrals `J⁽ⁿ⁾` and `K` of
the multipolar contributions, by Luckas, by Gubbins and Twu, and by Gottschalk. -/

set_option autoImplicit false

namespace Teqp.Model

/-- `std::map::at` of a map given by a list of pairs: of two pairs with the same key the first one stays (as the common standard
libraries have it), and a key that is not there is refused with `std::out_of_range`. -/
def mapAt {κ β : Type} [DecidableEq κ] (t : List (κ × β)) (k : κ) : Outcome β :=
  match t.find? (fun p => decide (p.1 = k)) with
  | some p => .ok p.2
  | none => .throws .stdOutOfRange

/-- Element `i` of a `std::array` of coefficients.  (That every row has the length of its array and that the indices are within
it is `corr_rows` and `gott_layout` below, so that the default is never read.) -/
noncomputable def coef (a : List ℚ) (i : ℕ) : ℝ := ((a.getD i 0 : ℚ) : ℝ)

/-! ## Luckas -/

/-- `LuckasJIntegral`, lines 35-46. -/
structure LuckasJ where
  n : ℤ
  a : List ℚ

/-- The constructor, lines 41-46. -/
def LuckasJ.make (n : ℤ) : Outcome LuckasJ := (mapAt luckasJTable n).bind fun a => .ok ⟨n, a⟩

/-- `A_0`, `A_1` and `A_2` of lines 52-54 (`m` columns, column `c`). -/
noncomputable def densPoly (a : List ℚ) (m c : ℕ) (r : ℝ) : ℝ :=
  coef a c + coef a (m + c) * r + coef a (2 * m + c) * r * r + coef a (3 * m + c) * r * r * r

open Classical in
/-- The exponential of line 55.  At `rhostar = 0` the logarithm is minus infinity and the quotient by its cube is zero; at
`rhostar = √2` it is zero and the quotient is infinite. -/
noncomputable def luckasBoltz (T r : ℝ) : ℝ :=
  if r = 0 then Real.exp (1 / T)
  else if r = Real.sqrt 2 then Real.exp 0
  else Real.exp (1 / (T + 4 / Real.sqrt (Real.log (r / Real.sqrt 2) * Real.log (r / Real.sqrt 2)) ^ 3))

open Classical in
/-- `get_J`, lines 49-57.  A negative density or temperature gives the logarithm or the power of a negative
number, and at zero temperature and density the exponential is infinite. -/
noncomputable def LuckasJ.get (o : LuckasJ) (T r : ℝ) : Outcome ℝ :=
  if r < 0 ∨ T < 0 ∨ (T = 0 ∧ r = 0) then .nonFinite
  else .ok ((densPoly o.a 3 0 r + densPoly o.a 3 1 r * T ^ (0.3 + 0.05 * (o.n : ℝ)) + densPoly o.a 3 2 r * T ^ (1 / (o.n : ℝ))) *
    luckasBoltz T r)

/-- `LuckasKIntegral`, lines 67-79. -/
structure LuckasK where
  n1 : ℤ
  n2 : ℤ
  a : List ℚ

/-- The constructor, lines 74-79. -/
def LuckasK.make (n1 n2 : ℤ) : Outcome LuckasK := (mapAt luckasKTable (n1, n2)).bind fun a => .ok ⟨n1, n2, a⟩

/-- `get_K`, lines 82-92. -/
noncomputable def LuckasK.get (o : LuckasK) (T r : ℝ) : Outcome ℝ :=
  .ok (densPoly o.a 4 0 r + densPoly o.a 4 1 r * T + densPoly o.a 4 2 r * Real.exp ((1 - r / Real.sqrt 2) ^ 4) ^ 2 +
    densPoly o.a 4 3 r * Real.exp ((1 - r / Real.sqrt 2) ^ 4) ^ 3)

/-! ## Gubbins and Twu -/

/-- The exponent of lines 143 and 173. -/
noncomputable def gtExponent (a : List ℚ) (T r : ℝ) : ℝ :=
  coef a 0 * r * r * Real.log T + coef a 1 * r * r + coef a 2 * r * Real.log T + coef a 3 * r + coef a 4 * Real.log T + coef a 5

/-- `GubbinsTwuJIntegral`, lines 131-139. -/
structure GTJ where
  n : ℤ
  a : List ℚ

/-- The constructor, lines 137-139. -/
def GTJ.make (n : ℤ) : Outcome GTJ := (mapAt gtJTable n).bind fun a => .ok ⟨n, a⟩

open Classical in
/-- `get_J`, lines 142-145. -/
noncomputable def GTJ.get (o : GTJ) (T r : ℝ) : Outcome ℝ :=
  if T ≤ 0 then .nonFinite else .ok (Real.exp (gtExponent o.a T r))

/-- `GubbinsTwuKIntegral`, lines 156-169. -/
structure GTK where
  n1 : ℤ
  n2 : ℤ
  a : List ℚ
  sign : ℝ

/-- The constructor, lines 164-169. -/
noncomputable def GTK.make (n1 n2 : ℤ) : Outcome GTK :=
  (mapAt gtKTable (n1, n2)).bind fun a => .ok ⟨n1, n2, a, if n1 = 334 ∧ n2 = 445 then -1 else 1⟩

open Classical in
/-- `get_K`, lines 172-175. -/
noncomputable def GTK.get (o : GTK) (T r : ℝ) : Outcome ℝ :=
  if T ≤ 0 then .nonFinite else .ok (o.sign * Real.exp (gtExponent o.a T r))

/-! ## Gottschalk -/

/-- `GottschalkJIntegral`, lines 223-228. -/
structure GottJ where
  n : ℤ
  ab : List ℚ

/-- The constructor, line 228. -/
def GottJ.make (n : ℤ) : Outcome GottJ := (mapAt gottJTable n).bind fun a => .ok ⟨n, a⟩

/-- The sum of lines 232-244. -/
noncomputable def gottJSum (ab : List ℚ) (T r : ℝ) : ℝ :=
  (∑ i ∈ Finset.range 5, ∑ j ∈ Finset.range 4, coef ab (4 * i + j) * r ^ i * T ^ j) +
  ∑ i ∈ Finset.range 5, ∑ j ∈ Finset.range 3, coef ab (20 + 3 * i + j) * r ^ i * T ^ j * Real.exp (1 / T)

open Classical in
/-- `get_J`, lines 231-246. -/
noncomputable def GottJ.get (o : GottJ) (T r : ℝ) : Outcome ℝ :=
  if T = 0 then .nonFinite else .ok (gottJSum o.ab T r ^ (o.n - 2))

/-- `int2key`, lines 350-358. -/
def int2key (i : ℤ) : Outcome (ℤ × ℤ × ℤ) :=
  if i < 222 then .throws .invalidArgument
  else if i > 999 then .throws .invalidArgument
  else .ok (i / 100 % 10, i / 10 % 10, i % 10)

/-- `GottschalkKIntegral`, lines 348-361. -/
structure GottK where
  k1 : ℤ × ℤ × ℤ
  k2 : ℤ × ℤ × ℤ
  abc : List ℚ

/-- The constructor from two triples, line 364. -/
def GottK.ofTuples (k1 k2 : ℤ × ℤ × ℤ) : Outcome GottK := (mapAt gottKTable (k1, k2)).bind fun a => .ok ⟨k1, k2, a⟩

/-- The constructor from two numbers of three digits, line 366. -/
def GottK.make (i1 i2 : ℤ) : Outcome GottK :=
  (int2key i1).bind fun k1 => (int2key i2).bind fun k2 => GottK.ofTuples k1 k2

/-- The sum of lines 370-390. -/
noncomputable def gottKSum (abc : List ℚ) (T r : ℝ) : ℝ :=
  (∑ i ∈ Finset.range 4, ∑ j ∈ Finset.Icc 1 2, coef abc (2 * i + (j - 1)) * r ^ i * Real.exp ((1 - r / 3) / T) ^ j) +
  (∑ i ∈ Finset.range 4, ∑ j ∈ Finset.Icc 1 2, coef abc (8 + 2 * i + (j - 1)) * r ^ i * Real.exp ((1 - r / 3) * (1 - r / 3) / T) ^ j) +
  ∑ i ∈ Finset.range 6, ∑ j ∈ Finset.range 4, coef abc (8 + 8 + 4 * i + j) * r ^ i * T ^ j

open Classical in
/-- `get_K`, lines 369-392. -/
noncomputable def GottK.get (o : GottK) (T r : ℝ) : Outcome ℝ :=
  if T = 0 then .nonFinite else .ok (gottKSum o.abc T r)

/-! ## The integrals of a multipolar contribution -/

/-- A pair of classes `JIntegral`, `KIntegral` (the template arguments of `/repo/include/teqp/models/saft/polar_terms.hpp`
lines 46 and 278): constructors giving the functions `get_J` and `get_K`. -/
structure CorrFamily where
  J : ℤ → Outcome (ℝ → ℝ → Outcome ℝ)
  K : ℤ → ℤ → Outcome (ℝ → ℝ → Outcome ℝ)

/-- `LuckasJIntegral`, `LuckasKIntegral`. -/
noncomputable def luckasFamily : CorrFamily :=
  ⟨fun n => (LuckasJ.make n).bind fun o => .ok o.get, fun a b => (LuckasK.make a b).bind fun o => .ok o.get⟩
/-- `GubbinsTwuJIntegral`, `GubbinsTwuKIntegral`. -/
noncomputable def gtFamily : CorrFamily :=
  ⟨fun n => (GTJ.make n).bind fun o => .ok o.get, fun a b => (GTK.make a b).bind fun o => .ok o.get⟩
/-- `GottschalkJIntegral`, `GottschalkKIntegral`. -/
noncomputable def gottFamily : CorrFamily :=
  ⟨fun n => (GottJ.make n).bind fun o => .ok o.get, fun a b => (GottK.make a b).bind fun o => .ok o.get⟩

/-- The members of lines 55-64 and 289-298 of `/repo/include/teqp/models/saft/polar_terms.hpp`. -/
structure MPObjects where
  J6 : ℝ → ℝ → Outcome ℝ
  J8 : ℝ → ℝ → Outcome ℝ
  J10 : ℝ → ℝ → Outcome ℝ
  J11 : ℝ → ℝ → Outcome ℝ
  J13 : ℝ → ℝ → Outcome ℝ
  J15 : ℝ → ℝ → Outcome ℝ
  K222 : ℝ → ℝ → Outcome ℝ
  K233 : ℝ → ℝ → Outcome ℝ
  K334 : ℝ → ℝ → Outcome ℝ
  K444 : ℝ → ℝ → Outcome ℝ

/-- Their construction. -/
noncomputable def mpBuild (f : CorrFamily) : Outcome MPObjects :=
  (f.J 6).bind fun j6 => (f.J 8).bind fun j8 => (f.J 10).bind fun j10 => (f.J 11).bind fun j11 => (f.J 13).bind fun j13 =>
    (f.J 15).bind fun j15 => (f.K 222 333).bind fun k2 => (f.K 233 344).bind fun k3 => (f.K 334 445).bind fun k4 =>
    (f.K 444 555).bind fun k5 => .ok ⟨j6, j8, j10, j11, j13, j15, k2, k3, k4, k5⟩

/-- The integrals of a contribution as plain functions (where they are numbers). -/
def MPObjects.Are (o : MPObjects) (I : MPIntegrals) (T r : ℝ) : Prop :=
  o.J6 T r = .ok (I.J 6 T r) ∧ o.J8 T r = .ok (I.J 8 T r) ∧ o.J10 T r = .ok (I.J 10 T r) ∧ o.J11 T r = .ok (I.J 11 T r) ∧
  o.J13 T r = .ok (I.J 13 T r) ∧ o.J15 T r = .ok (I.J 15 T r) ∧ o.K222 T r = .ok (I.K222 T r) ∧ o.K233 T r = .ok (I.K233 T r) ∧
  o.K334 T r = .ok (I.K334 T r) ∧ o.K444 T r = .ok (I.K444 T r)

end Teqp.Model
