import Verif.Basic
import Mathlib.Data.Real.Basic
import Mathlib.Data.Nat.Bitwise

/-! # Chebyshev expansions and superancillary equations

Models `/repo/include/teqp/models/cubicsuperancillary.hpp` and the Clenshaw routines of
`/repo/include/teqp/models/multifluid_eosterms.hpp` (class `Chebyshev2DEOSTerm`). -/

set_option autoImplicit false

namespace Teqp.Model

/-- `struct Chebyshev` (`cubicsuperancillary.hpp` lines 8-11). -/
structure Cheb where
  coeff : List ℝ
  xmin : ℝ
  xmax : ℝ

/-- The loop `for (k = Norder-1; k > 0; k--)` of `Chebyshev::y` (`cubicsuperancillary.hpp` lines 18-23)
with state `(u_kp1, u_kp2)`. -/
def chebLoop (x : ℝ) (c : ℕ → ℝ) : ℕ → ℝ × ℝ → ℝ × ℝ
  | 0, s => s
  | k + 1, s => chebLoop x c k (2 * x * s.1 - s.2 + c (k + 1), s.1)

/-- `Chebyshev::y` after scaling (`cubicsuperancillary.hpp` lines 16-24): the returned value
`coeff[0] + xscaled*u_kp1 - u_kp2`.  With one coefficient `Norder = 0`, the loop does not run and
`u_kp1 = coeff[0]`; with none, `coeff[-1]` is read. -/
def chebScaled (coeff : List ℝ) (xs : ℝ) : Outcome ℝ :=
  match coeff with
  | [] => .ub
  | c0 :: cs =>
    let c : ℕ → ℝ := fun k => (c0 :: cs).getD k 0
    let Norder := cs.length
    let s := chebLoop xs c (Norder - 1) (c Norder, 0)
    .ok (c 0 + xs * s.1 - s.2)

/-- `Chebyshev::y` (`cubicsuperancillary.hpp` lines 13-25). -/
noncomputable def Cheb.y (e : Cheb) (x : ℝ) : Outcome ℝ :=
  chebScaled e.coeff ((2 * x - (e.xmax + e.xmin)) / (e.xmax - e.xmin))

/-- `midpoint_Knuth` on non-negative `int`s (`cubicsuperancillary.hpp` lines 30-32). -/
def midpointKnuth (x y : ℕ) : ℕ := (x &&& y) + ((x ^^^ y) >>> 1)

theorem and_add_xor_half (x y : ℕ) : (x &&& y) + ((x ^^^ y) >>> 1) = (x + y) / 2 := by
  have key : ∀ n x y : ℕ, x ≤ n → 2 * (x &&& y) + (x ^^^ y) = x + y := by
    intro n
    induction n with
    | zero =>
      intro x y hx
      have : x = 0 := by omega
      subst this; simp
    | succ n ih =>
      intro x y hx
      by_cases h0 : x = 0
      · subst h0; simp
      have h := ih (x / 2) (y / 2) (by omega)
      have a1 : (x &&& y) / 2 = x / 2 &&& y / 2 := Nat.and_div_two
      have a2 : (x ^^^ y) / 2 = x / 2 ^^^ y / 2 := Nat.xor_div_two
      rw [← a1, ← a2] at h
      have b1 : (x &&& y) % 2 = 1 ↔ x % 2 = 1 ∧ y % 2 = 1 := by
        have := Nat.testBit_and x y 0
        simp only [Nat.testBit_zero] at this
        rw [Bool.eq_iff_iff] at this
        simpa using this
      have b2 : (x ^^^ y) % 2 = 1 ↔ ¬(x % 2 = 1 ↔ y % 2 = 1) := by
        have := Nat.testBit_xor x y 0
        simp only [Nat.testBit_zero] at this
        rw [Bool.eq_iff_iff] at this
        simpa using this
      omega
  have h := key x x y le_rfl
  rw [Nat.shiftRight_eq_div_pow]
  omega

/-- The bisection loop of `SuperAncillary::get_index` (`cubicsuperancillary.hpp` lines 41-49);
`xmin` is the sequence of left ends. -/
noncomputable def bisect (xmin : ℕ → ℝ) (x : ℝ) (iL iR : ℕ) : ℕ × ℕ :=
  if iR - iL > 1 then
    let iM := midpointKnuth iL iR
    if x ≥ xmin iM then bisect xmin x iM iR else bisect xmin x iL iM
  else (iL, iR)
termination_by iR - iL
decreasing_by
  all_goals
    have : midpointKnuth iL iR = (iL + iR) / 2 := and_add_xor_half iL iR
    omega

/-- `SuperAncillary::get_index` (`cubicsuperancillary.hpp` lines 39-51) on the sequences of interval
ends of `n` expansions. -/
noncomputable def getIndex (n : ℕ) (xmin xmax : ℕ → ℝ) (x : ℝ) : ℕ :=
  let p := bisect xmin x 0 (n - 1)
  if x < xmax p.1 then p.1 else p.2

/-- `SuperAncillary::y` (`cubicsuperancillary.hpp` lines 54-67).  Reading `exps[0]` of an empty table
is undefined behaviour. -/
noncomputable def superancY (exps : List Cheb) (x : ℝ) : Outcome ℝ :=
  match exps with
  | [] => .ub
  | e0 :: es =>
    let get : ℕ → Cheb := fun i => (e0 :: es).getD i e0
    let n := (e0 :: es).length
    if x < (get 0).xmin then .throws .stdInvalidArgument
    else if x > (get (n - 1)).xmax then .throws .stdInvalidArgument
    else
      let i := getIndex n (fun i => (get i).xmin) (fun i => (get i).xmax) x
      if i < n then (get i).y x else .ub

/-- The nine tables selected by `supercubic`. -/
structure SuperTables where
  vdW : List Cheb × List Cheb × List Cheb
  SRK : List Cheb × List Cheb × List Cheb
  PR : List Cheb × List Cheb × List Cheb

/-- `supercubic` (`cubicsuperancillary.hpp` lines 3809-3851): unknown properties give `-2`, unknown
equations give `-1`, as ordinary return values. -/
noncomputable def supercubic (t : SuperTables) (EOS prop : Int) (Ttilde : ℝ) : Outcome ℝ :=
  let pick (p : List Cheb × List Cheb × List Cheb) : Outcome ℝ :=
    if prop = 100 then superancY p.1 Ttilde
    else if prop = 101 then superancY p.2.1 Ttilde
    else if prop = 102 then superancY p.2.2 Ttilde
    else .ok (-2)
  if EOS = 0 then pick t.vdW
  else if EOS = 1 then pick t.SRK
  else if EOS = 2 then pick t.PR
  else .ok (-1)

/-! ## `Chebyshev2DEOSTerm` -/

/-- The loop of `Chebyshev2DEOSTerm::Clenshaw1D` (`multifluid_eosterms.hpp` lines 264-271), for `k`
from `N` down to 0 with state `(u_kp1, u_kp2)`; the result is `(u_k - u_kp2)/2` with the last `u_k`
(line 272).  The row-wise variant (lines 291-299) is the same per column. -/
noncomputable def clenshaw1D (x : ℝ) (c : ℕ → ℝ) : ℕ → ℝ × ℝ → ℝ
  | 0, s => (2 * x * s.1 - s.2 + c 0 - s.2) / 2
  | k + 1, s => clenshaw1D x c k (2 * x * s.1 - s.2 + c (k + 1), s.1)

/-- `Clenshaw1D` (`multifluid_eosterms.hpp` lines 260-273): an empty vector gives 0. -/
noncomputable def clenshawVec (c : List ℝ) (x : ℝ) : ℝ :=
  match c with
  | [] => 0
  | c0 :: cs => clenshaw1D x (fun k => (c0 :: cs).getD k 0) cs.length (0, 0)

/-- `Clenshaw1DByRow` (`multifluid_eosterms.hpp` lines 276-300) for a `rows × cols` matrix.  The three
buffers are resized to `rows` entries while the rows of the matrix have `cols` entries, so a
non-square matrix mixes arrays of different sizes (undefined behaviour in a release build).
The buffers being `static` (shared between threads) is treated separately. -/
noncomputable def clenshawByRow (rows cols : ℕ) (a : ℕ → ℕ → ℝ) (y : ℝ) : Outcome (List ℝ) :=
  if rows ≠ cols then .ub
  else if rows = 0 then .ok []
  else .ok ((List.range cols).map fun j => clenshaw1D y (fun k => a k j) (rows - 1) (0, 0))

/-- `Clenshaw2DEigen` (`multifluid_eosterms.hpp` lines 307-311). -/
noncomputable def clenshaw2D (rows cols : ℕ) (a : ℕ → ℕ → ℝ) (x y : ℝ) : Outcome ℝ :=
  (clenshawByRow rows cols a y).bind fun b => .ok (clenshawVec b x)

/-- `Chebyshev2DEOSTerm::alphar` (`multifluid_eosterms.hpp` lines 313-318). -/
noncomputable def cheb2DAlphar (rows cols : ℕ) (a : ℕ → ℕ → ℝ) (taumin taumax deltamin deltamax : ℝ)
    (tau delta : ℝ) : Outcome ℝ :=
  clenshaw2D rows cols a ((2 * tau - (taumax + taumin)) / (taumax - taumin))
    ((2 * delta - (deltamax + deltamin)) / (deltamax - deltamin))

end Teqp.Model
