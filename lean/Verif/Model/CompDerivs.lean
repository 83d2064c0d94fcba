import Verif.Basic
import Verif.Model.Powi
import Mathlib.Analysis.Calculus.Deriv.Basic

/-!
# Composition derivatives

Models the `get_ATrhoXi*` and `get_AtaudeltaXi*` families of
`/repo/include/teqp/derivs.hpp` lines 238-466.
-/

set_option autoImplicit false

namespace Teqp.Model

/-- The derivative of a function of `m` variables with respect to variable `k`. -/
noncomputable def partialAt {m : ℕ} (k : Fin m) (f : (Fin m → ℝ) → ℝ) : (Fin m → ℝ) → ℝ :=
  fun p => deriv (fun t => f (Function.update p k t)) (p k)

/-- `derivatives(f, wrt(...), at(...))` followed by `der[der.size()-1]`: the mixed derivative with
respect to the whole `wrt` list (the autodiff library, taken to be exact; trusted base).
Used at `/repo/include/teqp/derivs.hpp` lines 257-258 and the sibling functions. -/
noncomputable def adLast {m : ℕ} (f : (Fin m → ℝ) → ℝ) (wrts : List (Fin m)) (p : Fin m → ℝ) : ℝ :=
  wrts.foldr (fun k g => partialAt k g) f p

/-- `molefrac[i]` with a signed index; outside `0..N-1` the access is out of bounds. -/
def toIdx (N : ℕ) (i : Int) : Option (Fin N) :=
  if h : 0 ≤ i ∧ i.toNat < N then some ⟨i.toNat, h.2⟩ else none

section
variable {N : ℕ}

/-- `get_ATrhoXi<iT,iD,iXi>`, `/repo/include/teqp/derivs.hpp` lines 246-259. -/
noncomputable def ATrhoXi (iT iD iXi : ℕ) (alphar : ℝ → ℝ → (Fin N → ℝ) → ℝ) (T rho : ℝ)
    (x : Fin N → ℝ) (i : Int) : Outcome ℝ :=
  match toIdx N i with
  | none => .ub
  | some i =>
    let f : (Fin 3 → ℝ) → ℝ := fun p => alphar (1 / p 0) (p 1) (Function.update x i (p 2))
    let wrts : List (Fin 3) := List.replicate iT 0 ++ List.replicate iD 1 ++ List.replicate iXi 2
    .ok (powiNat (1 / T) iT * powiNat rho iD * adLast f wrts ![1 / T, rho, x i])

/-- `get_ATrhoXiXj<iT,iD,iXi,iXj>`, `/repo/include/teqp/derivs.hpp` lines 423-439. -/
noncomputable def ATrhoXiXj (iT iD iXi iXj : ℕ) (alphar : ℝ → ℝ → (Fin N → ℝ) → ℝ) (T rho : ℝ)
    (x : Fin N → ℝ) (i j : Int) : Outcome ℝ :=
  if i = j then .throws .invalidArgument else
  match toIdx N i, toIdx N j with
  | some i, some j =>
    let f : (Fin 4 → ℝ) → ℝ := fun p =>
      alphar (1 / p 0) (p 1) (Function.update (Function.update x i (p 2)) j (p 3))
    let wrts : List (Fin 4) := List.replicate iT 0 ++ List.replicate iD 1 ++ List.replicate iXi 2 ++
      List.replicate iXj 3
    .ok (powiNat (1 / T) iT * powiNat rho iD * adLast f wrts ![1 / T, rho, x i, x j])
  | _, _ => .ub

/-- `get_ATrhoXiXjXk<iT,iD,iXi,iXj,iXk>`, `/repo/include/teqp/derivs.hpp` lines 448-466. -/
noncomputable def ATrhoXiXjXk (iT iD iXi iXj iXk : ℕ) (alphar : ℝ → ℝ → (Fin N → ℝ) → ℝ)
    (T rho : ℝ) (x : Fin N → ℝ) (i j k : Int) : Outcome ℝ :=
  if i = j ∨ j = k ∨ i = k then .throws .invalidArgument else
  match toIdx N i, toIdx N j, toIdx N k with
  | some i, some j, some k =>
    let f : (Fin 5 → ℝ) → ℝ := fun p =>
      alphar (1 / p 0) (p 1)
        (Function.update (Function.update (Function.update x i (p 2)) j (p 3)) k (p 4))
    let wrts : List (Fin 5) := List.replicate iT 0 ++ List.replicate iD 1 ++ List.replicate iXi 2 ++
      List.replicate iXj 3 ++ List.replicate iXk 4
    .ok (powiNat (1 / T) iT * powiNat rho iD * adLast f wrts ![1 / T, rho, x i, x j, x k])
  | _, _, _ => .ub

/-- `get_ATrhoXi_runtime_combinations`, `/repo/include/teqp/derivs.hpp` lines 261-284. -/
def tableXi : List (ℕ × ℕ × ℕ) :=
  [(0,0,1), (0,0,2), (0,0,3), (1,0,0), (1,0,1), (1,0,2), (1,0,3), (0,1,0), (0,1,1), (0,1,2),
   (0,1,3), (2,0,0), (2,0,1), (2,0,2), (2,0,3), (1,1,0), (1,1,1), (1,1,2), (1,1,3), (0,2,0),
   (0,2,1), (0,2,2), (0,2,3)]

/-- `get_ATrhoXiXj_runtime_combinations`, `/repo/include/teqp/derivs.hpp` lines 294-309. -/
def tableXiXj : List (ℕ × ℕ × ℕ × ℕ) :=
  [(0,0,1,0), (0,0,2,0), (0,0,0,1), (0,0,0,2), (0,0,1,1), (1,0,1,0), (1,0,2,0), (1,0,0,1),
   (1,0,0,2), (1,0,1,1), (0,1,1,0), (0,1,2,0), (0,1,0,1), (0,1,0,2), (0,1,1,1)]

/-- `get_ATrhoXiXjXk_runtime_combinations`, `/repo/include/teqp/derivs.hpp` lines 319-331. -/
def tableXiXjXk : List (ℕ × ℕ × ℕ × ℕ × ℕ) :=
  [(0,0,0,1,1), (0,0,1,0,1), (0,0,1,1,0), (0,0,1,1,1), (1,0,0,1,1), (1,0,1,0,1), (1,0,1,1,0),
   (1,0,1,1,1), (0,1,0,1,1), (0,1,1,0,1), (0,1,1,1,0), (0,1,1,1,1)]

/-- The macro-generated chain of `if`s: the first table row equal to the requested integer counts
(`/repo/include/teqp/derivs.hpp` lines 286-292). -/
def matchXi (iT iD iXi : Int) : Option (ℕ × ℕ × ℕ) :=
  tableXi.find? fun r => decide (iT = r.1 ∧ iD = r.2.1 ∧ iXi = r.2.2)
/-- `/repo/include/teqp/derivs.hpp` lines 311-317. -/
def matchXiXj (iT iD iXi iXj : Int) : Option (ℕ × ℕ × ℕ × ℕ) :=
  tableXiXj.find? fun r => decide (iT = r.1 ∧ iD = r.2.1 ∧ iXi = r.2.2.1 ∧ iXj = r.2.2.2)
/-- `/repo/include/teqp/derivs.hpp` lines 333-339. -/
def matchXiXjXk (iT iD iXi iXj iXk : Int) : Option (ℕ × ℕ × ℕ × ℕ × ℕ) :=
  tableXiXjXk.find? fun r => decide (iT = r.1 ∧ iD = r.2.1 ∧ iXi = r.2.2.1 ∧ iXj = r.2.2.2.1 ∧
    iXk = r.2.2.2.2)

/-- `get_ATrhoXi_runtime`, `/repo/include/teqp/derivs.hpp` lines 286-292. -/
noncomputable def ATrhoXi_runtime (alphar : ℝ → ℝ → (Fin N → ℝ) → ℝ) (T : ℝ) (iT : Int) (rho : ℝ)
    (iD : Int) (x : Fin N → ℝ) (i iXi : Int) : Outcome ℝ :=
  match matchXi iT iD iXi with
  | some (a, b, c) => ATrhoXi a b c alphar T rho x i
  | none => .throws .invalidArgument

/-- `get_ATrhoXiXj_runtime`, `/repo/include/teqp/derivs.hpp` lines 311-317. -/
noncomputable def ATrhoXiXj_runtime (alphar : ℝ → ℝ → (Fin N → ℝ) → ℝ) (T : ℝ) (iT : Int) (rho : ℝ)
    (iD : Int) (x : Fin N → ℝ) (i iXi j iXj : Int) : Outcome ℝ :=
  match matchXiXj iT iD iXi iXj with
  | some (a, b, c, d) => ATrhoXiXj a b c d alphar T rho x i j
  | none => .throws .invalidArgument

/-- `get_ATrhoXiXjXk_runtime`, `/repo/include/teqp/derivs.hpp` lines 333-339. -/
noncomputable def ATrhoXiXjXk_runtime (alphar : ℝ → ℝ → (Fin N → ℝ) → ℝ) (T : ℝ) (iT : Int)
    (rho : ℝ) (iD : Int) (x : Fin N → ℝ) (i iXi j iXj k iXk : Int) : Outcome ℝ :=
  match matchXiXjXk iT iD iXi iXj iXk with
  | some (a, b, c, d, e) => ATrhoXiXjXk a b c d e alphar T rho x i j k
  | none => .throws .invalidArgument

/-- `get_AtaudeltaXi<iT,iD,iXi>`, `/repo/include/teqp/derivs.hpp` lines 341-352. `none` stands for a
model without an `alphar_taudelta` member, for which `AlpharTauDeltaCaller` throws
(lines 134-140). -/
noncomputable def AtaudeltaXi (iT iD iXi : ℕ) (atd : Option (ℝ → ℝ → (Fin N → ℝ) → ℝ))
    (tau delta : ℝ) (x : Fin N → ℝ) (i : Int) : Outcome ℝ :=
  match toIdx N i with
  | none => .ub
  | some i =>
    match atd with
    | none => .throws .notImplemented
    | some atd =>
      let f : (Fin 3 → ℝ) → ℝ := fun p => atd (p 0) (p 1) (Function.update x i (p 2))
      let wrts : List (Fin 3) := List.replicate iT 0 ++ List.replicate iD 1 ++ List.replicate iXi 2
      .ok (powiNat tau iT * powiNat delta iD * adLast f wrts ![tau, delta, x i])

/-- `get_AtaudeltaXiXj<iT,iD,iXi,iXj>`, `/repo/include/teqp/derivs.hpp` lines 354-369. -/
noncomputable def AtaudeltaXiXj (iT iD iXi iXj : ℕ) (atd : Option (ℝ → ℝ → (Fin N → ℝ) → ℝ))
    (tau delta : ℝ) (x : Fin N → ℝ) (i j : Int) : Outcome ℝ :=
  if i = j then .throws .invalidArgument else
  match toIdx N i, toIdx N j with
  | some i, some j =>
    match atd with
    | none => .throws .notImplemented
    | some atd =>
      let f : (Fin 4 → ℝ) → ℝ := fun p =>
        atd (p 0) (p 1) (Function.update (Function.update x i (p 2)) j (p 3))
      let wrts : List (Fin 4) := List.replicate iT 0 ++ List.replicate iD 1 ++
        List.replicate iXi 2 ++ List.replicate iXj 3
      .ok (powiNat tau iT * powiNat delta iD * adLast f wrts ![tau, delta, x i, x j])
  | _, _ => .ub

/-- `get_AtaudeltaXiXjXk<...>`, `/repo/include/teqp/derivs.hpp` lines 371-387. -/
noncomputable def AtaudeltaXiXjXk (iT iD iXi iXj iXk : ℕ)
    (atd : Option (ℝ → ℝ → (Fin N → ℝ) → ℝ)) (tau delta : ℝ) (x : Fin N → ℝ) (i j k : Int) :
    Outcome ℝ :=
  if i = j ∨ j = k ∨ i = k then .throws .invalidArgument else
  match toIdx N i, toIdx N j, toIdx N k with
  | some i, some j, some k =>
    match atd with
    | none => .throws .notImplemented
    | some atd =>
      let f : (Fin 5 → ℝ) → ℝ := fun p =>
        atd (p 0) (p 1)
          (Function.update (Function.update (Function.update x i (p 2)) j (p 3)) k (p 4))
      let wrts : List (Fin 5) := List.replicate iT 0 ++ List.replicate iD 1 ++
        List.replicate iXi 2 ++ List.replicate iXj 3 ++ List.replicate iXk 4
      .ok (powiNat tau iT * powiNat delta iD * adLast f wrts ![tau, delta, x i, x j, x k])
  | _, _, _ => .ub

/-- `get_AtaudeltaXi_runtime`, `/repo/include/teqp/derivs.hpp` lines 389-398; the `(0,0,0)` request
evaluates the function itself and never looks at the component index. -/
noncomputable def AtaudeltaXi_runtime (atd : Option (ℝ → ℝ → (Fin N → ℝ) → ℝ)) (tau : ℝ) (iT : Int)
    (delta : ℝ) (iD : Int) (x : Fin N → ℝ) (i iXi : Int) : Outcome ℝ :=
  if iT = 0 ∧ iD = 0 ∧ iXi = 0 then
    match atd with
    | none => .throws .notImplemented
    | some atd => .ok (atd tau delta x)
  else
  match matchXi iT iD iXi with
  | some (a, b, c) => AtaudeltaXi a b c atd tau delta x i
  | none => .throws .invalidArgument

/-- `get_AtaudeltaXiXj_runtime`, `/repo/include/teqp/derivs.hpp` lines 400-406. -/
noncomputable def AtaudeltaXiXj_runtime (atd : Option (ℝ → ℝ → (Fin N → ℝ) → ℝ)) (tau : ℝ)
    (iT : Int) (delta : ℝ) (iD : Int) (x : Fin N → ℝ) (i iXi j iXj : Int) : Outcome ℝ :=
  match matchXiXj iT iD iXi iXj with
  | some (a, b, c, d) => AtaudeltaXiXj a b c d atd tau delta x i j
  | none => .throws .invalidArgument

/-- `get_AtaudeltaXiXjXk_runtime`, `/repo/include/teqp/derivs.hpp` lines 408-414. -/
noncomputable def AtaudeltaXiXjXk_runtime (atd : Option (ℝ → ℝ → (Fin N → ℝ) → ℝ)) (tau : ℝ)
    (iT : Int) (delta : ℝ) (iD : Int) (x : Fin N → ℝ) (i iXi j iXj k iXk : Int) : Outcome ℝ :=
  match matchXiXjXk iT iD iXi iXj iXk with
  | some (a, b, c, d, e) => AtaudeltaXiXjXk a b c d e atd tau delta x i j k
  | none => .throws .invalidArgument

end
end Teqp.Model
