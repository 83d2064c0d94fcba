import Verif.Model.MixDoc
import Verif.Lemmas.Outcome
import Mathlib.Data.List.Forall2

/-! # Documents of pairs and the data read from them -/

set_option autoImplicit false

namespace Teqp.Lemmas.MixDoc
open Teqp Teqp.Model

/-- Two computations that do the same, with results in relation. -/
def Match {α β : Type} (R : α → β → Prop) : Outcome α → Outcome β → Prop
  | .ok a, .ok b => R a b
  | .throws e, .throws e' => e = e'
  | .ub, .ub => True
  | .nonFinite, .nonFinite => True
  | _, _ => False

theorem Match.bind {α β γ δ : Type} {R : α → β → Prop} {S : γ → δ → Prop} {x : Outcome α} {y : Outcome β} {f : α → Outcome γ} {g : β → Outcome δ}
    (h : Match R x y) (hf : ∀ a b, R a b → Match S (f a) (g b)) : Match S (x.bind f) (y.bind g) := by
  cases x <;> cases y <;> simp_all [Match, Outcome.bind]

theorem Match.refl {α : Type} (x : Outcome α) : Match (· = ·) x x := by cases x <;> simp [Match]

theorem Match.eq {α : Type} {x y : Outcome α} (h : Match (· = ·) x y) : x = y := by cases x <;> cases y <;> simp_all [Match]

theorem Match.of_eq {α : Type} {x y : Outcome α} (h : x = y) : Match (· = ·) x y := h ▸ Match.refl x

theorem at_of_lookup {o : List (String × JTree)} {k : String} {v : JTree} (h : o.lookup k = some v) : (JTree.obj o).at k = .ok v := by
  simp [JTree.at, h]

theorem at_of_none {o : List (String × JTree)} {k : String} (h : o.lookup k = none) : (JTree.obj o).at k = .throws .jsonError := by
  simp [JTree.at, h]

theorem strAt_eq {o : List (String × JTree)} {k : String} {x : Option String} (h : o.lookup k = x.map JTree.str) : strAt k (.obj o) = optAt x := by
  cases x with
  | none => simp [strAt, at_of_none h, optAt]
  | some s => simp [strAt, at_of_lookup h, optAt, JTree.toStr]

theorem numAt_eq {o : List (String × JTree)} {k : String} {x : Option ℝ} (h : o.lookup k = x.map JTree.num) : numAt k (.obj o) = optAt x := by
  cases x with
  | none => simp [numAt, at_of_none h, optAt]
  | some s => simp [numAt, at_of_lookup h, optAt, JTree.toDouble]

theorem contains_eq_str {o : List (String × JTree)} {k : String} {x : Option String} (h : o.lookup k = x.map JTree.str) : (JTree.obj o).contains k = x.isSome := by
  cases x <;> simp [JTree.contains, h]

theorem contains_eq_num {o : List (String × JTree)} {k : String} {x : Option ℝ} (h : o.lookup k = x.map JTree.num) : (JTree.obj o).contains k = x.isSome := by
  cases x <;> simp [JTree.contains, h]

/-- The loops depend on their function for the visited pairs only. -/
theorem symLoop_congr {α : Type} (f g : ℕ → ℕ → Outcome α) (l : List (ℕ × ℕ)) (h : ∀ p ∈ l, f p.1 p.2 = g p.1 p.2) (M : ℕ → ℕ → α) :
    symLoop f l M = symLoop g l M := by
  induction l generalizing M with
  | nil => rfl
  | cons p ps ih =>
    obtain ⟨i, j⟩ := p
    rw [symLoop, symLoop, h (i, j) (by simp)]
    congr 1
    funext v
    exact ih (fun p hp => h p (List.mem_cons_of_mem _ hp)) _

theorem bipLoopDoc_eq (f : ℕ → ℕ → Outcome BIP) (col : List BIPEntry) (ids : ℕ → String) (flags : BIPFlags) (Tc vc : ℕ → ℝ) (l : List (ℕ × ℕ))
    (h : ∀ p ∈ l, f p.1 p.2 = getBinaryInteraction col (ids p.1) (ids p.2) flags (Tc p.1) (Tc p.2) (vc p.1) (vc p.2)) (M : ℕ → ℕ → BIP) :
    bipLoopDoc f l M = bipLoop col ids flags Tc vc l M := by
  induction l generalizing M with
  | nil => rfl
  | cons p ps ih =>
    obtain ⟨i, j⟩ := p
    rw [bipLoopDoc, bipLoop, h (i, j) (by simp)]
    congr 1
    funext v
    split
    · rfl
    · exact ih (fun p hp => h p (List.mem_cons_of_mem _ hp)) _

end Teqp.Lemmas.MixDoc
