import Mathlib.Analysis.Calculus.Deriv.Add
import Mathlib.Analysis.Calculus.Deriv.Mul
import Mathlib.Analysis.Calculus.IteratedDeriv.Defs

/-! # Second derivatives from first derivatives nearby -/

set_option autoImplicit false

open Filter Topology

namespace Teqp.Calc

/-- `f` has second derivative `c` at `x`. -/
def HasD2 (f : ℝ → ℝ) (x c : ℝ) : Prop :=
  ∃ f1 : ℝ → ℝ, (∀ᶠ b in 𝓝 x, HasDerivAt f (f1 b) b) ∧ HasDerivAt f1 c x

theorem HasD2.iteratedDeriv_eq {f : ℝ → ℝ} {x c : ℝ} (h : HasD2 f x c) : iteratedDeriv 2 f x = c := by
  obtain ⟨f1, h1, h2⟩ := h
  rw [iteratedDeriv_succ, iteratedDeriv_one]
  refine (h2.congr_of_eventuallyEq ?_).deriv
  filter_upwards [h1] with b hb
  exact hb.deriv

theorem HasD2.add {f g : ℝ → ℝ} {x c d : ℝ} (hf : HasD2 f x c) (hg : HasD2 g x d) :
    HasD2 (fun y => f y + g y) x (c + d) := by
  obtain ⟨f1, a1, a2⟩ := hf
  obtain ⟨g1, b1, b2⟩ := hg
  refine ⟨fun y => f1 y + g1 y, ?_, a2.add b2⟩
  filter_upwards [a1, b1] with y h1 h2
  exact h1.add h2

theorem HasD2.const_mul {f : ℝ → ℝ} {x c : ℝ} (k : ℝ) (hf : HasD2 f x c) :
    HasD2 (fun y => k * f y) x (k * c) := by
  obtain ⟨f1, a1, a2⟩ := hf
  refine ⟨fun y => k * f1 y, ?_, a2.const_mul k⟩
  filter_upwards [a1] with y h1
  exact h1.const_mul k

theorem HasD2.congr {f g : ℝ → ℝ} {x c : ℝ} (hf : HasD2 f x c) (h : g =ᶠ[𝓝 x] f) : HasD2 g x c := by
  obtain ⟨f1, a1, a2⟩ := hf
  refine ⟨f1, ?_, a2⟩
  filter_upwards [a1, h.eventuallyEq_nhds] with y h1 h2
  exact h1.congr_of_eventuallyEq h2

end Teqp.Calc
