import Verif.Props.CubicSat
import Mathlib.Tactic

/-! # Alpha functions from documents -/

set_option autoImplicit false

namespace Teqp.Spec

/-- The alpha function of Twu and co-workers at the reduced temperature `τ` with coefficients `L`, `M`, `N`. -/
noncomputable def twuAlpha (L M N τ : ℝ) : ℝ := τ ^ (N * (M - 1)) * Real.exp (L * (1 - τ ^ (N * M)))

/-- The alpha function of Mathias and Copeman. -/
noncomputable def mathiasCopemanAlpha (c₁ c₂ c₃ τ : ℝ) : ℝ :=
  (1 + c₁ * (1 - Real.sqrt τ) + c₂ * (1 - Real.sqrt τ) ^ 2 + c₃ * (1 - Real.sqrt τ) ^ 3) ^ 2

/-- The alpha function of Peng and Robinson with the slope `κ`. -/
noncomputable def soaveAlpha (κ τ : ℝ) : ℝ := (1 + κ * (1 - Real.sqrt τ)) ^ 2

end Teqp.Spec

namespace Teqp.Props
open Teqp.Model Teqp.Spec

/-- C122. What one entry of the array of alpha functions stands for: three coefficients with the name of Twu, three coefficients with the names of Mathias and Copeman, or
an acentric factor with the year 1978; a longer list of coefficients is cut, a shorter one is read beyond its end, and another name is refused. -/
theorem alpha_document (Tc T : ℝ) (j : JTree) :
    (∀ L M N r, j.at "type" = .ok (.str "Twu") → (j.at "c").bind JTree.toRow = .ok (L :: M :: N :: r) →
      ∃ f, buildAlphaJson Tc j = .ok f ∧ f.Tc = Tc ∧ f.eval T = twuAlpha L M N (T / Tc)) ∧
    (∀ c₁ c₂ c₃ r, j.at "type" = .ok (.str "Mathias-Copeman") → (j.at "c").bind JTree.toRow = .ok (c₁ :: c₂ :: c₃ :: r) →
      ∃ f, buildAlphaJson Tc j = .ok f ∧ f.Tc = Tc ∧ f.eval T = mathiasCopemanAlpha c₁ c₂ c₃ (T / Tc)) ∧
    (∀ w, j.at "type" = .ok (.str "PR78") → j.at "acentric" = .ok (.num w) →
      ∃ f, buildAlphaJson Tc j = .ok f ∧ f.Tc = Tc ∧
        (w < 0.491 → f.eval T = soaveAlpha (0.37464 + 1.54226 * w - 0.26992 * w ^ 2) (T / Tc)) ∧
        (0.491 ≤ w → f.eval T = soaveAlpha (0.379642 + 1.48503 * w - 0.164423 * w ^ 2 + 0.016666 * w ^ 3) (T / Tc))) ∧
    (∀ t c, j.at "type" = .ok (.str t) → (t = "Twu" ∨ t = "Mathias-Copeman") → (j.at "c").bind JTree.toRow = .ok c → c.length < 3 → buildAlphaJson Tc j = .ub) ∧
    (∀ t, j.at "type" = .ok (.str t) → t ∉ ["Twu", "Mathias-Copeman", "PR78"] → buildAlphaJson Tc j = .throws .invalidArgument) := by
  refine ⟨fun L M N r ht hc => ?_, fun a b c r ht hc => ?_, fun w ht hw => ?_, fun t c ht h hc hl => ?_, fun t ht h => ?_⟩
  · refine ⟨.twu Tc L M N, ?_, rfl, ?_⟩
    · unfold buildAlphaJson
      rw [ht, Outcome.bind_ok, JTree.toStr, Outcome.bind_ok, if_pos rfl, hc, Outcome.bind_ok]
      rfl
    · simp only [AlphaFn.eval, twuAlpha, mul_comm M N]
  · refine ⟨.mathiasCopeman Tc a b c, ?_, rfl, ?_⟩
    · unfold buildAlphaJson
      rw [ht, Outcome.bind_ok, JTree.toStr, Outcome.bind_ok, if_neg (by decide), if_pos rfl, hc, Outcome.bind_ok]
      rfl
    · simp only [AlphaFn.eval, mathiasCopemanAlpha]
      ring
  · refine ⟨.basic Tc (mPR w), ?_, rfl, fun h => ?_, fun h => ?_⟩
    · unfold buildAlphaJson
      rw [ht, Outcome.bind_ok, JTree.toStr, Outcome.bind_ok, if_neg (by decide), if_neg (by decide), if_pos rfl, hw, Outcome.bind_ok]
      rfl
    · simp only [AlphaFn.eval, soaveAlpha, mPR, if_pos h]
    · simp only [AlphaFn.eval, soaveAlpha, mPR, if_neg (not_lt.2 h)]
  · unfold buildAlphaJson
    rw [ht, Outcome.bind_ok, JTree.toStr, Outcome.bind_ok, hc, Outcome.bind_ok, Outcome.bind_ok]
    match c, hl with
    | [], _ => rcases h with rfl | rfl <;> simp [buildAlpha]
    | [_], _ => rcases h with rfl | rfl <;> simp [buildAlpha]
    | [_, _], _ => rcases h with rfl | rfl <;> simp [buildAlpha]
  · simp only [List.mem_cons, List.not_mem_nil, or_false, not_or] at h
    unfold buildAlphaJson
    rw [ht, Outcome.bind_ok, JTree.toStr, Outcome.bind_ok, if_neg h.1, if_neg h.2.1, if_neg h.2.2]
    rfl

example : ∃ f, buildAlphaJson 300 (.obj [("type", .str "Mathias-Copeman"), ("c", .arr [.num 0.5, .num 0.25, .num 2])]) = .ok f ∧ f.Tc = 300 ∧ f.eval 75 = (1 + 0.25 + 0.0625 + 0.25) ^ 2 := by
  obtain ⟨f, h1, h2, h3⟩ := (alpha_document 300 75 (.obj [("type", .str "Mathias-Copeman"), ("c", .arr [.num 0.5, .num 0.25, .num 2])])).2.1 0.5 0.25 2 [] rfl rfl
  refine ⟨f, h1, h2, h3.trans ?_⟩
  unfold mathiasCopemanAlpha
  rw [show (75 : ℝ) / 300 = (1 / 2) ^ 2 by norm_num, Real.sqrt_sq (by norm_num)]
  norm_num

example : buildAlphaJson 300 (.obj [("type", .str "Soave"), ("c", .arr [.num 0.5])]) = .throws .invalidArgument :=
  (alpha_document 300 75 _).2.2.2.2 "Soave" rfl (by decide)

example : buildAlphaJson 300 (.obj [("type", .str "Twu"), ("c", .arr [.num 0.5])]) = .ub :=
  (alpha_document 300 75 _).2.2.2.1 "Twu" [0.5] rfl (.inl rfl) rfl (by decide)

/-- C122. A document whose array of alpha functions has entries of the three kinds gives the model whose functions are those of the entries, in their order. -/
theorem alpha_documents (Tc : List ℝ) (js : List JTree) (fs : List AlphaFn) (h : buildAlphasJson Tc (.arr js) = .ok fs) :
    js.length = Tc.length ∧ fs.length = Tc.length ∧ ∀ i (hi : i < Tc.length) (hj : i < js.length) (hf : i < fs.length), buildAlphaJson Tc[i] js[i] = .ok fs[i] := by
  unfold buildAlphasJson at h
  have hs : (JTree.arr js).size = js.length := rfl
  have hit : (JTree.arr js).items = js := rfl
  rw [hs, hit] at h
  split_ifs at h with hl
  have hl' : js.length = Tc.length := not_not.1 hl
  have key : ∀ (l : List (ℝ × JTree)) (fs : List AlphaFn), mapOutcome (fun p => buildAlphaJson p.1 p.2) l = .ok fs →
      fs.length = l.length ∧ ∀ i (hi : i < l.length) (hf : i < fs.length), buildAlphaJson l[i].1 l[i].2 = .ok fs[i] := by
    intro l
    induction l with
    | nil =>
      intro fs h
      simp only [mapOutcome, Outcome.ok.injEq] at h
      subst h
      exact ⟨rfl, fun i hi => absurd hi (by simp)⟩
    | cons a l ih =>
      intro fs h
      simp only [mapOutcome] at h
      obtain ⟨b, hb, h⟩ := Outcome.bind_eq_ok.1 h
      obtain ⟨bs, hbs, h⟩ := Outcome.bind_eq_ok.1 h
      injection h with h
      subst h
      obtain ⟨e1, e2⟩ := ih bs hbs
      refine ⟨by simp [e1], fun i hi hf => ?_⟩
      cases i with
      | zero => exact hb
      | succ i => exact e2 i (by simpa using hi) (by simpa using hf)
  obtain ⟨e1, e2⟩ := key _ _ h
  refine ⟨hl', by rw [e1, List.length_zip, hl', min_self], fun i hi hj hf => ?_⟩
  have := e2 i (by rw [List.length_zip]; omega) hf
  rwa [List.getElem_zip] at this

example : ∃ fs, buildAlphasJson [300, 400] (.arr [.obj [("type", .str "Twu"), ("c", .arr [.num 1, .num 2, .num 3])], .obj [("type", .str "PR78"), ("acentric", .num 0.5)]]) = .ok fs
    ∧ fs.length = 2 := ⟨_, rfl, rfl⟩

end Teqp.Props
