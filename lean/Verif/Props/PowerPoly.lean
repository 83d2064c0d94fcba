import Verif.Props.PowerSplit

/-! # Power terms without exponents `l` (C28) -/

set_option autoImplicit false

namespace Teqp.Props
open Teqp.Model Teqp.Spec

theorem splitPower_zero (N : ℕ) (n t d : List ℝ) (c : Bool) :
    splitPower (powerEntries N n t d (List.replicate N 0)) c = .ok [.justPower ((powerEntries N n t d (List.replicate N 0)).map PowerEntry.toPoly)] := by
  have h0 : ∀ e ∈ powerEntries N n t d (List.replicate N 0), e.l = 0 := by
    intro e he
    obtain ⟨i, hi, rfl⟩ := List.mem_map.mp he
    simp [List.getElem?_replicate, List.mem_range.mp hi]
  have hs : ((powerEntries N n t d (List.replicate N 0)).map PowerEntry.l).sum = 0 :=
    List.sum_eq_zero fun x hx => by
      obtain ⟨e, he, rfl⟩ := List.mem_map.mp hx
      exact h0 e he
  unfold splitPower
  rw [if_neg, if_pos hs]
  rintro ⟨e, he, h⟩
  rw [h0 e he] at h
  exact h (by simp [castInt])

theorem poly_value (N : ℕ) (n t d : List ℝ) (τ δ : ℝ) (hτ : 0 < τ) (hδ : 0 < δ) :
    containerAlphar [.justPower ((powerEntries N n t d (List.replicate N 0)).map PowerEntry.toPoly)] τ δ
      = listed N fun i => polySummand (n.getD i 0) (t.getD i 0) (d.getD i 0) τ δ := by
  rw [container_one, alphar_pos _ _ _ hτ hδ]
  simp only [ResTerm.doc, List.map_map, Function.comp_def, powerEntries, listed]
  rfl

/-- C28. A document without the array `l`, or with an empty one, gives the plain polynomial `∑ n τ^t δ^d` for pure fluids and for departure functions; in a
departure function the three arrays must have one length. -/
theorem power_without_l (o : JObj) (A : String → List ℝ) (h : HasArrays o ["n", "t", "d"] A) (hne : A "n" ≠ [])
    (hl : o.lookup "l" = none ∨ o.lookup "l" = some (.arr [])) (hlen : (A "t").length = (A "n").length ∧ (A "d").length = (A "n").length) :
    (∃ ts, buildPowerPure o = .ok ts ∧ ∀ τ δ, 0 < τ → 0 < δ → containerAlphar ts τ δ =
      listed (A "n").length fun i => polySummand (ent A "n" i) (ent A "t" i) (ent A "d" i) τ δ) ∧
    ∃ ts, buildPowerDep o = .ok ts ∧ ∀ τ δ, 0 < τ → 0 < δ → containerAlphar ts τ δ =
      listed (A "n").length fun i => polySummand (ent A "n" i) (ent A "t" i) (ent A "d" i) τ δ := by
  have hn := h "n" (by simp)
  have ht := h "t" (by simp)
  have hd := h "d" (by simp)
  have hN : (A "n").length ≠ 0 := fun e => hne (List.length_eq_zero_iff.mp e)
  have ht0 : A "t" ≠ [] := fun e => hN (by rw [← hlen.1, e]; rfl)
  have hd0 : A "d" ≠ [] := fun e => hN (by rw [← hlen.2, e]; rfl)
  have hem : o.isEmpty "l" = true := by
    unfold JObj.isEmpty
    rcases hl with hl | hl <;> rw [hl]
  have hel : eigOrZero o "l" (A "n").length = .ok (List.replicate (A "n").length 0) := by
    unfold eigOrZero
    rw [if_pos hem]
  constructor
  · refine ⟨_, ?_, fun τ δ hτ hδ => poly_value _ (A "n") (A "t") (A "d") τ δ hτ hδ⟩
    unfold buildPowerPure
    rw [arr_lookup o "n" _ hn]
    simp only
    rw [eigOrZero_arr o "n" _ hn, eigOrZero_arr o "t" _ ht, eigOrZero_arr o "d" _ hd, hel]
    simp only [Outcome.bind_ok]
    rw [if_neg hne, if_neg ht0, if_neg hd0, if_neg (by rw [hlen.1, hlen.2]; simp), splitPower_zero]
  · refine ⟨_, ?_, fun τ δ hτ hδ => poly_value _ (A "n") (A "t") (A "d") τ δ hτ hδ⟩
    unfold buildPowerDep
    rw [arr_lookup o "n" _ hn]
    simp only
    rw [if_neg hN, eigOrZero_arr o "n" _ hn, eigOrZero_arr o "t" _ ht, eigOrZero_arr o "d" _ hd, hel, hem]
    have hs := allSameLength_eq o A "n" ["t", "d"] h
    have hsz : decide (∀ k' ∈ ["t", "d"], (A k').length = (A "n").length) = true := by simp [hlen.1, hlen.2]
    rw [hsz] at hs
    simp only [Outcome.bind_ok, if_true]
    rw [hs]
    simp only [Outcome.bind_ok]
    rw [if_neg (by simp), if_neg hne, if_neg ht0, if_neg hd0, if_neg (by simp), splitPower_zero]

/-- Two terms without exponents. -/
noncomputable def polyDoc : JObj := [("n", .arr [1, 2]), ("t", .arr [0.25, 1]), ("d", .arr [1, 2])]

example : ∃ ts, buildPowerDep polyDoc = .ok ts ∧ containerAlphar ts 1 2 = 1 * 2 ^ (1 : ℝ) * 1 ^ (0.25 : ℝ) + 2 * 2 ^ (2 : ℝ) * 1 ^ (1 : ℝ) := by
  obtain ⟨-, ts, h, hv⟩ := power_without_l polyDoc (fun k => if k = "n" then [1, 2] else if k = "t" then [0.25, 1] else [1, 2])
    (by intro k hk; simp only [List.mem_cons, List.not_mem_nil, or_false] at hk; rcases hk with rfl | rfl | rfl <;> rfl) (by simp) (Or.inl rfl) (by simp)
  refine ⟨ts, h, ?_⟩
  rw [hv 1 2 one_pos two_pos]
  simp [listed, polySummand, List.range_succ]

end Teqp.Props
