import Verif.Model.CorrInt
import Verif.Lemmas.Outcome
import Mathlib.Tactic

/-! # Which correlation integrals there are -/

set_option autoImplicit false

namespace Teqp.Props
open Teqp.Model

theorem mapAt_cases {κ β : Type} [DecidableEq κ] (t : List (κ × β)) (k : κ) :
    (∃ p ∈ t, p.1 = k ∧ mapAt t k = .ok p.2) ∨ (k ∉ t.map Prod.fst ∧ mapAt t k = .throws .stdOutOfRange) := by
  unfold mapAt
  cases h : t.find? (fun p => decide (p.1 = k)) with
  | some p =>
    left
    exact ⟨p, List.mem_of_find?_eq_some h, by simpa using List.find?_some h, rfl⟩
  | none =>
    right
    rw [List.find?_eq_none] at h
    refine ⟨?_, rfl⟩
    intro hk
    obtain ⟨p, hp, e⟩ := List.mem_map.1 hk
    have := h p hp
    simp [e] at this

theorem mapAt_nodup {κ β : Type} [DecidableEq κ] (t : List (κ × β)) (h : (t.map Prod.fst).Nodup) (p : κ × β) (hp : p ∈ t) :
    mapAt t p.1 = .ok p.2 := by
  rcases mapAt_cases t p.1 with ⟨q, hq, e, r⟩ | ⟨hn, _⟩
  · rw [r, List.inj_on_of_nodup_map h hq hp e]
  · exact absurd (List.mem_map.2 ⟨p, hp, rfl⟩) hn

example : mapAt [(1, "a"), (2, "b"), (1, "c")] 1 = .ok "a" ∧ mapAt [(1, "a")] 2 = .throws .stdOutOfRange := ⟨rfl, rfl⟩

/-- Every row of every table has as many coefficients as the array it initialises. -/
theorem corr_rows : (∀ p ∈ luckasJTable, p.2.length = 12) ∧ (∀ p ∈ luckasKTable, p.2.length = 16) ∧
    (∀ p ∈ gtJTable, p.2.length = 6) ∧ (∀ p ∈ gtKTable, p.2.length = 6) ∧ (∀ p ∈ gottJTable, p.2.length = 35) ∧
    ∀ p ∈ gottKTable, p.2.length = 40 := by
  refine ⟨?_, ?_, ?_, ?_, ?_, ?_⟩ <;> decide +kernel

theorem luckasJ_keys : luckasJTable.map Prod.fst = [4, 5, 6, 7, 8, 9, 10, 11, 12, 13, 14, 15] := by decide +kernel
theorem luckasK_keys : luckasKTable.map Prod.fst = [(222, 333), (233, 344), (334, 445), (444, 555)] := by decide +kernel
theorem gtK_keys : gtKTable.map Prod.fst = [(222, 333), (233, 344), (334, 445), (444, 555), (666, 777)] := by decide +kernel
theorem gottJ_keys : gottJTable.map Prod.fst = (List.range 33).map (fun i : ℕ => (i : ℤ) + 4) := by decide +kernel
theorem gtJ_keys : gtJTable.map Prod.fst = (List.range 21).map (fun i : ℕ => (i : ℤ) + 4) ++ [15, 16, 17, 18, 19] ++
    (List.range 7).map (fun i : ℕ => (i : ℤ) + 30) := by decide +kernel
theorem gottK_nodup : (gottKTable.map Prod.fst).Nodup := by decide +kernel

/-- **Every row of the tables of Luckas, of Gottschalk and of the `K` of Gubbins and Twu is served under the key it is listed
with.** -/
theorem corr_served : (∀ p ∈ luckasJTable, LuckasJ.make p.1 = .ok ⟨p.1, p.2⟩) ∧
    (∀ p ∈ luckasKTable, LuckasK.make p.1.1 p.1.2 = .ok ⟨p.1.1, p.1.2, p.2⟩) ∧
    (∀ p ∈ gtKTable, ∃ s, GTK.make p.1.1 p.1.2 = .ok ⟨p.1.1, p.1.2, p.2, s⟩) ∧
    (∀ p ∈ gottJTable, GottJ.make p.1 = .ok ⟨p.1, p.2⟩) ∧
    (∀ p ∈ gottKTable, GottK.ofTuples p.1.1 p.1.2 = .ok ⟨p.1.1, p.1.2, p.2⟩) := by
  refine ⟨fun p hp => ?_, fun p hp => ?_, fun p hp => ?_, fun p hp => ?_, fun p hp => ?_⟩
  · unfold LuckasJ.make
    rw [mapAt_nodup _ (by rw [luckasJ_keys]; decide) p hp]; rfl
  · unfold LuckasK.make
    have := mapAt_nodup _ (by rw [luckasK_keys]; decide) p hp
    rw [show (p.1.1, p.1.2) = p.1 from rfl, this]; rfl
  · unfold GTK.make
    have := mapAt_nodup _ (by rw [gtK_keys]; decide) p hp
    rw [show (p.1.1, p.1.2) = p.1 from rfl, this]; exact ⟨_, rfl⟩
  · unfold GottJ.make
    rw [mapAt_nodup _ (by rw [gottJ_keys]; decide) p hp]; rfl
  · unfold GottK.ofTuples
    have := mapAt_nodup _ gottK_nodup p hp
    rw [show (p.1.1, p.1.2) = p.1 from rfl, this]; rfl

/-- **Which of the `J` there are**: Luckas has `n` from 4 to 15, Gottschalk from 4 to 36, and any other `n` is refused. -/
theorem corrJ_domain (n : ℤ) :
    ((4 ≤ n ∧ n ≤ 15 ∧ ∃ a, LuckasJ.make n = .ok ⟨n, a⟩) ∨ (¬(4 ≤ n ∧ n ≤ 15) ∧ LuckasJ.make n = .throws .stdOutOfRange)) ∧
    ((4 ≤ n ∧ n ≤ 36 ∧ ∃ a, GottJ.make n = .ok ⟨n, a⟩) ∨ (¬(4 ≤ n ∧ n ≤ 36) ∧ GottJ.make n = .throws .stdOutOfRange)) := by
  constructor
  · unfold LuckasJ.make
    rcases mapAt_cases luckasJTable n with ⟨p, hp, e, r⟩ | ⟨hn, r⟩
    · left
      have h : p.1 ∈ luckasJTable.map Prod.fst := List.mem_map.2 ⟨p, hp, rfl⟩
      rw [luckasJ_keys] at h
      simp at h
      exact ⟨by omega, by omega, p.2, by rw [r]; rfl⟩
    · right
      rw [luckasJ_keys] at hn
      simp at hn
      exact ⟨by omega, by rw [r]; rfl⟩
  · unfold GottJ.make
    rcases mapAt_cases gottJTable n with ⟨p, hp, e, r⟩ | ⟨hn, r⟩
    · left
      have h : p.1 ∈ gottJTable.map Prod.fst := List.mem_map.2 ⟨p, hp, rfl⟩
      rw [gottJ_keys, List.mem_map] at h
      obtain ⟨i, hi, e'⟩ := h
      have := List.mem_range.1 hi
      exact ⟨by omega, by omega, p.2, by rw [r]; rfl⟩
    · right
      refine ⟨fun h => hn ?_, by rw [r]; rfl⟩
      rw [gottJ_keys, List.mem_map]
      exact ⟨(n - 4).toNat, List.mem_range.2 (by omega), by omega⟩

example : LuckasJ.make 16 = .throws .stdOutOfRange := by
  rcases (corrJ_domain 16).1 with h | h
  · omega
  · exact h.2

/-- The row meant for `n`: the table lists the rows in order, beginning with that of 4. -/
def gtRow (n : ℤ) : List ℚ := ((gtJTable[(n - 4).toNat]?).map Prod.snd).getD []

/-- **Which of the `J` of Gubbins and Twu there are** (partial: the table lists 33 rows, for `n` from 4 to 36, but labels those of
25 to 29 with 15 to 19 a second time; what is served is right for all others). -/
theorem gtJ_domain_partial (n : ℤ) (h : (4 ≤ n ∧ n ≤ 24) ∨ (30 ≤ n ∧ n ≤ 36)) : GTJ.make n = .ok ⟨n, gtRow n⟩ := by
  have key : ∀ i : Fin 33, (i.val ≤ 20 ∨ 26 ≤ i.val) → GTJ.make ((i.val : ℤ) + 4) = .ok ⟨(i.val : ℤ) + 4, gtRow ((i.val : ℤ) + 4)⟩ := by
    intro i hi
    fin_cases i <;> first | rfl | (exfalso; revert hi; decide)
  have := key ⟨(n - 4).toNat, by omega⟩ (by simp only; omega)
  simp only [Int.toNat_of_nonneg (show 0 ≤ n - 4 by omega), sub_add_cancel] at this
  exact this

/-- **Five rows of the table of Gubbins and Twu are never used**: the rows at the places of 25 to 29 are listed, but those `n` are
refused and no other `n` gets them. -/
theorem gtJ_rows_lost (n : ℤ) (h : 25 ≤ n ∧ n ≤ 29) : GTJ.make n = .throws .stdOutOfRange ∧ gtRow n ∈ gtJTable.map Prod.snd ∧
    ∀ m o, GTJ.make m = .ok o → o.a ≠ gtRow n := by
  have hkeys : ∀ m o, GTJ.make m = .ok o → (4 ≤ m ∧ m ≤ 24) ∨ (30 ≤ m ∧ m ≤ 36) := by
    intro m o hm
    unfold GTJ.make at hm
    rcases mapAt_cases gtJTable m with ⟨p, hp, e, r⟩ | ⟨hn, r⟩
    · have h : p.1 ∈ gtJTable.map Prod.fst := List.mem_map.2 ⟨p, hp, rfl⟩
      rw [gtJ_keys] at h
      simp only [List.mem_append, List.mem_map, List.mem_range] at h
      rcases h with (⟨i, hi, e'⟩ | h) | ⟨i, hi, e'⟩
      · omega
      · simp at h; omega
      · omega
    · rw [r] at hm; cases hm
  refine ⟨?_, ?_, ?_⟩
  · rcases mapAt_cases gtJTable n with ⟨p, hp, e, r⟩ | ⟨hn, r⟩
    · have := hkeys n ⟨n, p.2⟩ (by unfold GTJ.make; rw [r]; rfl)
      omega
    · unfold GTJ.make
      rw [r]; rfl
  · obtain ⟨k, hk, rfl⟩ : ∃ k : ℕ, k < 5 ∧ n = (k : ℤ) + 25 := ⟨(n - 25).toNat, by omega, by omega⟩
    have : ∀ k : Fin 5, gtRow ((k.val : ℤ) + 25) ∈ gtJTable.map Prod.snd := by decide +kernel
    exact this ⟨k, hk⟩
  · intro m o hm
    have hmr := hkeys m o hm
    rw [gtJ_domain_partial m hmr] at hm
    have : o = ⟨m, gtRow m⟩ := (Outcome.ok.inj hm).symm
    subst this
    obtain ⟨k, hk, rfl⟩ : ∃ k : ℕ, k < 5 ∧ n = (k : ℤ) + 25 := ⟨(n - 25).toNat, by omega, by omega⟩
    obtain ⟨l, hl, rfl⟩ : ∃ l : ℕ, l < 33 ∧ m = (l : ℤ) + 4 := ⟨(m - 4).toNat, by omega, by omega⟩
    have : ∀ (k : Fin 5) (l : Fin 33), (l.val ≤ 20 ∨ 26 ≤ l.val) → gtRow ((l.val : ℤ) + 4) ≠ gtRow ((k.val : ℤ) + 25) := by decide +kernel
    exact this ⟨k, hk⟩ ⟨l, hl⟩ (by simp only; omega)

example : GTJ.make 27 = .throws .stdOutOfRange := (gtJ_rows_lost 27 (by norm_num)).1

/-- **The numbers naming the `K` of Gottschalk are split into digits**, and refused when they are not of three digits of at least
222. -/
theorem gottK_digits (a b c d e f : ℤ) (ha : 0 ≤ a ∧ a ≤ 9) (hb : 0 ≤ b ∧ b ≤ 9) (hc : 0 ≤ c ∧ c ≤ 9) (hd : 0 ≤ d ∧ d ≤ 9)
    (he : 0 ≤ e ∧ e ≤ 9) (hf : 0 ≤ f ∧ f ≤ 9) (h1 : 222 ≤ 100 * a + 10 * b + c) (h2 : 222 ≤ 100 * d + 10 * e + f) :
    GottK.make (100 * a + 10 * b + c) (100 * d + 10 * e + f) = GottK.ofTuples (a, b, c) (d, e, f) := by
  unfold GottK.make int2key
  rw [if_neg (by omega), if_neg (by omega), if_neg (by omega), if_neg (by omega)]
  have e1 : (100 * a + 10 * b + c) / 100 % 10 = a := by omega
  have e2 : (100 * a + 10 * b + c) / 10 % 10 = b := by omega
  have e3 : (100 * a + 10 * b + c) % 10 = c := by omega
  have e4 : (100 * d + 10 * e + f) / 100 % 10 = d := by omega
  have e5 : (100 * d + 10 * e + f) / 10 % 10 = e := by omega
  have e6 : (100 * d + 10 * e + f) % 10 = f := by omega
  rw [e1, e2, e3, e4, e5, e6]
  rfl

theorem gottK_refused (i j : ℤ) (h : i < 222 ∨ 999 < i ∨ j < 222 ∨ 999 < j) : GottK.make i j = .throws .invalidArgument := by
  unfold GottK.make int2key
  by_cases h1 : i < 222
  · rw [if_pos h1]; rfl
  by_cases h2 : i > 999
  · rw [if_neg h1, if_pos h2]; rfl
  rw [if_neg h1, if_neg h2, Outcome.bind_ok]
  by_cases h3 : j < 222
  · rw [if_pos h3]; rfl
  have h4 : j > 999 := by omega
  rw [if_neg h3, if_pos h4]; rfl

example : ∃ o, GottK.make 222 336 = .ok o := by
  have := gottK_digits 2 2 2 3 3 6 (by norm_num) (by norm_num) (by norm_num) (by norm_num) (by norm_num) (by norm_num) (by norm_num) (by norm_num)
  norm_num at this
  rw [this]
  exact ⟨_, rfl⟩

end Teqp.Props
