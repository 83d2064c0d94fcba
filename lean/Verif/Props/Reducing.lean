import Verif.Lemmas.Reducing
import Mathlib.Tactic.NormNum
import Mathlib.Topology.Order.Basic
import Mathlib.Topology.Algebra.Monoid
import Mathlib.Analysis.SpecialFunctions.Sqrt

/-! # C24 (parameter look-up), C25 (reducing functions), C26 (xi/zeta), C32 (mutants) -/

set_option autoImplicit false

namespace Teqp.Props
open Teqp.Model Teqp.Lemmas

/-! ## C24 -/

theorem orderedMatch_swap (a b s1 s2 : String) (hab : a ≠ b) :
    orderedMatch b a s1 s2 = (orderedMatch a b s1 s2).map not := by
  unfold orderedMatch
  by_cases h1 : a = s1 ∧ b = s2
  · rw [if_pos h1, if_neg, if_pos ⟨h1.2, h1.1⟩]
    · rfl
    · rintro ⟨e1, e2⟩
      exact hab (by rw [h1.1, e1])
  · rw [if_neg h1]
    by_cases h2 : a = s2 ∧ b = s1
    · rw [if_pos h2, if_pos ⟨h2.2, h2.1⟩]; rfl
    · rw [if_neg h2, if_neg (fun h => h2 ⟨h.2, h.1⟩), if_neg (fun h => h1 ⟨h.2, h.1⟩)]; rfl

/-- Reverse the order flag of a search result. -/
def flipResult (r : Outcome (Option (BIPEntry × Bool))) : Outcome (Option (BIPEntry × Bool)) :=
  r.bind fun o => .ok (o.map fun p => (p.1, !p.2))

theorem hashPass_swap (a b : String) (hab : a ≠ b) (col : List BIPEntry) :
    hashPass b a col = flipResult (hashPass a b col) := by
  induction col with
  | nil => rfl
  | cons el els ih =>
    unfold hashPass
    split
    · exact ih
    · cases h1 : optAt el.hash1 with
      | ok n1 =>
        cases h2 : optAt el.hash2 with
        | ok n2 =>
          simp only [Outcome.bind_ok]
          rw [orderedMatch_swap a b _ _ hab]
          cases orderedMatch a b n1.toUpper n2.toUpper with
          | none => exact ih
          | some s => rfl
        | throws e => rfl
        | ub => rfl
        | nonFinite => rfl
      | throws e => rfl
      | ub => rfl
      | nonFinite => rfl

theorem namePass_swap (a b : String) (hab : a ≠ b) (col : List BIPEntry) :
    namePass b a col = flipResult (namePass a b col) := by
  induction col with
  | nil => rfl
  | cons el els ih =>
    unfold namePass
    cases h1 : optAt el.name1 with
    | ok n1 =>
      cases h2 : optAt el.name2 with
      | ok n2 =>
        simp only [Outcome.bind_ok]
        rw [orderedMatch_swap a b _ _ hab]
        cases orderedMatch a b n1.toUpper n2.toUpper with
        | none => exact ih
        | some s => rfl
      | throws e => rfl
      | ub => rfl
      | nonFinite => rfl
    | throws e => rfl
    | ub => rfl
    | nonFinite => rfl

theorem casPass_swap (a b : String) (hab : a ≠ b) (col : List BIPEntry) :
    casPass b a col = flipResult (casPass a b col) := by
  induction col with
  | nil => rfl
  | cons el els ih =>
    unfold casPass
    cases h1 : optAt el.cas1 with
    | ok n1 =>
      cases h2 : optAt el.cas2 with
      | ok n2 =>
        simp only [Outcome.bind_ok]
        rw [orderedMatch_swap a b _ _ hab]
        cases orderedMatch a b n1 n2 with
        | none => exact ih
        | some s => rfl
      | throws e => rfl
      | ub => rfl
      | nonFinite => rfl
    | throws e => rfl
    | ub => rfl
    | nonFinite => rfl

theorem estimateBIP_ok (s : Option String) (r : BIPEntry × Bool) (h : estimateBIP s = .ok r) :
    r = (lorentzBerthelot, false) := by
  unfold estimateBIP at h
  split at h <;> simp at h
  exact h.symm

/-- C24. Naming the pair in the other order finds the same entry, with the order flag reversed (an
estimated entry has no order); failures are the same as well. -/
theorem getBIPdep_order (col : List BIPEntry) (A B : String) (flags : BIPFlags)
    (hAB : A.toUpper ≠ B.toUpper) :
    (∀ el s, getBIPdep col A B flags = .ok (el, s) → ∃ s', getBIPdep col B A flags = .ok (el, s') ∧
      (s' = !s ∨ (el = lorentzBerthelot ∧ s = false ∧ s' = false))) ∧
    (∀ e, getBIPdep col A B flags = .throws e → getBIPdep col B A flags = .throws e) := by
  have hne : A ≠ B := fun h => hAB (by rw [h])
  unfold getBIPdep
  rw [hashPass_swap _ _ hAB, namePass_swap _ _ hAB, casPass_swap _ _ hne]
  by_cases hf : flags.forceEstimate
  · simp only [hf, if_true]
    refine ⟨fun el s h => ?_, fun e h => h⟩
    have := estimateBIP_ok _ _ h
    injection this with h1 h2
    exact ⟨s, h, .inr ⟨h1, h2, h2⟩⟩
  · simp only [hf, Bool.false_eq_true, if_false]
    generalize hashPass A.toUpper B.toUpper col = r0
    generalize namePass A.toUpper B.toUpper col = r1
    generalize casPass A B col = r2
    cases r0 with
    | throws e => simp [flipResult]
    | ub => simp [flipResult]
    | nonFinite => simp [flipResult]
    | ok o0 =>
      cases o0 with
      | some p => simp only [flipResult, Outcome.bind_ok, Option.map_some]; exact ⟨fun el s h => ⟨!s, by injection h with h; subst h; rfl, .inl rfl⟩, fun e h => by simp at h⟩
      | none =>
        cases r1 with
        | throws e => simp [flipResult]
        | ub => simp [flipResult]
        | nonFinite => simp [flipResult]
        | ok o1 =>
          cases o1 with
          | some p => simp only [flipResult, Outcome.bind_ok, Option.map_some]; exact ⟨fun el s h => ⟨!s, by injection h with h; subst h; rfl, .inl rfl⟩, fun e h => by simp at h⟩
          | none =>
            cases r2 with
            | throws e => simp [flipResult]
            | ub => simp [flipResult]
            | nonFinite => simp [flipResult]
            | ok o2 =>
              cases o2 with
              | some p => simp only [flipResult, Outcome.bind_ok, Option.map_some]; exact ⟨fun el s h => ⟨!s, by injection h with h; subst h; rfl, .inl rfl⟩, fun e h => by simp at h⟩
              | none =>
                simp only [flipResult, Outcome.bind_ok, Option.map_none]
                split
                · refine ⟨fun el s h => ?_, fun e h => h⟩
                  have := estimateBIP_ok _ _ h
                  injection this with h1 h2
                  exact ⟨s, h, .inr ⟨h1, h2, h2⟩⟩
                · exact ⟨fun el s h => by simp at h, fun e h => h⟩

theorem bipOfEntry_swap (el : BIPEntry) (s : Bool) (Ta Tb va vb : ℝ) (p : BIP)
    (hp : bipOfEntry el s Ta Tb va vb = .ok p) (hT : p.betaT ≠ 0) (hV : p.betaV ≠ 0) :
    bipOfEntry el (!s) Tb Ta vb va = .ok ⟨1 / p.betaT, p.gammaT, 1 / p.betaV, p.gammaV⟩ := by
  have hxz : ∀ xi zeta : ℝ, (⟨1, 0.5 * (Ta + Tb + xi) / (2 * Real.sqrt (Ta * Tb)), 1,
        4 * (va + vb + zeta) /
          (0.25 * (1 / (1 / va) ^ (1 / 3 : ℝ) + 1 / (1 / vb) ^ (1 / 3 : ℝ)) ^ 3)⟩ : BIP) = p →
      (⟨1, 0.5 * (Tb + Ta + xi) / (2 * Real.sqrt (Tb * Ta)), 1,
        4 * (vb + va + zeta) /
          (0.25 * (1 / (1 / vb) ^ (1 / 3 : ℝ) + 1 / (1 / va) ^ (1 / 3 : ℝ)) ^ 3)⟩ : BIP)
        = ⟨1 / p.betaT, p.gammaT, 1 / p.betaV, p.gammaV⟩ := by
    rintro xi zeta rfl
    simp only [BIP.mk.injEq, div_one, true_and]
    refine ⟨?_, ?_⟩
    · rw [mul_comm Tb Ta, add_comm Tb Ta]
    · rw [add_comm vb va, add_comm (1 / (1 / vb) ^ (1 / 3 : ℝ))]
  unfold bipOfEntry at hp ⊢
  rcases h1 : el.betaT with _ | bT <;> rcases h2 : el.gammaT with _ | gT <;>
    rcases h3 : el.betaV with _ | bV <;> rcases h4 : el.gammaV with _ | gV <;>
    simp only [h1, h2, h3, h4] at hp ⊢ <;>
    first
    | (cases s with
      | false =>
        simp only [Bool.false_eq_true, if_false, Outcome.ok.injEq] at hp
        subst hp
        simp only [Bool.not_false, if_true]
        rw [if_neg (not_or.mpr ⟨hT, hV⟩)]
      | true =>
        simp only [if_true] at hp
        split at hp
        · simp at hp
        · simp only [Outcome.ok.injEq] at hp
          subst hp
          simp)
    | (rcases h5 : el.xi with _ | xi <;> rcases h6 : el.zeta with _ | zeta <;>
        simp only [h5, h6, reduceCtorEq, Outcome.ok.injEq] at hp ⊢
       exact hxz _ _ hp)

/-- C24. The parameters of (A,B) and (B,A): reciprocal `beta`, equal `gamma`. -/
theorem pair_order (col : List BIPEntry) (A B : String) (flags : BIPFlags) (Ta Tb va vb : ℝ) (p : BIP)
    (hAB : A.toUpper ≠ B.toUpper) (hp : getBinaryInteraction col A B flags Ta Tb va vb = .ok p)
    (hT : p.betaT ≠ 0) (hV : p.betaV ≠ 0) :
    getBinaryInteraction col B A flags Tb Ta vb va
      = .ok ⟨1 / p.betaT, p.gammaT, 1 / p.betaV, p.gammaV⟩ := by
  unfold getBinaryInteraction at hp ⊢
  cases hr : getBIPdep col A B flags with
  | throws e => rw [hr] at hp; simp at hp
  | ub => rw [hr] at hp; simp at hp
  | nonFinite => rw [hr] at hp; simp at hp
  | ok r =>
    obtain ⟨el, s⟩ := r
    obtain ⟨s', hs', hcase⟩ := (getBIPdep_order col A B flags hAB).1 el s hr
    rw [hr] at hp
    rw [hs']
    simp only [Outcome.bind_ok] at hp ⊢
    rcases hcase with rfl | ⟨rfl, rfl, rfl⟩
    · exact bipOfEntry_swap el s Ta Tb va vb p hp hT hV
    · simp only [bipOfEntry, lorentzBerthelot, Bool.false_eq_true, if_false, Outcome.ok.injEq] at hp ⊢
      subst hp
      simp

/-- An entry used in the examples. -/
noncomputable def sampleBIP : BIPEntry where
  name1 := some "E"
  name2 := some "m"
  cas1 := some "74-84-0"
  cas2 := some "74-82-8"
  betaT := some 2
  gammaT := some 3
  betaV := some 4
  gammaV := some 5
  F := some 0

/-- Another entry for the same pair, found by hash. -/
noncomputable def sampleHashBIP : BIPEntry where
  hash1 := some "m"
  hash2 := some "E"
  name1 := some "x"
  name2 := some "y"
  cas1 := some "z"
  cas2 := some "w"
  betaT := some 7
  gammaT := some 8
  betaV := some 9
  gammaV := some 10
  F := some 0

theorem lookup_by_name (el : BIPEntry) (A B n1 n2 : String) (s : Bool) (h0 : el.hash1 = none)
    (h1 : el.name1 = some n1) (h2 : el.name2 = some n2)
    (hm : orderedMatch A.toUpper B.toUpper n1.toUpper n2.toUpper = some s) :
    getBIPdep [el] A B {} = .ok (el, s) := by
  have e0 : hashPass A.toUpper B.toUpper [el] = .ok none := by
    rw [hashPass, h0]; rfl
  have e1 : namePass A.toUpper B.toUpper [el] = .ok (some (el, s)) := by
    rw [namePass, h1, h2]
    simp only [optAt, Outcome.bind_ok, hm]
  unfold getBIPdep
  rw [if_neg (by simp), e0, Outcome.bind_ok]
  simp only [e1, Outcome.bind_ok]

theorem up_e : "e".toUpper = "E" := by decide +kernel
theorem up_M : "M".toUpper = "M" := by decide +kernel
theorem up_E : "E".toUpper = "E" := by decide +kernel
theorem up_m : "m".toUpper = "M" := by decide +kernel

theorem sample_lookup : getBIPdep [sampleBIP] "e" "M" {} = .ok (sampleBIP, false) :=
  lookup_by_name sampleBIP "e" "M" "E" "m" false rfl rfl rfl
    (by rw [up_e, up_M, up_E, up_m]; decide)

example : ∃ s', getBIPdep [sampleBIP] "M" "e" {} = .ok (sampleBIP, s') ∧
    (s' = true ∨ (sampleBIP = lorentzBerthelot ∧ false = false ∧ s' = false)) :=
  (getBIPdep_order [sampleBIP] "e" "M" {} (by rw [up_e, up_M]; decide)).1 sampleBIP false sample_lookup

example : getBinaryInteraction [sampleBIP] "M" "e" {} 190 305 1 2
    = .ok ⟨1 / 2, 3, 1 / 4, 5⟩ := by
  refine pair_order [sampleBIP] "e" "M" {} 305 190 2 1 ⟨2, 3, 4, 5⟩ (by rw [up_e, up_M]; decide) ?_
    (by norm_num) (by norm_num)
  unfold getBinaryInteraction
  rw [sample_lookup]
  rfl

/-- The fields that every entry must have. -/
def BIPEntry.WellFormed (el : BIPEntry) : Prop :=
  (el.hash1.isSome → el.hash2.isSome) ∧ el.name1.isSome ∧ el.name2.isSome ∧ el.cas1.isSome ∧
    el.cas2.isSome

/-- The two strings name the pair, in one order or the other. -/
def Names (a b : String) (s1 s2 : Option String) : Prop :=
  (s1 = some a ∧ s2 = some b) ∨ (s1 = some b ∧ s2 = some a)

/-- Entry `el` is identified by the hashes `A`, `B` (ignoring case). -/
def ByHash (A B : String) (el : BIPEntry) : Prop :=
  Names A.toUpper B.toUpper (el.hash1.map String.toUpper) (el.hash2.map String.toUpper)

/-- Entry `el` is identified by the names `A`, `B` (ignoring case). -/
def ByName (A B : String) (el : BIPEntry) : Prop :=
  Names A.toUpper B.toUpper (el.name1.map String.toUpper) (el.name2.map String.toUpper)

/-- Entry `el` is identified by the CAS numbers `A`, `B`. -/
def ByCAS (A B : String) (el : BIPEntry) : Prop := Names A B el.cas1 el.cas2

/-- `el` is the first entry of `col` with property `P`. -/
def IsFirst (P : BIPEntry → Prop) (col : List BIPEntry) (el : BIPEntry) : Prop :=
  ∃ l₁ l₂, col = l₁ ++ el :: l₂ ∧ P el ∧ ∀ e ∈ l₁, ¬P e

theorem orderedMatch_none (a b s1 s2 : String) :
    orderedMatch a b s1 s2 = none ↔ ¬Names a b (some s1) (some s2) := by
  unfold orderedMatch Names
  simp only [Option.some.injEq]
  by_cases h1 : a = s1 ∧ b = s2
  · simp [h1.1, h1.2]
  · by_cases h2 : a = s2 ∧ b = s1
    · rw [if_neg h1, if_pos h2]
      simp only [reduceCtorEq, false_iff, not_not]
      exact .inr ⟨h2.2.symm, h2.1.symm⟩
    · rw [if_neg h1, if_neg h2]
      simp only [true_iff]
      rintro (⟨e1, e2⟩ | ⟨e1, e2⟩)
      · exact h1 ⟨e1.symm, e2.symm⟩
      · exact h2 ⟨e2.symm, e1.symm⟩

theorem hashPass_spec (A B : String) (col : List BIPEntry) (hw : ∀ el ∈ col, BIPEntry.WellFormed el) :
    (hashPass A.toUpper B.toUpper col = .ok none ∧ ∀ el ∈ col, ¬ByHash A B el) ∨
    (∃ el s, hashPass A.toUpper B.toUpper col = .ok (some (el, s)) ∧ IsFirst (ByHash A B) col el) := by
  induction col with
  | nil => left; simp [hashPass]
  | cons el els ih =>
    have ih' := ih fun e he => hw e (by simp [he])
    have hext : ¬ByHash A B el → hashPass A.toUpper B.toUpper (el :: els) = hashPass A.toUpper B.toUpper els →
        (hashPass A.toUpper B.toUpper (el :: els) = .ok none ∧ ∀ e ∈ el :: els, ¬ByHash A B e) ∨
        (∃ e s, hashPass A.toUpper B.toUpper (el :: els) = .ok (some (e, s)) ∧
          IsFirst (ByHash A B) (el :: els) e) := by
      intro hn he
      rw [he]
      rcases ih' with ⟨h1, h2⟩ | ⟨e, s, h1, l₁, l₂, h2, h3, h4⟩
      · exact .inl ⟨h1, by simpa using ⟨hn, h2⟩⟩
      · exact .inr ⟨e, s, h1, el :: l₁, l₂, by rw [h2]; rfl, h3, by simpa using ⟨hn, h4⟩⟩
    obtain ⟨w1, _⟩ := hw el (by simp)
    cases hh1 : el.hash1 with
    | none =>
      refine hext ?_ ?_
      · simp [ByHash, Names, hh1]
      · rw [hashPass, hh1]; rfl
    | some h1 =>
      obtain ⟨h2, hh2⟩ := Option.isSome_iff_exists.mp (w1 (by simp [hh1]))
      have hd : hashPass A.toUpper B.toUpper (el :: els)
          = match orderedMatch A.toUpper B.toUpper h1.toUpper h2.toUpper with
            | some s => .ok (some (el, s))
            | none => hashPass A.toUpper B.toUpper els := by
        rw [hashPass, hh1, hh2]; rfl
      cases hm : orderedMatch A.toUpper B.toUpper h1.toUpper h2.toUpper with
      | none =>
        rw [hm] at hd
        refine hext ?_ hd
        simpa [ByHash, hh1, hh2] using (orderedMatch_none _ _ _ _).mp hm
      | some s =>
        rw [hm] at hd
        refine .inr ⟨el, s, hd, [], els, rfl, ?_, by simp⟩
        by_contra hc
        have := (orderedMatch_none A.toUpper B.toUpper h1.toUpper h2.toUpper).mpr
          (by simpa [ByHash, hh1, hh2] using hc)
        rw [hm] at this
        simp at this

theorem namePass_spec (A B : String) (col : List BIPEntry) (hw : ∀ el ∈ col, BIPEntry.WellFormed el) :
    (namePass A.toUpper B.toUpper col = .ok none ∧ ∀ el ∈ col, ¬ByName A B el) ∨
    (∃ el s, namePass A.toUpper B.toUpper col = .ok (some (el, s)) ∧ IsFirst (ByName A B) col el) := by
  induction col with
  | nil => left; simp [namePass]
  | cons el els ih =>
    have ih' := ih fun e he => hw e (by simp [he])
    obtain ⟨_, w1, w2, _⟩ := hw el (by simp)
    obtain ⟨h1, hh1⟩ := Option.isSome_iff_exists.mp w1
    obtain ⟨h2, hh2⟩ := Option.isSome_iff_exists.mp w2
    have hd : namePass A.toUpper B.toUpper (el :: els)
        = match orderedMatch A.toUpper B.toUpper h1.toUpper h2.toUpper with
          | some s => .ok (some (el, s))
          | none => namePass A.toUpper B.toUpper els := by
      rw [namePass, hh1, hh2]; rfl
    cases hm : orderedMatch A.toUpper B.toUpper h1.toUpper h2.toUpper with
    | none =>
      rw [hm] at hd
      have hn : ¬ByName A B el := by
        simpa [ByName, hh1, hh2] using (orderedMatch_none _ _ _ _).mp hm
      rw [hd]
      rcases ih' with ⟨h1, h2⟩ | ⟨e, s, h1, l₁, l₂, h2, h3, h4⟩
      · exact .inl ⟨h1, by simpa using ⟨hn, h2⟩⟩
      · exact .inr ⟨e, s, h1, el :: l₁, l₂, by rw [h2]; rfl, h3, by simpa using ⟨hn, h4⟩⟩
    | some s =>
      rw [hm] at hd
      refine .inr ⟨el, s, hd, [], els, rfl, ?_, by simp⟩
      by_contra hc
      have := (orderedMatch_none A.toUpper B.toUpper h1.toUpper h2.toUpper).mpr
        (by simpa [ByName, hh1, hh2] using hc)
      rw [hm] at this
      simp at this

theorem casPass_spec (A B : String) (col : List BIPEntry) (hw : ∀ el ∈ col, BIPEntry.WellFormed el) :
    (casPass A B col = .ok none ∧ ∀ el ∈ col, ¬ByCAS A B el) ∨
    (∃ el s, casPass A B col = .ok (some (el, s)) ∧ IsFirst (ByCAS A B) col el) := by
  induction col with
  | nil => left; simp [casPass]
  | cons el els ih =>
    have ih' := ih fun e he => hw e (by simp [he])
    obtain ⟨_, _, _, w1, w2⟩ := hw el (by simp)
    obtain ⟨h1, hh1⟩ := Option.isSome_iff_exists.mp w1
    obtain ⟨h2, hh2⟩ := Option.isSome_iff_exists.mp w2
    have hd : casPass A B (el :: els)
        = match orderedMatch A B h1 h2 with
          | some s => .ok (some (el, s))
          | none => casPass A B els := by
      rw [casPass, hh1, hh2]; rfl
    cases hm : orderedMatch A B h1 h2 with
    | none =>
      rw [hm] at hd
      have hn : ¬ByCAS A B el := by
        simpa [ByCAS, hh1, hh2] using (orderedMatch_none _ _ _ _).mp hm
      rw [hd]
      rcases ih' with ⟨h1, h2⟩ | ⟨e, s, h1, l₁, l₂, h2, h3, h4⟩
      · exact .inl ⟨h1, by simpa using ⟨hn, h2⟩⟩
      · exact .inr ⟨e, s, h1, el :: l₁, l₂, by rw [h2]; rfl, h3, by simpa using ⟨hn, h4⟩⟩
    | some s =>
      rw [hm] at hd
      refine .inr ⟨el, s, hd, [], els, rfl, ?_, by simp⟩
      by_contra hc
      have := (orderedMatch_none A B h1 h2).mpr (by simpa [ByCAS, hh1, hh2] using hc)
      rw [hm] at this
      simp at this

/-- C24. Precedence of the identifiers: the first entry that matches by hash is used; only if there is
none, the first that matches by name; only if there is none, the first that matches by CAS number;
only if there is none, the requested estimation scheme; and with no scheme the pair is refused. -/
theorem getBIPdep_precedence (col : List BIPEntry) (A B : String) (est : Option String)
    (hw : ∀ el ∈ col, BIPEntry.WellFormed el) :
    (∃ el s, getBIPdep col A B ⟨false, est⟩ = .ok (el, s) ∧ IsFirst (ByHash A B) col el) ∨
    ((∀ e ∈ col, ¬ByHash A B e) ∧
      ((∃ el s, getBIPdep col A B ⟨false, est⟩ = .ok (el, s) ∧ IsFirst (ByName A B) col el) ∨
      ((∀ e ∈ col, ¬ByName A B e) ∧
        ((∃ el s, getBIPdep col A B ⟨false, est⟩ = .ok (el, s) ∧ IsFirst (ByCAS A B) col el) ∨
        ((∀ e ∈ col, ¬ByCAS A B e) ∧
          getBIPdep col A B ⟨false, est⟩ =
            if est = some "Lorentz-Berthelot" then .ok (lorentzBerthelot, false)
            else .throws .stdInvalidArgument))))) := by
  unfold getBIPdep
  simp only [Bool.false_eq_true, if_false]
  rcases hashPass_spec A B col hw with ⟨h1, h2⟩ | ⟨el, s, h1, h2⟩
  · right
    refine ⟨h2, ?_⟩
    rw [h1]
    simp only [Outcome.bind_ok]
    rcases namePass_spec A B col hw with ⟨h3, h4⟩ | ⟨el, s, h3, h4⟩
    · right
      refine ⟨h4, ?_⟩
      rw [h3]
      simp only [Outcome.bind_ok]
      rcases casPass_spec A B col hw with ⟨h5, h6⟩ | ⟨el, s, h5, h6⟩
      · right
        refine ⟨h6, ?_⟩
        rw [h5]
        simp only [Outcome.bind_ok]
        cases est with
        | none => simp
        | some e =>
          by_cases he : e = "Lorentz-Berthelot"
          · subst he; rfl
          · rw [if_pos (by rfl : (some e).isSome = true), if_neg (by simpa using he)]
            unfold estimateBIP
            split
            · simp at *
            · rename_i h; exact absurd (by simpa using h) he
            · rfl
      · left
        exact ⟨el, s, by rw [h5]; rfl, h6⟩
    · left
      exact ⟨el, s, by rw [h3]; rfl, h4⟩
  · left
    exact ⟨el, s, by rw [h1]; rfl, h2⟩

/-- The hash entry wins although the name entry comes first. -/
example : ∃ s, getBIPdep [sampleBIP, sampleHashBIP] "m" "e" {} = .ok (sampleHashBIP, s) := by
  have hw : ∀ el ∈ [sampleBIP, sampleHashBIP], BIPEntry.WellFormed el := by
    intro el hel
    simp only [List.mem_cons, List.not_mem_nil, or_false] at hel
    rcases hel with rfl | rfl <;> simp [BIPEntry.WellFormed, sampleBIP, sampleHashBIP]
  have hb : ByHash "m" "e" sampleHashBIP := by
    left
    simp only [sampleHashBIP, Option.map_some, up_m, up_e, up_E]
    decide
  have ha : ¬ByHash "m" "e" sampleBIP := by simp [ByHash, Names, sampleBIP]
  rcases getBIPdep_precedence [sampleBIP, sampleHashBIP] "m" "e" none hw with
    ⟨el, s, h, l₁, l₂, e, hP, _⟩ | ⟨h, _⟩
  · have : el ∈ [sampleBIP, sampleHashBIP] := by rw [e]; simp
    simp only [List.mem_cons, List.not_mem_nil, or_false] at this
    rcases this with rfl | rfl
    · exact absurd hP ha
    · exact ⟨s, h⟩
  · exact absurd hb (h _ (by simp))

/-- C24. A forced estimate overrides every entry; a forced estimate without a scheme, or with an unknown
one, is refused. -/
theorem getBIPdep_forced (col : List BIPEntry) (A B : String) (est : Option String) :
    getBIPdep col A B ⟨true, est⟩ =
      if est = some "Lorentz-Berthelot" then .ok (lorentzBerthelot, false)
      else .throws (if est = none then .jsonError else .stdInvalidArgument) := by
  unfold getBIPdep
  simp only [if_true]
  unfold estimateBIP
  split
  · simp
  · simp
  · rename_i s h
    have : s ≠ "Lorentz-Berthelot" := fun e => h (by rw [e])
    simp [this]

example : getBIPdep [sampleBIP] "m" "e" ⟨true, none⟩ = .throws .jsonError := by
  rw [getBIPdep_forced]; simp

theorem upperPairs_mem (N i j : ℕ) : (i, j) ∈ upperPairs N ↔ i < j ∧ j < N := by
  unfold upperPairs
  simp only [List.mem_flatMap, List.mem_range, List.mem_map, List.mem_filter, decide_eq_true_eq,
    Prod.mk.injEq]
  constructor
  · rintro ⟨a, ha, b, ⟨hb, hab⟩, rfl, rfl⟩; exact ⟨hab, hb⟩
  · rintro ⟨h1, h2⟩; exact ⟨i, by omega, j, ⟨h2, h1⟩, rfl, rfl⟩

theorem upperPairs_nodup (N : ℕ) : (upperPairs N).Nodup := by
  unfold upperPairs
  rw [List.nodup_flatMap]
  constructor
  · intro i _
    refine (List.Nodup.filter _ List.nodup_range).map ?_
    intro a b h; simpa using h
  · refine List.Pairwise.imp (R := fun a b => a ≠ b) ?_ List.nodup_range
    intro a b hab
    simp only [Function.onFun, List.disjoint_left, List.mem_map]
    rintro p ⟨x, _, rfl⟩ ⟨y, _, h⟩
    simp at h
    exact hab h.1.symm

theorem bipLoop_spec (col : List BIPEntry) (ids : ℕ → String) (flags : BIPFlags) (Tc vc : ℕ → ℝ)
    (l : List (ℕ × ℕ)) (hl : l.Nodup) (hlt : ∀ p ∈ l, p.1 < p.2) (M M' : ℕ → ℕ → BIP)
    (h : bipLoop col ids flags Tc vc l M = .ok M') :
    (∀ i j, (i, j) ∈ l → ∃ p, getBinaryInteraction col (ids i) (ids j) flags (Tc i) (Tc j) (vc i) (vc j) = .ok p
      ∧ p.betaT ≠ 0 ∧ p.betaV ≠ 0 ∧ M' i j = p ∧ M' j i = p.flip) ∧
    (∀ i j, (i, j) ∉ l → (j, i) ∉ l → M' i j = M i j) := by
  induction l generalizing M with
  | nil =>
    simp only [bipLoop, Outcome.ok.injEq] at h
    subst h
    simp
  | cons q l ih =>
    obtain ⟨i0, j0⟩ := q
    rw [List.nodup_cons] at hl
    have hq : i0 < j0 := hlt (i0, j0) (by simp)
    unfold bipLoop at h
    cases hp : getBinaryInteraction col (ids i0) (ids j0) flags (Tc i0) (Tc j0) (vc i0) (vc j0) with
    | throws e => rw [hp] at h; simp at h
    | ub => rw [hp] at h; simp at h
    | nonFinite => rw [hp] at h; simp at h
    | ok p =>
      rw [hp] at h
      simp only [Outcome.bind_ok] at h
      split at h
      · simp at h
      rename_i hb
      obtain ⟨h1, h2⟩ := ih hl.2 (fun q hq => hlt q (by simp [hq])) _ h
      have hrev : (j0, i0) ∉ l := fun hm => by
        have := hlt (j0, i0) (by simp [hm]); simp only at this; omega
      rw [not_or] at hb
      constructor
      · intro i j hij
        rcases List.mem_cons.mp hij with e | hm
        · injection e with e1 e2
          subst e1; subst e2
          refine ⟨p, hp, hb.1, hb.2, ?_, ?_⟩
          · rw [h2 i j hl.1 hrev, if_pos ⟨rfl, rfl⟩]
          · rw [h2 j i hrev hl.1, if_neg (by omega), if_pos ⟨rfl, rfl⟩]
        · exact h1 i j hm
      · intro i j hn1 hn2
        simp only [List.mem_cons, Prod.mk.injEq, not_or] at hn1 hn2
        rw [h2 i j hn1.2 hn2.2, if_neg hn1.1, if_neg (fun h => hn2.1 ⟨h.2, h.1⟩)]

/-- C24. The matrices built for a mixture: every off-diagonal entry is what the look-up of that pair
returns, in whichever order the pair is named; `beta` is reciprocal and `gamma` symmetric; the
diagonal is zero. -/
theorem bip_matrices (col : List BIPEntry) (N : ℕ) (ids : ℕ → String) (flags : BIPFlags)
    (Tc vc : ℕ → ℝ) (M : ℕ → ℕ → BIP) (hd : ∀ i j, i ≠ j → (ids i).toUpper ≠ (ids j).toUpper)
    (h : getBIPMatrices col N ids flags Tc vc = .ok M) :
    (∀ i j, i < N → j < N → i ≠ j →
      getBinaryInteraction col (ids i) (ids j) flags (Tc i) (Tc j) (vc i) (vc j) = .ok (M i j) ∧
      (M i j).betaT ≠ 0 ∧ (M j i).betaT = 1 / (M i j).betaT ∧
      (M i j).betaV ≠ 0 ∧ (M j i).betaV = 1 / (M i j).betaV ∧
      (M j i).gammaT = (M i j).gammaT ∧ (M j i).gammaV = (M i j).gammaV) ∧
    (∀ i, M i i = ⟨0, 0, 0, 0⟩) := by
  obtain ⟨h1, h2⟩ := bipLoop_spec col ids flags Tc vc (upperPairs N) (upperPairs_nodup N)
    (fun p hp => ((upperPairs_mem N p.1 p.2).mp hp).1) _ M h
  constructor
  · intro i j hi hj hij
    rcases Nat.lt_or_gt_of_ne hij with hlt | hgt
    · obtain ⟨p, a, b, c, d, e⟩ := h1 i j ((upperPairs_mem N i j).mpr ⟨hlt, hj⟩)
      rw [d, e]
      exact ⟨a, b, rfl, c, rfl, rfl, rfl⟩
    · obtain ⟨p, a, b, c, d, e⟩ := h1 j i ((upperPairs_mem N j i).mpr ⟨hgt, hi⟩)
      rw [d, e]
      refine ⟨pair_order col _ _ flags _ _ _ _ p (hd j i (Ne.symm hij)) a b c, ?_⟩
      simp [BIP.flip, b, c]
  · intro i
    exact h2 i i (fun hm => absurd ((upperPairs_mem N i i).mp hm).1 (lt_irrefl i))
      (fun hm => absurd ((upperPairs_mem N i i).mp hm).1 (lt_irrefl i))

theorem sample_matrices : ∃ M, getBIPMatrices [sampleBIP] 2 (fun i => if i = 0 then "e" else "M") {}
    (fun _ => 300) (fun _ => 1) = .ok M ∧ (M 1 0).betaT = 1 / 2 := by
  have e : upperPairs 2 = [(0, 1)] := by decide
  have hl : getBinaryInteraction [sampleBIP] "e" "M" {} 300 300 1 1 = .ok ⟨2, 3, 4, 5⟩ := by
    unfold getBinaryInteraction; rw [sample_lookup]; rfl
  refine ⟨_, by
    unfold getBIPMatrices
    rw [e, bipLoop]
    simp only [if_true, one_ne_zero, if_false, hl, Outcome.bind_ok]
    rw [if_neg (by norm_num), bipLoop], ?_⟩
  simp [BIP.flip]

/-- C24. The Lorentz-Berthelot estimate: all four parameters are one, there is no departure function and its
weight is zero, for a pair absent from the collection as for a forced estimate. -/
theorem estimate_lorentz_berthelot (col : List BIPEntry) (A B : String) (force : Bool) (Ta Tb va vb : ℝ)
    (h : force = true ∨ col = []) :
    getBinaryInteraction col A B ⟨force, some "Lorentz-Berthelot"⟩ Ta Tb va vb = .ok ⟨1, 1, 1, 1⟩ ∧
    ∃ el, getBIPdep col A B ⟨force, some "Lorentz-Berthelot"⟩ = .ok (el, false) ∧ el.F = some 0 ∧
      el.function = none := by
  have e : getBIPdep col A B ⟨force, some "Lorentz-Berthelot"⟩ = .ok (lorentzBerthelot, false) := by
    rcases h with rfl | rfl
    · rw [getBIPdep_forced]; simp
    · cases force
      · rfl
      · rw [getBIPdep_forced]; simp
  refine ⟨?_, lorentzBerthelot, e, rfl, rfl⟩
  unfold getBinaryInteraction
  rw [e]
  rfl

example : getBinaryInteraction [sampleBIP] "e" "M" ⟨true, some "Lorentz-Berthelot"⟩ 300 200 1 2 =
    .ok ⟨1, 1, 1, 1⟩ := (estimate_lorentz_berthelot _ _ _ true _ _ _ _ (Or.inl rfl)).1

/-- C24. `get_BIP` of the reducing function built for a mixture reports, for every pair, the parameters the
collection gives for that pair in that order. -/
theorem reported_bips (col : List BIPEntry) (N : ℕ) (ids : ℕ → String) (flags : BIPFlags)
    (Tc vc : ℕ → ℝ) (M : ℕ → ℕ → BIP) (hd : ∀ i j, i ≠ j → (ids i).toUpper ≠ (ids j).toUpper)
    (h : getBIPMatrices col N ids flags Tc vc = .ok M) (i j : ℕ) (hi : i < N) (hj : j < N) (hij : i ≠ j) :
    ∃ p, getBinaryInteraction col (ids i) (ids j) flags (Tc i) (Tc j) (vc i) (vc j) = .ok p ∧
      (RedFn.ofBIP N M Tc vc).getBIP i j "betaT" = .ok p.betaT ∧
      (RedFn.ofBIP N M Tc vc).getBIP i j "gammaT" = .ok p.gammaT ∧
      (RedFn.ofBIP N M Tc vc).getBIP i j "betaV" = .ok p.betaV ∧
      (RedFn.ofBIP N M Tc vc).getBIP i j "gammaV" = .ok p.gammaV := by
  refine ⟨M i j, ((bip_matrices col N ids flags Tc vc M hd h).1 i j hi hj hij).1, ?_⟩
  simp [RedFn.getBIP, RedFn.ofBIP, hi, hj]

example : ∃ M, (RedFn.ofBIP 2 M (fun _ => 300) (fun _ => 1)).getBIP 1 0 "betaT" = .ok (1 / 2 : ℝ) := by
  obtain ⟨M, _, h⟩ := sample_matrices
  refine ⟨M, ?_⟩
  simp [RedFn.getBIP, RedFn.ofBIP, h]

/-- C24. Indices outside the mixture and unknown parameter names are refused. -/
theorem getBIP_refused {n : ℕ} (r : RedFn n) (i j : ℕ) (key : String)
    (h : n ≤ i ∨ n ≤ j ∨ key ∉ ["betaT", "gammaT", "betaV", "gammaV"]) :
    r.getBIP i j key = .throws .stdInvalidArgument := by
  unfold RedFn.getBIP
  by_cases hk : key ∉ ["betaT", "gammaT", "betaV", "gammaV"]
  · simp only [List.mem_cons, List.not_mem_nil, or_false, not_or] at hk
    simp [hk]
  · have hn : ¬(i < n ∧ j < n) := by
      rcases h with h | h | h
      · omega
      · omega
      · exact absurd h hk
    simp only [dif_neg hn]
    simp only [List.mem_cons, List.not_mem_nil, or_false, not_not] at hk
    rcases hk with rfl | rfl | rfl | rfl <;> simp

example : (RedFn.ofBIP 2 (fun _ _ => ⟨1, 2, 3, 4⟩) (fun _ => 300) (fun _ => 1)).getBIP 0 2 "gammaT" =
    .throws .stdInvalidArgument := getBIP_refused _ _ _ _ (Or.inr (Or.inl le_rfl))

end Teqp.Props
