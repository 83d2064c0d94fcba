import Verif.Props.CApi

/-! # C52: concurrent use of the C interface -/

set_option autoImplicit false

namespace Teqp.Props
open Teqp.Model Teqp.Spec

variable {J M Q V : Type}

/-- The order in which the calls take effect: a build when it draws its number, any other call when it
accesses the table.  Each of these points lies between the first and the last event of its call. -/
def linOrder (calls : Nat → TCall J Q) (es : List TEv) : List Nat :=
  es.filterMap fun e => match e with
    | .fetch c => some c
    | .enter c => match calls c with
      | .build _ => none
      | _ => some c
    | .leave _ => none

/-- Callers only use handles that a build has returned: every free or query on `h` starts when some build
has `h` as its result. -/
def Owned (env : CEnv J M Q V) (calls : Nat → TCall J Q) : TState M V → List TEv → Prop
  | _, [] => True
  | s, e :: es =>
    (∀ c h, e = .enter c → (calls c = .free h ∨ ∃ q, calls c = .query h q) →
      ∃ c', s.res c' = some (.built h)) ∧
    ∀ s1, tStep env calls s e = some (.ok s1) → Owned env calls s1 es

/-- Number of builds that draw a number. -/
def fetchCount (es : List TEv) : Nat :=
  es.countP fun e => match e with
    | .fetch _ => true
    | _ => false

/-- The concurrent state agrees with the sequential one up to builds that have drawn their number but
not yet stored their model. -/
structure ConcSim (env : CEnv J M Q V) (calls : Nat → TCall J Q) (n : Nat) (s : TState M V) (a : AbsLib M)
    (res : Nat → Option (TRes V)) (done : List Nat) : Prop where
  next : s.glob.next = BitVec.ofNat 64 n
  count : a.count = n
  uid_lt : ∀ c u, s.uid c = some u → u.toNat < n
  uid_inj : ∀ c c' u, s.uid c = some u → s.uid c' = some u → c = c'
  uid_build : ∀ c u, s.uid c = some u → ∃ j, calls c = .build j
  res_uid : ∀ c j, calls c = .build j → s.res c ≠ none → s.uid c ≠ none
  lib_done : ∀ h m, s.glob.lib h = some m → ∃ c, s.uid c = some h ∧ s.res c ≠ none
  get_lt : ∀ k m, a.get k = some m → k < n
  res_eq : ∀ c r, s.res c = some r → res c = some r
  built : ∀ c h, s.res c = some (.built h) → s.uid c = some h
  fly_ok : ∀ c u j m, s.uid c = some u → s.res c = none → calls c = .build j → env.make j = .ok m →
    a.get u.toNat = some m ∧ res c = some (.built u)
  fly_err : ∀ c u j e, s.uid c = some u → s.res c = none → calls c = .build j → env.make j = .error e →
    a.get u.toNat = none ∧ res c = some .failed
  agree : ∀ h, (¬ ∃ c, s.uid c = some h ∧ s.res c = none) → a.get h.toNat = s.glob.lib h
  done_mem : ∀ c, c ∈ done → s.uid c ≠ none ∨ s.res c ≠ none
  nodup : done.Nodup

theorem concSim_init (env : CEnv J M Q V) (calls : Nat → TCall J Q) :
    ConcSim env calls 0 (TState.init M V) (AbsLib.empty M) (fun _ => none) [] where
  next := rfl
  count := rfl
  uid_lt c u h := by cases h
  uid_inj c c' u h := by cases h
  uid_build c u h := by cases h
  res_uid c j _ h := absurd rfl h
  lib_done h m hh := by cases hh
  get_lt k m hh := by cases hh
  res_eq c r h := by cases h
  built c h hh := by cases hh
  fly_ok c u j m h := by cases h
  fly_err c u j e h := by cases h
  agree h _ := rfl
  done_mem c h := by cases h
  nodup := List.nodup_nil

/-- A build draws its number. -/
theorem sim_fetch (env : CEnv J M Q V) (calls : Nat → TCall J Q) {n : Nat} {s : TState M V} {a : AbsLib M}
    {res : Nat → Option (TRes V)} {done : List Nat} (hn : n < 2 ^ 64) (hs : ConcSim env calls n s a res done) (c : Nat) (j : J)
    (hc : calls c = .build j) (hu : s.uid c = none) :
    ConcSim env calls (n + 1)
      { s with glob := { s.glob with next := s.glob.next + 1 }
               uid := Function.update s.uid c (some s.glob.next) }
      (absStep env a (calls c)).1 (Function.update res c (some (absStep env a (calls c)).2))
      (done ++ [c]) := by
  have hrc : s.res c = none := by
    by_contra h
    exact hs.res_uid c j hc h hu
  have hnat : s.glob.next.toNat = n := by
    rw [hs.next, BitVec.toNat_ofNat, Nat.mod_eq_of_lt hn]
  have hfresh : ∀ c' : Nat, s.uid c' ≠ some s.glob.next := by
    intro c' h
    have := hs.uid_lt c' _ h; omega
  have hget : a.get n = none := by
    cases h : a.get n with
    | none => rfl
    | some m => have := hs.get_lt _ _ h; omega
  have hu' : ∀ c' u, Function.update s.uid c (some s.glob.next) c' = some u →
      (c' = c ∧ u = s.glob.next) ∨ (c' ≠ c ∧ s.uid c' = some u) := by
    intro c' u h
    by_cases hcc : c' = c
    · subst hcc
      rw [Function.update_self] at h
      exact Or.inl ⟨rfl, (Option.some.inj h).symm⟩
    · rw [Function.update_of_ne hcc] at h
      exact Or.inr ⟨hcc, h⟩
  have hofn : BitVec.ofNat 64 n = s.glob.next := hs.next.symm
  -- the two possible sequential outcomes
  have hget' : ∀ k, k ≠ n → (absStep env a (calls c)).1.get k = a.get k := by
    intro k hk
    rw [hc]
    cases hm : env.make j with
    | ok m => simp only [absStep, hm]; rw [Function.update_of_ne]; rw [hs.count]; exact hk
    | error e => simp only [absStep, hm]
  have hcount : (absStep env a (calls c)).1.count = n + 1 := by
    rw [hc]
    cases hm : env.make j with
    | ok m => simp only [absStep, hm, hs.count]
    | error e => simp only [absStep, hm, hs.count]
  refine
    { next := ?_, count := hcount, uid_lt := ?_, uid_inj := ?_, uid_build := ?_, res_uid := ?_
      lib_done := ?_, get_lt := ?_, res_eq := ?_, built := ?_, fly_ok := ?_, fly_err := ?_
      agree := ?_, done_mem := ?_, nodup := ?_ }
  · show s.glob.next + 1 = _
    rw [hs.next, BitVec.ofNat_add]; rfl
  · intro c' u h
    rcases hu' c' u h with ⟨-, rfl⟩ | ⟨-, h⟩
    · omega
    · have := hs.uid_lt _ _ h; omega
  · intro c1 c2 u h1 h2
    rcases hu' c1 u h1 with ⟨e1, e2⟩ | ⟨-, g1⟩ <;> rcases hu' c2 _ h2 with ⟨e3, e4⟩ | ⟨-, g2⟩
    · rw [e1, e3]
    · rw [e2] at g2; exact absurd g2 (hfresh _)
    · rw [e4] at g1; exact absurd g1 (hfresh _)
    · exact hs.uid_inj _ _ _ g1 g2
  · intro c' u h
    rcases hu' c' u h with ⟨rfl, -⟩ | ⟨-, h⟩
    · exact ⟨j, hc⟩
    · exact hs.uid_build _ _ h
  · intro c' j' hj' hr
    show Function.update s.uid c (some s.glob.next) c' ≠ none
    by_cases hcc : c' = c
    · subst hcc; simp
    · rw [Function.update_of_ne hcc]; exact hs.res_uid c' j' hj' hr
  · intro h m hm
    obtain ⟨c', h1, h2⟩ := hs.lib_done h m hm
    refine ⟨c', ?_, h2⟩
    show Function.update s.uid c (some s.glob.next) c' = some h
    rw [Function.update_of_ne]; · exact h1
    rintro rfl; exact h2 hrc
  · intro k m hk
    by_cases hkn : k = n
    · omega
    · rw [hget' k hkn] at hk
      have := hs.get_lt _ _ hk; omega
  · intro c' r hr
    rw [Function.update_of_ne]; · exact hs.res_eq _ _ hr
    rintro rfl
    change s.res c' = some r at hr
    rw [hrc] at hr; cases hr
  · intro c' h hr
    show Function.update s.uid c (some s.glob.next) c' = some h
    rw [Function.update_of_ne]; · exact hs.built _ _ hr
    rintro rfl
    change s.res c' = _ at hr
    rw [hrc] at hr; cases hr
  · intro c' u j' m h hr hj hm
    rcases hu' c' u h with ⟨rfl, rfl⟩ | ⟨hne, h⟩
    · rw [hc] at hj; cases hj
      rw [Function.update_self, hc, hnat]
      simp only [absStep, hm, hs.count]
      rw [Function.update_self, hofn]
      exact ⟨rfl, rfl⟩
    · obtain ⟨g1, g2⟩ := hs.fly_ok c' u j' m h hr hj hm
      refine ⟨?_, by rw [Function.update_of_ne hne]; exact g2⟩
      rw [hget' _ (by have := hs.uid_lt _ _ h; omega)]; exact g1
  · intro c' u j' e h hr hj hm
    rcases hu' c' u h with ⟨rfl, rfl⟩ | ⟨hne, h⟩
    · rw [hc] at hj; cases hj
      rw [Function.update_self, hc, hnat]
      simp only [absStep, hm]
      exact ⟨hget, trivial⟩
    · obtain ⟨g1, g2⟩ := hs.fly_err c' u j' e h hr hj hm
      refine ⟨?_, by rw [Function.update_of_ne hne]; exact g2⟩
      rw [hget' _ (by have := hs.uid_lt _ _ h; omega)]; exact g1
  · intro h hno
    have h1 : h ≠ s.glob.next := by
      rintro rfl
      exact hno ⟨c, by show Function.update _ _ _ _ = _; simp, hrc⟩
    rw [hget']
    · apply hs.agree
      rintro ⟨c', g1, g2⟩
      apply hno
      refine ⟨c', ?_, g2⟩
      show Function.update s.uid c (some s.glob.next) c' = some h
      rw [Function.update_of_ne]; · exact g1
      rintro rfl; rw [hu] at g1; cases g1
    · intro he
      apply h1
      apply BitVec.eq_of_toNat_eq
      omega
  · intro c' hc'
    show Function.update s.uid c (some s.glob.next) c' ≠ none ∨ _
    by_cases hcc : c' = c
    · subst hcc; left; simp
    · rw [Function.update_of_ne hcc]
      refine hs.done_mem c' ?_
      simpa [hcc] using hc'
  · rw [List.nodup_append]
    refine ⟨hs.nodup, by simp, ?_⟩
    intro x hx y hy
    simp only [List.mem_singleton] at hy
    subst hy
    rintro rfl
    rcases hs.done_mem _ hx with h | h
    · exact h hu
    · exact h hrc

/-- A build that has drawn a number fails, or stores its model. -/
theorem sim_build (env : CEnv J M Q V) (calls : Nat → TCall J Q) {n : Nat} {s s' : TState M V} {a : AbsLib M}
    {res : Nat → Option (TRes V)} {done : List Nat} (hs : ConcSim env calls n s a res done) (c : Nat) (j : J)
    (hc : calls c = .build j) (ht : tStep env calls s (.enter c) = some (.ok s')) :
    ConcSim env calls n s' a res done := by
  simp only [tStep, hc] at ht
  cases hr : s.res c with
  | some r => rw [hr] at ht; cases ht
  | none =>
    rw [hr] at ht
    cases hu : s.uid c with
    | none => rw [hu] at ht; cases ht
    | some u =>
      rw [hu] at ht
      simp only at ht
      -- what both branches share
      have common : ∀ (r0 : TRes V) (lib' : Handle → Option M) (acc' : List (Nat × Bool)),
          res c = some r0 → (∀ h, r0 = .built h → h = u) →
          (∀ h m, lib' h = some m → h = u ∨ s.glob.lib h = some m) →
          lib' u = a.get u.toNat → (∀ h, h ≠ u → lib' h = s.glob.lib h) →
          ConcSim env calls n { s with glob := { s.glob with lib := lib' }
                                       res := Function.update s.res c (some r0), acc := acc' } a res done := by
        intro r0 lib' acc' h0 hb hl1 hl2 hl3
        have hup : ∀ c' x, Function.update s.res c (some r0) c' = x →
            (c' = c ∧ x = some r0) ∨ (c' ≠ c ∧ s.res c' = x) := by
          intro c' x h
          by_cases hcc : c' = c
          · subst hcc; rw [Function.update_self] at h; exact Or.inl ⟨rfl, h.symm⟩
          · rw [Function.update_of_ne hcc] at h; exact Or.inr ⟨hcc, h⟩
        have hkeep : ∀ c', s.res c' ≠ none → Function.update s.res c (some r0) c' ≠ none := by
          intro c' h
          by_cases hcc : c' = c
          · subst hcc; simp
          · rw [Function.update_of_ne hcc]; exact h
        refine
          { next := hs.next, count := hs.count, uid_lt := hs.uid_lt, uid_inj := hs.uid_inj
            uid_build := hs.uid_build, res_uid := ?_, lib_done := ?_, get_lt := hs.get_lt
            res_eq := ?_, built := ?_, fly_ok := ?_, fly_err := ?_, agree := ?_, done_mem := ?_
            nodup := hs.nodup }
        · intro c' j' hj' h
          by_cases hcc : c' = c
          · subst hcc; show s.uid c' ≠ none; rw [hu]; simp
          · refine hs.res_uid c' j' hj' ?_
            change Function.update s.res c (some r0) c' ≠ none at h
            rwa [Function.update_of_ne hcc] at h
        · intro h m hm
          rcases hl1 h m hm with rfl | hm'
          · exact ⟨c, hu, by show Function.update s.res c (some r0) c ≠ none; simp⟩
          · obtain ⟨c', g1, g2⟩ := hs.lib_done h m hm'
            exact ⟨c', g1, hkeep c' g2⟩
        · intro c' r h
          rcases hup c' _ h with ⟨e1, g⟩ | ⟨-, g⟩
          · rw [e1, g]; exact h0
          · exact hs.res_eq c' r g
        · intro c' h hh
          rcases hup c' _ hh with ⟨e1, g⟩ | ⟨-, g⟩
          · rw [e1, hb h (Option.some.inj g).symm]; exact hu
          · exact hs.built c' h g
        · intro c' u' j' m h1 h2 h3 h4
          rcases hup c' _ h2 with ⟨-, g⟩ | ⟨-, g⟩
          · cases g
          · exact hs.fly_ok c' u' j' m h1 g h3 h4
        · intro c' u' j' e h1 h2 h3 h4
          rcases hup c' _ h2 with ⟨-, g⟩ | ⟨-, g⟩
          · cases g
          · exact hs.fly_err c' u' j' e h1 g h3 h4
        · intro h hno
          by_cases hh : h = u
          · subst hh; exact hl2.symm
          · show a.get h.toNat = lib' h
            rw [hl3 h hh]
            apply hs.agree
            rintro ⟨c', g1, g2⟩
            apply hno
            refine ⟨c', g1, ?_⟩
            show Function.update s.res c (some r0) c' = none
            rw [Function.update_of_ne]; · exact g2
            rintro rfl; rw [hu] at g1; exact hh (Option.some.inj g1).symm
        · intro c' h
          rcases hs.done_mem c' h with h | h
          · exact Or.inl h
          · exact Or.inr (hkeep c' h)
      have hnone : s.glob.lib u = none := by
        cases hl : s.glob.lib u with
        | none => rfl
        | some m =>
          obtain ⟨c', g1, g2⟩ := hs.lib_done u m hl
          have := hs.uid_inj c' c u g1 hu
          subst this
          exact absurd hr g2
      cases hm : env.make j with
      | error e =>
        rw [hm] at ht
        simp only at ht
        cases ht
        obtain ⟨g1, g2⟩ := hs.fly_err c u j e hu hr hc hm
        exact common .failed s.glob.lib s.acc g2 (fun h hh => by cases hh)
          (fun h m hh => Or.inr hh) (by rw [g1, hnone]) (fun h _ => rfl)
      | ok m =>
        rw [hm] at ht
        simp only at ht
        by_cases hrace : races s.acc true = true
        · rw [if_pos hrace] at ht; cases ht
        · rw [if_neg hrace] at ht
          cases ht
          obtain ⟨g1, g2⟩ := hs.fly_ok c u j m hu hr hc hm
          have hemp : ∀ h, emplaceLib s.glob.lib u m h = if h = u then some m else s.glob.lib h := by
            intro h; simp only [emplaceLib, hnone]
          refine common (.built u) _ _ g2 (fun h hh => by cases hh; rfl) (fun h m' hh => ?_) ?_
            (fun h hh => ?_)
          · rw [hemp] at hh
            by_cases hhu : h = u
            · exact Or.inl hhu
            · rw [if_neg hhu] at hh; exact Or.inr hh
          · rw [hemp, if_pos rfl, g1]
          · rw [hemp, if_neg hh]

/-- A free or a query on a handle that has been returned. -/
theorem sim_access (env : CEnv J M Q V) (calls : Nat → TCall J Q) {n : Nat} {s s' : TState M V} {a : AbsLib M}
    {res : Nat → Option (TRes V)} {done : List Nat} (hs : ConcSim env calls n s a res done) (c : Nat) (h : Handle)
    (hc : calls c = .free h ∨ ∃ q, calls c = .query h q)
    (hown : ∃ c', s.res c' = some (.built h)) (ht : tStep env calls s (.enter c) = some (.ok s')) :
    ConcSim env calls n s' (absStep env a (calls c)).1
      (Function.update res c (some (absStep env a (calls c)).2)) (done ++ [c]) := by
  obtain ⟨c0, h0⟩ := hown
  have hu0 := hs.built c0 h h0
  have hnofly : ¬ ∃ c', s.uid c' = some h ∧ s.res c' = none := by
    rintro ⟨c', g1, g2⟩
    have := hs.uid_inj c' c0 h g1 hu0
    subst this; rw [h0] at g2; cases g2
  have hag := hs.agree h hnofly
  have hnb : ∀ j, calls c ≠ .build j := by
    intro j hj
    rcases hc with h1 | ⟨q, h1⟩ <;> rw [h1] at hj <;> cases hj
  have hucn : s.uid c = none := by
    cases hu : s.uid c with
    | none => rfl
    | some u => obtain ⟨j, hj⟩ := hs.uid_build c u hu; exact absurd hj (hnb j)
  have hrc : s.res c = none := by
    cases hr : s.res c with
    | none => rfl
    | some r => simp only [tStep, hr] at ht; cases ht
  have hfree : ∀ x ∈ done, x ≠ c := by
    rintro x hx rfl
    rcases hs.done_mem _ hx with h | h
    · exact h hucn
    · exact h hrc
  -- what both kinds of call share
  have common : ∀ (r0 : TRes V) (lib' : Handle → Option M) (get' : Nat → Option M) (acc' : List (Nat × Bool)),
      (∀ k, r0 ≠ .built k) → (∀ k m, lib' k = some m → s.glob.lib k = some m) →
      (∀ k m, get' k = some m → a.get k = some m) →
      (∀ k, k ≠ h → lib' k = s.glob.lib k) → (∀ k, k ≠ h.toNat → get' k = a.get k) →
      (get' h.toNat = lib' h) →
      ConcSim env calls n { s with glob := { s.glob with lib := lib' }
                                   res := Function.update s.res c (some r0), acc := acc' }
        ⟨a.count, get'⟩ (Function.update res c (some r0)) (done ++ [c]) := by
    intro r0 lib' get' acc' hb hl hg hl' hg' he
    have hup : ∀ c' x, Function.update s.res c (some r0) c' = x →
        (c' = c ∧ x = some r0) ∨ (c' ≠ c ∧ s.res c' = x) := by
      intro c' x h
      by_cases hcc : c' = c
      · subst hcc; rw [Function.update_self] at h; exact Or.inl ⟨rfl, h.symm⟩
      · rw [Function.update_of_ne hcc] at h; exact Or.inr ⟨hcc, h⟩
    have hkeep : ∀ c', s.res c' ≠ none → Function.update s.res c (some r0) c' ≠ none := by
      intro c' h
      by_cases hcc : c' = c
      · subst hcc; simp
      · rw [Function.update_of_ne hcc]; exact h
    have hfly : ∀ c' u, s.uid c' = some u → s.res c' = none → u.toNat ≠ h.toNat := by
      intro c' u h1 h2 h3
      exact hnofly ⟨c', by rw [h1, BitVec.eq_of_toNat_eq h3], h2⟩
    refine
      { next := hs.next, count := hs.count, uid_lt := hs.uid_lt, uid_inj := hs.uid_inj
        uid_build := hs.uid_build, res_uid := ?_, lib_done := ?_, get_lt := ?_
        res_eq := ?_, built := ?_, fly_ok := ?_, fly_err := ?_, agree := ?_, done_mem := ?_
        nodup := ?_ }
    · intro c' j' hj' hh
      rcases hup c' _ rfl with ⟨rfl, -⟩ | ⟨-, g⟩
      · exact absurd hj' (hnb j')
      · exact hs.res_uid c' j' hj' (by rw [g]; exact hh)
    · intro k m hm
      obtain ⟨c', g1, g2⟩ := hs.lib_done k m (hl k m hm)
      exact ⟨c', g1, hkeep c' g2⟩
    · intro k m hm
      exact hs.get_lt k m (hg k m hm)
    · intro c' r hh
      rcases hup c' _ hh with ⟨e1, g⟩ | ⟨hne, g⟩
      · rw [e1, Function.update_self, g]
      · rw [Function.update_of_ne hne]; exact hs.res_eq c' r g
    · intro c' k hh
      rcases hup c' _ hh with ⟨-, g⟩ | ⟨-, g⟩
      · exact absurd (Option.some.inj g).symm (hb k)
      · exact hs.built c' k g
    · intro c' u j m h1 h2 h3 h4
      rcases hup c' _ h2 with ⟨-, hh⟩ | ⟨hne, hh⟩
      · cases hh
      · obtain ⟨g1, g2⟩ := hs.fly_ok c' u j m h1 hh h3 h4
        rw [Function.update_of_ne hne]
        exact ⟨(hg' _ (hfly c' u h1 hh)).trans g1, g2⟩
    · intro c' u j e h1 h2 h3 h4
      rcases hup c' _ h2 with ⟨-, hh⟩ | ⟨hne, hh⟩
      · cases hh
      · obtain ⟨g1, g2⟩ := hs.fly_err c' u j e h1 hh h3 h4
        rw [Function.update_of_ne hne]
        exact ⟨(hg' _ (hfly c' u h1 hh)).trans g1, g2⟩
    · intro k hno
      by_cases hk : k = h
      · subst hk; exact he
      · show get' k.toNat = lib' k
        rw [hl' k hk, hg' k.toNat (fun h' => hk (BitVec.eq_of_toNat_eq h'))]
        apply hs.agree
        rintro ⟨c', g1, g2⟩
        apply hno
        refine ⟨c', g1, ?_⟩
        show Function.update s.res c (some r0) c' = none
        rw [Function.update_of_ne]; · exact g2
        rintro rfl; rw [hucn] at g1; cases g1
    · intro c' hh
      by_cases hcc : c' = c
      · subst hcc; right; show Function.update s.res c' (some r0) c' ≠ none; simp
      · rcases hs.done_mem c' (by simpa [hcc] using hh) with g | g
        · exact Or.inl g
        · exact Or.inr (hkeep c' g)
    · rw [List.nodup_append]
      refine ⟨hs.nodup, by simp, ?_⟩
      intro x hx y hy
      simp only [List.mem_singleton] at hy
      subst hy
      exact hfree x hx
  rcases hc with hc | ⟨q, hc⟩
  · simp only [tStep, hrc, hc] at ht
    by_cases hrace : races s.acc true = true
    · rw [if_pos hrace] at ht; cases ht
    · rw [if_neg hrace] at ht
      cases ht
      rw [hc]
      refine common .freed _ _ _ (fun k hk => by cases hk) ?_ ?_ ?_ ?_ ?_
      · intro k m hk
        simp only [eraseLib] at hk
        by_cases hkh : k = h
        · rw [if_pos hkh] at hk; cases hk
        · rwa [if_neg hkh] at hk
      · intro k m hk
        by_cases hkh : k = h.toNat
        · rw [hkh, Function.update_self] at hk; cases hk
        · rwa [Function.update_of_ne hkh] at hk
      · intro k hk
        simp only [eraseLib]; rw [if_neg hk]
      · intro k hk
        rw [Function.update_of_ne hk]
      · simp [eraseLib]
  · simp only [tStep, hrc, hc] at ht
    by_cases hrace : races s.acc false = true
    · rw [if_pos hrace] at ht; cases ht
    · rw [if_neg hrace] at ht
      cases ht
      have hval : (absStep env a (.query h q)).1 = a ∧
          (absStep env a (.query h q)).2 = tQuery env s.glob.lib h q ∧
          ∀ k, tQuery env s.glob.lib h q ≠ .built k := by
        simp only [absStep, tQuery, ← hag]
        cases a.get h.toNat with
        | none => simp
        | some m =>
          simp only
          cases env.eval m q with
          | ok v => simp
          | error e => simp
      obtain ⟨v1, v2, v3⟩ := hval
      rw [hc, v1, v2]
      exact common _ s.glob.lib a.get _ v3 (fun _ _ hk => hk) (fun _ _ hk => hk) (fun _ _ => rfl)
        (fun _ _ => rfl) hag

theorem absRun_snoc (env : CEnv J M Q V) (calls : Nat → TCall J Q) (cs : List Nat) (c : Nat) :
    ∀ (a : AbsLib M) (res : Nat → Option (TRes V)),
    absRun env calls a res (cs ++ [c]) =
      ((absStep env (absRun env calls a res cs).1 (calls c)).1,
        Function.update (absRun env calls a res cs).2 c
          (some (absStep env (absRun env calls a res cs).1 (calls c)).2)) := by
  induction cs with
  | nil => intro a res; rfl
  | cons d cs ih => intro a res; exact ih _ _

theorem sim_run (env : CEnv J M Q V) (calls : Nat → TCall J Q) (es : List TEv) :
    ∀ (n : Nat) (s s' : TState M V) (done : List Nat), n + fetchCount es ≤ 2 ^ 64 →
      ConcSim env calls n s (absRun env calls (AbsLib.empty M) (fun _ => none) done).1
        (absRun env calls (AbsLib.empty M) (fun _ => none) done).2 done →
      Owned env calls s es → tRun env calls s es = some (.ok s') →
      ∃ n', ConcSim env calls n' s'
        (absRun env calls (AbsLib.empty M) (fun _ => none) (done ++ linOrder calls es)).1
        (absRun env calls (AbsLib.empty M) (fun _ => none) (done ++ linOrder calls es)).2
        (done ++ linOrder calls es) := by
  induction es with
  | nil =>
    intro n s s' done hn hs ho ht
    cases ht
    refine ⟨n, ?_⟩
    simpa [linOrder] using hs
  | cons e es ih =>
    intro n s s' done hn hs ho ht
    obtain ⟨ho1, ho2⟩ := ho
    simp only [tRun] at ht
    cases hst : tStep env calls s e with
    | none => rw [hst] at ht; cases ht
    | some o =>
      rw [hst] at ht
      cases o with
      | throws x => cases ht
      | ub => cases ht
      | nonFinite => cases ht
      | ok s1 =>
        simp only at ht
        have ho' := ho2 s1 hst
        have hcount : fetchCount (e :: es) = fetchCount [e] + fetchCount es := by
          unfold fetchCount; rw [← List.countP_append]; rfl
        rw [hcount] at hn
        have hlin : ∀ l, linOrder calls [e] = l → linOrder calls (e :: es) = l ++ linOrder calls es := by
          rintro l rfl
          unfold linOrder; rw [← List.filterMap_append]; rfl
        cases e with
        | fetch c =>
          have hfc : fetchCount [TEv.fetch c] = 1 := rfl
          rw [hfc] at hn
          rw [hlin [c] rfl, ← List.append_assoc]
          cases hc : calls c with
          | build j =>
            simp only [tStep, hc] at hst
            cases hu : s.uid c with
            | some u => rw [hu] at hst; cases hst
            | none =>
              rw [hu] at hst
              cases hst
              have h1 := sim_fetch env calls (by omega) hs c j hc hu
              refine ih (n + 1) _ s' (done ++ [c]) (by omega) ?_ ho' ht
              rw [absRun_snoc]
              exact h1
          | free h => simp only [tStep, hc] at hst; cases hst
          | query h q => simp only [tStep, hc] at hst; cases hst
        | enter c =>
          have hfc : fetchCount [TEv.enter c] = 0 := rfl
          rw [hfc] at hn
          cases hc : calls c with
          | build j =>
            rw [hlin [] (by simp [linOrder, hc]), List.nil_append]
            exact ih n s1 s' done (by omega) (sim_build env calls hs c j hc hst) ho' ht
          | free h =>
            rw [hlin [c] (by simp [linOrder, hc]), ← List.append_assoc]
            have h1 := sim_access env calls hs c h (Or.inl hc) (ho1 c h rfl (Or.inl hc)) hst
            refine ih n _ s' (done ++ [c]) (by omega) ?_ ho' ht
            rw [absRun_snoc]
            exact h1
          | query h q =>
            rw [hlin [c] (by simp [linOrder, hc]), ← List.append_assoc]
            have h1 := sim_access env calls hs c h (Or.inr ⟨q, hc⟩) (ho1 c h rfl (Or.inr ⟨q, hc⟩)) hst
            refine ih n _ s' (done ++ [c]) (by omega) ?_ ho' ht
            rw [absRun_snoc]
            exact h1
        | leave c =>
          have hfc : fetchCount [TEv.leave c] = 0 := rfl
          rw [hfc] at hn
          rw [hlin [] rfl, List.nil_append]
          refine ih n s1 s' done (by omega) ?_ ho' ht
          simp only [tStep] at hst
          cases hr : s.res c with
          | none => rw [hr] at hst; cases hst
          | some r =>
            rw [hr] at hst
            simp only at hst
            by_cases hf : c ∈ s.fin
            · rw [if_pos hf] at hst; cases hst
            · rw [if_neg hf] at hst
              cases hst
              exact { hs with }

/-- In an execution without a data race, in which callers only use handles that were returned to them
and with at most 2⁶⁴ builds, every call gets the result it gets when the calls are made one after the
other in the order in which they take effect.  The code does not exclude data races by itself, so that
this is only part of C52. -/
theorem conc_sequential_partial (env : CEnv J M Q V) (calls : Nat → TCall J Q) (es : List TEv)
    (s : TState M V) (hn : fetchCount es ≤ 2 ^ 64) (ho : Owned env calls (TState.init M V) es)
    (ht : tRun env calls (TState.init M V) es = some (.ok s)) :
    (linOrder calls es).Nodup ∧ ∀ c r, s.res c = some r →
      (absRun env calls (AbsLib.empty M) (fun _ => none) (linOrder calls es)).2 c = some r := by
  obtain ⟨n, h⟩ := sim_run env calls es 0 (TState.init M V) s [] (by omega)
    (concSim_init env calls) ho ht
  rw [List.nil_append] at h
  exact ⟨h.nodup, h.res_eq⟩

/-- Three calls: two builds and a query of the second. -/
def toyCalls : Nat → TCall UInt8 Nat
  | 0 => .build 5
  | 1 => .build 6
  | _ => .query 1 3

/-- An execution in which the builds overlap but the accesses to the table do not. -/
def toySched : List TEv :=
  [.fetch 0, .fetch 1, .enter 1, .leave 1, .enter 2, .leave 2, .enter 0, .leave 0]

example : ∃ s : TState Nat Nat, tRun toyEnv toyCalls (TState.init Nat Nat) toySched = some (.ok s) ∧
    s.res 0 = some (.built 0) ∧ s.res 1 = some (.built 1) ∧ s.res 2 = some (.value 18) ∧
    Owned toyEnv toyCalls (TState.init Nat Nat) toySched ∧ fetchCount toySched ≤ 2 ^ 64 := by
  refine ⟨_, rfl, by decide, by decide, by decide, ?_, by decide⟩
  unfold toySched
  simp only [Owned]
  refine ⟨fun c h e => (by cases e), fun s1 h1 => ?_⟩
  cases h1
  refine ⟨fun c h e => (by cases e), fun s1 h1 => ?_⟩
  cases h1
  refine ⟨fun c h e he => ?_, fun s1 h1 => ?_⟩
  · cases e; rcases he with he | ⟨q, he⟩ <;> cases he
  cases h1
  refine ⟨fun c h e => (by cases e), fun s1 h1 => ?_⟩
  cases h1
  refine ⟨fun c h e he => ?_, fun s1 h1 => ?_⟩
  · cases e
    rcases he with he | ⟨q, he⟩
    · cases he
    · cases he; exact ⟨1, by decide⟩
  cases h1
  refine ⟨fun c h e => (by cases e), fun s1 h1 => ?_⟩
  cases h1
  refine ⟨fun c h e he => ?_, fun s1 h1 => ?_⟩
  · cases e; rcases he with he | ⟨q, he⟩ <;> cases he
  cases h1
  exact ⟨fun c h e => (by cases e), fun s1 h1 => trivial⟩

/-- Nothing in the interface prevents a data race: two builds of valid models that store their models at
the same time have undefined behaviour, … -/
theorem conc_build_race (env : CEnv J M Q V) (calls : Nat → TCall J Q) (j0 j1 : J) (m0 m1 : M)
    (h0 : calls 0 = .build j0) (h1 : calls 1 = .build j1) (k0 : env.make j0 = .ok m0)
    (k1 : env.make j1 = .ok m1) :
    tRun env calls (TState.init M V) [.fetch 0, .fetch 1, .enter 0, .enter 1] = some .ub := by
  simp [tRun, tStep, h0, h1, k0, k1, TState.init, races, Function.update]

/-- … and so has freeing a model while a query on any model is running. -/
theorem conc_free_race (env : CEnv J M Q V) (calls : Nat → TCall J Q) (s : TState M V) (h h' : Handle)
    (q : Q) (c c' : Nat) (hne : c ≠ c') (hq : calls c = .query h q) (hf : calls c' = .free h')
    (hr : s.res c = none) (hr' : s.res c' = none) (hacc : s.acc = []) :
    tRun env calls s [.enter c, .enter c'] = some .ub := by
  simp [tRun, tStep, hq, hf, hr, hr', hacc, races, Function.update_of_ne hne.symm]

/-- Queries never race with each other, nor with drawing numbers. -/
theorem conc_queries_safe (env : CEnv J M Q V) (calls : Nat → TCall J Q) (s : TState M V) (c : Nat)
    (h : Handle) (q : Q) (hc : calls c = .query h q) (hr : s.res c = none)
    (hacc : ∀ a ∈ s.acc, a.2 = false) :
    ∃ s', tStep env calls s (.enter c) = some (.ok s') ∧
      s'.res c = some (tQuery env s.glob.lib h q) ∧ s'.glob = s.glob ∧ ∀ a ∈ s'.acc, a.2 = false := by
  have : races s.acc false = false := by
    simp only [races, Bool.or_false, List.any_eq_false]
    intro a ha; rw [hacc a ha]; simp
  refine ⟨{ s with res := Function.update s.res c (some (tQuery env s.glob.lib h q))
                   acc := (c, false) :: s.acc }, by simp only [tStep, hr, hc, this]; rfl, by simp, rfl, ?_⟩
  intro a ha
  rcases List.mem_cons.mp ha with rfl | ha
  · rfl
  · exact hacc a ha

example : ∃ s', tStep toyEnv toyCalls
      (⟨⟨2, fun k => if k = 1 then some 6 else none⟩, fun _ => none, fun _ => none, [(7, false)], []⟩ :
        TState Nat Nat) (.enter 2) = some (.ok s') ∧ s'.res 2 = some (.value 18) := by
  exact ⟨_, rfl, by decide⟩

/-- Calls for the next theorem: as above, but the query is on the first handle. -/
def guessCalls : Nat → TCall UInt8 Nat
  | 0 => .build 5
  | 1 => .build 6
  | _ => .query 0 3

/-- Even without a data race the results need not be those of a sequential order when a caller uses a
handle it was not given: call 1 is over before call 2 starts and holds number 1, so that number 0 has
been issued before, and yet the query on number 0 fails.  No order of the three calls that keeps call 1
before call 2 gives these results. -/
theorem conc_guess_not_sequential :
    ∃ s : TState Nat Nat, tRun toyEnv guessCalls (TState.init Nat Nat) toySched = some (.ok s) ∧
      ∀ order ∈ [[0, 1, 2], [1, 0, 2], [1, 2, 0]],
        ¬ ∀ c ∈ [0, 1, 2], (absRun toyEnv guessCalls (AbsLib.empty Nat) (fun _ => none) order).2 c
          = s.res c := by
  exact ⟨_, rfl, by decide⟩

end Teqp.Props
