import Verif.Spec.CApi
import Verif.Lemmas.Outcome
import Mathlib.Tactic.Linarith
import Mathlib.Data.List.Basic

/-! # C49-C51: handles, message buffers and error codes of the C interface -/

set_option autoImplicit false

namespace Teqp.Props
open Teqp.Model Teqp.Spec

variable {J M Q V : Type}

/-! ## Message buffers (C50) -/

theorem sizeT_nat {n : Nat} (h : n < 2 ^ 64) : sizeT (n : Int) = n := by
  unfold sizeT
  have : ((n : Int) % (2 ^ 64 : Int)) = n := Int.emod_eq_of_lt (by positivity) (by exact_mod_cast h)
  rw [this]; rfl

theorem sizeT_neg {len : Int} (h : len < 0) (h' : -2 ^ 31 ≤ len) : 2 ^ 63 ≤ sizeT len := by
  unfold sizeT
  have : len % (2 ^ 64 : Int) = len + 2 ^ 64 := by
    rw [← Int.add_emod_right]
    exact Int.emod_eq_of_lt (by linarith) (by linarith)
  rw [this]
  have h2 : (2 ^ 63 : Int) ≤ len + 2 ^ 64 := by
    norm_num at h' ⊢; linarith
  omega

theorem cstr_length (s : Bytes) : (cstr s).length ≤ s.length :=
  (List.takeWhile_prefix _).length_le

theorem cstr_no_nul (s : Bytes) : (0 : UInt8) ∉ cstr s := by
  induction s with
  | nil => simp [cstr]
  | cons a t ih =>
    unfold cstr at ih ⊢
    rw [List.takeWhile_cons]
    by_cases ha : a = 0
    · simp [ha]
    · simp only [ne_eq, ha, not_false_eq_true, decide_true, if_true, List.mem_cons, not_or]
      exact ⟨fun h => ha h.symm, ih⟩

theorem cstr_append_nul {w t : Bytes} (h : (0 : UInt8) ∉ w) : cstr (w ++ 0 :: t) = w := by
  unfold cstr
  rw [List.takeWhile_append_of_pos]
  · simp
  · intro a ha
    simp only [ne_eq, decide_eq_true_eq]
    rintro rfl; exact h ha

theorem strcpy_fits {buf s : Bytes} (h : s.length < buf.length) :
    ∃ b, strcpyTo buf s = .ok b ∧ b.length = buf.length ∧ 0 ∈ b ∧ cstr b = cstr s := by
  have hl := cstr_length s
  refine ⟨(cstr s ++ [0]) ++ buf.drop (cstr s ++ [0]).length, ?_, ?_, ?_, ?_⟩
  · unfold strcpyTo
    simp only
    rw [if_pos]
    simp; omega
  · simp; omega
  · simp
  · rw [List.append_assoc]
    exact cstr_append_nul (cstr_no_nul s)

/-- With the true buffer length, writing a message never leaves the buffer: the buffer keeps its size,
and when it has at least two bytes it then holds a NUL-terminated text, namely the message if that fits,
a fixed notice if the message does not fit but the notice does, and a question mark otherwise. -/
theorem writeError_safe (buf msg : Bytes) (hb : buf.length < 2 ^ 31) :
    ∃ b, writeError buf buf.length msg = .ok b ∧ b.length = buf.length ∧
      (2 ≤ buf.length → 0 ∈ b) ∧
      (msg.length < buf.length → cstr b = cstr msg) ∧
      (buf.length ≤ msg.length → 33 < buf.length → cstr b = lit "Error message too long for buffer") ∧
      (buf.length ≤ msg.length → buf.length ≤ 33 → 2 ≤ buf.length → cstr b = lit "?") ∧
      (buf.length ≤ msg.length → buf.length ≤ 1 → b = buf) := by
  have hs : sizeT (buf.length : Int) = buf.length := sizeT_nat (by omega)
  have h33 : tooLongMsg.length = 33 := by decide
  unfold writeError
  rw [hs]
  by_cases h1 : msg.length < buf.length
  · rw [if_pos h1]
    obtain ⟨b, e, l, z, c⟩ := strcpy_fits h1
    exact ⟨b, e, l, fun _ => z, fun _ => c, fun h => by omega, fun h => by omega, fun h => by omega⟩
  · rw [if_neg h1]
    by_cases h2 : tooLongMsg.length < buf.length
    · rw [if_pos h2]
      obtain ⟨b, e, l, z, c⟩ := strcpy_fits h2
      refine ⟨b, e, l, fun _ => z, fun h => by omega, fun _ _ => ?_, fun h => by omega, fun h => by omega⟩
      rw [c]; decide
    · rw [if_neg h2]
      by_cases h3 : (buf.length : Int) > 1
      · rw [if_pos h3]
        have hq : (lit "?").length < buf.length := by
          have : (lit "?").length = 1 := by decide
          omega
        obtain ⟨b, e, l, z, c⟩ := strcpy_fits hq
        refine ⟨b, e, l, fun _ => z, fun h => by omega, fun h => by omega, fun _ _ _ => ?_, fun h => by omega⟩
        rw [c]; decide
      · rw [if_neg h3]
        exact ⟨buf, rfl, rfl, fun h => by omega, fun h => by omega, fun h => by omega,
          fun h => by omega, fun _ _ => rfl⟩

/-- Non-trivial instances: a message that fits, one that does not. -/
example : writeError [7, 7, 7, 7] 4 [65, 66] = .ok [65, 66, 0, 7] ∧
    writeError [7, 7, 7, 7] 4 [65, 66, 67, 68, 69] = .ok [63, 0, 7, 7] ∧
    writeError [7] 1 [65, 66] = .ok [7] := by decide

/-- A negative length is taken for a huge one: every message is copied whatever the size of the buffer,
and a message longer than the buffer is written past its end. -/
theorem writeError_negative (buf msg : Bytes) (len : Int) (h : len < 0) (h' : -2 ^ 31 ≤ len)
    (hm : msg.length < 2 ^ 63) :
    writeError buf len msg = strcpyTo buf msg ∧
      (buf.length ≤ (cstr msg).length → writeError buf len msg = .ub) := by
  have hs := sizeT_neg h h'
  have e : writeError buf len msg = strcpyTo buf msg := by
    unfold writeError
    rw [if_pos (by omega)]
  refine ⟨e, fun hl => ?_⟩
  rw [e]
  unfold strcpyTo
  simp only
  rw [if_neg]
  simp; omega

example : writeError [7, 7] (-1) [65, 66, 67] = .ub := by decide

/-! ## Return codes and messages (C51) -/

/-- Every exception derived from `std::exception` ends in a return code: its own code for a
`teqpcException`, 9999 for any other; the handler itself cannot overflow the buffer. -/
theorem excHandler_code (e : Exc) (buf : Bytes) (hb : buf.length < 2 ^ 31) (hf : e.kind ≠ .foreign) :
    ∃ code b, excHandler e buf buf.length = .ok (.returned code b) ∧ b.length = buf.length ∧
      (∀ k, e.kind = .teqpc k → code = k) ∧ (e.kind = .std → code = 9999) := by
  unfold excHandler
  cases hk : e.kind with
  | teqpc k =>
    obtain ⟨b, h, l, -⟩ := writeError_safe buf e.msg hb
    exact ⟨k, b, by simp [h], l, fun k' hk' => by cases hk'; rfl, fun h => by cases h⟩
  | std =>
    obtain ⟨b, h, l, -⟩ := writeError_safe buf slicedWhat hb
    exact ⟨9999, b, by simp [h], l, (fun k hk' => by cases hk'), fun _ => rfl⟩
  | foreign => exact absurd hk hf

/-- The claim that the buffer carries the message of the exception fails: for every exception other than
`teqpcException` the written text is the same whatever the message was. -/
theorem excHandler_message_lost (m1 m2 : Bytes) (buf : Bytes) (len : Int) :
    excHandler ⟨.std, m1⟩ buf len = excHandler ⟨.std, m2⟩ buf len := rfl

/-- … and that text is not the message: a caller with a large enough buffer reads `std::exception`. -/
theorem excHandler_message_wrong (m buf : Bytes) (hb : buf.length < 2 ^ 31) (h15 : 15 ≤ buf.length) :
    ∃ b, excHandler ⟨.std, m⟩ buf buf.length = .ok (.returned 9999 b) ∧ cstr b = lit "std::exception" := by
  obtain ⟨b, h, -, -, hm, -⟩ := writeError_safe buf slicedWhat hb
  refine ⟨b, ?_, ?_⟩
  · simp [excHandler, h]
  · rw [hm (by have : slicedWhat.length = 14 := by decide
               omega)]
    decide

example : ∃ b, excHandler ⟨.std, lit "cannot find key"⟩ (List.replicate 40 0) 40
    = .ok (.returned 9999 b) ∧ cstr b ≠ lit "cannot find key" := by
  obtain ⟨b, h, hc⟩ := excHandler_message_wrong (lit "cannot find key") (List.replicate 40 0)
    (by simp) (by simp)
  refine ⟨b, by simpa using h, ?_⟩
  rw [hc]; decide

/-- The messages of `teqpcException` (failed model construction) do arrive when they fit. -/
theorem excHandler_message_kept (k : Int) (m buf : Bytes) (hb : buf.length < 2 ^ 31)
    (hfit : m.length < buf.length) :
    ∃ b, excHandler ⟨.teqpc k, m⟩ buf buf.length = .ok (.returned k b) ∧ cstr b = cstr m := by
  obtain ⟨b, h, -, -, hm, -⟩ := writeError_safe buf m hb
  exact ⟨b, by simp [excHandler, h], hm hfit⟩

/-- An exception that does not derive from `std::exception` crosses the C boundary. -/
theorem foreign_escapes (m buf : Bytes) (len : Int) :
    excHandler ⟨.foreign, m⟩ buf len = .ok (.escaped ⟨.foreign, m⟩) := rfl

/-- The exceptions thrown below the interface: derived from `std::exception`, and no `teqpcException`
(that class is only used by `build_model` itself). -/
structure StdEnv (env : CEnv J M Q V) : Prop where
  parse : ∀ j e, env.parse j = .error e → e.kind = .std
  make : ∀ j e, env.make j = .error e → e.kind = .std
  eval : ∀ m q e, env.eval m q = .error e → e.kind = .std

/-- The fate of a call of the interface in terms of the library below. -/
def Succeeds (env : CEnv J M Q V) (s : CLib M) : CCall Q → Prop
  | .build json _ _ => ∃ j m, env.parse json = .ok j ∧ env.make j = .ok m
  | .free _ _ _ => True
  | .query h q _ _ => ∃ m v, s.lib h = some m ∧ env.eval m q = .ok v

/-- Every call with an honest buffer returns normally: no exception escapes and the buffer is not
overrun.  The code is 0 exactly when the call succeeded; a failing call leaves `*uuid` and `*val` alone,
its code is 30 (model construction) or 9999. -/
theorem cStep_returns (env : CEnv J M Q V) (he : StdEnv env) (s : CLib M) (c : CCall Q)
    (hc : HonestBuf c) :
    ∃ s' code b uuid val, cStep env s c = .ok (s', ⟨.returned code b, uuid, val⟩) ∧
      (code = 0 ↔ Succeeds env s c) ∧
      (code ≠ 0 → uuid = none ∧ val = none ∧ s'.lib = s.lib ∧ (code = 30 ∨ code = 9999)) := by
  cases c with
  | build json buf len =>
    obtain ⟨rfl, hb⟩ := hc
    simp only [cStep, cBuild]
    cases hp : env.parse json with
    | error e =>
      obtain ⟨code, b, h, -, -, h9⟩ := excHandler_code e buf hb (by rw [he.parse _ _ hp]; simp)
      refine ⟨s, code, b, none, none, by simp [h], ?_, fun _ => ⟨rfl, rfl, rfl, Or.inr (h9 (he.parse _ _ hp))⟩⟩
      rw [h9 (he.parse _ _ hp)]
      simp [Succeeds, hp]
    | ok j =>
      simp only
      cases hm : env.make j with
      | error e =>
        have hk : (wrapLoad e).kind = .teqpc 30 := by
          simp only [wrapLoad, he.make _ _ hm]
        obtain ⟨code, b, h, -, h9, -⟩ := excHandler_code (wrapLoad e) buf hb (by rw [hk]; simp)
        refine ⟨{ s with next := s.next + 1 }, code, b, none, none, by simp only [h, Outcome.bind_ok], ?_,
          fun _ => ⟨rfl, rfl, rfl, Or.inl (h9 _ hk)⟩⟩
        rw [h9 _ hk]
        simp only [Succeeds, hp]
        constructor
        · intro h; exact absurd h (by decide)
        · rintro ⟨j', m', h1, h2⟩; cases h1; rw [hm] at h2; cases h2
      | ok m =>
        refine ⟨_, 0, buf, some s.next, none, rfl, ?_, fun h => absurd rfl h⟩
        simp only [true_iff]
        exact ⟨j, m, hp, hm⟩
  | free h buf len =>
    exact ⟨_, 0, buf, none, none, rfl, by simp [Succeeds], fun h => absurd rfl h⟩
  | query h q buf len =>
    obtain ⟨rfl, hb⟩ := hc
    simp only [cStep, cQuery]
    cases hl : s.lib h with
    | none =>
      simp only
      obtain ⟨code, b, h', -, -, h9⟩ := excHandler_code atExc buf hb (by simp [atExc])
      refine ⟨s, code, b, none, none, by simp only [h', Outcome.bind_ok], ?_,
        fun _ => ⟨rfl, rfl, rfl, Or.inr (h9 rfl)⟩⟩
      rw [h9 rfl]; simp [Succeeds, hl]
    | some m =>
      simp only
      cases hv : env.eval m q with
      | ok v =>
        refine ⟨s, 0, buf, none, some v, rfl, ?_, fun h => absurd rfl h⟩
        simp only [true_iff]
        exact ⟨m, v, hl, hv⟩
      | error e =>
        simp only
        obtain ⟨code, b, h', -, -, h9⟩ := excHandler_code e buf hb (by rw [he.eval _ _ _ hv]; simp)
        refine ⟨s, code, b, none, none, by simp only [h', Outcome.bind_ok], ?_,
          fun _ => ⟨rfl, rfl, rfl, Or.inr (h9 (he.eval _ _ _ hv))⟩⟩
        rw [h9 (he.eval _ _ _ hv)]
        simp only [Succeeds, hl]
        constructor
        · intro h; exact absurd h (by decide)
        · rintro ⟨m', v', h1, h2⟩; cases h1; rw [hv] at h2; cases h2

/-- A small library used in the examples: the text `[n]` describes the model `n`, text starting with `0`
is not JSON, the model 9 cannot be built, and evaluating `m` at `q` gives `m * q` unless `q = 0`. -/
def toyEnv : CEnv UInt8 Nat Nat Nat where
  parse b := match b with
    | x :: _ => if x = 0 then .error ⟨.std, lit "parse error"⟩ else .ok x
    | [] => .error ⟨.std, lit "parse error"⟩
  make j := if j = 9 then .error ⟨.std, lit "bad model"⟩ else .ok j.toNat
  eval m q := if q = 0 then .error ⟨.std, lit "bad state"⟩ else .ok (m * q)

theorem toyEnv_std : StdEnv toyEnv where
  parse j e h := by
    cases j with
    | nil => cases h; rfl
    | cons x t =>
      simp only [toyEnv] at h
      by_cases hx : x = 0
      · rw [if_pos hx] at h; cases h; rfl
      · rw [if_neg hx] at h; cases h
  make j e h := by
    simp only [toyEnv] at h
    by_cases hx : j = 9
    · rw [if_pos hx] at h; cases h; rfl
    · rw [if_neg hx] at h; cases h
  eval m q e h := by
    simp only [toyEnv] at h
    by_cases hx : q = 0
    · rw [if_pos hx] at h; cases h; rfl
    · rw [if_neg hx] at h; cases h

/-- A failing build returns 30 and the reason, a failing query 9999. -/
example : (cStep toyEnv (CLib.init Nat) (.build [9] (List.replicate 40 0) 40)).bind (fun r => .ok r.2)
    = .ok ⟨.returned 30 (lit "Unable to load with error:bad model" ++ List.replicate 5 0), none, none⟩ ∧
    (cStep toyEnv (CLib.init Nat) (.query 3 1 (List.replicate 16 0) 16)).bind (fun r => .ok r.2)
    = .ok ⟨.returned 9999 (lit "std::exception" ++ [0, 0]), none, none⟩ := by decide

/-! ## Handles (C49) -/

/-- Histories of honest calls run to the end. -/
theorem cRun_ok (env : CEnv J M Q V) (he : StdEnv env) (cs : List (CCall Q)) :
    ∀ (s : CLib M) (tr : List (CCall Q × CReply V)), (∀ c ∈ cs, HonestBuf c) →
      ∃ r, cRun env s tr cs = .ok r := by
  induction cs with
  | nil => intro s tr _; exact ⟨_, rfl⟩
  | cons c cs ih =>
    intro s tr h
    obtain ⟨s', code, b, u, v, e, -⟩ := cStep_returns env he s c (h c (by simp))
    simp only [cRun, e, Outcome.bind_ok]
    exact ih _ _ (fun c' hc' => h c' (by simp [hc']))

/-- State of the table after `n` drawn numbers, compared with what the callers saw. -/
structure TableInv (env : CEnv J M Q V) (n : Nat) (s : CLib M) (tr : List (CCall Q × CReply V)) :
    Prop where
  next : s.next = BitVec.ofNat 64 n
  current : ∀ h, s.lib h = currentModel env h tr
  below : ∀ h ∈ issued tr, h.toNat < n
  lib_below : ∀ h m, s.lib h = some m → h.toNat < n
  nodup : (issued tr).Nodup

theorem cStep_inv (env : CEnv J M Q V) (n : Nat) (hn : n < 2 ^ 64) (s s' : CLib M)
    (tr : List (CCall Q × CReply V)) (c : CCall Q) (r : CReply V) (hi : TableInv env n s tr)
    (hs : cStep env s c = .ok (s', r)) :
    ∃ n', n ≤ n' ∧ n' ≤ n + buildCount [c] ∧ TableInv env n' s' ((c, r) :: tr) := by
  cases c with
  | build json buf len =>
    simp only [cStep, cBuild] at hs
    have hbc : buildCount [CCall.build (Q := Q) json buf len] = 1 := rfl
    rw [hbc]
    cases hp : env.parse json with
    | error e =>
      rw [hp] at hs
      simp only at hs
      obtain ⟨x, -, hx⟩ := Outcome.bind_eq_ok.mp hs
      cases hx
      refine ⟨n, le_refl _, by omega, hi.next, fun h => ?_, ?_, hi.lib_below, ?_⟩
      · simp only [currentModel]
        rw [if_neg (by simp)]; exact hi.current h
      · simpa [issued] using hi.below
      · simpa [issued] using hi.nodup
    | ok j =>
      rw [hp] at hs
      simp only at hs
      have hnext : s.next + 1 = BitVec.ofNat 64 (n + 1) := by
        rw [hi.next, BitVec.ofNat_add]; rfl
      cases hm : env.make j with
      | error e =>
        rw [hm] at hs
        simp only at hs
        obtain ⟨x, -, hx⟩ := Outcome.bind_eq_ok.mp hs
        cases hx
        refine ⟨n + 1, by omega, le_refl _, hnext, fun h => ?_, ?_, ?_, ?_⟩
        · simp only [currentModel]
          rw [if_neg (by simp)]; exact hi.current h
        · intro h hh
          have : h ∈ issued tr := by simpa [issued] using hh
          have := hi.below h this; omega
        · intro h m hh
          have := hi.lib_below h m hh; omega
        · simpa [issued] using hi.nodup
      | ok m =>
        rw [hm] at hs
        simp only at hs
        cases hs
        have hnat : s.next.toNat = n := by
          rw [hi.next, BitVec.toNat_ofNat, Nat.mod_eq_of_lt hn]
        have hfree : s.lib s.next = none := by
          cases hl : s.lib s.next with
          | none => rfl
          | some m' => have := hi.lib_below _ _ hl; omega
        have hemp : ∀ h, emplaceLib s.lib s.next m h = if h = s.next then some m else s.lib h := by
          intro h; simp only [emplaceLib, hfree]
        have hiss : ∀ b : Bytes, issued ((CCall.build (Q := Q) json buf len,
            (⟨.returned 0 b, some s.next, none⟩ : CReply V)) :: tr) = s.next :: issued tr := fun _ => rfl
        refine ⟨n + 1, by omega, le_refl _, hnext, fun h => ?_, ?_, ?_, ?_⟩
        · simp only [currentModel]
          rw [hemp]
          by_cases hh : h = s.next
          · subst hh; simp [hp, hm, Except.toOption]
          · rw [if_neg hh, if_neg (by simpa [eq_comm] using hh)]; exact hi.current h
        · intro h hh
          rw [hiss] at hh
          rcases List.mem_cons.mp hh with rfl | hh
          · omega
          · have := hi.below h hh; omega
        · intro h m' hh
          simp only at hh
          rw [hemp] at hh
          by_cases hh' : h = s.next
          · subst hh'; omega
          · rw [if_neg hh'] at hh
            have := hi.lib_below h m' hh; omega
        · rw [hiss, List.nodup_cons]
          refine ⟨fun hh => ?_, hi.nodup⟩
          have := hi.below _ hh; omega
  | free h buf len =>
    simp only [cStep, cFree] at hs
    cases hs
    refine ⟨n, le_refl _, by omega, hi.next, fun k => ?_, ?_, ?_, ?_⟩
    · simp only [currentModel, eraseLib]
      by_cases hk : k = h
      · subst hk; simp
      · rw [if_neg hk, if_neg (fun h' => hk h'.symm)]; exact hi.current k
    · simpa [issued] using hi.below
    · intro k m hk
      simp only [eraseLib] at hk
      by_cases hk' : k = h
      · rw [if_pos hk'] at hk; cases hk
      · rw [if_neg hk'] at hk; exact hi.lib_below k m hk
    · simpa [issued] using hi.nodup
  | query h q buf len =>
    simp only [cStep, cQuery] at hs
    have key : s' = s ∧ r.uuid = none := by
      cases hl : s.lib h with
      | none =>
        rw [hl] at hs
        simp only at hs
        obtain ⟨x, -, hx⟩ := Outcome.bind_eq_ok.mp hs
        cases hx; exact ⟨rfl, rfl⟩
      | some m =>
        rw [hl] at hs
        simp only at hs
        cases hv : env.eval m q with
        | ok v => rw [hv] at hs; cases hs; exact ⟨rfl, rfl⟩
        | error e =>
          rw [hv] at hs
          simp only at hs
          obtain ⟨x, -, hx⟩ := Outcome.bind_eq_ok.mp hs
          cases hx; exact ⟨rfl, rfl⟩
    obtain ⟨rfl, hu⟩ := key
    have hiss : issued ((CCall.query h q buf len, r) :: tr) = issued tr := by simp [issued, hu]
    exact ⟨n, le_refl _, by omega, hi.next, fun k => hi.current k, by rw [hiss]; exact hi.below,
      hi.lib_below, by rw [hiss]; exact hi.nodup⟩

theorem buildCount_cons (c : CCall Q) (cs : List (CCall Q)) :
    buildCount (c :: cs) = buildCount [c] + buildCount cs := by
  unfold buildCount
  rw [← List.countP_append]; rfl

theorem cRun_inv (env : CEnv J M Q V) (cs : List (CCall Q)) :
    ∀ (n : Nat) (s s' : CLib M) (tr tr' : List (CCall Q × CReply V)),
      n + buildCount cs ≤ 2 ^ 64 - 1 → TableInv env n s tr → cRun env s tr cs = .ok (s', tr') →
      ∃ n', n' ≤ n + buildCount cs ∧ TableInv env n' s' tr' := by
  induction cs with
  | nil =>
    intro n s s' tr tr' hn hi hr
    cases hr
    exact ⟨n, by omega, hi⟩
  | cons c cs ih =>
    intro n s s' tr tr' hn hi hr
    rw [buildCount_cons] at hn ⊢
    simp only [cRun] at hr
    obtain ⟨⟨s1, r⟩, h1, h2⟩ := Outcome.bind_eq_ok.mp hr
    obtain ⟨n1, -, hle, hi1⟩ := cStep_inv env n (by omega) s s1 tr c r hi h1
    obtain ⟨n2, hle2, hi2⟩ := ih n1 s1 s' _ tr' (by omega) hi1 h2
    exact ⟨n2, by omega, hi2⟩

theorem init_inv (env : CEnv J M Q V) : TableInv env 0 (CLib.init M) [] where
  next := rfl
  current _ := rfl
  below h hh := by simp [issued] at hh
  lib_below h m hh := by simp [CLib.init] at hh
  nodup := by simp [issued]

/-- After any history with fewer than 2⁶⁴ builds, all handles handed out are different, and a query on a
handle evaluates the model of the last successful build that returned this handle if it has not been
freed since; on any other handle the query returns 9999 and writes no value.  C49 has no bound on the
number of builds; without it the claim is false, see `handles_reused`. -/
theorem capi_handles_partial (env : CEnv J M Q V) (cs : List (CCall Q)) (s : CLib M)
    (tr : List (CCall Q × CReply V)) (hn : buildCount cs < 2 ^ 64)
    (hr : cRun env (CLib.init M) [] cs = .ok (s, tr)) :
    (issued tr).Nodup ∧
    ∀ (h : Handle) (q : Q) (buf : Bytes), buf.length < 2 ^ 31 →
      (currentModel env h tr = none → ∃ b, cStep env s (.query h q buf buf.length) =
        .ok (s, ⟨.returned 9999 b, none, none⟩)) ∧
      (∀ m, currentModel env h tr = some m →
        (∀ v, env.eval m q = .ok v → cStep env s (.query h q buf buf.length) =
          .ok (s, ⟨.returned 0 buf, none, some v⟩)) ∧
        (∀ e, env.eval m q = .error e → cStep env s (.query h q buf buf.length) =
          (excHandler e buf buf.length).bind fun r => .ok (s, ⟨r, none, none⟩))) := by
  obtain ⟨n, -, hi⟩ := cRun_inv env cs 0 (CLib.init M) s [] tr (by omega) (init_inv env) hr
  refine ⟨hi.nodup, fun h q buf hb => ⟨fun hc => ?_, fun m hc => ⟨fun v hv => ?_, fun e hv => ?_⟩⟩⟩
  · obtain ⟨code, b, h', -, -, h9⟩ := excHandler_code atExc buf hb (by simp [atExc])
    refine ⟨b, ?_⟩
    simp only [cStep, cQuery, hi.current h, hc, h', Outcome.bind_ok, h9 rfl]
  · simp only [cStep, cQuery, hi.current h, hc, hv]
  · simp only [cStep, cQuery, hi.current h, hc, hv]

/-- A build that returns 0 gives a handle under which the next query finds the model just built. -/
theorem capi_build_then_query (env : CEnv J M Q V) (cs : List (CCall Q)) (s s' : CLib M)
    (tr : List (CCall Q × CReply V)) (hn : buildCount cs + 1 < 2 ^ 64)
    (hr : cRun env (CLib.init M) [] cs = .ok (s, tr)) (json b b' : Bytes) (len : Int) (h : Handle)
    (hb : cStep env s (.build json b len) = .ok (s', ⟨.returned 0 b', some h, none⟩)) :
    h ∉ issued tr ∧ ∃ j m, env.parse json = .ok j ∧ env.make j = .ok m ∧ s'.lib h = some m := by
  have hr' : cRun env (CLib.init M) [] (cs ++ [.build json b len]) =
      .ok (s', (.build json b len, ⟨.returned 0 b', some h, none⟩) :: tr) := by
    have gen : ∀ (l : List (CCall Q)) (s0 : CLib M) (t0 : List (CCall Q × CReply V)),
        cRun env s0 t0 l = .ok (s, tr) → cRun env s0 t0 (l ++ [.build json b len]) =
          .ok (s', (.build json b len, ⟨.returned 0 b', some h, none⟩) :: tr) := by
      intro l
      induction l with
      | nil =>
        intro s0 t0 h0
        cases h0
        simp only [List.nil_append, cRun, hb, Outcome.bind_ok]
      | cons c l ih =>
        intro s0 t0 h0
        simp only [cRun, List.cons_append] at h0 ⊢
        obtain ⟨r, h1, h2⟩ := Outcome.bind_eq_ok.mp h0
        rw [h1]
        exact ih _ _ h2
    exact gen cs _ _ hr
  have hbc : buildCount (cs ++ [.build json b len]) = buildCount cs + 1 := by
    unfold buildCount; rw [List.countP_append]; rfl
  obtain ⟨n, -, hi⟩ := cRun_inv env _ 0 (CLib.init M) s' [] _ (by omega) (init_inv env) hr'
  have hnd := hi.nodup
  have hiss : issued ((CCall.build (Q := Q) json b len,
      (⟨.returned 0 b', some h, none⟩ : CReply V)) :: tr) = h :: issued tr := rfl
  rw [hiss, List.nodup_cons] at hnd
  refine ⟨hnd.1, ?_⟩
  simp only [cStep, cBuild] at hb
  cases hp : env.parse json with
  | error e =>
    rw [hp] at hb
    obtain ⟨x, -, hx⟩ := Outcome.bind_eq_ok.mp hb
    cases hx
  | ok j =>
    rw [hp] at hb
    simp only at hb
    cases hm : env.make j with
    | error e =>
      rw [hm] at hb
      obtain ⟨x, -, hx⟩ := Outcome.bind_eq_ok.mp hb
      cases hx
    | ok m =>
      refine ⟨j, m, rfl, hm, ?_⟩
      rw [hi.current h]
      simp [currentModel, hp, hm, Except.toOption]

/-- A history: build, failed build, build, free the first, query both. -/
example : (cRun toyEnv (CLib.init Nat) []
    [.build [5] [] 0, .build [9] [] 0, .build [6] [] 0, .free 0 [] 0, .query 0 3 [] 0, .query 2 3 [] 0]).bind
      (fun r => .ok (r.2.map Prod.snd)) =
    .ok [⟨.returned 0 [], none, some 18⟩, ⟨.returned 9999 [], none, none⟩, ⟨.returned 0 [], none, none⟩,
      ⟨.returned 0 [], some 2, none⟩, ⟨.returned 30 [], none, none⟩, ⟨.returned 0 [], some 0, none⟩] := by
  decide

/-- The bound on the number of builds is needed: the counter wraps around after 2⁶⁴ builds, the next build
returns a handle that is still in use, and a query on it evaluates the old model. -/
theorem handles_reused : ∃ (cs : List (CCall Nat)) (s s' : CLib Nat)
    (tr : List (CCall Nat × CReply Nat)), buildCount cs = 2 ^ 64 ∧
    cRun toyEnv (CLib.init Nat) [] cs = .ok (s, tr) ∧ (0 : Handle) ∈ issued tr ∧
    cStep toyEnv s (.build [6] [] 0) = .ok (s', ⟨.returned 0 [], some 0, none⟩) ∧
    cStep toyEnv s' (.query 0 1 [] 0) = .ok (s', ⟨.returned 0 [], none, some 5⟩) := by
  have gen : ∀ (k : Nat) (s : CLib Nat) (tr : List (CCall Nat × CReply Nat)),
      s.lib 0 = some 5 → (0 : Handle) ∈ issued tr →
      ∃ s' tr', cRun toyEnv s tr (List.replicate k (.build [7] [] 0)) = .ok (s', tr') ∧
        s'.next = s.next + BitVec.ofNat 64 k ∧ s'.lib 0 = some 5 ∧ (0 : Handle) ∈ issued tr' := by
    intro k
    induction k with
    | zero => intro s tr h1 h2; exact ⟨s, tr, rfl, by simp, h1, h2⟩
    | succ k ih =>
      intro s tr h1 h2
      have hstep : cStep toyEnv s (.build [7] [] 0) =
          .ok (⟨s.next + 1, emplaceLib s.lib s.next 7⟩, ⟨.returned 0 [], some s.next, none⟩) := rfl
      have h1' : emplaceLib s.lib s.next 7 0 = some 5 := by
        simp only [emplaceLib]
        cases hl : s.lib s.next with
        | some m => exact h1
        | none =>
          simp only
          rw [if_neg]
          · exact h1
          · intro h0; rw [← h0, h1] at hl; cases hl
      obtain ⟨s', tr', hr, hn, hl, hi⟩ := ih ⟨s.next + 1, emplaceLib s.lib s.next 7⟩
        ((.build [7] [] 0, ⟨.returned 0 [], some s.next, none⟩) :: tr) h1'
        (by unfold issued at h2 ⊢; simp only [List.filterMap_cons]; exact List.mem_cons_of_mem _ h2)
      refine ⟨s', tr', ?_, ?_, hl, hi⟩
      · rw [List.replicate_succ, cRun, hstep]; exact hr
      · rw [hn, BitVec.ofNat_add, BitVec.add_assoc, BitVec.add_comm 1]; rfl
  obtain ⟨K, hK⟩ : ∃ K : Nat, K = 2 ^ 64 - 1 := ⟨_, rfl⟩
  obtain ⟨s, tr, hr, hn, hl, hi⟩ := gen K ⟨1, emplaceLib (fun _ => none) 0 5⟩
    [(.build [5] [] 0, ⟨.returned 0 [], some 0, none⟩)] (by simp [emplaceLib]) (by simp [issued])
  have hn0 : s.next = 0 := by rw [hn, hK]; decide
  refine ⟨.build [5] [] 0 :: List.replicate K (.build [7] [] 0), s, ⟨s.next + 1, s.lib⟩, tr,
    ?_, hr, hi, ?_, ?_⟩
  · rw [buildCount_cons]
    have : ∀ k, buildCount (List.replicate k (CCall.build (Q := Nat) [7] [] 0)) = k := by
      intro k; unfold buildCount; rw [List.countP_replicate]; simp
    have h1 : buildCount [CCall.build (Q := Nat) [5] [] 0] = 1 := rfl
    rw [this, h1, hK]; norm_num
  · have : cStep toyEnv s (.build [6] [] 0) =
        .ok (⟨s.next + 1, emplaceLib s.lib s.next 6⟩, ⟨.returned 0 [], some s.next, none⟩) := rfl
    rw [this, hn0]
    simp only [emplaceLib, hl]
  · simp only [cStep, cQuery, hl]
    rfl

end Teqp.Props
