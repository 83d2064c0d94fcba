import Verif.Props.Residual

/-! # C28, C68: from term documents to term values -/

set_option autoImplicit false

namespace Teqp.Props
open Teqp Teqp.Model Teqp.Spec

/-- The arrays `A` of the listed keys are in the document. -/
def HasArrays (o : JObj) (ks : List String) (A : String → List ℝ) : Prop := ∀ k ∈ ks, o.arr k = .ok (A k)

/-- Entry `i` of an array. -/
noncomputable abbrev ent (A : String → List ℝ) (k : String) (i : ℕ) : ℝ := (A k).getD i 0

theorem sameLength_fold (o : JObj) (A : String → List ℝ) (m : ℕ) (ks : List String) (h : HasArrays o ks A) :
    ks.foldr (fun k acc => (o.arr k).bind fun a => acc.bind fun b => .ok (b && a.length == m))
      (.ok true) = .ok (decide (∀ k ∈ ks, (A k).length = m)) := by
  induction ks with
  | nil => simp
  | cons k ks ih =>
    rw [List.foldr_cons, ih fun k' hk' => h k' (by simp [hk']), h k (by simp)]
    simp only [Outcome.bind_ok, List.forall_mem_cons]
    congr 1
    rw [Bool.eq_iff_iff]
    simp [and_comm]

theorem allSameLength_eq (o : JObj) (A : String → List ℝ) (k : String) (ks : List String)
    (h : HasArrays o (k :: ks) A) :
    allSameLength o (k :: ks) = .ok (decide (∀ k' ∈ ks, (A k').length = (A k).length)) := by
  simp only [allSameLength]
  rw [h k (by simp)]
  simp only [Outcome.bind_ok]
  exact sameLength_fold o A _ ks fun k' hk' => h k' (by simp [hk'])

theorem container_one (t : ResTerm) (τ δ : ℝ) : containerAlphar [t] τ δ = t.alphar τ δ := by
  simp [containerAlphar]

theorem alphar_pos (t : ResTerm) (τ δ : ℝ) (hτ : 0 < τ) (hδ : 0 < δ) : t.alphar τ δ = ResTerm.doc t τ δ := by
  unfold ResTerm.alphar
  rw [if_neg hδ.ne', ordBranch_doc t τ δ hτ hδ]

/-- The sum over the entries of a document. -/
noncomputable def listed (N : ℕ) (f : ℕ → ℝ) : ℝ := ((List.range N).map f).sum

/-- The result `b` of building a term from arrays `A` of names `ks`: refused if the lengths differ, otherwise
a term set with the value `f` at positive temperature and density. -/
def ReadsAs (b : Outcome (List ResTerm)) (A : String → List ℝ) (ks : List String) (f : ℝ → ℝ → ℝ) : Prop :=
  if ∀ k ∈ ks, (A k).length = (A "n").length then
    ∃ ts, b = .ok ts ∧ ∀ τ δ, 0 < τ → 0 < δ → containerAlphar ts τ δ = f τ δ
  else b = .throws .stdInvalidArgument

theorem readsAs_of (b : Outcome (List ResTerm)) (A : String → List ℝ) (ks : List String) (f : ℝ → ℝ → ℝ)
    (t : ResTerm)
    (hb : b = if decide (∀ k' ∈ ks, (A k').length = (A "n").length) = false then .throws .stdInvalidArgument
      else .ok [t])
    (hv : (∀ k' ∈ ks, (A k').length = (A "n").length) → ∀ τ δ, ResTerm.doc t τ δ = f τ δ) :
    ReadsAs b A ("n" :: ks) f := by
  unfold ReadsAs
  rw [hb]
  by_cases hc : ∀ k ∈ ks, (A k).length = (A "n").length
  · have hc' : ∀ k ∈ "n" :: ks, (A k).length = (A "n").length := List.forall_mem_cons.mpr ⟨rfl, hc⟩
    rw [if_pos hc', if_neg (by rwa [decide_eq_false_iff_not, not_not])]
    refine ⟨_, rfl, fun τ δ hτ hδ => ?_⟩
    rw [container_one, alphar_pos _ _ _ hτ hδ, hv hc]
  · rw [if_neg (fun h => hc (List.forall_mem_cons.mp h).2), if_pos (by rwa [decide_eq_false_iff_not])]

/-! ## Terms with one formula -/

/-- C68. A Gaussian term document: refused if its arrays differ in length, otherwise the listed sum. -/
theorem gaussian_document (o : JObj) (A : String → List ℝ) (h : HasArrays o gaussKeys A) :
    ReadsAs (buildGaussian o) A ["n", "t", "d", "eta", "beta", "gamma", "epsilon"] fun τ δ =>
      listed (A "n").length fun i => gaussSummand (ent A "n" i) (ent A "t" i) (ent A "d" i) (ent A "eta" i)
          (ent A "beta" i) (ent A "gamma" i) (ent A "epsilon" i) τ δ := by
  have hs := allSameLength_eq o A "n" _ h
  refine readsAs_of _ A _ _ (.gaussian (gaussEntries (A "n").length (A "n") (A "t") (A "d") (A "eta") (A "beta")
    (A "gamma") (A "epsilon"))) ?_ ?_
  · unfold buildGaussian
    rw [h "n" (by simp [gaussKeys]), h "t" (by simp [gaussKeys]), h "d" (by simp [gaussKeys]),
      h "eta" (by simp [gaussKeys]), h "beta" (by simp [gaussKeys]), h "gamma" (by simp [gaussKeys]),
      h "epsilon" (by simp [gaussKeys])]
    simp only [Outcome.bind_ok]
    unfold gaussKeys
    rw [hs]
    rfl
  · intro _ τ δ
    simp [ResTerm.doc, gaussEntries, listed, Function.comp_def]

/-- Two listed Gaussian entries. -/
noncomputable def gaussDoc : JObj := [("n", .arr [1, 2]), ("t", .arr [0, 1]), ("d", .arr [1, 2]), ("eta", .arr [1, 1]),
  ("beta", .arr [3, 3]), ("gamma", .arr [1, 1]), ("epsilon", .arr [1, 1])]

/-- The same with one `epsilon` missing. -/
noncomputable def gaussDocShort : JObj := [("n", .arr [1, 2]), ("t", .arr [0, 1]), ("d", .arr [1, 2]),
  ("eta", .arr [1, 1]), ("beta", .arr [3, 3]), ("gamma", .arr [1, 1]), ("epsilon", .arr [1])]

/-- The array of a name, empty if there is none. -/
noncomputable def arrays (o : JObj) (k : String) : List ℝ :=
  match o.lookup k with
  | some (.arr a) => a
  | _ => []

example : ∃ ts, buildGaussian gaussDoc = .ok ts ∧ containerAlphar ts 1 1 = 3 := by
  have h : HasArrays gaussDoc gaussKeys (arrays gaussDoc) := by
    unfold HasArrays gaussKeys
    simp only [List.forall_mem_cons, List.not_mem_nil, false_imp_iff, implies_true, and_true]
    exact ⟨rfl, rfl, rfl, rfl, rfl, rfl, rfl⟩
  have h' := gaussian_document gaussDoc _ h
  unfold ReadsAs at h'
  rw [if_pos (by
    simp only [List.forall_mem_cons, List.not_mem_nil, false_imp_iff, implies_true, and_true, true_and]
    exact ⟨rfl, rfl, rfl, rfl, rfl, rfl⟩)] at h'
  obtain ⟨ts, hts, hv⟩ := h'
  refine ⟨ts, hts, ?_⟩
  rw [hv 1 1 one_pos one_pos]
  have e1 : arrays gaussDoc "n" = [1, 2] := rfl
  have e2 : arrays gaussDoc "epsilon" = [1, 1] := rfl
  have e3 : arrays gaussDoc "gamma" = [1, 1] := rfl
  simp [listed, gaussSummand, ent, e1, e2, e3, List.range_succ]
  norm_num

example : buildGaussian gaussDocShort = .throws .stdInvalidArgument := by
  have h : HasArrays gaussDocShort gaussKeys (arrays gaussDocShort) := by
    unfold HasArrays gaussKeys
    simp only [List.forall_mem_cons, List.not_mem_nil, false_imp_iff, implies_true, and_true]
    exact ⟨rfl, rfl, rfl, rfl, rfl, rfl, rfl⟩
  have h' := gaussian_document gaussDocShort _ h
  unfold ReadsAs at h'
  rwa [if_neg (by
    intro hc
    have := hc "epsilon" (by simp)
    exact absurd this (by
      have e1 : (arrays gaussDocShort "epsilon").length = 1 := rfl
      have e2 : (arrays gaussDocShort "n").length = 2 := rfl
      rw [e1, e2]; decide))] at h'

/-- Names of the arrays of a Lemmon-2005 term. -/
def lemmonKeys : List String := ["n", "t", "d", "m", "l"]

/-- C68. A Lemmon-2005 term document: refused if its arrays differ in length; refused if some `l` is not an
integer; otherwise the listed sum. -/
theorem lemmon_document (o : JObj) (A : String → List ℝ) (h : HasArrays o lemmonKeys A) :
    ((∀ x ∈ A "l", ∃ z : ℤ, x = z) →
      ReadsAs (buildLemmon o) A lemmonKeys fun τ δ =>
        listed (A "n").length fun i => lemmonSummand (ent A "n" i) (ent A "t" i) (ent A "d" i) (ent A "l" i)
          (ent A "m" i) τ δ) ∧
    ((∃ x ∈ A "l", ∀ z : ℤ, x ≠ z) → buildLemmon o = .throws .stdInvalidArgument) := by
  have hs := allSameLength_eq o A "n" _ h
  have hb : buildLemmon o = if decide (∀ k' ∈ ["t", "d", "m", "l"], (A k').length = (A "n").length) = false
      then .throws .stdInvalidArgument
      else if ∃ x ∈ A "l", (castInt x : ℝ) ≠ x then .throws .stdInvalidArgument
      else .ok [.lemmon2005 ((List.range (A "n").length).map fun i =>
        ⟨ent A "n" i, ent A "t" i, ent A "d" i, castInt (ent A "l" i), ent A "m" i⟩)] := by
    unfold buildLemmon
    rw [h "n" (by simp [lemmonKeys]), h "t" (by simp [lemmonKeys]), h "d" (by simp [lemmonKeys]),
      h "m" (by simp [lemmonKeys]), h "l" (by simp [lemmonKeys])]
    simp only [Outcome.bind_ok]
    rw [hs]
    rfl
  constructor
  · intro hl
    have hl' : ∀ x ∈ A "l", (castInt x : ℝ) = x := by
      intro x hx
      obtain ⟨z, rfl⟩ := hl x hx
      rw [castInt_intCast]
    have hn : ¬∃ x ∈ A "l", (castInt x : ℝ) ≠ x := by rintro ⟨x, hx, h2⟩; exact h2 (hl' x hx)
    rw [if_neg hn] at hb
    refine readsAs_of _ A _ _ _ hb ?_
    intro hlen τ δ
    simp only [ResTerm.doc, listed, List.map_map, Function.comp_def]
    refine sum_map_congr _ _ _ fun i hi => ?_
    have hi' : i < (A "l").length := by rw [hlen "l" (by simp)]; exact List.mem_range.mp hi
    have : ((castInt (ent A "l" i) : ℤ) : ℝ) = ent A "l" i := by
      apply hl'
      rw [ent, List.getD_eq_getElem _ _ hi']
      exact List.getElem_mem hi'
    rw [this]
  · rintro ⟨x, hx, hz⟩
    rw [hb, if_pos (⟨x, hx, fun hc => hz _ hc.symm⟩ : ∃ x ∈ A "l", (castInt x : ℝ) ≠ x)]
    simp

/-- Documents of the Lemmon-2005 type with `l = 2` and with `l = 3/2`. -/
noncomputable def lemmonDoc (l : ℝ) : JObj :=
  [("n", .arr [5]), ("t", .arr [0]), ("d", .arr [1]), ("m", .arr [1]), ("l", .arr [l])]

theorem lemmonDoc_arrays (l : ℝ) : HasArrays (lemmonDoc l) lemmonKeys (arrays (lemmonDoc l)) := by
  unfold HasArrays lemmonKeys
  simp only [List.forall_mem_cons, List.not_mem_nil, false_imp_iff, implies_true, and_true]
  exact ⟨rfl, rfl, rfl, rfl, rfl⟩

example : buildLemmon (lemmonDoc 1.5) = .throws .stdInvalidArgument := by
  refine (lemmon_document _ _ (lemmonDoc_arrays 1.5)).2 ⟨1.5, ?_, ?_⟩
  · have : arrays (lemmonDoc 1.5) "l" = [1.5] := rfl
    rw [this]; simp
  · intro z hz
    have h2 : (3 : ℤ) = 2 * z := by
      have : ((3 : ℤ) : ℝ) = ((2 * z : ℤ) : ℝ) := by push_cast; rw [← hz]; norm_num
      exact_mod_cast this
    omega

/-- Names of the arrays of an exponential term. -/
def expKeys : List String := ["n", "t", "d", "g", "l"]

/-- C68. An exponential term document with integer `l`: refused if its arrays differ in length, otherwise the
listed sum. -/
theorem exponential_document (o : JObj) (A : String → List ℝ) (h : HasArrays o expKeys A)
    (hl : ∀ x ∈ A "l", ∃ z : ℤ, x = z) :
    ReadsAs (buildExponential o) A expKeys fun τ δ =>
      listed (A "n").length fun i => expSummand (ent A "n" i) (ent A "t" i) (ent A "d" i) (ent A "g" i)
        (ent A "l" i) τ δ := by
  have hs := allSameLength_eq o A "n" _ h
  refine readsAs_of _ A _ _ (.exponential ((List.range (A "n").length).map fun i =>
        ⟨ent A "n" i, ent A "t" i, ent A "d" i, ent A "g" i, castInt (ent A "l" i)⟩)) ?_ ?_
  · unfold buildExponential
    rw [h "n" (by simp [expKeys]), h "t" (by simp [expKeys]), h "d" (by simp [expKeys]),
      h "g" (by simp [expKeys]), h "l" (by simp [expKeys])]
    simp only [Outcome.bind_ok]
    rw [hs]
    rfl
  · intro hlen τ δ
    simp only [ResTerm.doc, listed, List.map_map, Function.comp_def]
    refine sum_map_congr _ _ _ fun i hi => ?_
    have hi' : i < (A "l").length := by rw [hlen "l" (by simp)]; exact List.mem_range.mp hi
    have : ((castInt (ent A "l" i) : ℤ) : ℝ) = ent A "l" i := by
      rw [ent, List.getD_eq_getElem _ _ hi']
      obtain ⟨z, hz⟩ := hl _ (List.getElem_mem hi')
      rw [hz, castInt_intCast]
    rw [this]

/-- A document of the exponential type. -/
noncomputable def expDoc (l : ℝ) : JObj :=
  [("n", .arr [1]), ("t", .arr [0]), ("d", .arr [1]), ("g", .arr [1]), ("l", .arr [l])]

theorem expDoc_arrays (l : ℝ) : HasArrays (expDoc l) expKeys (arrays (expDoc l)) := by
  unfold HasArrays expKeys
  simp only [List.forall_mem_cons, List.not_mem_nil, false_imp_iff, implies_true, and_true]
  exact ⟨rfl, rfl, rfl, rfl, rfl⟩

example : ∃ ts, buildExponential (expDoc 2) = .ok ts ∧ containerAlphar ts 1 2 = 2 * Real.exp (-4) := by
  have h' := exponential_document _ _ (expDoc_arrays 2) (by
    have : arrays (expDoc 2) "l" = [2] := rfl
    rw [this]
    intro x hx
    rw [List.mem_singleton] at hx
    exact ⟨2, by rw [hx]; norm_num⟩)
  unfold ReadsAs expKeys at h'
  rw [if_pos (by
    simp only [List.forall_mem_cons, List.not_mem_nil, false_imp_iff, implies_true, and_true, true_and]
    exact ⟨rfl, rfl, rfl, rfl⟩)] at h'
  obtain ⟨ts, hts, hv⟩ := h'
  refine ⟨ts, hts, ?_⟩
  rw [hv 1 2 one_pos two_pos]
  have e1 : arrays (expDoc 2) "n" = [1] := rfl
  have e2 : arrays (expDoc 2) "d" = [1] := rfl
  have e3 : arrays (expDoc 2) "g" = [1] := rfl
  have e4 : arrays (expDoc 2) "l" = [2] := rfl
  simp [listed, expSummand, ent, e1, e2, e3, e4]
  norm_num

/-- C68 fails for exponential terms: `l = 3/2` is accepted and evaluated as `l = 1`. -/
theorem exponential_truncates : ∃ ts, buildExponential (expDoc 1.5) = .ok ts ∧
    ∀ τ δ, 0 < τ → 0 < δ → containerAlphar ts τ δ = expSummand 1 0 1 1 1 τ δ := by
  refine ⟨[.exponential [⟨1, 0, 1, 1, castInt 1.5⟩]], ?_, fun τ δ hτ hδ => ?_⟩
  · have hs := allSameLength_eq _ _ "n" _ (expDoc_arrays 1.5)
    unfold buildExponential
    have h := expDoc_arrays 1.5
    rw [h "n" (by simp [expKeys]), h "t" (by simp [expKeys]), h "d" (by simp [expKeys]),
      h "g" (by simp [expKeys]), h "l" (by simp [expKeys])]
    simp only [Outcome.bind_ok]
    rw [hs]
    rfl
  · have hc : castInt 1.5 = 1 := by
      unfold castInt
      rw [if_pos (by norm_num), Int.floor_eq_iff]
      norm_num
    rw [container_one, alphar_pos _ _ _ hτ hδ, hc]
    simp [ResTerm.doc]

/-- Names of the arrays of a double-exponential term. -/
def doubleExpKeys : List String := ["n", "t", "d", "ld", "gd", "lt", "gt"]

/-- C68. A double-exponential term document with integer `ld`. -/
theorem doubleExponential_document (o : JObj) (A : String → List ℝ) (h : HasArrays o doubleExpKeys A)
    (hl : ∀ x ∈ A "ld", ∃ z : ℤ, x = z) :
    ReadsAs (buildDoubleExp o) A doubleExpKeys fun τ δ =>
      listed (A "n").length fun i => doubleExpSummand (ent A "n" i) (ent A "t" i) (ent A "d" i) (ent A "gd" i)
        (ent A "ld" i) (ent A "gt" i) (ent A "lt" i) τ δ := by
  have hs := allSameLength_eq o A "n" _ h
  refine readsAs_of _ A _ _ (.doubleExp ((List.range (A "n").length).map fun i =>
        ⟨ent A "n" i, ent A "t" i, ent A "d" i, ent A "gd" i, castInt (ent A "ld" i), ent A "gt" i,
          ent A "lt" i⟩)) ?_ ?_
  · unfold buildDoubleExp
    rw [h "n" (by simp [doubleExpKeys]), h "t" (by simp [doubleExpKeys]), h "d" (by simp [doubleExpKeys]),
      h "ld" (by simp [doubleExpKeys]), h "gd" (by simp [doubleExpKeys]), h "lt" (by simp [doubleExpKeys]),
      h "gt" (by simp [doubleExpKeys])]
    simp only [Outcome.bind_ok]
    rw [hs]
    rfl
  · intro hlen τ δ
    simp only [ResTerm.doc, listed, List.map_map, Function.comp_def]
    refine sum_map_congr _ _ _ fun i hi => ?_
    have hi' : i < (A "ld").length := by rw [hlen "ld" (by simp)]; exact List.mem_range.mp hi
    have : ((castInt (ent A "ld" i) : ℤ) : ℝ) = ent A "ld" i := by
      rw [ent, List.getD_eq_getElem _ _ hi']
      obtain ⟨z, hz⟩ := hl _ (List.getElem_mem hi')
      rw [hz, castInt_intCast]
    rw [this]

/-- A document of the double-exponential type with `gt` of length `k`. -/
noncomputable def dexpDoc (k : ℕ) : JObj :=
  [("n", .arr [1]), ("t", .arr [0]), ("d", .arr [1]), ("ld", .arr [2]), ("gd", .arr [1]), ("lt", .arr [1]),
    ("gt", .arr (List.replicate k 1))]

theorem dexpDoc_arrays (k : ℕ) : HasArrays (dexpDoc k) doubleExpKeys (arrays (dexpDoc k)) := by
  unfold HasArrays doubleExpKeys
  simp only [List.forall_mem_cons, List.not_mem_nil, false_imp_iff, implies_true, and_true]
  exact ⟨rfl, rfl, rfl, rfl, rfl, rfl, rfl⟩

example : buildDoubleExp (dexpDoc 2) = .throws .stdInvalidArgument := by
  have h' := doubleExponential_document _ _ (dexpDoc_arrays 2) (by
    have : arrays (dexpDoc 2) "ld" = [2] := rfl
    rw [this]
    intro x hx
    rw [List.mem_singleton] at hx
    exact ⟨2, by rw [hx]; norm_num⟩)
  unfold ReadsAs doubleExpKeys at h'
  rwa [if_neg (by
    intro hc
    have := hc "gt" (by simp)
    have e1 : (arrays (dexpDoc 2) "gt").length = 2 := rfl
    have e2 : (arrays (dexpDoc 2) "n").length = 1 := rfl
    rw [e1, e2] at this
    exact absurd this (by decide))] at h'

/-- Names of the arrays of a Gao-B term. -/
def gaoBKeys : List String := ["n", "t", "d", "eta", "beta", "gamma", "epsilon", "b"]

/-- C68. A Gao-B term document; `eta` of the document has the opposite sign of `η` in the formula. -/
theorem gaoB_document (o : JObj) (A : String → List ℝ) (h : HasArrays o gaoBKeys A) :
    ReadsAs (buildGaoB o) A gaoBKeys fun τ δ =>
      listed (A "n").length fun i => gaoBSummand (ent A "n" i) (ent A "t" i) (ent A "d" i) (-ent A "eta" i)
        (ent A "beta" i) (ent A "gamma" i) (ent A "epsilon" i) (ent A "b" i) τ δ := by
  have hs := allSameLength_eq o A "n" _ h
  refine readsAs_of _ A _ _ (.gaoB ((List.range (A "n").length).map fun i =>
        ⟨ent A "n" i, ent A "t" i, ent A "d" i, -ent A "eta" i, ent A "beta" i, ent A "gamma" i,
          ent A "epsilon" i, ent A "b" i⟩)) ?_ ?_
  · unfold buildGaoB
    rw [h "n" (by simp [gaoBKeys]), h "t" (by simp [gaoBKeys]), h "d" (by simp [gaoBKeys]),
      h "eta" (by simp [gaoBKeys]), h "beta" (by simp [gaoBKeys]), h "gamma" (by simp [gaoBKeys]),
      h "epsilon" (by simp [gaoBKeys]), h "b" (by simp [gaoBKeys])]
    simp only [Outcome.bind_ok]
    rw [hs]
    rfl
  · intro _ τ δ
    simp only [ResTerm.doc, listed, List.map_map, Function.comp_def]

/-- A document of the Gao-B type. -/
noncomputable def gaoBDoc : JObj := [("n", .arr [1]), ("t", .arr [0]), ("d", .arr [1]), ("eta", .arr [-1]),
  ("beta", .arr [1]), ("gamma", .arr [1]), ("epsilon", .arr [1]), ("b", .arr [1])]

example : ∃ ts, buildGaoB gaoBDoc = .ok ts ∧ containerAlphar ts 1 2 = 2 := by
  have h : HasArrays gaoBDoc gaoBKeys (arrays gaoBDoc) := by
    unfold HasArrays gaoBKeys
    simp only [List.forall_mem_cons, List.not_mem_nil, false_imp_iff, implies_true, and_true]
    exact ⟨rfl, rfl, rfl, rfl, rfl, rfl, rfl, rfl⟩
  have h' := gaoB_document _ _ h
  unfold ReadsAs gaoBKeys at h'
  rw [if_pos (by
    simp only [List.forall_mem_cons, List.not_mem_nil, false_imp_iff, implies_true, and_true, true_and]
    exact ⟨rfl, rfl, rfl, rfl, rfl, rfl, rfl⟩)] at h'
  obtain ⟨ts, hts, hv⟩ := h'
  refine ⟨ts, hts, ?_⟩
  rw [hv 1 2 one_pos two_pos]
  have e1 : arrays gaoBDoc "n" = [1] := rfl
  have e2 : arrays gaoBDoc "d" = [1] := rfl
  have e3 : arrays gaoBDoc "eta" = [-1] := rfl
  have e4 : arrays gaoBDoc "gamma" = [1] := rfl
  have e5 : arrays gaoBDoc "epsilon" = [1] := rfl
  have e6 : arrays gaoBDoc "b" = [1] := rfl
  simp [listed, gaoBSummand, ent, e1, e2, e3, e4, e5, e6]
  norm_num

/-- Names of the arrays of a non-analytic term. -/
def nonAnalyticKeys : List String := ["n", "A", "B", "C", "D", "a", "b", "beta"]

/-- C68. A non-analytic term document. -/
theorem nonAnalytic_document (o : JObj) (A : String → List ℝ) (h : HasArrays o nonAnalyticKeys A) :
    ReadsAs (buildNonAnalytic o) A nonAnalyticKeys fun τ δ =>
      listed (A "n").length fun i => nonAnalyticSummand (ent A "A" i) (ent A "B" i) (ent A "C" i) (ent A "D" i)
        (ent A "a" i) (ent A "b" i) (ent A "beta" i) (ent A "n" i) τ δ := by
  have hs := allSameLength_eq o A "n" _ h
  refine readsAs_of _ A _ _ (.nonAnalytic ((List.range (A "n").length).map fun i =>
        ⟨ent A "A" i, ent A "B" i, ent A "C" i, ent A "D" i, ent A "a" i, ent A "b" i, ent A "beta" i,
          ent A "n" i⟩)) ?_ ?_
  · unfold buildNonAnalytic
    rw [h "n" (by simp [nonAnalyticKeys]), h "A" (by simp [nonAnalyticKeys]), h "B" (by simp [nonAnalyticKeys]),
      h "C" (by simp [nonAnalyticKeys]), h "D" (by simp [nonAnalyticKeys]), h "a" (by simp [nonAnalyticKeys]),
      h "b" (by simp [nonAnalyticKeys]), h "beta" (by simp [nonAnalyticKeys])]
    simp only [Outcome.bind_ok]
    rw [hs]
    rfl
  · intro _ τ δ
    simp only [ResTerm.doc, listed, List.map_map, Function.comp_def]

/-- A document of the non-analytic type. -/
noncomputable def nonAnalyticDoc : JObj := [("n", .arr [1]), ("A", .arr [1]), ("B", .arr [1]), ("C", .arr [1]),
  ("D", .arr [1]), ("a", .arr [1]), ("b", .arr [1]), ("beta", .arr [1 / 2])]

example : ∃ ts, buildNonAnalytic nonAnalyticDoc = .ok ts ∧ containerAlphar ts 1 2 = 4 * Real.exp (-1) := by
  have h : HasArrays nonAnalyticDoc nonAnalyticKeys (arrays nonAnalyticDoc) := by
    unfold HasArrays nonAnalyticKeys
    simp only [List.forall_mem_cons, List.not_mem_nil, false_imp_iff, implies_true, and_true]
    exact ⟨rfl, rfl, rfl, rfl, rfl, rfl, rfl, rfl⟩
  have h' := nonAnalytic_document _ _ h
  unfold ReadsAs nonAnalyticKeys at h'
  rw [if_pos (by
    simp only [List.forall_mem_cons, List.not_mem_nil, false_imp_iff, implies_true, and_true, true_and]
    exact ⟨rfl, rfl, rfl, rfl, rfl, rfl, rfl⟩)] at h'
  obtain ⟨ts, hts, hv⟩ := h'
  refine ⟨ts, hts, ?_⟩
  rw [hv 1 2 one_pos two_pos]
  have e1 : arrays nonAnalyticDoc "n" = [1] := rfl
  have e2 : arrays nonAnalyticDoc "A" = [1] := rfl
  have e3 : arrays nonAnalyticDoc "B" = [1] := rfl
  have e4 : arrays nonAnalyticDoc "C" = [1] := rfl
  have e5 : arrays nonAnalyticDoc "D" = [1] := rfl
  have e6 : arrays nonAnalyticDoc "a" = [1] := rfl
  have e7 : arrays nonAnalyticDoc "b" = [1] := rfl
  have e8 : arrays nonAnalyticDoc "beta" = [1 / 2] := rfl
  simp only [listed, nonAnalyticSummand, ent, e1, e2, e3, e4, e5, e6, e7, e8]
  norm_num

end Teqp.Props
