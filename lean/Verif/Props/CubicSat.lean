import Verif.Props.AdvPR
import Verif.Props.Superanc

/-! # Saturated densities of cubic equations from reduced ones, generalised cubics from documents -/

set_option autoImplicit false

namespace Teqp.Props
open Teqp.Model Teqp.Spec Teqp.Lemmas Finset

/-- A cubic equation depends on temperature and density only through `RTb/a` and `bρ`. -/
theorem cubic_reduced (R a b D1 D2 T ρ : ℝ) (ha : a ≠ 0) (hb : b ≠ 0) (hRT : R * T ≠ 0) :
    cubicAlphar R a b D1 D2 T ρ = cubicAlphar 1 1 1 D1 D2 (R * T * b / a) (b * ρ) := by
  unfold cubicAlphar
  simp only [one_mul, mul_one]
  rw [mul_assoc D1, mul_assoc D2]
  congr 1
  generalize Real.log ((D1 * (b * ρ) + 1) / (D2 * (b * ρ) + 1)) = L
  have hR : R ≠ 0 := left_ne_zero_of_mul hRT
  have hT : T ≠ 0 := right_ne_zero_of_mul hRT
  by_cases hD : D1 - D2 = 0
  · simp [hD]
  · field_simp

/-- Pressure and chemical potential of a cubic equation from those of the reduced one. -/
theorem cubic_scales {R a b D1 D2 T ρ : ℝ} (c c' : ℝ → ℝ) (hR : 0 < R) (hT : 0 < T) (ha : 0 < a) (hb : 0 < b) (hD : D1 ≠ D2) (h1 : -1 < D1) (h2 : -1 < D2)
    (hρ : 0 < ρ) (hbρ : b * ρ < 1) :
    totalPressure (cubicAlphar R a b D1 D2) R T ρ = a / b ^ 2 * totalPressure (cubicAlphar 1 1 1 D1 D2) 1 (R * T * b / a) (b * ρ) ∧
    chemPot (cubicAlphar R a b D1 D2) c R T ρ = a / b * chemPot (cubicAlphar 1 1 1 D1 D2) c' 1 (R * T * b / a) (b * ρ)
      + R * T * (c T - c' (R * T * b / a) - Real.log b) := by
  have hy : 0 < b * ρ := mul_pos hb hρ
  have p : ∀ D : ℝ, -1 < D → 0 < D * (b * ρ) + 1 := fun D hD => by nlinarith
  have d1 := hasDerivAt_cubicAlphar (R := R) (a := a) (b := b) (D1 := D1) (D2 := D2) (T := T) (ρ := ρ) hb.ne' hD (by linarith)
    (by have := p D1 h1; rw [mul_assoc]; exact this.ne') (by have := p D2 h2; rw [mul_assoc]; exact this.ne')
  have d2 := hasDerivAt_cubicAlphar (R := 1) (a := 1) (b := 1) (D1 := D1) (D2 := D2) (T := R * T * b / a) (ρ := b * ρ) one_ne_zero hD (by linarith)
    (by have := p D1 h1; rw [mul_one]; exact this.ne') (by have := p D2 h2; rw [mul_one]; exact this.ne')
  have q1 := (p D1 h1).ne'
  have q2 := (p D2 h2).ne'
  have q3 : 1 - b * ρ ≠ 0 := by linarith
  have rel : b / (1 - b * ρ) - a / (R * T) / ((D1 * b * ρ + 1) * (D2 * b * ρ + 1)) =
      b * (1 / (1 - 1 * (b * ρ)) - 1 / (1 * (R * T * b / a)) / ((D1 * 1 * (b * ρ) + 1) * (D2 * 1 * (b * ρ) + 1))) := by
    rw [mul_assoc D1, mul_assoc D2, mul_one, mul_one, one_mul, one_mul]
    have := hR.ne'; have := hT.ne'; have := ha.ne'; have := hb.ne'
    field_simp
  constructor
  · unfold totalPressure pressure helmholtz
    rw [((d1.mul_const R).mul_const T).deriv, ((d2.mul_const 1).mul_const (R * T * b / a)).deriv, rel]
    have := hR.ne'; have := hT.ne'; have := ha.ne'; have := hb.ne'
    field_simp
  · unfold chemPot helmholtz totalAlpha
    have e1 : HasDerivAt (fun r => r * ((Real.log r + c T + cubicAlphar R a b D1 D2 T r) * R * T)) _ ρ :=
      (hasDerivAt_id ρ).mul ((((((hasDerivAt_id ρ).log hρ.ne').add_const (c T)).add d1).mul_const R).mul_const T)
    have e2 : HasDerivAt (fun r => r * ((Real.log r + c' (R * T * b / a) + cubicAlphar 1 1 1 D1 D2 (R * T * b / a) r) * 1 * (R * T * b / a))) _ (b * ρ) :=
      (hasDerivAt_id (b * ρ)).mul ((((((hasDerivAt_id (b * ρ)).log hy.ne').add_const (c' (R * T * b / a))).add d2).mul_const 1).mul_const (R * T * b / a))
    rw [e1.deriv, e2.deriv, rel]
    simp only [id]
    rw [cubic_reduced R a b D1 D2 T ρ ha.ne' hb.ne' (mul_pos hR hT).ne', Real.log_mul hb.ne' hρ.ne']
    generalize cubicAlphar 1 1 1 D1 D2 (R * T * b / a) (b * ρ) = A
    generalize (1 / (1 - 1 * (b * ρ)) - 1 / (1 * (R * T * b / a)) / ((D1 * 1 * (b * ρ) + 1) * (D2 * 1 * (b * ρ) + 1))) = A'
    have := hR.ne'; have := hT.ne'; have := ha.ne'; have := hb.ne'
    field_simp
    ring

/-- Two densities of a cubic fluid are in equilibrium exactly when the reduced ones are. -/
theorem cubic_coexist {R a b D1 D2 T y z : ℝ} (c c' : ℝ → ℝ) (hR : 0 < R) (hT : 0 < T) (ha : 0 < a) (hb : 0 < b) (hD : D1 ≠ D2) (h1 : -1 < D1) (h2 : -1 < D2)
    (hy : 0 < y) (hy1 : y < 1) (hz : 0 < z) (hz1 : z < 1) :
    Coexist (cubicAlphar R a b D1 D2) c R T (y / b) (z / b) ↔ Coexist (cubicAlphar 1 1 1 D1 D2) c' 1 (R * T * b / a) y z := by
  have k : ∀ w : ℝ, b * (w / b) = w := fun w => mul_div_cancel₀ w hb.ne'
  obtain ⟨p1, m1⟩ := cubic_scales c c' hR hT ha hb hD h1 h2 (div_pos hy hb) (by rw [k]; exact hy1)
  obtain ⟨p2, m2⟩ := cubic_scales c c' hR hT ha hb hD h1 h2 (div_pos hz hb) (by rw [k]; exact hz1)
  rw [k] at p1 m1 p2 m2
  unfold Coexist
  rw [p1, p2, m1, m2, mul_right_inj' (by positivity), add_left_inj, mul_right_inj' (by positivity)]

/-- The saturated densities of a model: with tables that give equilibrium densities of the reduced equation, the returned densities are in equilibrium. -/
theorem superanc_exact (t : SuperTables) (code : Int) {R T D1 D2 : ℝ} (N : ℕ) (ifluid : Option ℕ) (bf af : List ℝ → Outcome ℝ) (x : List ℝ) (b a l v : ℝ)
    (c c' : ℝ → ℝ) (hR : 0 < R) (hT : 0 < T) (ha : 0 < a) (hb : 0 < b) (hD : D1 ≠ D2) (h1 : -1 < D1) (h2 : -1 < D2)
    (hx : superancX N ifluid = .ok x) (hbx : bf x = .ok b) (hax : af x = .ok a)
    (hl : supercubic t code 101 (R * T * b / a) = .ok l) (hv : supercubic t code 102 (R * T * b / a) = .ok v)
    (l0 : 0 < l) (l1 : l < 1) (v0 : 0 < v) (v1 : v < 1) (heq : Coexist (cubicAlphar 1 1 1 D1 D2) c' 1 (R * T * b / a) l v) :
    ∃ rhoL rhoV, superancRhoLV t code R T N ifluid bf af = .ok (rhoL, rhoV) ∧ b * rhoL = l ∧ b * rhoV = v ∧
      Coexist (cubicAlphar R a b D1 D2) c R T rhoL rhoV := by
  refine ⟨l / b, v / b, ?_, mul_div_cancel₀ l hb.ne', mul_div_cancel₀ v hb.ne', (cubic_coexist c c' hR hT ha hb hD h1 h2 l0 l1 v0 v1).2 heq⟩
  unfold superancRhoLV
  rw [hx, Outcome.bind_ok, hbx, Outcome.bind_ok, hax, Outcome.bind_ok, if_neg ha.ne', hl, Outcome.bind_ok, hv, Outcome.bind_ok, if_neg hb.ne']

/-- Whether a composition is formed: mixtures need the number of a component. -/
theorem superanc_refuses (t : SuperTables) (code : Int) (R T : ℝ) (N : ℕ) (bf af : List ℝ → Outcome ℝ) (hN : 1 < N) :
    superancRhoLV t code R T N none bf af = .throws .invalidArgument ∧
    (∀ k, N ≤ k → superancRhoLV t code R T N (some k) bf af = .throws .invalidArgument) ∧
    (∀ k < N, ∃ x, superancX N (some k) = .ok x ∧ x.length = N ∧ ∀ i < N, el x i = if i = k then 1 else 0) ∧
    (∀ i, superancX 1 i = .ok [1]) := by
  refine ⟨?_, fun k hk => ?_, fun k hk => ⟨(List.range N).map fun i => if i = k then 1 else 0, ?_, by simp, fun i hi => ?_⟩, fun i => ?_⟩
  · unfold superancRhoLV superancX
    rw [if_pos hN]; rfl
  · unfold superancRhoLV superancX
    rw [if_pos hN]
    simp only
    rw [if_pos (by omega)]; rfl
  · unfold superancX
    rw [if_pos hN]
    simp only
    rw [if_neg (by omega)]
  · unfold el
    rw [List.getD_eq_getElem _ _ (by simpa using hi)]
    simp
  · unfold superancX
    rw [if_neg (by omega)]; rfl

/-- An equation without tables: minus one over the covolume is returned for both densities. -/
theorem superanc_sentinel (t : SuperTables) (code : Int) (R T : ℝ) (N : ℕ) (ifluid : Option ℕ) (bf af : List ℝ → Outcome ℝ) (x : List ℝ) (b a : ℝ)
    (hx : superancX N ifluid = .ok x) (hb : bf x = .ok b) (ha : af x = .ok a) (b0 : b ≠ 0) (a0 : a ≠ 0) (h0 : code ≠ 0) (h1 : code ≠ 1) (h2 : code ≠ 2) :
    superancRhoLV t code R T N ifluid bf af = .ok (-1 / b, -1 / b) := by
  have hs := (supercubic_codes t (R * T * b / a)).2.2.2.2.2.2.2.2.2.1
  unfold superancRhoLV
  rw [hx, Outcome.bind_ok, hb, Outcome.bind_ok, ha, Outcome.bind_ok, if_neg a0, hs code 101 h0 h1 h2, Outcome.bind_ok, hs code 102 h0 h1 h2, Outcome.bind_ok, if_neg b0]

/-- Tables that give one number everywhere between zero and one. -/
noncomputable def flatTables (y : ℝ) : SuperTables where
  vdW := ([⟨[y, 0], 0, 1⟩], [⟨[y, 0], 0, 1⟩], [⟨[y, 0], 0, 1⟩])
  SRK := ([⟨[y, 0], 0, 1⟩], [⟨[y, 0], 0, 1⟩], [⟨[y, 0], 0, 1⟩])
  PR := ([⟨[y, 0], 0, 1⟩], [⟨[y, 0], 0, 1⟩], [⟨[y, 0], 0, 1⟩])

/-- A fluid with `b = 2`, `a = 600` at a temperature of 10 with `R = 3`: the reduced temperature is 0.1. -/
example : ∃ rhoL rhoV, superancRhoLV (flatTables (1 / 4)) 2 3 10 2 (some 1) (fun _ => .ok 2) (fun _ => .ok 600) = .ok (rhoL, rhoV) ∧ 2 * rhoL = 1 / 4 ∧
    2 * rhoV = 1 / 4 ∧ Coexist (cubicAlphar 3 600 2 1 0) (fun _ => 0) 3 10 rhoL rhoV := by
  obtain ⟨x, hx, -⟩ := (superanc_refuses (flatTables (1 / 4)) 2 3 10 2 (fun _ => .ok 2) (fun _ => .ok 600) (by norm_num)).2.2.1 1 (by norm_num)
  have hy : superancY [⟨[1 / 4, 0], 0, 1⟩] (3 * 10 * 2 / 600) = .ok (1 / 4) := by
    have hb : ∀ (f : ℕ → ℝ) (x : ℝ), bisect f x 0 0 = (0, 0) := fun f x => by unfold bisect; simp
    norm_num [superancY, getIndex, hb, Cheb.y, chebScaled, chebLoop]
  exact superanc_exact (flatTables (1 / 4)) 2 2 (some 1) _ _ x 2 600 (1 / 4) (1 / 4) _ (fun _ => 0) (by norm_num) (by norm_num) (by norm_num) (by norm_num)
    (by norm_num) (by norm_num) (by norm_num) hx rfl rfl hy hy (by norm_num) (by norm_num) (by norm_num) (by norm_num) ⟨rfl, rfl⟩

/-- The parameters of one component of a mixture. -/
theorem cubic_pure_params (m : CubicRT) (T : ℝ) (x : List ℝ) (k : ℕ) (hk : k < x.length) (hx : ∀ i < x.length, el x i = if i = k then 1 else 0)
    (ha : m.ai.length = x.length) (hb : m.bi.length = x.length) (hal : m.alphas.length = x.length) (hr : x.length ≤ m.kmat.rows) (hc : x.length ≤ m.kmat.cols)
    (hkk : m.kmat.get k k = 0) (hpos : 0 ≤ el m.ai k * (m.alphas.getD k (.basic 1 0)).eval T) :
    m.getB x = .ok (el m.bi k) ∧ m.getA T x = .ok (el m.ai k * (m.alphas.getD k (.basic 1 0)).eval T) := by
  constructor
  · unfold CubicRT.getB
    rw [if_neg (by omega), sum_eq_single k, hx k hk, if_pos rfl, one_mul]
    · intro i hi hik; rw [hx i (mem_range.1 hi), if_neg hik, zero_mul]
    · intro h; exact absurd (mem_range.2 hk) h
  · unfold CubicRT.getA
    rw [if_neg (by omega), sum_eq_single k, sum_eq_single k, hx k hk, if_pos rfl, hkk, Real.sqrt_mul_self hpos]
    · congr 1; ring
    · intro j hj hjk; rw [hx j (mem_range.1 hj), if_neg hjk]; ring
    · intro h; exact absurd (mem_range.2 hk) h
    · intro i hi hik
      refine sum_eq_zero fun j _ => ?_
      rw [hx i (mem_range.1 hi), if_neg hik]; ring
    · intro h; exact absurd (mem_range.2 hk) h

/-- The model with excess-energy mixing rules gives the densities of the component, like the plain Peng-Robinson equation with the same parameters. -/
theorem adv_superanc (t : SuperTables) (m : AdvPR) (T : ℝ) (N k : ℕ) (hN : 1 < N) (hk : k < N) (h : AdvFits m N) (hbr : m.o.brule ≠ .notSpecified)
    (hl : m.lmat.get k k = 0) (he : ∀ x : List ℝ, x.length = N → (∀ i < N, el x i = if i = k then 1 else 0) → m.ares.eval T x = .ok 0)
    (g : CubicRT) (hga : g.ai = m.ai) (hgb : g.bi = m.bi) (hgl : g.alphas = m.alphas) (hgR : g.R = m.o.R) (hr : N ≤ g.kmat.rows) (hc : N ≤ g.kmat.cols)
    (hkk : g.kmat.get k k = 0) (hpos : 0 ≤ el m.ai k * (m.alphas.getD k (.basic 1 0)).eval T) :
    m.superanc t T (some k) = g.superanc t 2 T (some k) := by
  obtain ⟨x, hx, hxl, hxi⟩ := (superanc_refuses t 2 m.o.R T N m.getB (m.getA T) hN).2.2.1 k hk
  subst hxl
  obtain ⟨b1, a1⟩ := cubic_pure_params g T x k hk hxi (by rw [hga, h.ai]) (by rw [hgb, h.bi]) (by rw [hgl, h.al]) hr hc hkk (by rw [hga, hgl]; exact hpos)
  have b2 : m.getB x = .ok (el m.bi k) := by
    cases hrule : m.o.brule with
    | notSpecified => exact absurd hrule hbr
    | linear =>
      rw [(adv_b m x h).2.1 hrule, sum_eq_single k, hxi k hk, if_pos rfl, one_mul]
      · intro i hi hik; rw [hxi i (mem_range.1 hi), if_neg hik, zero_mul]
      · intro h; exact absurd (mem_range.2 hk) h
    | quadratic => rw [(adv_b m x h).1 hrule, adv_b_pure _ _ h.s _ _ _ k hk hl (h.pos k hk) hxi]
  have a2 : m.getA T x = .ok (el m.ai k * (m.alphas.getD k (.basic 1 0)).eval T) := by
    unfold AdvPR.getA AdvPR.amOverBm
    rw [he x rfl hxi, Outcome.bind_ok,
      if_neg (by rintro (h1 | h1 | h1); exacts [absurd h.ai (by omega), absurd h.bi (by omega), absurd h.al (by omega)]),
      if_neg (by rintro (h1 | ⟨i, hi, h1⟩); exacts [h.C h1, (h.pos i hi).ne' h1]), Outcome.bind_ok, b2, Outcome.bind_ok, sum_eq_single k, hxi k hk, if_pos rfl]
    · have := (h.pos k hk).ne'
      congr 1
      unfold AdvPR.aOf
      field_simp
      ring
    · intro i hi hik; rw [hxi i (mem_range.1 hi), if_neg hik, zero_mul, zero_div]
    · intro h; exact absurd (mem_range.2 hk) h
  unfold AdvPR.superanc CubicRT.superanc superancRhoLV
  rw [hga, h.ai, hx, Outcome.bind_ok, Outcome.bind_ok, b2, a2, b1, a1, hgR, hgb, hga, hgl]

/-- A document without alpha functions gives the plain Peng-Robinson or Soave-Redlich-Kwong model. -/
theorem gen_plain (j : JTree) (Tc pc w : List ℝ) (hT : (j.at "Tcrit / K").bind JTree.toRow = .ok Tc) (hp : (j.at "pcrit / Pa").bind JTree.toRow = .ok pc)
    (hw : (j.at "acentric").bind JTree.toRow = .ok w) (hl : w.length = Tc.length) (hk : j.contains "kmat" = false) (hR : j.contains "R / J/mol/K" = false)
    (ha : j.contains "alpha" = false) :
    (j.at "type" = .ok (.str "PR") → genCubic j = canonicalPR_RT Tc pc w none 8.31446261815324) ∧
    (j.at "type" = .ok (.str "SRK") → genCubic j = canonicalSRK_RT Tc pc w none 8.31446261815324) := by
  constructor
  · intro ht
    unfold genCubic canonicalPR_RT optEntry genAlphas
    rw [hT, hp, hw, hk, hR, ht, ha]
    simp only [Outcome.bind_ok, Bool.false_eq_true, if_false, if_true, Option.map_none, Option.getD_none, hl, lt_irrefl]
    rfl
  · intro ht
    unfold genCubic canonicalSRK_RT optEntry genAlphas
    rw [hT, hp, hw, hk, hR, ht, ha]
    simp only [Outcome.bind_ok, Bool.false_eq_true, if_false, if_true, Option.map_none, Option.getD_none, hl, lt_irrefl]
    rw [if_neg (by decide)]
    rfl

/-- What is refused: another type of equation, alpha functions that are not an array, and another number of them than of components. -/
theorem gen_refuses (j : JTree) (Tc pc w : List ℝ) (k : Option SqMat) (R : Option ℝ) (hT : (j.at "Tcrit / K").bind JTree.toRow = .ok Tc)
    (hp : (j.at "pcrit / Pa").bind JTree.toRow = .ok pc) (hw : (j.at "acentric").bind JTree.toRow = .ok w)
    (hk : optEntry j "kmat" buildSquareMatrix = .ok k) (hR : optEntry j "R / J/mol/K" JTree.toDouble = .ok R) :
    (∀ ty, j.at "type" = .ok ty → ty ≠ .str "PR" → ty ≠ .str "SRK" → genCubic j = .throws .invalidArgument) ∧
    (∀ ty al, j.at "type" = .ok ty → j.contains "alpha" = true → j.at "alpha" = .ok al → (∀ l, al = .arr l → l.length ≠ Tc.length) →
      genCubic j = .throws .invalidArgument) ∧
    (j.at "type" = .ok (.str "PR") ∨ j.at "type" = .ok (.str "SRK") → j.contains "alpha" = false → w.length < Tc.length → genCubic j = .ub) := by
  have red : genCubic j = (j.at "type").bind fun type => match type with
    | .str s =>
      if s = "PR" then (genAlphas j Tc w mPR).bind fun al =>
        cubicCtor (1 + Real.sqrt 2) (1 - Real.sqrt 2) OmegaA_PR OmegaB_PR Tc pc al ((k.map SqMat.toMat).getD (Mat.zero Tc.length)) (R.getD RCodata2017)
      else if s = "SRK" then (genAlphas j Tc w mSRK).bind fun al =>
        cubicCtor 1 0 OmegaA_SRK OmegaB_SRK Tc pc al ((k.map SqMat.toMat).getD (Mat.zero Tc.length)) (R.getD RCodata2017)
      else .throws .invalidArgument
    | _ => .throws .invalidArgument := by
    conv_lhs => unfold genCubic
    rw [hT, hp, hw, hk, hR]
    rfl
  have bad : ∀ al, j.contains "alpha" = true → j.at "alpha" = .ok al → (∀ l, al = .arr l → l.length ≠ Tc.length) → ∀ f, genAlphas j Tc w f = .throws .invalidArgument := by
    intro al hc hat hl f
    unfold genAlphas
    rw [if_pos hc, hat, Outcome.bind_ok]
    cases al <;> try rfl
    rename_i l
    simp only
    unfold buildAlphasJson
    exact if_pos (hl l rfl)
  refine ⟨fun ty hty h1 h2 => ?_, fun ty al hty hc hat hl => ?_, fun hty hc hlt => ?_⟩
  · rw [red, hty, Outcome.bind_ok]
    cases ty <;> try rfl
    rename_i s
    simp only
    rw [if_neg (fun e => h1 (by rw [e])), if_neg (fun e => h2 (by rw [e]))]
  · rw [red, hty, Outcome.bind_ok]
    cases ty <;> try rfl
    simp only
    rw [bad al hc hat hl, bad al hc hat hl]
    split_ifs <;> rfl
  · have u : ∀ f, genAlphas j Tc w f = .ub := fun f => by
      unfold genAlphas
      rw [if_neg (by rw [hc]; exact Bool.false_ne_true), if_pos hlt]
    rw [red]
    rcases hty with hty | hty <;> rw [hty, Outcome.bind_ok] <;> simp only <;> rw [u, u]
    · exact if_pos trivial
    · rw [if_neg (by decide)]; exact if_pos trivial

example : superancRhoLV (flatTables 0.25) 7 3 10 1 none (fun _ => .ok 2) (fun _ => .ok 6) = .ok (-1 / 2, -1 / 2) :=
  superanc_sentinel _ 7 3 10 1 none _ _ [1] 2 6 rfl rfl rfl (by norm_num) (by norm_num) (by norm_num) (by norm_num) (by norm_num)

/-- Two components without alpha functions. -/
noncomputable def genDoc (ty : String) (w : List JTree) : JTree := .obj [("type", .str ty), ("Tcrit / K", .arr [.num 300, .num 400]),
  ("pcrit / Pa", .arr [.num 4e6, .num 3e6]), ("acentric", .arr w)]

example : genCubic (genDoc "PR" [.num 0.1, .num 0.2]) = canonicalPR_RT [300, 400] [4e6, 3e6] [0.1, 0.2] none 8.31446261815324 :=
  (gen_plain (genDoc "PR" [.num 0.1, .num 0.2]) [300, 400] [4e6, 3e6] [0.1, 0.2] rfl rfl rfl rfl rfl rfl rfl).1 rfl

example : genCubic (genDoc "vdW" [.num 0.1, .num 0.2]) = .throws .invalidArgument ∧ genCubic (genDoc "SRK" [.num 0.1]) = .ub :=
  ⟨(gen_refuses (genDoc "vdW" [.num 0.1, .num 0.2]) [300, 400] [4e6, 3e6] [0.1, 0.2] none none rfl rfl rfl rfl rfl).1 _ rfl (by simp) (by simp),
    (gen_refuses (genDoc "SRK" [.num 0.1]) [300, 400] [4e6, 3e6] [0.1] none none rfl rfl rfl rfl rfl).2.2 (.inr rfl) rfl (by simp)⟩

/-- Components of the model with excess-energy mixing rules as a document. -/
noncomputable def advDoc (Tc pc al m n : List JTree) : JTree := .obj [("Tcrit / K", .arr Tc), ("pcrit / Pa", .arr pc), ("alphas", .arr al),
  ("aresmodel", .obj [("type", .str "Wilson"), ("m", .arr m), ("n", .arr n)]),
  ("options", .obj [("brule", .str "Quadratic"), ("s", .num 2), ("CEoS", .num (-0.6))])]

/-- Two components are accepted. -/
example : ∃ m, advFactory (advDoc [.num 300, .num 400] [.num 4e6, .num 3e6]
    [.obj [("type", .str "PR78"), ("acentric", .num 0.1)], .obj [("type", .str "PR78"), ("acentric", .num 0.2)]]
    [.arr [.num 0, .num 1], .arr [.num 2, .num 0]] [.arr [.num 0, .num 1], .arr [.num 2, .num 0]]) = .ok m := ⟨_, rfl⟩

/-- One component is refused. -/
example : advFactory (advDoc [.num 300] [.num 4e6] [.obj [("type", .str "PR78"), ("acentric", .num 0.1)]] [.arr [.num 0]] [.arr [.num 0]])
    = .throws .invalidArgument := rfl

end Teqp.Props
