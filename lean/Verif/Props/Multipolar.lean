import Verif.Model.Multipolar
import Mathlib.Tactic

/-! # The multipolar contributions agree with each other (C81) -/

set_option autoImplicit false

namespace Teqp.Spec
open Teqp.Model

/-- Molecules described by diameter, energy, dipole and quadrupole moment (SI units). -/
structure Molecules (ι : Type) where
  sigma : ι → ℝ
  eps : ι → ℝ
  mu : ι → ℝ
  Q : ι → ℝ

variable {ι : Type}

/-- The reduced squared moments of Gubbins and Twu. -/
noncomputable def Molecules.gt (m : Molecules ι) (ke kB : ℝ) : GTParams ι :=
  { sigma := m.sigma, eps := m.eps
    mubar2 := fun i => ke * m.mu i ^ 2 / (kB * m.eps i * m.sigma i ^ 3)
    Qbar2 := fun i => ke * m.Q i ^ 2 / (kB * m.eps i * m.sigma i ^ 5) }

/-- The same molecules for the contribution of Gray and Gubbins with Lorentz-Berthelot rules, without polarizability and
without adjusted parameters. -/
noncomputable def Molecules.gg (m : Molecules ι) (ke kB : ℝ) : GGParams ι :=
  { sij := fun i j => (m.sigma i + m.sigma j) / 2, eij := fun i j => Real.sqrt (m.eps i * m.eps j), mu := m.mu, Q := m.Q
    C3 := 1, C3b := 1, pol := none, ke := ke, kB := kB }

end Teqp.Spec

namespace Teqp.Props
open Finset Teqp.Model Teqp.Spec

theorem rpow_three_halves {a : ℝ} (ha : 0 ≤ a) : a ^ (3 / 2 : ℝ) = a * Real.sqrt a := by
  rw [show (3 / 2 : ℝ) = 1 + 1 / 2 by norm_num, Real.rpow_add_of_nonneg ha (by norm_num) (by norm_num), Real.rpow_one,
    ← Real.sqrt_eq_rpow]

theorem rpow_eleven_halves {a : ℝ} (ha : 0 ≤ a) : a ^ (11 / 2 : ℝ) = a ^ 5 * Real.sqrt a := by
  rw [show (11 / 2 : ℝ) = (5 : ℕ) + 1 / 2 by norm_num, Real.rpow_add_of_nonneg ha (by norm_num) (by norm_num), Real.rpow_natCast,
    ← Real.sqrt_eq_rpow]

theorem rpow_fifteen_halves {a : ℝ} (ha : 0 ≤ a) : a ^ (15 / 2 : ℝ) = a ^ 7 * Real.sqrt a := by
  rw [show (15 / 2 : ℝ) = (7 : ℕ) + 1 / 2 by norm_num, Real.rpow_add_of_nonneg ha (by norm_num) (by norm_num), Real.rpow_natCast,
    ← Real.sqrt_eq_rpow]

section
variable {ι : Type} [Fintype ι]

/-- Positive diameters, energies and constants. -/
structure Molecules.Physical (m : Molecules ι) (ke kB T : ℝ) : Prop where
  hs : ∀ i, 0 < m.sigma i
  he : ∀ i, 0 < m.eps i
  hQ : ∀ i, 0 ≤ m.Q i
  hke : 0 < ke
  hkB : 0 < kB
  hT : 0 < T

/-- The second-order terms of the two classes are the same. -/
theorem multipolar_alpha2 (m : Molecules ι) (I : MPIntegrals) (ke kB T rhoN rs : ℝ) (x : ι → ℝ) (h : Molecules.Physical m ke kB T) :
    ggAlpha2 (m.gg ke kB) I T rhoN rs x m.mu = gtAlpha2 (m.gt ke kB) I T rhoN rs x := by
  unfold ggAlpha2 gtAlpha2
  simp only [Finset.mul_sum, ← Finset.sum_add_distrib]
  refine Finset.sum_congr rfl fun i _ => Finset.sum_congr rfl fun j _ => ?_
  have e1 := h.he i
  have e2 := h.he j
  have s1 := h.hs i
  have s2 := h.hs j
  have hT := h.hT
  have hkB := h.hkB
  simp only [Molecules.gg, Molecules.gt, GGParams.z1, GGParams.iso, GGParams.beta, GGParams.In, GTParams.eij, GTParams.sij,
    Real.sqrt_mul_self e1.le, Real.sqrt_mul_self e2.le]
  generalize I.J 6 _ _ = J6
  generalize I.J 8 _ _ = J8
  generalize I.J 10 _ _ = J10
  have hS : 0 < (m.sigma i + m.sigma j) / 2 := by positivity
  generalize (m.sigma i + m.sigma j) / 2 = S at hS
  field_simp
  ring

theorem termA (s t e f c T : ℝ) (hs : 0 < s) (ht : 0 < t) (he : 0 < e) (hf : 0 < f) (hc : 0 < c) (hT : 0 < T) (Q R m n x y S : ℝ)
    (hQ : 0 ≤ Q) (hR : 0 ≤ R) (hS : 0 < S) :
    x * y / (T / e ^ 2 * (T / f ^ 2)) ^ (3 / 2 : ℝ) * ((s ^ 2 * t ^ 2) ^ (11 / 2 : ℝ) / S ^ 8 * (m * c / (e * s ^ 3)) ^ 2 * (n * c / (f * t ^ 3)) ^ 2 *
      Real.sqrt ((Q * c / (e * s ^ 5)) ^ 2 * (R * c / (f * t ^ 5)) ^ 2)) = x * y * (m ^ 2 * n ^ 2 * Q * R) * (c ^ 2 / T) ^ 3 / S ^ 8 ∧
    x * y / (T / e ^ 2 * (T / f ^ 2)) ^ (3 / 2 : ℝ) * ((s ^ 2) ^ (11 / 2 : ℝ) * (t ^ 2) ^ (15 / 2 : ℝ) / S ^ 10 * (m * c / (e * s ^ 3)) ^ 2 *
      Real.sqrt ((Q * c / (e * s ^ 5)) ^ 2) * ((R * c / (f * t ^ 5)) ^ 2) ^ (3 / 2 : ℝ)) = x * y * (m ^ 2 * Q * R ^ 3) * (c ^ 2 / T) ^ 3 / S ^ 10 ∧
    x * y / (T / e ^ 2 * (T / f ^ 2)) ^ (3 / 2 : ℝ) * ((s ^ 2 * t ^ 2) ^ (15 / 2 : ℝ) / S ^ 12 * ((Q * c / (e * s ^ 5)) ^ 2) ^ (3 / 2 : ℝ) *
      ((R * c / (f * t ^ 5)) ^ 2) ^ (3 / 2 : ℝ)) = x * y * (Q ^ 3 * R ^ 3) * (c ^ 2 / T) ^ 3 / S ^ 12 := by
  have r1 : Real.sqrt (T / e ^ 2 * (T / f ^ 2)) = T / (e * f) := by
    rw [show T / e ^ 2 * (T / f ^ 2) = (T / (e * f)) ^ 2 by field_simp]
    exact Real.sqrt_sq (by positivity)
  have r2 : Real.sqrt (s ^ 2 * t ^ 2) = s * t := by rw [← mul_pow]; exact Real.sqrt_sq (by positivity)
  have r3 : Real.sqrt (s ^ 2) = s := Real.sqrt_sq hs.le
  have r4 : Real.sqrt (t ^ 2) = t := Real.sqrt_sq ht.le
  have r5 : Real.sqrt ((Q * c / (e * s ^ 5)) ^ 2) = Q * c / (e * s ^ 5) := Real.sqrt_sq (by positivity)
  have r6 : Real.sqrt ((R * c / (f * t ^ 5)) ^ 2) = R * c / (f * t ^ 5) := Real.sqrt_sq (by positivity)
  have r7 : Real.sqrt ((Q * c / (e * s ^ 5)) ^ 2 * (R * c / (f * t ^ 5)) ^ 2) = Q * c / (e * s ^ 5) * (R * c / (f * t ^ 5)) := by
    rw [← mul_pow]; exact Real.sqrt_sq (by positivity)
  rw [rpow_three_halves (by positivity), rpow_eleven_halves (by positivity), rpow_eleven_halves (by positivity),
    rpow_fifteen_halves (by positivity), rpow_fifteen_halves (by positivity), rpow_three_halves (by positivity),
    rpow_three_halves (by positivity), r1, r2, r3, r4, r5, r6, r7]
  refine ⟨?_, ?_, ?_⟩ <;> field_simp

theorem multipolar_alpha3A (m : Molecules ι) (I : MPIntegrals) (ke kB T rhoN rs : ℝ) (x : ι → ℝ) (h : Molecules.Physical m ke kB T) :
    gtAlpha3A (m.gt ke kB) I T rhoN rs x = rhoN * (∑ i, ∑ j, x i * x j *
      ((2 / 5 * (1 / (kB * T)) * (1 / (kB * T)) * m.mu i ^ 2 * m.mu j ^ 2) * (1 / (kB * T)) * m.Q i * m.Q j * (m.gg ke kB).In I 11 T rs i j
      + 12 / 35 * ((1 / (kB * T)) * m.mu i ^ 2) * (1 / (kB * T)) * (1 / (kB * T)) * m.Q i * m.Q j ^ 3 * (m.gg ke kB).In I 13 T rs i j
      + 36 / 245 * (1 / (kB * T)) ^ 3 * m.Q i ^ 3 * m.Q j ^ 3 * (m.gg ke kB).In I 15 T rs i j)) * ke * ke * ke := by
  unfold gtAlpha3A
  simp only [Finset.mul_sum, Finset.sum_mul, ← Finset.sum_add_distrib]
  refine Finset.sum_congr rfl fun i _ => Finset.sum_congr rfl fun j _ => ?_
  have hT := h.hT
  have hkB := h.hkB
  have hke := h.hke
  obtain ⟨c, hc, hc2⟩ : ∃ c, 0 < c ∧ c ^ 2 = ke / kB := ⟨Real.sqrt (ke / kB), by positivity, Real.sq_sqrt (by positivity)⟩
  obtain ⟨s, hs, hs2⟩ : ∃ s, 0 < s ∧ m.sigma i = s ^ 2 := ⟨Real.sqrt (m.sigma i), Real.sqrt_pos.mpr (h.hs i), (Real.sq_sqrt (h.hs i).le).symm⟩
  obtain ⟨t, ht, ht2⟩ : ∃ s, 0 < s ∧ m.sigma j = s ^ 2 := ⟨Real.sqrt (m.sigma j), Real.sqrt_pos.mpr (h.hs j), (Real.sq_sqrt (h.hs j).le).symm⟩
  obtain ⟨e, he, he2⟩ : ∃ s, 0 < s ∧ m.eps i = s ^ 2 := ⟨Real.sqrt (m.eps i), Real.sqrt_pos.mpr (h.he i), (Real.sq_sqrt (h.he i).le).symm⟩
  obtain ⟨f, hf, hf2⟩ : ∃ s, 0 < s ∧ m.eps j = s ^ 2 := ⟨Real.sqrt (m.eps j), Real.sqrt_pos.mpr (h.he j), (Real.sq_sqrt (h.he j).le).symm⟩
  have hQ := h.hQ i
  have hR := h.hQ j
  simp only [Molecules.gg, Molecules.gt, GGParams.In, GTParams.eij, GTParams.sij, Real.sqrt_mul_self (h.he i).le, Real.sqrt_mul_self (h.he j).le]
  have hS : 0 < (m.sigma i + m.sigma j) / 2 := by have := h.hs i; have := h.hs j; positivity
  generalize (m.sigma i + m.sigma j) / 2 = S at hS
  generalize I.J 11 _ _ = J11
  generalize I.J 13 _ _ = J13
  generalize I.J 15 _ _ = J15
  rw [hs2, ht2, he2, hf2]
  have q1 : ∀ (v k d : ℝ) (n : ℕ), 0 < k → 0 < d → ke * v ^ 2 / (kB * k ^ 2 * (d ^ 2) ^ n) = (v * c / (k * d ^ n)) ^ 2 := by
    intro v k d n hk hd
    rw [div_pow, mul_pow v c, hc2]
    field_simp
    ring
  rw [q1 _ e s 3 he hs, q1 _ f t 3 hf ht, q1 _ e s 5 he hs, q1 _ f t 5 hf ht]
  obtain ⟨t1, t2, t3⟩ := termA s t e f c T hs ht he hf hc hT (m.Q i) (m.Q j) (m.mu i) (m.mu j) (x i) (x j) S hQ hR hS
  rw [t1, t2, t3, hc2]
  field_simp
  ring

theorem if_abs_pos (a b : ℝ) [Decidable (|a| > 0)] (h : a = 0 → b = 0) : (if |a| > 0 then b else 0) = b := by
  split_ifs with hc
  · rfl
  · rw [h (abs_eq_zero.mp (le_antisymm (not_lt.mp hc) (abs_nonneg a)))]

theorem multipolar_alpha3B (m : Molecules ι) (I : MPIntegrals) (ke kB T rhoN rs : ℝ) (x : ι → ℝ) (h : Molecules.Physical m ke kB T) :
    gtAlpha3B (m.gt ke kB) I T rhoN rs x = rhoN * rhoN * (∑ i, ∑ j, ∑ k, x i * x j * x k *
      (1 / 2 * (m.gg ke kB).z1 T m.mu i * (m.gg ke kB).z1 T m.mu j * (m.gg ke kB).z1 T m.mu k * (m.gg ke kB).Immm I T rs i j k
      + (3 / 160 * (m.gg ke kB).z1 T m.mu i * (m.gg ke kB).z1 T m.mu j * (1 / (kB * T)) * m.Q k ^ 2 * (m.gg ke kB).ImmQ I T rs i j k
        + 3 / 640 * (m.gg ke kB).z1 T m.mu i * (1 / (kB * T)) ^ 2 * m.Q j ^ 2 * m.Q k ^ 2 * (m.gg ke kB).ImQQ I T rs i j k)
      + 1 / 6400 * (1 / (kB * T)) ^ 3 * m.Q i ^ 2 * m.Q j ^ 2 * m.Q k ^ 2 * (m.gg ke kB).IQQQ I T rs i j k)) * ke * ke * ke := by
  classical
  unfold gtAlpha3B
  have hsq : Real.sqrt (22 * Real.pi / 63) = Real.sqrt (22 * Real.pi / 7) / 3 := by
    rw [show 22 * Real.pi / 63 = 22 * Real.pi / 7 / 3 ^ 2 by ring, Real.sqrt_div (by positivity), Real.sqrt_sq (by norm_num)]
  rw [hsq]
  simp only [Finset.mul_sum, Finset.sum_mul, ← Finset.sum_add_distrib]
  refine Finset.sum_congr rfl fun i _ => Finset.sum_congr rfl fun j _ => Finset.sum_congr rfl fun k _ => ?_
  have hT := h.hT
  have hkB := h.hkB
  rw [if_abs_pos _ _ (fun h0 => by
      rw [show ∀ l a K : ℝ, l * (a * (m.gt ke kB).mubar2 i * (m.gt ke kB).mubar2 j * (m.gt ke kB).mubar2 k) * K =
        l * a * K * ((m.gt ke kB).mubar2 i * (m.gt ke kB).mubar2 j * (m.gt ke kB).mubar2 k) from fun l a K => by ring, h0, mul_zero]),
    if_abs_pos _ _ (fun h0 => by
      rw [show ∀ l a K : ℝ, l * (a * (m.gt ke kB).mubar2 i * (m.gt ke kB).mubar2 j * (m.gt ke kB).Qbar2 k) * K =
        l * a * K * ((m.gt ke kB).mubar2 i * (m.gt ke kB).mubar2 j * (m.gt ke kB).Qbar2 k) from fun l a K => by ring, h0, mul_zero]),
    if_abs_pos _ _ (fun h0 => by
      rw [show ∀ l a K : ℝ, l * (a * (m.gt ke kB).mubar2 i * (m.gt ke kB).Qbar2 j * (m.gt ke kB).Qbar2 k) * K =
        l * a * K * ((m.gt ke kB).mubar2 i * (m.gt ke kB).Qbar2 j * (m.gt ke kB).Qbar2 k) from fun l a K => by ring, h0, mul_zero]),
    if_abs_pos _ _ (fun h0 => by
      rw [show ∀ l a K : ℝ, l * (a * (m.gt ke kB).Qbar2 i * (m.gt ke kB).Qbar2 j * (m.gt ke kB).Qbar2 k) * K =
        l * a * K * ((m.gt ke kB).Qbar2 i * (m.gt ke kB).Qbar2 j * (m.gt ke kB).Qbar2 k) from fun l a K => by ring, h0, mul_zero])]
  have e1 := h.he i
  have e2 := h.he j
  have e3 := h.he k
  simp only [Molecules.gg, Molecules.gt, GGParams.Immm, GGParams.ImmQ, GGParams.ImQQ, GGParams.IQQQ, GGParams.z1, GGParams.iso, GGParams.beta,
    GTParams.eij, GTParams.sij, Real.sqrt_mul_self e1.le, Real.sqrt_mul_self e2.le, Real.sqrt_mul_self e3.le]
  generalize getKijk I.K222 _ _ _ _ = K1
  generalize getKijk I.K233 _ _ _ _ = K2
  generalize getKijkNeg I.K334 _ _ _ _ = K3
  generalize getKijk I.K444 _ _ _ _ = K4
  generalize Real.sqrt (14 * Real.pi / 5) = r1
  generalize Real.sqrt (3 * Real.pi) = r2
  generalize Real.sqrt (22 * Real.pi / 7) = r3
  generalize Real.sqrt (2002 * Real.pi) = r4
  have s1 := h.hs i
  have s2 := h.hs j
  have s3 := h.hs k
  have hS1 : 0 < (m.sigma i + m.sigma j) / 2 := by positivity
  have hS2 : 0 < (m.sigma i + m.sigma k) / 2 := by positivity
  have hS3 : 0 < (m.sigma j + m.sigma k) / 2 := by positivity
  generalize (m.sigma i + m.sigma j) / 2 = S1 at hS1
  generalize (m.sigma i + m.sigma k) / 2 = S2 at hS2
  generalize (m.sigma j + m.sigma k) / 2 = S3 at hS3
  generalize m.sigma i = a1 at s1
  generalize m.sigma j = a2 at s2
  generalize m.sigma k = a3 at s3
  generalize m.eps i = b1 at e1
  generalize m.eps j = b2 at e2
  generalize m.eps k = b3 at e3
  generalize m.mu i = m1
  generalize m.mu j = m2
  generalize m.mu k = m3
  generalize m.Q i = Q1
  generalize m.Q j = Q2
  generalize m.Q k = Q3
  generalize Real.pi = P
  field_simp
  ring

/-- The third-order terms agree as well, and so do the two classes unless both orders are
zero (there the class of Gray and Gubbins gives zero and the other one is not finite, `multipolar_zero_density`). -/
theorem multipolar_agree {n : ℕ} (m : Molecules (Fin n)) (I : MPIntegrals) (ke kB T rhoN rs : ℝ) (x : Fin n → ℝ)
    (h : Molecules.Physical m ke kB T) :
    ggAlpha2 (m.gg ke kB) I T rhoN rs x m.mu = gtAlpha2 (m.gt ke kB) I T rhoN rs x ∧
    ggAlpha3 (m.gg ke kB) I T rhoN rs x m.mu = gtAlpha3 (m.gt ke kB) I T rhoN rs x ∧
    (gtAlpha2 (m.gt ke kB) I T rhoN rs x ≠ 0 ∨ gtAlpha3 (m.gt ke kB) I T rhoN rs x ≠ 0 →
      ggEval (m.gg ke kB) I T rhoN rs x = gtEval (m.gt ke kB) I T rhoN rs x) := by
  have h2 := multipolar_alpha2 m I ke kB T rhoN rs x h
  have h3 : ggAlpha3 (m.gg ke kB) I T rhoN rs x m.mu = gtAlpha3 (m.gt ke kB) I T rhoN rs x := by
    unfold gtAlpha3
    rw [multipolar_alpha3A m I ke kB T rhoN rs x h, multipolar_alpha3B m I ke kB T rhoN rs x h]
    unfold ggAlpha3
    simp only [show (m.gg ke kB).gam = fun _ => 0 from rfl, show (m.gg ke kB).iso = fun _ => 0 from rfl, show (m.gg ke kB).C3 = 1 from rfl,
      show (m.gg ke kB).C3b = 1 from rfl, show (m.gg ke kB).ke = ke from rfl, show (m.gg ke kB).Q = m.Q from rfl,
      show (m.gg ke kB).beta T = 1 / (kB * T) from rfl]
    rw [one_mul, add_mul, add_mul, add_mul]
    congr 1
    · congr 4
      refine Finset.sum_congr rfl fun i _ => Finset.sum_congr rfl fun j _ => ?_
      ring
    · congr 4
      refine Finset.sum_congr rfl fun i _ => Finset.sum_congr rfl fun j _ => Finset.sum_congr rfl fun k _ => ?_
      ring
  refine ⟨h2, h3, fun hne => ?_⟩
  unfold ggEval gtEval
  simp only [show (m.gg ke kB).pol = none from rfl, show (m.gg ke kB).mu = m.mu from rfl, show (m.gg ke kB).Q = m.Q from rfl, h2, h3]
  have hpol : (∑ i, |m.Q i| > 0 ∨ ∑ i, |m.mu i| > 0) ↔ (∑ i, |(m.gt ke kB).mubar2 i| > 0 ∨ ∑ i, |(m.gt ke kB).Qbar2 i| > 0) := by
    have pos_iff : ∀ f : Fin n → ℝ, ∑ i, |f i| > 0 ↔ ∃ i, f i ≠ 0 := by
      intro f
      constructor
      · intro hp
        by_contra hc
        push Not at hc
        rw [Finset.sum_eq_zero fun i _ => by rw [hc i, abs_zero]] at hp
        exact lt_irrefl _ hp
      · rintro ⟨i, hi⟩
        exact Finset.sum_pos' (fun _ _ => abs_nonneg _) ⟨i, mem_univ _, abs_pos.mpr hi⟩
    have hm : ∀ i, (m.gt ke kB).mubar2 i ≠ 0 ↔ m.mu i ≠ 0 := by
      intro i
      have := h.hs i
      have := h.he i
      have := h.hke
      have := h.hkB
      simp only [Molecules.gt]
      constructor
      · intro h0 h1
        rw [h1] at h0
        simp at h0
      · intro h0
        positivity
    have hq : ∀ i, (m.gt ke kB).Qbar2 i ≠ 0 ↔ m.Q i ≠ 0 := by
      intro i
      have := h.hs i
      have := h.he i
      have := h.hke
      have := h.hkB
      simp only [Molecules.gt]
      constructor
      · intro h0 h1
        rw [h1] at h0
        simp at h0
      · intro h0
        positivity
    simp only [pos_iff, hm, hq]
    exact or_comm
  by_cases hp : ∑ i, |m.Q i| > 0 ∨ ∑ i, |m.mu i| > 0
  · rw [if_pos hp, if_pos (hpol.mp hp)]
    by_cases h0 : gtAlpha2 (m.gt ke kB) I T rhoN rs x = 0
    · rw [if_pos h0, if_pos h0, if_neg (hne.resolve_left (not_not.mpr h0))]
    · rw [if_neg h0, if_neg h0]
  · rw [if_neg hp, if_neg fun hc => hp (hpol.mpr hc)]

/-- A dipolar and a quadrupolar component. -/
example : Molecules.Physical (ι := Fin 2) ⟨fun _ => 3e-10, fun _ => 200, fun i => if i = 0 then 6e-30 else 0,
    fun i => if i = 0 then 0 else 1e-39⟩ 8.9875e9 1.380649e-23 300 := by
  refine ⟨?_, ?_, ?_, ?_, ?_, ?_⟩ <;> intros <;> (try dsimp only) <;> (try split_ifs) <;> norm_num

end

end Teqp.Props
