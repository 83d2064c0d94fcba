import Verif.Model.PhaseEquil
import Verif.Lemmas.Envelope

/-! # Properties of a phase along curves, and the layout of the unknowns -/

set_option autoImplicit false

open Teqp.Calc Teqp.Model Teqp.Spec Teqp.Lemmas Teqp.MixVLE Filter Topology

namespace Teqp.PhaseEquil

/-! ## Layout -/

section layout
variable {len : ℕ} {row : ℕ → ℝ}

theorem setBlock_in (c0 : ℕ) (f : Fin len → ℝ) (j : Fin len) : setBlock row c0 f (c0 + j) = f j := by
  unfold setBlock
  rw [dif_pos ⟨Nat.le_add_right _ _, by omega⟩]
  congr 1
  exact Fin.ext (by simp)

theorem setBlock_out {c0 : ℕ} (f : Fin len → ℝ) {c : ℕ} (h : c < c0 ∨ c0 + len ≤ c) : setBlock row c0 f c = row c := by
  unfold setBlock
  rw [dif_neg]
  omega

theorem setBlocks_succ (nb : ℕ) (f : ℕ → Fin len → ℝ) :
    setBlocks (nb + 1) f row = setBlock (setBlocks nb f row) (1 + nb * len) (f nb) := by
  unfold setBlocks
  rw [List.range_succ, List.foldl_append]
  rfl

theorem setBlocks_beyond (nb : ℕ) (f : ℕ → Fin len → ℝ) {c : ℕ} (h : c = 0 ∨ 1 + nb * len ≤ c) :
    setBlocks nb f row c = row c := by
  induction nb with
  | zero => rfl
  | succ nb ih =>
    rw [setBlocks_succ, setBlock_out _ (by rw [Nat.succ_mul] at h; omega), ih (by rw [Nat.succ_mul] at h; omega)]

theorem setBlocks_in {nb : ℕ} (f : ℕ → Fin len → ℝ) {k : ℕ} (hk : k < nb) (j : Fin len) :
    setBlocks nb f row (1 + k * len + j) = f k j := by
  induction nb with
  | zero => omega
  | succ nb ih =>
    rw [setBlocks_succ]
    by_cases h : k = nb
    · subst h
      exact setBlock_in _ _ _
    · have hk' : k < nb := by omega
      have : k * len + len ≤ nb * len := by
        rw [← Nat.succ_mul]; exact Nat.mul_le_mul_right _ hk'
      rw [setBlock_out _ (Or.inl (by omega)), ih hk']

theorem setBlocks_above {nb : ℕ} (f : ℕ → Fin len → ℝ) {k : ℕ} (hk : nb ≤ k) (j : Fin len) :
    setBlocks nb f row (1 + k * len + j) = row (1 + k * len + j) :=
  setBlocks_beyond _ _ (Or.inr (by have := Nat.mul_le_mul_right len hk; omega))

end layout

theorem phaseAt_val {α : Type} {q : ℕ} (f : Fin (q + 1) → α) (k : Fin (q + 1)) : phaseAt f k = f k := by
  unfold phaseAt
  congr 1
  exact Fin.ext (by simp [Fin.ofNat, Nat.mod_eq_of_lt k.isLt])

theorem peSize_sub (n q : ℕ) : peSize n q - (q + 1) = 1 + (q + 1) * (n + 1) := by
  unfold peSize
  have : (n + 1 + 1) * (q + 1) = (q + 1) * (n + 1) + (q + 1) := by ring
  omega

theorem peSize_eq (n q : ℕ) : peSize n q = 1 + (q + 1) * (n + 1) + (q + 1) := by
  unfold peSize
  ring

section pack
variable {n q : ℕ}

theorem pePack_T (u : PhaseVars n q) : pePack u 0 = u.T := by
  unfold pePack
  rw [setBlock_out _ (Or.inl (by rw [peSize_sub]; omega)), setBlocks_beyond _ _ (Or.inl rfl), Function.update_self]

theorem col_lt (k : Fin (q + 1)) (j : Fin (n + 1)) : 1 + k * (n + 1) + j < 1 + (q + 1) * (n + 1) := by
  have := Nat.mul_le_mul_right (n + 1) k.isLt
  rw [Nat.succ_mul] at this
  omega

theorem pePack_rho (u : PhaseVars n q) (k : Fin (q + 1)) (j : Fin (n + 1)) : pePack u (1 + k * (n + 1) + j) = u.rho k j := by
  unfold pePack
  rw [setBlock_out _ (Or.inl (by rw [peSize_sub]; exact col_lt k j)), setBlocks_in _ k.isLt, phaseAt_val]

theorem pePack_beta (u : PhaseVars n q) (k : Fin (q + 1)) : pePack u (peSize n q - (q + 1) + k) = u.beta k :=
  setBlock_in _ _ _

theorem sum_blocks (len nb : ℕ) (g : ℕ → ℝ) :
    ∑ c ∈ Finset.range (nb * len), g c = ∑ k : Fin nb, ∑ j : Fin len, g (k * len + j) := by
  induction nb with
  | zero => simp
  | succ nb ih =>
    rw [Nat.succ_mul, Finset.sum_range_add, ih, Fin.sum_univ_castSucc]
    congr 1
    rw [Finset.sum_range]
    rfl

/-- A row applied to packed unknowns. -/
theorem rowDot_eq (J : ℕ → ℝ) (v : PhaseVars n q) :
    ∑ c ∈ Finset.range (peSize n q), J c * pePack v c =
      J 0 * v.T + (∑ k : Fin (q + 1), ∑ j : Fin (n + 1), J (1 + k * (n + 1) + j) * v.rho k j) +
        ∑ k : Fin (q + 1), J (peSize n q - (q + 1) + k) * v.beta k := by
  rw [peSize_eq, Finset.sum_range_add, Finset.sum_range_add, Finset.sum_range_one, pePack_T, sum_blocks, Finset.sum_range]
  congr 1
  · congr 1
    refine Finset.sum_congr rfl fun k _ => Finset.sum_congr rfl fun j _ => ?_
    rw [← Nat.add_assoc, pePack_rho]
  · refine Finset.sum_congr rfl fun k _ => ?_
    have := pePack_beta v k
    rw [peSize_sub] at this
    rw [this]
    congr 2
    have := peSize_sub n q
    rw [peSize_eq] at this
    rw [this]

end pack

/-! ## Temperature derivatives -/

section curves
variable {ι : Type} [Fintype ι] [DecidableEq ι] {m : EOS ι} {T R : ℝ} {ρ : ι → ℝ}

omit [DecidableEq ι] in
theorem dPsirdT_deriv (m : EOS ι) (T : ℝ) (ρ : ι → ℝ) : dPsirdT m T ρ = deriv (fun T' => Psir m T' ρ) T := by
  unfold dPsirdT
  congr 1
  funext T'
  unfold Psir
  ring

theorem differentiableAt_dPsirdT (h : SmoothAt m T ρ) :
    DifferentiableAt ℝ (fun p : ℝ × (ι → ℝ) => dPsirdT m p.1 p.2) (T, ρ) := by
  have hc := contDiffAt_Psir h
  have hf : ContDiffAt ℝ 1 (fderiv ℝ fun p : ℝ × (ι → ℝ) => Psir m p.1 p.2) (T, ρ) :=
    hc.fderiv_right (m := 1) (by norm_num)
  have hd : DifferentiableAt ℝ (fun q => fderiv ℝ (fun p : ℝ × (ι → ℝ) => Psir m p.1 p.2) q (1, 0)) (T, ρ) :=
    (hf.differentiableAt (by norm_num)).clm_apply (differentiableAt_const _)
  refine hd.congr_of_eventuallyEq ?_
  have h1 : ContDiffAt ℝ 1 (fun p : ℝ × (ι → ℝ) => Psir m p.1 p.2) (T, ρ) := hc.of_le (by norm_num)
  filter_upwards [h1.eventually (by simp)] with q hq
  have hq' := hq.differentiableAt (by norm_num)
  have hp : HasDerivAt (fun t : ℝ => (t, q.2)) ((1 : ℝ), (0 : ι → ℝ)) q.1 :=
    (hasDerivAt_id _).prodMk (hasDerivAt_const _ _)
  have := HasFDerivAt.comp_hasDerivAt (l := fun p : ℝ × (ι → ℝ) => Psir m p.1 p.2) q.1 hq'.hasFDerivAt hp
  rw [dPsirdT_deriv]
  exact this.deriv

theorem dPsirdT_partial (h : SmoothAt m T ρ) (i : ι) : partialD (dPsirdT m T) i ρ = d2PsirdTdrhoi m T ρ i := by
  unfold partialD d2PsirdTdrhoi
  simp only [dPsirdT_deriv]
  exact deriv_comm (contDiffAt_update_pair h i)

omit [Fintype ι] [DecidableEq ι] in
theorem tdxAr_fixed (a b : ℕ) (T r : ℝ) (x : ι → ℝ) : tdxAr m a b T r x = Lambda (fun T' r' => m.alphar T' r' x) a b T r := by
  unfold tdxAr
  rw [Props.Agenxy_is_Lambda]

/-- The temperature derivative in reduced form. -/
theorem dPsirdT_reduced (h : SmoothAt m T ρ) (hT : T ≠ 0) :
    dPsirdT m T ρ = rhotot ρ * m.R (molefrac ρ) * (m.alphar T (rhotot ρ) (molefrac ρ) -
      tdxAr m 1 0 T (rhotot ρ) (molefrac ρ)) := by
  have P := partials hT (contDiffAt_fixed h)
  have he := entropy_of (m.R (molefrac ρ)) hT P.h_t
  have hr := recipForm_recip (fun T' r => m.alphar T' r (molefrac ρ)) T (rhotot ρ)
  rw [hr] at he
  rw [tdxAr_fixed, Lambda10 P]
  have e : dPsirdT m T ρ =
      -(rhotot ρ * entropy (fun T' r => m.alphar T' r (molefrac ρ)) (m.R (molefrac ρ)) T (rhotot ρ)) := by
    unfold dPsirdT entropy helmholtz
    rw [mul_neg, neg_neg, ← deriv_const_mul_field]
    congr 1
    funext T'
    ring
  rw [e, he]
  ring

/-- The second temperature derivative in reduced form. -/
theorem dPsirdT_rate_T (h : SmoothAt m T ρ) (hT : T ≠ 0) :
    HasDerivAt (fun T' => dPsirdT m T' ρ)
      (rhotot ρ * m.R (molefrac ρ) / T * tdxAr m 2 0 T (rhotot ρ) (molefrac ρ)) T := by
  have P := partials hT (contDiffAt_fixed h)
  set g := fun t => recipForm (fun T' r => m.alphar T' r (molefrac ρ)) t (rhotot ρ) with hg
  have hev : (fun T' => dPsirdT m T' ρ) =ᶠ[𝓝 T] fun T' =>
      rhotot ρ * m.R (molefrac ρ) * (g (1 / T') - 1 / T' * deriv g (1 / T')) := by
    have hcont : ContinuousAt (fun T' : ℝ => 1 / T') T := by simpa using continuousAt_inv₀ hT
    filter_upwards [hcont.eventually P.ev_t, isOpen_ne.mem_nhds hT] with T' hd hT'
    have hd' := hasDerivAt_recip_comp hT' hd.hasDerivAt
    have h2 := ((hasDerivAt_id T').const_mul (rhotot ρ * m.R (molefrac ρ))).mul hd'
    have e : (fun T' => rhotot ρ * m.R (molefrac ρ) * T' * m.alphar T' (rhotot ρ) (molefrac ρ)) =
        (fun y => rhotot ρ * m.R (molefrac ρ) * id y) * fun T' => g (1 / T') := by
      funext t
      simp only [Pi.mul_apply, id, hg, recipForm_recip]
    unfold dPsirdT
    rw [e, h2.deriv]
    simp only [id, hg]
    field_simp
    ring
  have h1 := hasDerivAt_recip_comp hT P.h_t
  have h2 := hasDerivAt_recip_comp hT P.h_tt
  have h3 : HasDerivAt (fun T' : ℝ => 1 / T') (-(1 / T) ^ 2) T := by
    have := hasDerivAt_recip_comp (g := id) hT (hasDerivAt_id _)
    simpa using this
  have h4 := (h1.sub (h3.mul h2)).const_mul (rhotot ρ * m.R (molefrac ρ))
  refine (h4.congr_of_eventuallyEq hev).congr_deriv ?_
  rw [tdxAr_fixed, Lambda20 P, P.h_t.deriv]
  field_simp
  ring

section
variable {τ : ℝ → ℝ} {γ : ℝ → ι → ℝ} {τ' : ℝ} {v : ι → ℝ} {s : ℝ}

theorem dPsirdT_curve (h : SmoothAt m T ρ) (hT : T ≠ 0) (hτ : HasDerivAt τ τ' s) (hγ : HasDerivAt γ v s) (hτs : τ s = T)
    (hγs : γ s = ρ) :
    HasDerivAt (fun u => dPsirdT m (τ u) (γ u))
      (τ' * (rhotot ρ * m.R (molefrac ρ) / T * tdxAr m 2 0 T (rhotot ρ) (molefrac ρ)) +
        ∑ i, v i * d2PsirdTdrhoi m T ρ i) s := by
  have hd := differentiableAt_dPsirdT h
  have hd2 : DifferentiableAt ℝ (dPsirdT m T) ρ :=
    DifferentiableAt.comp (g := fun p : ℝ × (ι → ℝ) => dPsirdT m p.1 p.2) (f := fun r => (T, r)) ρ hd
      ((differentiableAt_const T).prodMk differentiableAt_id)
  have hl := hasDerivAt_line hd2 hγ hγs
  simp only [dPsirdT_partial h] at hl
  exact joint_line (F := fun p : ℝ × (ι → ℝ) => dPsirdT m p.1 p.2) hd hτ hγ hτs hγs (dPsirdT_rate_T h hT) hl

omit [DecidableEq ι] in
theorem tot_curve (hγ : HasDerivAt γ v s) : HasDerivAt (fun u => rhotot (γ u)) (∑ i, v i) s := by
  unfold rhotot
  exact HasDerivAt.fun_sum fun i _ => hasDerivAt_pi.1 hγ i

end

end curves

/-! ## Properties of a phase along curves -/

section props
variable {n : ℕ} {m ig : EOS (Fin (n + 1))} {T R : ℝ} {ρ : Fin (n + 1) → ℝ}

theorem pePsiig_eq (hR : ∀ x, ig.R x = R) : pePsiig R T ρ ig = Psir ig T ρ := by
  unfold pePsiig Psir
  rw [tdxAr_fixed, Lambda00, hR]

theorem peDPsirDT_eq (h : SmoothAt m T ρ) (hR : ∀ x, m.R x = R) (hT : T ≠ 0) : peDPsirDT m R T ρ = dPsirdT m T ρ := by
  rw [dPsirdT_reduced h hT]
  unfold peDPsirDT Psir
  rw [hR]
  field_simp
  ring

theorem peDPsiigDT_eq (h : SmoothAt ig T ρ) (hR : ∀ x, ig.R x = R) (hT : T ≠ 0) :
    peDPsiigDT R T ρ ig = dPsirdT ig T ρ := by
  rw [← peDPsirDT_eq h hR hT]
  unfold peDPsiigDT peDPsirDT
  rw [pePsiig_eq hR]

variable {τ : ℝ → ℝ} {γ : ℝ → Fin (n + 1) → ℝ} {τ' : ℝ} {v : Fin (n + 1) → ℝ} {s : ℝ}

theorem peP_rate (h : SmoothAt m (τ s) (γ s)) (hR : ∀ x, m.R x = R) (hT : τ s ≠ 0) (hτ : HasDerivAt τ τ' s)
    (hγ : HasDerivAt γ v s) :
    HasDerivAt (fun u => peP m R (τ u) (γ u))
      (τ' * peDpdT m R (τ s) (γ s) + ∑ j, peDpdrho m R (τ s) (γ s) j * v j) s := by
  have e : (fun u => peP m R (τ u) (γ u)) = fun u => solverP m (R * τ u) (τ u) (γ u) := by
    funext u
    unfold peP solverP
    rw [mul_assoc]
  rw [e]
  refine (p_curve h hR hτ hγ rfl rfl).congr_deriv ?_
  unfold peDpdT dpdT
  rw [peDPsirDT_eq h hR hT, hR]
  congr 1
  refine Finset.sum_congr rfl fun j _ => ?_
  congr 1
  unfold solverDp peDpdrho
  congr 1
  refine Finset.sum_congr rfl fun i _ => ?_
  unfold hessPsir
  rw [partialD2_symm (contDiffAt_Psir_rho h)]
  ring

theorem peLnf_rate (h : SmoothAt m (τ s) (γ s)) (hRT : 0 < R * τ s) (hτ : HasDerivAt τ τ' s) (hγ : HasDerivAt γ v s)
    (i : Fin (n + 1)) (hp : 0 < γ s i) :
    HasDerivAt (fun u => peLnf m R (τ u) (γ u) i)
      (τ' * peDlnfdT m R (τ s) (γ s) i + ∑ j, peDlnfdrho m R (τ s) (γ s) i j * v j) s := by
  have hR : R ≠ 0 := left_ne_zero_of_mul hRT.ne'
  have hT : τ s ≠ 0 := right_ne_zero_of_mul hRT.ne'
  have h0 : γ s i * R * τ s ≠ 0 := by rw [mul_assoc]; exact (mul_pos hp hRT).ne'
  have h1 := ((((hasDerivAt_pi.1 hγ i).mul_const R).fun_mul hτ).log h0)
  have h2 : HasDerivAt (fun u => 1 / (R * τ u)) (-(R * τ') / (R * τ s) ^ 2) s := by
    have := (hτ.const_mul R).fun_inv hRT.ne'
    simpa [one_div] using this
  have h3 := h2.mul (grad_curve h hτ hγ rfl rfl i)
  refine (h1.add h3).congr_deriv ?_
  have e : ∑ j, peDlnfdrho m R (τ s) (γ s) i j * v j =
      1 / γ s i * v i + 1 / (R * τ s) * ∑ j, hessPsir m (τ s) (γ s) i j * v j := by
    simp only [peDlnfdrho, add_mul, Finset.sum_add_distrib, ite_mul, zero_mul, Finset.sum_ite_eq, Finset.mem_univ, if_true,
      Finset.mul_sum, mul_assoc]
  rw [e]
  unfold peDlnfdT
  have hγ0 := hp.ne'
  field_simp
  ring

variable (hm : SmoothAt m (τ s) (γ s)) (hi : SmoothAt ig (τ s) (γ s)) (hRm : ∀ x, m.R x = R) (hRi : ∀ x, ig.R x = R)
  (hT : τ s ≠ 0) (hτ : HasDerivAt τ τ' s) (hγ : HasDerivAt γ v s)
include hm hi hRm hRi hT hτ hγ

theorem peA_rate : HasDerivAt (fun u => peA m R (τ u) (γ u) ig)
    (τ' * peDadT m R (τ s) (γ s) ig + ∑ j, peDadrho m R (τ s) (γ s) ig j * v j) s := by
  have h1 := (Psir_curve hi hτ hγ rfl rfl).add (Psir_curve hm hτ hγ rfl rfl)
  have h2 := h1.div (tot_curve hγ) hm.tot
  simp only [peA, pePsiig_eq hRi]
  refine h2.congr_deriv ?_
  have e : ∑ j, peDadrho m R (τ s) (γ s) ig j * v j =
      1 / rhotot (γ s) * (∑ i, v i * gradPsir ig (τ s) (γ s) i + ∑ i, v i * gradPsir m (τ s) (γ s) i) -
        1 / rhotot (γ s) / rhotot (γ s) * (Psir ig (τ s) (γ s) + Psir m (τ s) (γ s)) * ∑ i, v i := by
    rw [← Finset.sum_add_distrib, Finset.mul_sum, Finset.mul_sum, ← Finset.sum_sub_distrib]
    refine Finset.sum_congr rfl fun j _ => ?_
    unfold peDadrho
    rw [pePsiig_eq hRi]
    ring
  rw [e]
  unfold peDadT
  rw [peDPsiigDT_eq hi hRi hT, peDPsirDT_eq hm hRm hT]
  have h0 := hm.tot
  simp only [Pi.add_apply]
  field_simp
  ring

theorem peS_rate : HasDerivAt (fun u => peS m R (τ u) (γ u) ig)
    (τ' * peDsdT m R (τ s) (γ s) ig + ∑ j, peDsdrho m R (τ s) (γ s) ig j * v j) s := by
  have h1 := (dPsirdT_curve hi hT hτ hγ rfl rfl).add (dPsirdT_curve hm hT hτ hγ rfl rfl)
  have h2 := (h1.div (tot_curve hγ) hm.tot).neg
  have hev : (fun u => peS m R (τ u) (γ u) ig) =ᶠ[𝓝 s]
      fun u => -((dPsirdT ig (τ u) (γ u) + dPsirdT m (τ u) (γ u)) / rhotot (γ u)) := by
    filter_upwards [Envelope.smooth_curve hm hτ.continuousAt hγ.continuousAt,
      Envelope.smooth_curve hi hτ.continuousAt hγ.continuousAt, hτ.continuousAt.eventually_ne hT] with u g1 g2 g3
    unfold peS
    rw [peDPsiigDT_eq g2 hRi g3, peDPsirDT_eq g1 hRm g3]
    ring
  refine (h2.congr_of_eventuallyEq hev).congr_deriv ?_
  have e : ∑ j, peDsdrho m R (τ s) (γ s) ig j * v j =
      -1 / rhotot (γ s) * (∑ i, v i * d2PsirdTdrhoi ig (τ s) (γ s) i + ∑ i, v i * d2PsirdTdrhoi m (τ s) (γ s) i) +
        1 / rhotot (γ s) / rhotot (γ s) * (dPsirdT ig (τ s) (γ s) + dPsirdT m (τ s) (γ s)) * ∑ i, v i := by
    rw [← Finset.sum_add_distrib, Finset.mul_sum, Finset.mul_sum, ← Finset.sum_add_distrib]
    refine Finset.sum_congr rfl fun j _ => ?_
    unfold peDsdrho
    rw [peDPsiigDT_eq hi hRi hT, peDPsirDT_eq hm hRm hT]
    ring
  rw [e]
  unfold peDsdT peD2PsiDT2
  rw [hRi, hRm]
  have h0 := hm.tot
  simp only [Pi.add_apply]
  field_simp
  ring

theorem peU_rate : HasDerivAt (fun u => peU m R (τ u) (γ u) ig)
    (τ' * peDudT m R (τ s) (γ s) ig + ∑ j, peDudrho m R (τ s) (γ s) ig j * v j) s := by
  have h := (peA_rate hm hi hRm hRi hT hτ hγ).add (hτ.mul (peS_rate hm hi hRm hRi hT hτ hγ))
  refine h.congr_deriv ?_
  have e : ∑ j, peDudrho m R (τ s) (γ s) ig j * v j = ∑ j, peDadrho m R (τ s) (γ s) ig j * v j +
      τ s * ∑ j, peDsdrho m R (τ s) (γ s) ig j * v j := by
    rw [Finset.mul_sum, ← Finset.sum_add_distrib]
    refine Finset.sum_congr rfl fun j _ => ?_
    unfold peDudrho
    ring
  rw [e]
  unfold peDudT
  ring

theorem peH_rate : HasDerivAt (fun u => peH m R (τ u) (γ u) ig)
    (τ' * peDhdT m R (τ s) (γ s) ig + ∑ j, peDhdrho m R (τ s) (γ s) ig j * v j) s := by
  have h := (peU_rate hm hi hRm hRi hT hτ hγ).add ((peP_rate hm hRm hT hτ hγ).div (tot_curve hγ) hm.tot)
  refine h.congr_deriv ?_
  have e : ∑ j, peDhdrho m R (τ s) (γ s) ig j * v j = ∑ j, peDudrho m R (τ s) (γ s) ig j * v j +
      1 / rhotot (γ s) * (∑ j, peDpdrho m R (τ s) (γ s) j * v j) -
        peP m R (τ s) (γ s) / rhotot (γ s) / rhotot (γ s) * ∑ j, v j := by
    rw [Finset.mul_sum, Finset.mul_sum, ← Finset.sum_add_distrib, ← Finset.sum_sub_distrib]
    refine Finset.sum_congr rfl fun j _ => ?_
    unfold peDhdrho
    ring
  rw [e]
  unfold peDhdT
  have h0 := hm.tot
  field_simp
  ring

end props

end Teqp.PhaseEquil
