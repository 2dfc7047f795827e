import Verif.Lemmas.IEEEY
import Verif.Props.FloatIEEE

/-! # The harmonics with underflow and overflow: the two regimes of the formula -/

set_option autoImplicit false

namespace SF

open Finset ComplexConjugate

section
variable {u w η ν Ω eps : ℝ} {n P : ℕ} {δ ζ : ℕ → ℝ} {F : FloatOpsY} (hF : F.IEEE u w η ν Ω P δ ζ) (hR2 : Range u η ν Ω eps (n + 2))
include hF hR2

set_option maxHeartbeats 1000000 in
/-- Regime `ra >= rb`. -/
theorem regAI (hP : n ≤ P) {Ra Rb : ℂ} (hRa2 : ‖Ra‖ ≤ 2) (hRb2 : ‖Rb‖ ≤ 2) (hRak : ∀ k ≤ n, ‖Ra‖ ^ k ≤ 2)
    (hRbk : ∀ k ≤ n, ‖Rb‖ ^ k ≤ 2) (hRa : eps < F.abs Ra) (hRb : eps < F.abs Rb) (hord : F.abs Rb ≤ F.abs Ra) {p' q' p q : ℕ}
    (hsum : p' + q' = p + q) (hn : p' + q' = n) {c' τ : ℝ} (hτ : |τ| = 1)
    (hc : RelErr u c' (τ * Wcoef p' q' p q)) {κ C : ℝ} (hκ : Near u 4 κ C) (hC : 0 ≤ C) (hCn : C ≤ n + 1) :
    ∃ S, hornerLoopF F.toFloatOps (F.div (F.mul (-F.abs Rb) (F.abs Rb)) (F.mul (F.abs Ra) (F.abs Ra))) ((p' : ℤ) + 1) ((q : ℤ) + 1)
        ((q' : ℤ) - q) ((min p' q : ℕ) : ℤ) ((p' - p : ℕ) : ℤ) = .ok S ∧
      ∀ (neg : Bool) (v : ℂ), (v = smulF F.toFloatOps (rsmulF F.toFloatOps κ
        (if neg then -rectF F.toFloatOps
          (F.mul (F.mul c' (F.ipow (F.abs Ra) ((p' + q - 2 * (p' - p) : ℕ) : ℤ))) (F.ipow (F.abs Rb) ((q' - q + 2 * (p' - p) - (q - q') : ℕ) : ℤ)))
          (F.add (F.mul (F.arg Ra) (((p' : ℤ) - q : ℤ) : ℝ)) (F.mul (F.arg Rb) (((q' : ℤ) - q : ℤ) : ℝ)))
        else rectF F.toFloatOps
          (F.mul (F.mul c' (F.ipow (F.abs Ra) ((p' + q - 2 * (p' - p) : ℕ) : ℤ))) (F.ipow (F.abs Rb) ((q' - q + 2 * (p' - p) - (q - q') : ℕ) : ℤ)))
          (F.add (F.mul (F.arg Ra) (((p' : ℤ) - q : ℤ) : ℝ)) (F.mul (F.arg Rb) (((q' : ℤ) - q : ℤ) : ℝ))))) S ∨
        rectF F.toFloatOps
          (F.mul (F.mul c' (F.ipow (F.abs Ra) ((p' + q - 2 * (p' - p) : ℕ) : ℤ))) (F.ipow (F.abs Rb) ((q' - q + 2 * (p' - p) - (q - q') : ℕ) : ℤ)))
          (F.add (F.mul (F.arg Ra) (((p' : ℤ) - q : ℤ) : ℝ)) (F.mul (F.arg Rb) (((q' : ℤ) - q : ℤ) : ℝ))) = 0
          ∧ v = 0) →
        ‖v - (C : ℂ) * ((if neg then -1 else 1) * (τ : ℂ) * (-1) ^ (p' - p) * Spec.Dpq Ra Rb p' q' p q)‖
          ≤ floatErrY u n * (C * (‖Ra‖ + ‖Rb‖) ^ n) + underErrY η n ∧
        (min p' q = p' - p → ‖v - (C : ℂ) * ((if neg then -1 else 1) * (τ : ℂ) * (-1) ^ (p' - p) * Spec.Dpq Ra Rb p' q' p q)‖
          ≤ floatErrY u n * (C * ‖Spec.Dpq Ra Rb p' q' p q‖) + underErrY η n) := by
  have hI := hF.toIEEE
  have hu0 := hF.u_nonneg
  have hu1 := hF.u_lt_one
  have hR : Range u η ν Ω eps n := hR2.mono hu0 hu1 hF.ν_pos (by omega)
  obtain ⟨lo_a, near_a⟩ := absI_gt hI hR hRa2 hRa
  obtain ⟨lo_b, near_b⟩ := absI_gt hI hR hRb2 hRb
  have heps := hR.eps_pos
  have Pa : 0 < ‖Ra‖ := by linarith
  have ha : Ra ≠ 0 := norm_pos_iff.mp Pa
  have hne : ∀ ρ : ℕ, p' - p < ρ → ρ ≤ min p' q → (ρ : ℤ) * (((q' : ℤ) - q) + ρ) ≠ 0 := by
    intro ρ h1 h2
    apply mul_ne_zero <;> omega
  have hab : p' - p ≤ min p' q := by omega
  obtain ⟨S, hS, hval⟩ := regA (zb := Rb) ha hsum (argI Ra) (argI Rb) (N1 := (p' : ℤ) + 1) (N2 := (q : ℤ) + 1)
    (M := (q' : ℤ) - q) (rhoMax := ((min p' q : ℕ) : ℤ)) (rhoMin := ((p' - p : ℕ) : ℤ))
    rfl rfl rfl (by push_cast; rfl) rfl
    (d := (-1 : ℝ) ^ (p' - p) * (Wcoef p' q' p q * ‖Ra‖ ^ (p' + q - 2 * (p' - p)) * ‖Rb‖ ^ (q' - q + 2 * (p' - p) - (q - q')))) rfl
    (φ := Complex.arg Ra * ((p' : ℝ) - q) + Complex.arg Rb * ((q' : ℝ) - q)) rfl
  rw [hornerLoop_sum _ _ _ _ _ _ hab hne] at hS
  injection hS with hS
  obtain ⟨S', θ, s1, s2, s3⟩ := hornerI_loopY hI hR hRa2 hRb2 hRa hRb (show p' + q' = n by omega) (show q ≤ n by omega)
    (show q - q' ≤ p' - p by omega) hab (fun j hj => ratio_pow hI hR Pa near_a near_b hord (by omega))
    (by simpa using ratio_pow hI hR Pa near_a near_b hord (j := 1) (by omega))
  refine ⟨S', s1, ?_⟩
  intro neg v hv
  have c0 : 0 ≤ Wcoef p' q' p q := by unfold Wcoef; positivity
  have hcn := coef_le hsum (show p' + q' = n by omega)
  have hXj : ∀ j ≤ n, |(-‖Rb‖ * ‖Rb‖ / (‖Ra‖ * ‖Ra‖))| ^ j ≤ 2 := fun j hj => ratio_pow hI hR Pa near_a near_b hord (by omega)
  have hcS := coef_sum_le hsum (show p' + q' = n by omega) hXj
  have hSn := tail_sum_le (k := p' - p) (show p' + q' = n by omega) hXj (show q - q' ≤ p' - p by omega) hab
  have hexp : (p' + q - 2 * (p' - p)) + (q' - q + 2 * (p' - p) - (q - q')) = n := by omega
  have hmag := mag_errIY hF hR hP hRa2 hRb2 hRak hRbk hRa hRb hτ hc c0 hcn (rfl : ((p' + q - 2 * (p' - p) : ℕ) : ℤ) = _)
    (rfl : ((q' - q + 2 * (p' - p) - (q - q') : ℕ) : ℤ) = _) hexp.le
  have hph := phase_errIY hI hR Ra Rb ((p' : ℤ) - q) ((q' : ℤ) - q) (by
    rcases abs_cases ((p' : ℤ) - q) with h | h <;> rcases abs_cases ((q' : ℤ) - q) with h' | h' <;> omega)
  have hexact : Complex.arg Ra * (((p' : ℤ) - q : ℤ) : ℝ) + Complex.arg Rb * (((q' : ℤ) - q : ℤ) : ℝ)
      = Complex.arg Ra * ((p' : ℝ) - q) + Complex.arg Rb * ((q' : ℝ) - q) := by push_cast; ring
  rw [hexact] at hph
  set d0 := Wcoef p' q' p q * ‖Ra‖ ^ (p' + q - 2 * (p' - p)) * ‖Rb‖ ^ (q' - q + 2 * (p' - p) - (q - q')) with hd0
  have d0n : 0 ≤ d0 := by rw [hd0]; unfold Wcoef; positivity
  have hd1 : τ * Wcoef p' q' p q * ‖Ra‖ ^ (p' + q - 2 * (p' - p)) * ‖Rb‖ ^ (q' - q + 2 * (p' - p) - (q - q')) = τ * d0 := by
    rw [hd0]; ring
  have hd4 : d0 ≤ 4 * Wcoef p' q' p q := by
    have r1 := hRak (p' + q - 2 * (p' - p)) (by omega)
    have r2 := hRbk (q' - q + 2 * (p' - p) - (q - q')) (by omega)
    have r3 := pow_nonneg (norm_nonneg Ra) (p' + q - 2 * (p' - p))
    have r4 := pow_nonneg (norm_nonneg Rb) (q' - q + 2 * (p' - p) - (q - q'))
    rw [hd0]
    calc _ ≤ Wcoef p' q' p q * 2 * 2 := by gcongr
      _ = _ := by ring
  rw [hd1] at hmag
  have hτd : |τ * d0| = d0 := by rw [abs_mul, hτ, one_mul, abs_of_nonneg d0n]
  have core := float_coreIY hF hR2 hR (neg := neg) hmag c0 hcn (by rw [hτd]; exact hd4) (by omega) hκ hC hCn hph s2 s3 (by omega) hcS hSn hv
  rw [hτd] at core
  have hbound : d0 * ∑ ρ ∈ Ico (p' - p) (min p' q + 1), |∏ i ∈ Ioc (p' - p) ρ, Dratio (-‖Rb‖ * ‖Rb‖ / (‖Ra‖ * ‖Ra‖)) ((p' : ℤ) + 1) ((q : ℤ) + 1) ((q' : ℤ) - q) i|
      ≤ (‖Ra‖ + ‖Rb‖) ^ n := by
    have := prefactor_sum_le (zb := Rb) ha hsum
    rwa [show p' + q' = n by omega] at this
  have hfac : gam u (2 * ((p' + q - 2 * (p' - p)) + (q' - q + 2 * (p' - p) - (q - q'))) + 3 + 8 + 11 * (min p' q - (p' - p)))
      ≤ gam u (2 * n + 11 + 11 * (n / 2)) := by
    apply gam_mono hu0 hu1
    have : min p' q - (p' - p) ≤ n / 2 := by omega
    omega
  have hD : (if neg then -rect (τ * d0) (Complex.arg Ra * ((p' : ℝ) - q) + Complex.arg Rb * ((q' : ℝ) - q))
      else rect (τ * d0) (Complex.arg Ra * ((p' : ℝ) - q) + Complex.arg Rb * ((q' : ℝ) - q)))
      * ((∑ ρ ∈ Ico (p' - p) (min p' q + 1),
          ∏ i ∈ Ioc (p' - p) ρ, Dratio (-‖Rb‖ * ‖Rb‖ / (‖Ra‖ * ‖Ra‖)) ((p' : ℤ) + 1) ((q : ℤ) + 1) ((q' : ℤ) - q) i : ℝ) : ℂ)
      = (if neg then -1 else 1) * (τ : ℂ) * (-1) ^ (p' - p) * Spec.Dpq Ra Rb p' q' p q := by
    rw [hS, ← hval]
    have hsq : ((-1 : ℂ) ^ (p' - p)) * ((-1 : ℂ) ^ (p' - p)) = 1 := by rw [← mul_pow]; norm_num
    simp only [rect]
    push_cast
    cases neg
    · simp only [Bool.false_eq_true, if_false]
      linear_combination (-(τ : ℂ) * d0 * Complex.exp ((Complex.arg Ra * ((p' : ℂ) - q) + Complex.arg Rb * ((q' : ℂ) - q)) * Complex.I) * S) * hsq
    · simp only [if_true]
      linear_combination ((τ : ℂ) * d0 * Complex.exp ((Complex.arg Ra * ((p' : ℂ) - q) + Complex.arg Rb * ((q' : ℂ) - q)) * Complex.I) * S) * hsq
  rw [hD] at core
  have herr : gam u (2 * ((p' + q - 2 * (p' - p)) + (q' - q + 2 * (p' - p) - (q - q'))) + 3 + 8 + 11 * (min p' q - (p' - p)))
      + gam u 3 * (Real.pi * n) ≤ floatErrY u n := by
    unfold floatErrY; linarith
  have hpos := floatErrY_nonneg hu0 hu1 n
  have T0 : 0 ≤ ∑ ρ ∈ Ico (p' - p) (min p' q + 1), |∏ i ∈ Ioc (p' - p) ρ, Dratio (-‖Rb‖ * ‖Rb‖ / (‖Ra‖ * ‖Ra‖)) ((p' : ℤ) + 1) ((q : ℤ) + 1) ((q' : ℤ) - q) i| :=
    Finset.sum_nonneg fun _ _ => abs_nonneg _
  refine ⟨core.trans (assembleY hF.η_nonneg herr hpos rfl hC hCn d0n hd4 T0 hcS hbound), fun hs => core.trans ?_⟩
  have hone : d0 * ∑ ρ ∈ Ico (p' - p) (min p' q + 1), |∏ i ∈ Ioc (p' - p) ρ, Dratio (-‖Rb‖ * ‖Rb‖ / (‖Ra‖ * ‖Ra‖)) ((p' : ℤ) + 1) ((q : ℤ) + 1) ((q' : ℤ) - q) i|
      = ‖Spec.Dpq Ra Rb p' q' p q‖ := by
    have h1 := congrArg norm hD
    rw [norm_mul, norm_mul, norm_mul, norm_mul] at h1
    have e1 : ‖((if neg then -1 else 1 : ℂ))‖ = 1 := by cases neg <;> simp
    have e2 : ‖((-1 : ℂ) ^ (p' - p))‖ = 1 := by simp
    rw [e1, e2, Complex.norm_real, Complex.norm_real, Real.norm_eq_abs, Real.norm_eq_abs, hτ, one_mul, one_mul, one_mul] at h1
    rw [← h1, hs, Nat.Ico_succ_singleton, Finset.sum_singleton, Finset.sum_singleton, Finset.Ioc_self, Finset.prod_empty]
    cases neg <;> simp [norm_rect, hτd, -abs_mul, -map_mul]
  rw [← hone]
  exact assembleY hF.η_nonneg herr hpos rfl hC hCn d0n hd4 T0 hcS le_rfl

set_option maxHeartbeats 1000000 in
/-- Regime `ra < rb`. -/
theorem regBI (hP : n ≤ P) {Ra Rb : ℂ} (hRa2 : ‖Ra‖ ≤ 2) (hRb2 : ‖Rb‖ ≤ 2) (hRak : ∀ k ≤ n, ‖Ra‖ ^ k ≤ 2)
    (hRbk : ∀ k ≤ n, ‖Rb‖ ^ k ≤ 2) (hRa : eps < F.abs Ra) (hRb : eps < F.abs Rb) (hord : F.abs Ra ≤ F.abs Rb) {p' q' p q : ℕ}
    (hsum : p' + q' = p + q) (hn : p' + q' = n) {c' τ : ℝ} (hτ : |τ| = 1)
    (hc : RelErr u c' (τ * Wcoef q' p' p q)) {κ C : ℝ} (hκ : Near u 4 κ C) (hC : 0 ≤ C) (hCn : C ≤ n + 1) :
    ∃ S, hornerLoopF F.toFloatOps (F.div (F.mul (-F.abs Ra) (F.abs Ra)) (F.mul (F.abs Rb) (F.abs Rb))) ((q' : ℤ) + 1) ((q : ℤ) + 1)
        ((p' : ℤ) - q) ((min q' q : ℕ) : ℤ) ((q' - p : ℕ) : ℤ) = .ok S ∧
      ∀ (neg : Bool) (v : ℂ), (v = smulF F.toFloatOps (rsmulF F.toFloatOps κ
        (if neg then -rectF F.toFloatOps
          (F.mul (F.mul c' (F.ipow (F.abs Rb) ((q' + q - 2 * (q' - p) : ℕ) : ℤ))) (F.ipow (F.abs Ra) ((p' - q + 2 * (q' - p) - (q - p') : ℕ) : ℤ)))
          (F.add (F.mul (F.arg Rb) (((q' : ℤ) - q : ℤ) : ℝ)) (F.mul (F.arg Ra) (((p' : ℤ) - q : ℤ) : ℝ)))
        else rectF F.toFloatOps
          (F.mul (F.mul c' (F.ipow (F.abs Rb) ((q' + q - 2 * (q' - p) : ℕ) : ℤ))) (F.ipow (F.abs Ra) ((p' - q + 2 * (q' - p) - (q - p') : ℕ) : ℤ)))
          (F.add (F.mul (F.arg Rb) (((q' : ℤ) - q : ℤ) : ℝ)) (F.mul (F.arg Ra) (((p' : ℤ) - q : ℤ) : ℝ))))) S ∨
        rectF F.toFloatOps
          (F.mul (F.mul c' (F.ipow (F.abs Rb) ((q' + q - 2 * (q' - p) : ℕ) : ℤ))) (F.ipow (F.abs Ra) ((p' - q + 2 * (q' - p) - (q - p') : ℕ) : ℤ)))
          (F.add (F.mul (F.arg Rb) (((q' : ℤ) - q : ℤ) : ℝ)) (F.mul (F.arg Ra) (((p' : ℤ) - q : ℤ) : ℝ))) = 0
          ∧ v = 0) →
        ‖v - (C : ℂ) * ((if neg then -1 else 1) * (τ : ℂ) * (-1) ^ (q + (q' - p)) * Spec.Dpq Ra Rb p' q' p q)‖
          ≤ floatErrY u n * (C * (‖Ra‖ + ‖Rb‖) ^ n) + underErrY η n ∧
        (min q' q = q' - p → ‖v - (C : ℂ) * ((if neg then -1 else 1) * (τ : ℂ) * (-1) ^ (q + (q' - p)) * Spec.Dpq Ra Rb p' q' p q)‖
          ≤ floatErrY u n * (C * ‖Spec.Dpq Ra Rb p' q' p q‖) + underErrY η n) := by
  have hI := hF.toIEEE
  have hu0 := hF.u_nonneg
  have hu1 := hF.u_lt_one
  have hR : Range u η ν Ω eps n := hR2.mono hu0 hu1 hF.ν_pos (by omega)
  have hsum' : q' + p' = p + q := by omega
  obtain ⟨lo_a, near_a⟩ := absI_gt hI hR hRa2 hRa
  obtain ⟨lo_b, near_b⟩ := absI_gt hI hR hRb2 hRb
  have heps := hR.eps_pos
  have Pa : 0 < ‖Rb‖ := by linarith
  have ha : Rb ≠ 0 := norm_pos_iff.mp Pa
  have hne : ∀ ρ : ℕ, q' - p < ρ → ρ ≤ min q' q → (ρ : ℤ) * (((p' : ℤ) - q) + ρ) ≠ 0 := by
    intro ρ h1 h2
    apply mul_ne_zero <;> omega
  have hab : q' - p ≤ min q' q := by omega
  obtain ⟨S, hS, hval⟩ := regB (za := Ra) ha hsum (argI Ra) (argI Rb) (N1 := (q' : ℤ) + 1) (N2 := (q : ℤ) + 1)
    (M := (p' : ℤ) - q) (rhoMax := ((min q' q : ℕ) : ℤ)) (rhoMin := ((q' - p : ℕ) : ℤ))
    rfl rfl rfl (by push_cast; rfl) rfl
    (d := (-1 : ℝ) ^ q * ((-1 : ℝ) ^ (q' - p) * (Wcoef q' p' p q * ‖Rb‖ ^ (q' + q - 2 * (q' - p)) * ‖Ra‖ ^ (p' - q + 2 * (q' - p) - (q - p'))))) rfl
    (φ := Complex.arg Rb * ((q' : ℝ) - q) + Complex.arg Ra * ((p' : ℝ) - q)) rfl
  rw [hornerLoop_sum _ _ _ _ _ _ hab hne] at hS
  injection hS with hS
  obtain ⟨S', θ, s1, s2, s3⟩ := hornerI_loopY hI hR hRb2 hRa2 hRb hRa (show q' + p' = n by omega) (show q ≤ n by omega)
    (show q - p' ≤ q' - p by omega) hab (fun j hj => ratio_pow hI hR Pa near_b near_a hord (by omega))
    (by simpa using ratio_pow hI hR Pa near_b near_a hord (j := 1) (by omega))
  refine ⟨S', s1, ?_⟩
  intro neg v hv
  have c0 : 0 ≤ Wcoef q' p' p q := by unfold Wcoef; positivity
  have hcn := coef_le hsum' (show q' + p' = n by omega)
  have hXj : ∀ j ≤ n, |(-‖Ra‖ * ‖Ra‖ / (‖Rb‖ * ‖Rb‖))| ^ j ≤ 2 := fun j hj => ratio_pow hI hR Pa near_b near_a hord (by omega)
  have hcS := coef_sum_le hsum' (show q' + p' = n by omega) hXj
  have hSn := tail_sum_le (k := q' - p) (show q' + p' = n by omega) hXj (show q - p' ≤ q' - p by omega) hab
  have hexp : (q' + q - 2 * (q' - p)) + (p' - q + 2 * (q' - p) - (q - p')) = n := by omega
  have hmag := mag_errIY hF hR hP hRb2 hRa2 hRbk hRak hRb hRa hτ hc c0 hcn (rfl : ((q' + q - 2 * (q' - p) : ℕ) : ℤ) = _)
    (rfl : ((p' - q + 2 * (q' - p) - (q - p') : ℕ) : ℤ) = _) hexp.le
  have hph := phase_errIY hI hR Rb Ra ((q' : ℤ) - q) ((p' : ℤ) - q) (by
    rcases abs_cases ((q' : ℤ) - q) with h | h <;> rcases abs_cases ((p' : ℤ) - q) with h' | h' <;> omega)
  have hexact : Complex.arg Rb * (((q' : ℤ) - q : ℤ) : ℝ) + Complex.arg Ra * (((p' : ℤ) - q : ℤ) : ℝ)
      = Complex.arg Rb * ((q' : ℝ) - q) + Complex.arg Ra * ((p' : ℝ) - q) := by push_cast; ring
  rw [hexact] at hph
  set d0 := Wcoef q' p' p q * ‖Rb‖ ^ (q' + q - 2 * (q' - p)) * ‖Ra‖ ^ (p' - q + 2 * (q' - p) - (q - p')) with hd0
  have d0n : 0 ≤ d0 := by rw [hd0]; unfold Wcoef; positivity
  have hd1 : τ * Wcoef q' p' p q * ‖Rb‖ ^ (q' + q - 2 * (q' - p)) * ‖Ra‖ ^ (p' - q + 2 * (q' - p) - (q - p')) = τ * d0 := by
    rw [hd0]; ring
  have hd4 : d0 ≤ 4 * Wcoef q' p' p q := by
    have r1 := hRbk (q' + q - 2 * (q' - p)) (by omega)
    have r2 := hRak (p' - q + 2 * (q' - p) - (q - p')) (by omega)
    have r3 := pow_nonneg (norm_nonneg Rb) (q' + q - 2 * (q' - p))
    have r4 := pow_nonneg (norm_nonneg Ra) (p' - q + 2 * (q' - p) - (q - p'))
    rw [hd0]
    calc _ ≤ Wcoef q' p' p q * 2 * 2 := by gcongr
      _ = _ := by ring
  rw [hd1] at hmag
  have hτd : |τ * d0| = d0 := by rw [abs_mul, hτ, one_mul, abs_of_nonneg d0n]
  have core := float_coreIY hF hR2 hR (neg := neg) hmag c0 hcn (by rw [hτd]; exact hd4) (by omega) hκ hC hCn hph s2 s3 (by omega) hcS hSn hv
  rw [hτd] at core
  have hbound : d0 * ∑ ρ ∈ Ico (q' - p) (min q' q + 1), |∏ i ∈ Ioc (q' - p) ρ, Dratio (-‖Ra‖ * ‖Ra‖ / (‖Rb‖ * ‖Rb‖)) ((q' : ℤ) + 1) ((q : ℤ) + 1) ((p' : ℤ) - q) i|
      ≤ (‖Ra‖ + ‖Rb‖) ^ n := by
    have := prefactor_sum_le (zb := Ra) ha hsum'
    rwa [show q' + p' = n by omega, add_comm ‖Rb‖] at this
  have hfac : gam u (2 * ((q' + q - 2 * (q' - p)) + (p' - q + 2 * (q' - p) - (q - p'))) + 3 + 8 + 11 * (min q' q - (q' - p)))
      ≤ gam u (2 * n + 11 + 11 * (n / 2)) := by
    apply gam_mono hu0 hu1
    have : min q' q - (q' - p) ≤ n / 2 := by omega
    omega
  have hD : (if neg then -rect (τ * d0) (Complex.arg Rb * ((q' : ℝ) - q) + Complex.arg Ra * ((p' : ℝ) - q))
      else rect (τ * d0) (Complex.arg Rb * ((q' : ℝ) - q) + Complex.arg Ra * ((p' : ℝ) - q)))
      * ((∑ ρ ∈ Ico (q' - p) (min q' q + 1),
          ∏ i ∈ Ioc (q' - p) ρ, Dratio (-‖Ra‖ * ‖Ra‖ / (‖Rb‖ * ‖Rb‖)) ((q' : ℤ) + 1) ((q : ℤ) + 1) ((p' : ℤ) - q) i : ℝ) : ℂ)
      = (if neg then -1 else 1) * (τ : ℂ) * (-1) ^ (q + (q' - p)) * Spec.Dpq Ra Rb p' q' p q := by
    rw [hS, ← hval, ← mul_assoc ((-1 : ℝ) ^ q), ← pow_add]
    have hsq : ((-1 : ℂ) ^ (q + (q' - p))) * ((-1 : ℂ) ^ (q + (q' - p))) = 1 := by rw [← mul_pow]; norm_num
    simp only [rect]
    push_cast
    cases neg
    · simp only [Bool.false_eq_true, if_false]
      linear_combination (-(τ : ℂ) * d0 * Complex.exp ((Complex.arg Rb * ((q' : ℂ) - q) + Complex.arg Ra * ((p' : ℂ) - q)) * Complex.I) * S) * hsq
    · simp only [if_true]
      linear_combination ((τ : ℂ) * d0 * Complex.exp ((Complex.arg Rb * ((q' : ℂ) - q) + Complex.arg Ra * ((p' : ℂ) - q)) * Complex.I) * S) * hsq
  rw [hD] at core
  have herr : gam u (2 * ((q' + q - 2 * (q' - p)) + (p' - q + 2 * (q' - p) - (q - p'))) + 3 + 8 + 11 * (min q' q - (q' - p)))
      + gam u 3 * (Real.pi * n) ≤ floatErrY u n := by
    unfold floatErrY; linarith
  have hpos := floatErrY_nonneg hu0 hu1 n
  have T0 : 0 ≤ ∑ ρ ∈ Ico (q' - p) (min q' q + 1), |∏ i ∈ Ioc (q' - p) ρ, Dratio (-‖Ra‖ * ‖Ra‖ / (‖Rb‖ * ‖Rb‖)) ((q' : ℤ) + 1) ((q : ℤ) + 1) ((p' : ℤ) - q) i| :=
    Finset.sum_nonneg fun _ _ => abs_nonneg _
  refine ⟨core.trans (assembleY hF.η_nonneg herr hpos rfl hC hCn d0n hd4 T0 hcS hbound), fun hs => core.trans ?_⟩
  have hone : d0 * ∑ ρ ∈ Ico (q' - p) (min q' q + 1), |∏ i ∈ Ioc (q' - p) ρ, Dratio (-‖Ra‖ * ‖Ra‖ / (‖Rb‖ * ‖Rb‖)) ((q' : ℤ) + 1) ((q : ℤ) + 1) ((p' : ℤ) - q) i|
      = ‖Spec.Dpq Ra Rb p' q' p q‖ := by
    have h1 := congrArg norm hD
    rw [norm_mul, norm_mul, norm_mul, norm_mul] at h1
    have e1 : ‖((if neg then -1 else 1 : ℂ))‖ = 1 := by cases neg <;> simp
    have e2 : ‖((-1 : ℂ) ^ (q + (q' - p)))‖ = 1 := by simp
    rw [e1, e2, Complex.norm_real, Complex.norm_real, Real.norm_eq_abs, Real.norm_eq_abs, hτ, one_mul, one_mul, one_mul] at h1
    rw [← h1, hs, Nat.Ico_succ_singleton, Finset.sum_singleton, Finset.sum_singleton, Finset.Ioc_self, Finset.prod_empty]
    cases neg <;> simp [norm_rect, hτd, -abs_mul, -map_mul]
  rw [← hone]
  exact assembleY hF.η_nonneg herr hpos rfl hC hCn d0n hd4 T0 hcS le_rfl

end

end SF
