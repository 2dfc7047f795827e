import Verif.Lemmas.IEEEE

/-! # The D kernel with underflow and overflow: the two regimes -/

set_option autoImplicit false

namespace SF

open Finset ComplexConjugate

/-- The contribution of underflows: `2 ell = n`. -/
noncomputable def underErr (η : ℝ) (n : ℕ) : ℝ := 30000 * (n + 1) * 2 ^ n * η

theorem ratio_pow {u w η ν Ω eps : ℝ} {n : ℕ} {F : FloatOps} (hF : F.IEEE u w η ν Ω) (hR : Range u η ν Ω eps n) {za zb : ℂ}
    (hA : 0 < ‖za‖) (na : Near u 1 (F.abs za) ‖za‖) (nb : Near u 1 (F.abs zb) ‖zb‖) (h : F.abs zb ≤ F.abs za) {j : ℕ}
    (hj : 4 * j ≤ 7 * n + 30) : |(-‖zb‖ * ‖zb‖ / (‖za‖ * ‖za‖))| ^ j ≤ 2 := by
  have hu0 := hF.u_nonneg
  have hu1 := hF.u_lt_one
  obtain ⟨α, a1, a2⟩ := na
  obtain ⟨β, b1, b2⟩ := nb
  have a3 := a2.2
  have b3 := b2.1
  have α0 := Fac.pos hu0 hu1 a2
  rw [pow_one] at a3 b3
  have hB := norm_nonneg zb
  rw [a1, b1] at h
  have h1 : 0 < 1 - u := by linarith
  have k1 : ‖zb‖ * (1 - u) ^ 2 ≤ ‖za‖ := by
    calc ‖zb‖ * (1 - u) ^ 2 = ‖zb‖ * (1 - u) * (1 - u) := by ring
      _ ≤ ‖zb‖ * β * (1 - u) := by gcongr
      _ ≤ ‖za‖ * α * (1 - u) := by gcongr
      _ = ‖za‖ * (α * (1 - u)) := by ring
      _ ≤ ‖za‖ * 1 := by gcongr
      _ = ‖za‖ := mul_one _
  have k0 : 0 ≤ ‖zb‖ * (1 - u) ^ 2 := by positivity
  have k2 := mul_self_le_mul_self k0 k1
  set x := |(-‖zb‖ * ‖zb‖ / (‖za‖ * ‖za‖))| with hx
  have x0 : 0 ≤ x := abs_nonneg _
  have k3 : x * (1 - u) ^ 4 ≤ 1 := by
    rw [hx, abs_div, neg_mul, abs_neg, abs_of_nonneg (mul_nonneg hB hB), abs_of_pos (mul_pos hA hA), div_mul_eq_mul_div,
      div_le_one (mul_pos hA hA)]
    linarith
  have k4 : x ^ j * (1 - u) ^ (4 * j) ≤ 1 := by
    rw [pow_mul, ← mul_pow]
    exact pow_le_one₀ (by positivity) k3
  have k5 : 1 / 2 ≤ (1 - u) ^ (4 * j) := hR.half.trans (pow_le_pow_of_le_one (by linarith) (by linarith) hj)
  have : 0 ≤ x ^ j := by positivity
  nlinarith

/-- Assembly of the bounds. -/
theorem assemble {u η e1 e2 G B c T : ℝ} {n : ℕ} (hη : 0 ≤ η) (h1 : G + e1 ≤ floatErr u n) (h0 : 0 ≤ floatErr u n) (e2η : e2 = (16 * n + 9) * η)
    {d : ℝ} (hd0 : 0 ≤ d) (hd : d ≤ 4 * c) (T0 : 0 ≤ T) (hcT : c * T ≤ 2 * 2 ^ n) (hB : d * T ≤ B) :
    (G + (e1 + e2)) * (d * T) + 20000 * 2 ^ n * η ≤ floatErr u n * B + underErr η n := by
  have n0 : (0 : ℝ) ≤ n := Nat.cast_nonneg n
  have dT : 0 ≤ d * T := mul_nonneg hd0 T0
  have k1 : (G + e1) * (d * T) ≤ floatErr u n * B := mul_le_mul h1 hB dT h0
  have k2 : d * T ≤ 8 * 2 ^ n := by nlinarith
  have k3 : e2 * (d * T) ≤ (16 * n + 9) * η * (8 * 2 ^ n) := by
    rw [e2η]; exact mul_le_mul_of_nonneg_left k2 (by positivity)
  have P0 : (0 : ℝ) ≤ 2 ^ n * η := by positivity
  have k4 : (0 : ℝ) ≤ n * (2 ^ n * η) := by positivity
  unfold underErr
  nlinarith

theorem elemI_ra_ge_rb_err {u w η ν Ω eps : ℝ} {n : ℕ} {F : FloatOps} (hF : F.IEEE u w η ν Ω) (hR : Range u η ν Ω eps n) {L : ℤ}
    {table : List ℝ} (ht : RoundedTable u L table) {Ra Rb : ℂ} (hRa2 : ‖Ra‖ ≤ 2) (hRb2 : ‖Rb‖ ≤ 2) (hRak : ∀ k ≤ n, ‖Ra‖ ^ k ≤ 2)
    (hRbk : ∀ k ≤ n, ‖Rb‖ ^ k ≤ 2) (hRa : eps < F.abs Ra) (hRb : eps < F.abs Rb) (hord : F.abs Rb ≤ F.abs Ra) {b c : ℤ}
    (hv : Spec.ValidD n b c) (hle : (n : ℤ) ≤ 2 * L) :
    ∃ v, elemF_ra_ge_rb F table (F.abs Ra) (F.arg Ra) (F.abs Rb) (F.arg Rb) n b c = .ok v ∧
      ‖v - Spec.wignerD Ra Rb n b c‖ ≤ floatErr u n * (‖Ra‖ + ‖Rb‖) ^ n + underErr η n ∧
      (|b| = n ∨ |c| = n → ‖v - Spec.wignerD Ra Rb n b c‖ ≤ floatErr u n * ‖Spec.wignerD Ra Rb n b c‖ + underErr η n) := by
  have hu0 := hF.u_nonneg
  have hu1 := hF.u_lt_one
  have hv' := hv
  obtain ⟨lo_a, near_a⟩ := absI_gt hF hR hRa2 hRa
  obtain ⟨lo_b, near_b⟩ := absI_gt hF hR hRb2 hRb
  have heps := hR.eps_pos
  have Pa : 0 < ‖Ra‖ := by linarith
  have ha : Ra ≠ 0 := norm_pos_iff.mp Pa
  obtain ⟨p', q', p, q, hsum, hap, hb, hc⟩ := valid_pq hv
  rw [wignerD_pq Ra Rb hsum hap hb hc]
  have hcond : ¬ (|b| > (n : ℤ) ∨ |c| > (n : ℤ)) := by
    rw [not_or, not_lt, not_lt]; exact ⟨hv'.1, hv'.2.1⟩
  have hrho : max 0 (b - c) = 2 * ((p' - p : ℕ) : ℤ) := by omega
  have hrho' : ((max 0 (b - c) : ℤ) : ℝ) = 2 * ((p' - p : ℕ) : ℝ) := by rw [hrho]; push_cast; rfl
  have hmax : min ((n : ℤ) + b) ((n : ℤ) - c) = 2 * (((min p' q : ℕ)) : ℤ) := by omega
  have hN1 : (n : ℤ) + b + 2 = 2 * ((p' : ℤ) + 1) := by omega
  have hN2 : (n : ℤ) - c + 2 = 2 * ((q : ℤ) + 1) := by omega
  have hM : c - b = 2 * ((q' : ℤ) - q) := by omega
  have hcab : c + b = 2 * ((p' : ℤ) - q) := by omega
  have e1 : (((n : ℕ) : ℤ) : ℝ) - (c : ℝ) / 2 + (b : ℝ) / 2 - ((max 0 (b - c) : ℤ) : ℝ)
      = ((p' + q - 2 * (p' - p) : ℕ) : ℝ) := by
    have : (2 * (n : ℤ) - c + b - 4 * ((p' - p : ℕ) : ℤ)) = 2 * ((p' + q - 2 * (p' - p) : ℕ) : ℤ) := by omega
    have h2 : (2 * ((n : ℤ) : ℝ) - c + b - 4 * ((p' - p : ℕ) : ℝ)) = 2 * ((p' + q - 2 * (p' - p) : ℕ) : ℝ) := by
      exact_mod_cast this
    rw [hrho']
    linarith
  have e2 : (c : ℝ) / 2 - (b : ℝ) / 2 + ((max 0 (b - c) : ℤ) : ℝ)
      = ((q' - q + 2 * (p' - p) - (q - q') : ℕ) : ℝ) := by
    have : (c - b + 4 * ((p' - p : ℕ) : ℤ)) = 2 * ((q' - q + 2 * (p' - p) - (q - q') : ℕ) : ℤ) := by omega
    have h2 : ((c : ℝ) - b + 4 * ((p' - p : ℕ) : ℝ)) = 2 * ((q' - q + 2 * (p' - p) - (q - q') : ℕ) : ℝ) := by
      exact_mod_cast this
    rw [hrho']
    linarith
  have hne : ∀ ρ : ℕ, p' - p < ρ → ρ ≤ min p' q → (ρ : ℤ) * (((q' : ℤ) - q) + ρ) ≠ 0 := by
    intro ρ h1 h2
    apply mul_ne_zero <;> omega
  have hab : p' - p ≤ min p' q := by omega
  obtain ⟨S, hS, hval⟩ := regA (zb := Rb) ha hsum (argI Ra) (argI Rb) (N1 := (p' : ℤ) + 1) (N2 := (q : ℤ) + 1)
    (M := (q' : ℤ) - q) (rhoMax := ((min p' q : ℕ) : ℤ)) (rhoMin := ((p' - p : ℕ) : ℤ))
    rfl rfl rfl (by push_cast; rfl) rfl
    (d := (-1 : ℝ) ^ (p' - p) * (Wcoef p' q' p q * ‖Ra‖ ^ (p' + q - 2 * (p' - p))
        * ‖Rb‖ ^ (q' - q + 2 * (p' - p) - (q - q')))) rfl
    (φ := Complex.arg Ra * ((p' : ℝ) - q) + Complex.arg Rb * ((q' : ℝ) - q)) rfl
  rw [hornerLoop_sum _ _ _ _ _ _ hab hne] at hS
  injection hS with hS
  obtain ⟨S', θ, s1, s2, s3⟩ := hornerI_loop hF hR hRa2 hRb2 hRa hRb (show p' + q' = n by omega) (show q ≤ n by omega)
    (show q - q' ≤ p' - p by omega) hab (fun j hj => ratio_pow hF hR Pa near_a near_b hord (by omega))
    (by simpa using ratio_pow hF hR Pa near_a near_b hord (j := 1) (by omega))
  obtain ⟨w', w1, w2⟩ := ht.coeff hsum hap hb hc hle
  have c0 : 0 ≤ Wcoef p' q' p q := by unfold Wcoef; positivity
  have hcn := coef_le hsum (show p' + q' = n by omega)
  have hXj : ∀ j ≤ n, |(-‖Rb‖ * ‖Rb‖ / (‖Ra‖ * ‖Ra‖))| ^ j ≤ 2 := fun j hj => ratio_pow hF hR Pa near_a near_b hord (by omega)
  have hcS := coef_sum_le hsum (show p' + q' = n by omega) hXj
  have hSn := tail_sum_le (k := p' - p) (show p' + q' = n by omega) hXj (show q - q' ≤ p' - p by omega) hab
  have hexp : p' + q - 2 * (p' - p) + (q' - q + 2 * (p' - p) - (q - q')) = n := by omega
  have hmag := mag_errI hF hR hRa2 hRb2 hRak hRbk hRa hRb w2 c0 hcn e1 e2 hexp.le
  have hph := phase_errI hF hR Ra Rb (c + b) (c - b) (by
    have := abs_le.mp hv'.1; have := abs_le.mp hv'.2.1
    rcases abs_cases (c + b) with h | h <;> rcases abs_cases (c - b) with h' | h' <;> omega)
  have hexact : Complex.arg Ra * ((c + b : ℤ) : ℝ) / 2 + Complex.arg Rb * ((c - b : ℤ) : ℝ) / 2
      = Complex.arg Ra * ((p' : ℝ) - q) + Complex.arg Rb * ((q' : ℝ) - q) := by rw [hcab, hM]; push_cast; ring
  rw [hexact] at hph
  set d0 := Wcoef p' q' p q * ‖Ra‖ ^ (p' + q - 2 * (p' - p)) * ‖Rb‖ ^ (q' - q + 2 * (p' - p) - (q - q')) with hd0
  have d0n : 0 ≤ d0 := by rw [hd0]; unfold Wcoef; positivity
  have hd4 : d0 ≤ 4 * Wcoef p' q' p q := by
    have r1 := hRak (p' + q - 2 * (p' - p)) (by omega)
    have r2 := hRbk (q' - q + 2 * (p' - p) - (q - q')) (by omega)
    have r3 := pow_nonneg (norm_nonneg Ra) (p' + q - 2 * (p' - p))
    have r4 := pow_nonneg (norm_nonneg Rb) (q' - q + 2 * (p' - p) - (q - q'))
    rw [hd0]
    calc _ ≤ Wcoef p' q' p q * 2 * 2 := by gcongr
      _ = _ := by ring
  have core := fun (V : ℂ) hV => float_coreI hF hR (V := V) (neg := decide (¬ (p' - p) % 2 = 0)) hmag c0 hcn
    (by rw [abs_of_nonneg d0n]; exact hd4) (by omega) hph s2 s3 (by omega) hcS hSn hV
  simp only [abs_of_nonneg d0n] at core
  have hbound : d0 * ∑ ρ ∈ Ico (p' - p) (min p' q + 1),
        |∏ i ∈ Ioc (p' - p) ρ, Dratio (-‖Rb‖ * ‖Rb‖ / (‖Ra‖ * ‖Ra‖)) ((p' : ℤ) + 1) ((q : ℤ) + 1) ((q' : ℤ) - q) i|
      ≤ (‖Ra‖ + ‖Rb‖) ^ n := by
    have := prefactor_sum_le (zb := Rb) ha hsum
    rwa [show p' + q' = n by omega] at this
  have hfac : gam u (p' + q - 2 * (p' - p) + (q' - q + 2 * (p' - p) - (q - q')) + 5 + 3 + 11 * (min p' q - (p' - p)))
      ≤ gam u (n + 8 + 11 * (n / 2)) := by
    apply gam_mono hu0 hu1
    have : p' + q - 2 * (p' - p) + (q' - q + 2 * (p' - p) - (q - q')) = n := by omega
    have : min p' q - (p' - p) ≤ n / 2 := by omega
    omega
  have hD : (if decide (¬ (p' - p) % 2 = 0) = true then -rect d0 (Complex.arg Ra * ((p' : ℝ) - q) + Complex.arg Rb * ((q' : ℝ) - q))
      else rect d0 (Complex.arg Ra * ((p' : ℝ) - q) + Complex.arg Rb * ((q' : ℝ) - q)))
      * ((∑ ρ ∈ Ico (p' - p) (min p' q + 1),
          ∏ i ∈ Ioc (p' - p) ρ, Dratio (-‖Rb‖ * ‖Rb‖ / (‖Ra‖ * ‖Ra‖)) ((p' : ℤ) + 1) ((q : ℤ) + 1) ((q' : ℤ) - q) i : ℝ) : ℂ)
      = Spec.Dpq Ra Rb p' q' p q := by
    rw [hS, ← hval, neg_one_pow_iff]
    by_cases hpar : (p' - p) % 2 = 0
    · simp only [hpar, not_true_eq_false, decide_false, if_true]
      simp [hd0]
    · simp only [hpar, not_false_eq_true, decide_true, if_true, if_false]
      simp [hd0, rect]
  have hone : |b| = (n : ℤ) ∨ |c| = (n : ℤ) → d0 * ∑ ρ ∈ Ico (p' - p) (min p' q + 1),
        |∏ i ∈ Ioc (p' - p) ρ, Dratio (-‖Rb‖ * ‖Rb‖ / (‖Ra‖ * ‖Ra‖)) ((p' : ℤ) + 1) ((q : ℤ) + 1) ((q' : ℤ) - q) i|
      = ‖Spec.Dpq Ra Rb p' q' p q‖ := by
    intro h
    have hs : min p' q = p' - p := by
      rcases h with h | h <;> rcases (abs_eq (by omega)).mp h with h | h <;> omega
    rw [← hD, hs, Nat.Ico_succ_singleton, Finset.sum_singleton, Finset.sum_singleton, Finset.Ioc_self, Finset.prod_empty]
    split_ifs <;> simp [norm_rect, abs_of_nonneg d0n]
  simp only [hD] at core
  have herr : gam u (p' + q - 2 * (p' - p) + (q' - q + 2 * (p' - p) - (q - q')) + 5 + 3 + 11 * (min p' q - (p' - p)))
      + gam u 4 * (Real.pi * n) ≤ floatErr u n := by
    unfold floatErr; linarith
  have hpos : 0 ≤ floatErr u n := by
    unfold floatErr
    have := gam_nonneg hu0 hu1 (n + 8 + 11 * (n / 2))
    have g0 := gam_nonneg hu0 hu1 4
    have pi0 := Real.pi_pos
    positivity
  set pre := rectF F (F.mul (F.mul w' (F.pow (F.abs Ra) ((((n : ℕ) : ℤ) : ℝ) - (c : ℝ) / 2 + (b : ℝ) / 2 - ((max 0 (b - c) : ℤ) : ℝ))))
      (F.pow (F.abs Rb) ((c : ℝ) / 2 - (b : ℝ) / 2 + ((max 0 (b - c) : ℤ) : ℝ))))
      (F.add (F.div (F.mul (F.arg Ra) ((c + b : ℤ) : ℝ)) 2) (F.div (F.mul (F.arg Rb) ((c - b : ℤ) : ℝ)) 2)) with hpre
  have key : ∃ V, elemF_ra_ge_rb F table (F.abs Ra) (F.arg Ra) (F.abs Rb) (F.arg Rb) n b c = .ok V ∧
      (V = smulF F (if decide (¬ (p' - p) % 2 = 0) = true then -pre else pre) S' ∨ pre = 0 ∧ V = 0) := by
    unfold elemF_ra_ge_rb
    simp only [hcond, if_false]
    rw [w1, bind_ok, ← hpre]
    have hs : (max 0 (b - c) % 4 ≠ 0) ↔ ¬ (p' - p) % 2 = 0 := by omega
    by_cases h0 : pre = 0
    · exact ⟨0, by rw [if_pos h0], Or.inr ⟨h0, rfl⟩⟩
    refine ⟨_, ?_, Or.inl rfl⟩
    · rw [if_neg h0, hmax, hrho, hN1, hN2, hM, s1, bind_ok]
      show Except.ok _ = Except.ok _
      congr 2
      rw [← hrho]
      by_cases hpar : (p' - p) % 2 = 0
      · rw [if_neg (by rw [hs]; simpa using hpar)]; simp [hpar]
      · rw [if_pos (by rw [hs]; exact hpar)]; simp [hpar]
  obtain ⟨V, V1, V2⟩ := key
  have core := core V V2
  have T0 : 0 ≤ ∑ ρ ∈ Ico (p' - p) (min p' q + 1), |∏ i ∈ Ioc (p' - p) ρ,
      Dratio (-‖Rb‖ * ‖Rb‖ / (‖Ra‖ * ‖Ra‖)) ((p' : ℤ) + 1) ((q : ℤ) + 1) ((q' : ℤ) - q) i| :=
    Finset.sum_nonneg fun _ _ => abs_nonneg _
  refine ⟨V, V1, core.trans (assemble hF.η_nonneg herr hpos rfl d0n hd4 T0 hcS hbound), fun h => core.trans ?_⟩
  rw [← hone h]
  exact assemble hF.η_nonneg herr hpos rfl d0n hd4 T0 hcS le_rfl

theorem elemI_ra_lt_rb_err {u w η ν Ω eps : ℝ} {n : ℕ} {F : FloatOps} (hF : F.IEEE u w η ν Ω) (hR : Range u η ν Ω eps n) {L : ℤ}
    {table : List ℝ} (ht : RoundedTable u L table) {Ra Rb : ℂ} (hRa2 : ‖Ra‖ ≤ 2) (hRb2 : ‖Rb‖ ≤ 2) (hRak : ∀ k ≤ n, ‖Ra‖ ^ k ≤ 2)
    (hRbk : ∀ k ≤ n, ‖Rb‖ ^ k ≤ 2) (hRa : eps < F.abs Ra) (hRb : eps < F.abs Rb) (hord : F.abs Ra ≤ F.abs Rb) {b c : ℤ}
    (hv : Spec.ValidD n b c) (hle : (n : ℤ) ≤ 2 * L) :
    ∃ v, elemF_ra_lt_rb F table (F.abs Ra) (F.arg Ra) (F.abs Rb) (F.arg Rb) n b c = .ok v ∧
      ‖v - Spec.wignerD Ra Rb n b c‖ ≤ floatErr u n * (‖Ra‖ + ‖Rb‖) ^ n + underErr η n ∧
      (|b| = n ∨ |c| = n → ‖v - Spec.wignerD Ra Rb n b c‖ ≤ floatErr u n * ‖Spec.wignerD Ra Rb n b c‖ + underErr η n) := by
  have hu0 := hF.u_nonneg
  have hu1 := hF.u_lt_one
  have hv' := hv
  obtain ⟨lo_a, near_a⟩ := absI_gt hF hR hRb2 hRb
  obtain ⟨lo_b, near_b⟩ := absI_gt hF hR hRa2 hRa
  have heps := hR.eps_pos
  have Pa : 0 < ‖Rb‖ := by linarith
  have ha : Rb ≠ 0 := norm_pos_iff.mp Pa
  obtain ⟨p', q', p, q, hsum, hap, hb, hc⟩ := valid_pq hv
  rw [wignerD_pq Ra Rb hsum hap hb hc]
  have hsum' : q' + p' = p + q := by omega
  have hcond : ¬ (|b| > (n : ℤ) ∨ |c| > (n : ℤ)) := by
    rw [not_or, not_lt, not_lt]; exact ⟨hv'.1, hv'.2.1⟩
  have hrho : max 0 (-b - c) = 2 * ((q' - p : ℕ) : ℤ) := by omega
  have hrho' : ((max 0 (-b - c) : ℤ) : ℝ) = 2 * ((q' - p : ℕ) : ℝ) := by rw [hrho]; push_cast; rfl
  have hmax : min ((n : ℤ) - b) ((n : ℤ) - c) = 2 * (((min q' q : ℕ)) : ℤ) := by omega
  have hN1 : (n : ℤ) - b + 2 = 2 * ((q' : ℤ) + 1) := by omega
  have hN2 : (n : ℤ) - c + 2 = 2 * ((q : ℤ) + 1) := by omega
  have hM : c + b = 2 * ((p' : ℤ) - q) := by omega
  have hcab : c - b = 2 * ((q' : ℤ) - q) := by omega
  have e1 : (((n : ℕ) : ℤ) : ℝ) - ((c + b : ℤ) : ℝ) / 2 - ((max 0 (-b - c) : ℤ) : ℝ)
      = ((q' + q - 2 * (q' - p) : ℕ) : ℝ) := by
    have : (2 * (n : ℤ) - c - b - 4 * ((q' - p : ℕ) : ℤ)) = 2 * ((q' + q - 2 * (q' - p) : ℕ) : ℤ) := by omega
    have h2 : (2 * ((n : ℤ) : ℝ) - c - b - 4 * ((q' - p : ℕ) : ℝ)) = 2 * ((q' + q - 2 * (q' - p) : ℕ) : ℝ) := by
      exact_mod_cast this
    rw [hrho']
    push_cast at h2 ⊢
    linarith
  have e2 : ((c + b : ℤ) : ℝ) / 2 + ((max 0 (-b - c) : ℤ) : ℝ)
      = ((p' - q + 2 * (q' - p) - (q - p') : ℕ) : ℝ) := by
    have : (c + b + 4 * ((q' - p : ℕ) : ℤ)) = 2 * ((p' - q + 2 * (q' - p) - (q - p') : ℕ) : ℤ) := by omega
    have h2 : ((c : ℝ) + b + 4 * ((q' - p : ℕ) : ℝ)) = 2 * ((p' - q + 2 * (q' - p) - (q - p') : ℕ) : ℝ) := by
      exact_mod_cast this
    rw [hrho']
    push_cast at h2 ⊢
    linarith
  have hne : ∀ ρ : ℕ, q' - p < ρ → ρ ≤ min q' q → (ρ : ℤ) * (((p' : ℤ) - q) + ρ) ≠ 0 := by
    intro ρ h1 h2
    apply mul_ne_zero <;> omega
  have hab : q' - p ≤ min q' q := by omega
  obtain ⟨S, hS, hval⟩ := regB (za := Ra) ha hsum (argI Ra) (argI Rb) (N1 := (q' : ℤ) + 1) (N2 := (q : ℤ) + 1)
    (M := (p' : ℤ) - q) (rhoMax := ((min q' q : ℕ) : ℤ)) (rhoMin := ((q' - p : ℕ) : ℤ))
    rfl rfl rfl (by push_cast; rfl) rfl
    (d := (-1 : ℝ) ^ q * ((-1 : ℝ) ^ (q' - p) * (Wcoef q' p' p q * ‖Rb‖ ^ (q' + q - 2 * (q' - p))
        * ‖Ra‖ ^ (p' - q + 2 * (q' - p) - (q - p'))))) rfl
    (φ := Complex.arg Rb * ((q' : ℝ) - q) + Complex.arg Ra * ((p' : ℝ) - q)) rfl
  rw [hornerLoop_sum _ _ _ _ _ _ hab hne] at hS
  injection hS with hS
  obtain ⟨S', θ, s1, s2, s3⟩ := hornerI_loop hF hR hRb2 hRa2 hRb hRa (show q' + p' = n by omega) (show q ≤ n by omega)
    (show q - p' ≤ q' - p by omega) hab (fun j hj => ratio_pow hF hR Pa near_a near_b hord (by omega))
    (by simpa using ratio_pow hF hR Pa near_a near_b hord (j := 1) (by omega))
  obtain ⟨w', w1, w2⟩ := ht.coeff hsum' (b := -b) hap (by omega) hc hle
  have c0 : 0 ≤ Wcoef q' p' p q := by unfold Wcoef; positivity
  have hcn := coef_le hsum' (show q' + p' = n by omega)
  have hXj : ∀ j ≤ n, |(-‖Ra‖ * ‖Ra‖ / (‖Rb‖ * ‖Rb‖))| ^ j ≤ 2 := fun j hj => ratio_pow hF hR Pa near_a near_b hord (by omega)
  have hcS := coef_sum_le hsum' (show q' + p' = n by omega) hXj
  have hSn := tail_sum_le (k := q' - p) (show q' + p' = n by omega) hXj (show q - p' ≤ q' - p by omega) hab
  have hexp : q' + q - 2 * (q' - p) + (p' - q + 2 * (q' - p) - (q - p')) = n := by omega
  have hmag := mag_errI hF hR hRb2 hRa2 hRbk hRak hRb hRa w2 c0 hcn e1 e2 hexp.le
  have hph := phase_errI hF hR Rb Ra (c - b) (c + b) (by
    have := abs_le.mp hv'.1; have := abs_le.mp hv'.2.1
    rcases abs_cases (c + b) with h | h <;> rcases abs_cases (c - b) with h' | h' <;> omega)
  have hexact : Complex.arg Rb * ((c - b : ℤ) : ℝ) / 2 + Complex.arg Ra * ((c + b : ℤ) : ℝ) / 2
      = Complex.arg Rb * ((q' : ℝ) - q) + Complex.arg Ra * ((p' : ℝ) - q) := by rw [hcab, hM]; push_cast; ring
  rw [hexact] at hph
  set d0 := Wcoef q' p' p q * ‖Rb‖ ^ (q' + q - 2 * (q' - p)) * ‖Ra‖ ^ (p' - q + 2 * (q' - p) - (q - p')) with hd0
  have d0n : 0 ≤ d0 := by rw [hd0]; unfold Wcoef; positivity
  have hd4 : d0 ≤ 4 * Wcoef q' p' p q := by
    have r1 := hRbk (q' + q - 2 * (q' - p)) (by omega)
    have r2 := hRak (p' - q + 2 * (q' - p) - (q - p')) (by omega)
    have r3 := pow_nonneg (norm_nonneg Rb) (q' + q - 2 * (q' - p))
    have r4 := pow_nonneg (norm_nonneg Ra) (p' - q + 2 * (q' - p) - (q - p'))
    rw [hd0]
    calc _ ≤ Wcoef q' p' p q * 2 * 2 := by gcongr
      _ = _ := by ring
  have core := fun (V : ℂ) hV => float_coreI hF hR (V := V) (neg := decide (¬ (q + (q' - p)) % 2 = 0)) hmag c0 hcn
    (by rw [abs_of_nonneg d0n]; exact hd4) (by omega) hph s2 s3 (by omega) hcS hSn hV
  simp only [abs_of_nonneg d0n] at core
  have hbound : d0 * ∑ ρ ∈ Ico (q' - p) (min q' q + 1),
        |∏ i ∈ Ioc (q' - p) ρ, Dratio (-‖Ra‖ * ‖Ra‖ / (‖Rb‖ * ‖Rb‖)) ((q' : ℤ) + 1) ((q : ℤ) + 1) ((p' : ℤ) - q) i|
      ≤ (‖Ra‖ + ‖Rb‖) ^ n := by
    rw [add_comm ‖Ra‖]
    have := prefactor_sum_le (zb := Ra) ha hsum'
    rwa [show q' + p' = n by omega] at this
  have hfac : gam u (q' + q - 2 * (q' - p) + (p' - q + 2 * (q' - p) - (q - p')) + 5 + 3 + 11 * (min q' q - (q' - p)))
      ≤ gam u (n + 8 + 11 * (n / 2)) := by
    apply gam_mono hu0 hu1
    have : q' + q - 2 * (q' - p) + (p' - q + 2 * (q' - p) - (q - p')) = n := by omega
    have : min q' q - (q' - p) ≤ n / 2 := by omega
    omega
  have hD : (if decide (¬ (q + (q' - p)) % 2 = 0) = true then -rect d0 (Complex.arg Rb * ((q' : ℝ) - q) + Complex.arg Ra * ((p' : ℝ) - q))
      else rect d0 (Complex.arg Rb * ((q' : ℝ) - q) + Complex.arg Ra * ((p' : ℝ) - q)))
      * ((∑ ρ ∈ Ico (q' - p) (min q' q + 1),
          ∏ i ∈ Ioc (q' - p) ρ, Dratio (-‖Ra‖ * ‖Ra‖ / (‖Rb‖ * ‖Rb‖)) ((q' : ℤ) + 1) ((q : ℤ) + 1) ((p' : ℤ) - q) i : ℝ) : ℂ)
      = Spec.Dpq Ra Rb p' q' p q := by
    rw [hS, ← hval, ← mul_assoc, ← pow_add, neg_one_pow_iff]
    by_cases hpar : (q + (q' - p)) % 2 = 0
    · simp only [hpar, not_true_eq_false, decide_false, if_true]
      simp [hd0]
    · simp only [hpar, not_false_eq_true, decide_true, if_true, if_false]
      simp [hd0, rect]
  have hone : |b| = (n : ℤ) ∨ |c| = (n : ℤ) → d0 * ∑ ρ ∈ Ico (q' - p) (min q' q + 1),
        |∏ i ∈ Ioc (q' - p) ρ, Dratio (-‖Ra‖ * ‖Ra‖ / (‖Rb‖ * ‖Rb‖)) ((q' : ℤ) + 1) ((q : ℤ) + 1) ((p' : ℤ) - q) i|
      = ‖Spec.Dpq Ra Rb p' q' p q‖ := by
    intro h
    have hs : min q' q = q' - p := by
      rcases h with h | h <;> rcases (abs_eq (by omega)).mp h with h | h <;> omega
    rw [← hD, hs, Nat.Ico_succ_singleton, Finset.sum_singleton, Finset.sum_singleton, Finset.Ioc_self, Finset.prod_empty]
    split_ifs <;> simp [norm_rect, abs_of_nonneg d0n]
  simp only [hD] at core
  have herr : gam u (q' + q - 2 * (q' - p) + (p' - q + 2 * (q' - p) - (q - p')) + 5 + 3 + 11 * (min q' q - (q' - p)))
      + gam u 4 * (Real.pi * n) ≤ floatErr u n := by
    unfold floatErr; linarith
  have hpos : 0 ≤ floatErr u n := by
    unfold floatErr
    have := gam_nonneg hu0 hu1 (n + 8 + 11 * (n / 2))
    have g0 := gam_nonneg hu0 hu1 4
    have pi0 := Real.pi_pos
    positivity
  set pre := rectF F (F.mul (F.mul w' (F.pow (F.abs Rb) ((((n : ℕ) : ℤ) : ℝ) - ((c + b : ℤ) : ℝ) / 2 - ((max 0 (-b - c) : ℤ) : ℝ))))
      (F.pow (F.abs Ra) (((c + b : ℤ) : ℝ) / 2 + ((max 0 (-b - c) : ℤ) : ℝ))))
      (F.add (F.div (F.mul (F.arg Rb) ((c - b : ℤ) : ℝ)) 2) (F.div (F.mul (F.arg Ra) ((c + b : ℤ) : ℝ)) 2)) with hpre
  have key : ∃ V, elemF_ra_lt_rb F table (F.abs Ra) (F.arg Ra) (F.abs Rb) (F.arg Rb) n b c = .ok V ∧
      (V = smulF F (if decide (¬ (q + (q' - p)) % 2 = 0) = true then -pre else pre) S' ∨ pre = 0 ∧ V = 0) := by
    unfold elemF_ra_lt_rb
    simp only [hcond, if_false]
    rw [w1, bind_ok, ← hpre]
    have hs : (((n : ℤ) - c - max 0 (-b - c)) % 4 ≠ 0) ↔ ¬ (q + (q' - p)) % 2 = 0 := by omega
    by_cases h0 : pre = 0
    · exact ⟨0, by rw [if_pos h0], Or.inr ⟨h0, rfl⟩⟩
    refine ⟨_, ?_, Or.inl rfl⟩
    · rw [if_neg h0, hmax, hN1, hN2, hM]
      rw [show hornerLoop2F F _ _ _ _ _ (max 0 (-b - c)) = Except.ok S' by rw [hrho]; exact s1, bind_ok]
      show Except.ok _ = Except.ok _
      congr 2
      by_cases hpar : (q + (q' - p)) % 2 = 0
      · rw [if_neg (by rw [hs]; simpa using hpar)]; simp [hpar]
      · rw [if_pos (by rw [hs]; exact hpar)]; simp [hpar]
  obtain ⟨V, V1, V2⟩ := key
  have core := core V V2
  have T0 : 0 ≤ ∑ ρ ∈ Ico (q' - p) (min q' q + 1), |∏ i ∈ Ioc (q' - p) ρ,
      Dratio (-‖Ra‖ * ‖Ra‖ / (‖Rb‖ * ‖Rb‖)) ((q' : ℤ) + 1) ((q : ℤ) + 1) ((p' : ℤ) - q) i| :=
    Finset.sum_nonneg fun _ _ => abs_nonneg _
  refine ⟨V, V1, core.trans (assemble hF.η_nonneg herr hpos rfl d0n hd4 T0 hcS hbound), fun h => core.trans ?_⟩
  rw [← hone h]
  exact assemble hF.η_nonneg herr hpos rfl d0n hd4 T0 hcS le_rfl

end SF
