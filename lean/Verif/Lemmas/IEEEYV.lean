import Verif.Lemmas.IEEEYR

/-! # The harmonics with underflow and overflow: the values stored by the kernels -/

set_option autoImplicit false

namespace SF

open Finset ComplexConjugate

/-- What is proved of the value `v` computed for the harmonic `(s, ell, m)`. -/
def GenericI (u η : ℝ) (Ra Rb : ℂ) (s ell m : ℤ) (v : ℂ) : Prop :=
  ‖v - Spec.sYlm Ra Rb s ell m‖
    ≤ floatErrY u (2 * ell).toNat * (swshConst ell * (‖Ra‖ + ‖Rb‖) ^ (2 * ell).toNat) + underErrY η (2 * ell).toNat ∧
  (|m| = ell ∨ |s| = ell → ‖v - Spec.sYlm Ra Rb s ell m‖
    ≤ floatErrY u (2 * ell).toNat * ‖Spec.sYlm Ra Rb s ell m‖ + underErrY η (2 * ell).toNat)

/-- The rotor is away from the poles, and its norm is not far from 1. -/
structure AwayI (F : FloatOpsY) (eps : ℝ) (n : ℕ) (Ra Rb : ℂ) : Prop where
  a2 : ‖Ra‖ ≤ 2
  b2 : ‖Rb‖ ≤ 2
  ak : ∀ k ≤ n, ‖Ra‖ ^ k ≤ 2
  bk : ∀ k ≤ n, ‖Rb‖ ^ k ≤ 2
  a : eps < F.abs Ra
  b : eps < F.abs Rb

section
variable {u w η ν Ω eps : ℝ} {n P : ℕ} {δ ζ : ℕ → ℝ} {F : FloatOpsY} (hF : F.IEEE u w η ν Ω P δ ζ) (hR2 : Range u η ν Ω eps (n + 2))
include hF hR2

/-- Regime `ra >= rb` for `_SWSH` (`neg`, `τ = 1`) and for `_SWSHs` (sign in the coefficient). -/
theorem valAI (hP : n ≤ P) {Ra Rb : ℂ} (hA : AwayI F eps n Ra Rb) (hord : F.abs Rb ≤ F.abs Ra) {s ell m : ℤ} (hn : 2 * ell = n)
    (h1 : |m| ≤ ell) (h2 : |s| ≤ ell) {p' q' p q : ℕ}
    (hsum : p' + q' = p + q) (g1 : ell + m = p') (g2 : ell - m = q') (g3 : ell + -s = p) (g4 : ell - -s = q)
    {c' τ : ℝ} (hτ : |τ| = 1) (hc : RelErr u c' (τ * Wcoef p' q' p q)) :
    ∃ S, hornerLoopF F.toFloatOps (F.div (F.mul (-F.abs Rb) (F.abs Rb)) (F.mul (F.abs Ra) (F.abs Ra))) (ell + m + 1) (ell + s + 1)
        (-s - m) (min (ell + m) (ell + s)) (max 0 (m + s)) = .ok S ∧
      ∀ (neg : Bool) (v : ℂ), (if neg then (-1 : ℂ) else 1) * (τ : ℂ) = (-1) ^ (s + max 0 (m + s)) →
        (v = smulF F.toFloatOps (rsmulF F.toFloatOps (swshConstF F ell)
          (if neg then -rectF F.toFloatOps
            (F.mul (F.mul c' (F.ipow (F.abs Ra) (2 * ell + s + m - 2 * max 0 (m + s)))) (F.ipow (F.abs Rb) (-s - m + 2 * max 0 (m + s))))
            (F.add (F.mul (F.arg Ra) ((-s + m : ℤ) : ℝ)) (F.mul (F.arg Rb) ((-s - m : ℤ) : ℝ)))
          else rectF F.toFloatOps
            (F.mul (F.mul c' (F.ipow (F.abs Ra) (2 * ell + s + m - 2 * max 0 (m + s)))) (F.ipow (F.abs Rb) (-s - m + 2 * max 0 (m + s))))
            (F.add (F.mul (F.arg Ra) ((-s + m : ℤ) : ℝ)) (F.mul (F.arg Rb) ((-s - m : ℤ) : ℝ))))) S ∨
        rectF F.toFloatOps
            (F.mul (F.mul c' (F.ipow (F.abs Ra) (2 * ell + s + m - 2 * max 0 (m + s)))) (F.ipow (F.abs Rb) (-s - m + 2 * max 0 (m + s))))
            (F.add (F.mul (F.arg Ra) ((-s + m : ℤ) : ℝ)) (F.mul (F.arg Rb) ((-s - m : ℤ) : ℝ))) = 0 ∧ v = 0) →
        GenericI u η Ra Rb s ell m v := by
  have h0 : 0 ≤ ell := by have := abs_nonneg m; omega
  have hone : |m| = ell ∨ |s| = ell → min p' q = p' - p := by
    intro h
    rcases h with h | h <;> rcases (abs_eq h0).mp h with h | h <;> omega
  have hpn : p' + q' = n := by omega
  obtain ⟨S, e1, e2⟩ := regAI hF hR2 hP hA.a2 hA.b2 hA.ak hA.bk hA.a hA.b hord hsum hpn hτ hc (const_nearI hF hR2 hn (by omega))
    (swshConst_pos h0).le (swshConst_le hn)
  have a1 : ell + m + 1 = (p' : ℤ) + 1 := by omega
  have a2 : ell + s + 1 = (q : ℤ) + 1 := by omega
  have a3 : -s - m = (q' : ℤ) - q := by omega
  have a4 : min (ell + m) (ell + s) = ((min p' q : ℕ) : ℤ) := by omega
  have a5 : max 0 (m + s) = ((p' - p : ℕ) : ℤ) := by omega
  have a6 : 2 * ell + s + m - 2 * ((p' - p : ℕ) : ℤ) = ((p' + q - 2 * (p' - p) : ℕ) : ℤ) := by omega
  have a7 : (q' : ℤ) - q + 2 * ((p' - p : ℕ) : ℤ) = ((q' - q + 2 * (p' - p) - (q - q') : ℕ) : ℤ) := by omega
  have a8 : -s + m = (p' : ℤ) - q := by omega
  rw [a1, a2, a3, a4, a5, a6, a7, a8]
  refine ⟨S, e1, fun neg v hng hv => ?_⟩
  obtain ⟨f1, f2⟩ := e2 neg v hv
  rw [sgn_eq hng] at f1 f2
  have hn2 : (2 * ell).toNat = n := by omega
  unfold GenericI
  rw [norm_sYlm h1 h2 hsum g1 g2 g3 g4, sYlm_pq Ra Rb h1 h2 hsum g1 g2 g3 g4, hn2]
  exact ⟨f1, fun h => f2 (hone h)⟩

/-- Regime `ra < rb`. -/
theorem valBI (hP : n ≤ P) {Ra Rb : ℂ} (hA : AwayI F eps n Ra Rb) (hord : F.abs Ra ≤ F.abs Rb) {s ell m : ℤ} (hn : 2 * ell = n)
    (h1 : |m| ≤ ell) (h2 : |s| ≤ ell) {p' q' p q : ℕ}
    (hsum : p' + q' = p + q) (g1 : ell + m = p') (g2 : ell - m = q') (g3 : ell + -s = p) (g4 : ell - -s = q)
    {c' τ : ℝ} (hτ : |τ| = 1) (hc : RelErr u c' (τ * Wcoef q' p' p q)) :
    ∃ S, hornerLoopF F.toFloatOps (F.div (F.mul (-F.abs Ra) (F.abs Ra)) (F.mul (F.abs Rb) (F.abs Rb))) (ell - m + 1) (ell + s + 1)
        (-s + m) (min (ell - m) (ell + s)) (max 0 (-m + s)) = .ok S ∧
      ∀ (neg : Bool) (v : ℂ), (if neg then (-1 : ℂ) else 1) * (τ : ℂ) = (-1) ^ (ell + max 0 (-m + s)) →
        (v = smulF F.toFloatOps (rsmulF F.toFloatOps (swshConstF F ell)
          (if neg then -rectF F.toFloatOps
            (F.mul (F.mul c' (F.ipow (F.abs Rb) (2 * ell + s - m - 2 * max 0 (-m + s)))) (F.ipow (F.abs Ra) (-s + m + 2 * max 0 (-m + s))))
            (F.add (F.mul (F.arg Rb) ((-s - m : ℤ) : ℝ)) (F.mul (F.arg Ra) ((-s + m : ℤ) : ℝ)))
          else rectF F.toFloatOps
            (F.mul (F.mul c' (F.ipow (F.abs Rb) (2 * ell + s - m - 2 * max 0 (-m + s)))) (F.ipow (F.abs Ra) (-s + m + 2 * max 0 (-m + s))))
            (F.add (F.mul (F.arg Rb) ((-s - m : ℤ) : ℝ)) (F.mul (F.arg Ra) ((-s + m : ℤ) : ℝ))))) S ∨
        rectF F.toFloatOps
            (F.mul (F.mul c' (F.ipow (F.abs Rb) (2 * ell + s - m - 2 * max 0 (-m + s)))) (F.ipow (F.abs Ra) (-s + m + 2 * max 0 (-m + s))))
            (F.add (F.mul (F.arg Rb) ((-s - m : ℤ) : ℝ)) (F.mul (F.arg Ra) ((-s + m : ℤ) : ℝ))) = 0 ∧ v = 0) →
        GenericI u η Ra Rb s ell m v := by
  have h0 : 0 ≤ ell := by have := abs_nonneg m; omega
  have hone : |m| = ell ∨ |s| = ell → min q' q = q' - p := by
    intro h
    rcases h with h | h <;> rcases (abs_eq h0).mp h with h | h <;> omega
  have hpn : p' + q' = n := by omega
  obtain ⟨S, e1, e2⟩ := regBI hF hR2 hP hA.a2 hA.b2 hA.ak hA.bk hA.a hA.b hord hsum hpn hτ hc (const_nearI hF hR2 hn (by omega))
    (swshConst_pos h0).le (swshConst_le hn)
  have a1 : ell - m + 1 = (q' : ℤ) + 1 := by omega
  have a2 : ell + s + 1 = (q : ℤ) + 1 := by omega
  have a3 : -s + m = (p' : ℤ) - q := by omega
  have a4 : min (ell - m) (ell + s) = ((min q' q : ℕ) : ℤ) := by omega
  have a5 : max 0 (-m + s) = ((q' - p : ℕ) : ℤ) := by omega
  have a6 : 2 * ell + s - m - 2 * ((q' - p : ℕ) : ℤ) = ((q' + q - 2 * (q' - p) : ℕ) : ℤ) := by omega
  have a7 : (p' : ℤ) - q + 2 * ((q' - p : ℕ) : ℤ) = ((p' - q + 2 * (q' - p) - (q - p') : ℕ) : ℤ) := by omega
  have a8 : -s - m = (q' : ℤ) - q := by omega
  rw [a1, a2, a3, a4, a5, a6, a7, a8]
  refine ⟨S, e1, fun neg v hng hv => ?_⟩
  obtain ⟨f1, f2⟩ := e2 neg v hv
  have hn' : (if neg then (-1 : ℂ) else 1) * (τ : ℂ) = (-1) ^ (s + ((q + (q' - p) : ℕ) : ℤ)) := by
    rw [hng, neg_one_zpow_iff, neg_one_zpow_iff]
    push_cast
    have : (ell + ((q' - p : ℕ) : ℤ)) % 2 = (s + ((q : ℤ) + ((q' - p : ℕ) : ℤ))) % 2 := by omega
    rw [this]
  rw [sgn_eq hn'] at f1 f2
  have hn2 : (2 * ell).toNat = n := by omega
  unfold GenericI
  rw [norm_sYlm h1 h2 hsum g1 g2 g3 g4, sYlm_pq Ra Rb h1 h2 hsum g1 g2 g3 g4, hn2]
  exact ⟨f1, fun h => f2 (hone h)⟩

theorem swshI_ge_err (hP : n ≤ P) {L : ℤ} {table : List ℝ} (ht : RoundedTable u L table) {Ra Rb : ℂ} (hA : AwayI F eps n Ra Rb)
    (hord : F.abs Rb ≤ F.abs Ra) {s ell m : ℤ} (hn : 2 * ell = n) (h1 : |m| ≤ ell) (h2 : |s| ≤ ell) (hle : ell ≤ L) :
    ∃ v, swshF_ra_ge_rb F table (F.abs Ra) (F.arg Ra) (F.abs Rb) (F.arg Rb) s ell m = .ok v ∧ GenericI u η Ra Rb s ell m v := by
  obtain ⟨p', q', p, q, hsum, g1, g2, g3, g4⟩ := int_pq h1 (show |-s| ≤ ell by rwa [abs_neg])
  obtain ⟨c, c1, c2⟩ := ht.coeff_int g1 g2 g3 g4 hle
  obtain ⟨S, e1, e2⟩ := valAI hF hR2 hP hA hord hn h1 h2 hsum g1 g2 g3 g4 (c' := c) (τ := 1) (by simp) (by simpa using c2)
  have e3 := fun v => e2 (decide ((max 0 (m + s) + s) % 2 ≠ 0)) v (by
    rw [neg_iteC, neg_one_zpow_iff, add_comm s, ite_not])
  unfold swshF_ra_ge_rb
  simp only
  rw [if_neg (by rintro (h | h) <;> omega)]
  push_cast at c1
  rw [c1, bind_ok]
  set pre := rectF F.toFloatOps
      (F.mul (F.mul c (F.ipow (F.abs Ra) (2 * ell + s + m - 2 * max 0 (m + s)))) (F.ipow (F.abs Rb) (-s - m + 2 * max 0 (m + s))))
      (F.add (F.mul (F.arg Ra) ((-s + m : ℤ) : ℝ)) (F.mul (F.arg Rb) ((-s - m : ℤ) : ℝ))) with hpre
  by_cases h0 : pre = 0
  · rw [if_pos h0]
    exact ⟨0, rfl, e3 0 (Or.inr ⟨h0, rfl⟩)⟩
  · refine ⟨_, ?_, e3 _ (Or.inl rfl)⟩
    rw [if_neg h0, e1, bind_ok]
    simp only [decide_eq_true_eq]
    rfl

theorem swshI_lt_err (hP : n ≤ P) {L : ℤ} {table : List ℝ} (ht : RoundedTable u L table) {Ra Rb : ℂ} (hA : AwayI F eps n Ra Rb)
    (hord : F.abs Ra ≤ F.abs Rb) {s ell m : ℤ} (hn : 2 * ell = n) (h1 : |m| ≤ ell) (h2 : |s| ≤ ell) (hle : ell ≤ L) :
    ∃ v, swshF_ra_lt_rb F table (F.abs Ra) (F.arg Ra) (F.abs Rb) (F.arg Rb) s ell m = .ok v ∧ GenericI u η Ra Rb s ell m v := by
  obtain ⟨p', q', p, q, hsum, g1, g2, g3, g4⟩ := int_pq h1 (show |-s| ≤ ell by rwa [abs_neg])
  obtain ⟨c, c1, c2⟩ := ht.coeff_int (p' := q') (q' := p') (ell := ell) (mp := -m) (m := -s) (by omega) (by omega) g3 g4 hle
  obtain ⟨S, e1, e2⟩ := valBI hF hR2 hP hA hord hn h1 h2 hsum g1 g2 g3 g4 (c' := c) (τ := 1) (by simp) (by simpa using c2)
  have e3 := fun v => e2 (decide ((ell + max 0 (-m + s)) % 2 ≠ 0)) v (by
    rw [neg_iteC, neg_one_zpow_iff, ite_not])
  unfold swshF_ra_lt_rb
  simp only
  rw [if_neg (by rintro (h | h) <;> omega)]
  push_cast at c1
  rw [c1, bind_ok]
  set pre := rectF F.toFloatOps
      (F.mul (F.mul c (F.ipow (F.abs Rb) (2 * ell + s - m - 2 * max 0 (-m + s)))) (F.ipow (F.abs Ra) (-s + m + 2 * max 0 (-m + s))))
      (F.add (F.mul (F.arg Rb) ((-s - m : ℤ) : ℝ)) (F.mul (F.arg Ra) ((-s + m : ℤ) : ℝ))) with hpre
  by_cases h0 : pre = 0
  · rw [if_pos h0]
    exact ⟨0, rfl, e3 0 (Or.inr ⟨h0, rfl⟩)⟩
  · refine ⟨_, ?_, e3 _ (Or.inl rfl)⟩
    rw [if_neg h0, e1, bind_ok]
    simp only [decide_eq_true_eq]
    rfl

end

/-- A bound for both components gives one for the norm. -/
theorem norm_comp {g C : ℝ} (g0 : 0 ≤ g) {y z : ℂ} (h1 : |y.re - C * z.re| ≤ g * |C * z.re|) (h2 : |y.im - C * z.im| ≤ g * |C * z.im|) :
    ‖y - (C : ℂ) * z‖ ≤ g * (|C| * ‖z‖) := by
  have e : g * (|C| * ‖z‖) = ‖((g * C : ℝ) : ℂ) * z‖ := by
    rw [norm_mul, Complex.norm_real, Real.norm_eq_abs, abs_mul, abs_of_nonneg g0]; ring
  rw [e]
  apply abs_le_of_sq_le_sq' _ (norm_nonneg _) |>.2
  rw [← Complex.normSq_eq_norm_sq, ← Complex.normSq_eq_norm_sq, Complex.normSq_apply, Complex.normSq_apply]
  have a2 := mul_self_le_mul_self (abs_nonneg _) h1
  have b2 := mul_self_le_mul_self (abs_nonneg _) h2
  rw [abs_mul_abs_self] at a2 b2
  have e1 : ∀ x : ℝ, (g * |C * x|) * (g * |C * x|) = (g * C * x) * (g * C * x) := by
    intro x
    calc _ = g ^ 2 * (|C * x| * |C * x|) := by ring
      _ = _ := by rw [abs_mul_abs_self]; ring
  rw [e1] at a2 b2
  simp only [Complex.sub_re, Complex.sub_im, Complex.mul_re, Complex.mul_im, Complex.ofReal_re, Complex.ofReal_im, zero_mul,
    sub_zero, add_zero]
  linarith

section
variable {u w η ν Ω eps τ : ℝ} {n P : ℕ} {δ ζ : ℕ → ℝ} {F : FloatOpsY} (hF : F.IEEE u w η ν Ω P δ ζ)
include hF

/-- Product with a constant. -/
theorem rsmulI_err {k C : ℝ} (hk : Near u 4 k C) {z : ℂ} (hΩ : |k| * ‖z‖ ≤ Ω) :
    ‖rsmulF F.toFloatOps k z - (C : ℂ) * z‖ ≤ gam u 5 * (|C| * ‖z‖) + 2 * η := by
  have hu0 := hF.u_nonneg
  have hu1 := hF.u_lt_one
  have hη := hF.η_nonneg
  have g0 := gam_nonneg hu0 hu1 5
  have comp : ∀ x, |x| ≤ ‖z‖ → ∃ y, |y - C * x| ≤ gam u 5 * |C * x| ∧ |F.mul k x - y| ≤ η := by
    intro x hx
    have hkx := hk.mul hu0 hu1 (Near.refl hu0 hu1 x)
    rcases hF.mul k x (by rw [abs_mul]; exact (mul_le_mul_of_nonneg_left hx (abs_nonneg _)).trans hΩ) with h | ⟨-, h⟩
    · exact ⟨F.mul k x, Near.err hu0 hu1 ((h.fac hu0 hu1).trans hu0 hu1 hkx), by simpa using hη⟩
    · refine ⟨k * x, (Near.err hu0 hu1 hkx).trans ?_, h⟩
      exact mul_le_mul_of_nonneg_right (gam_mono hu0 hu1 (by omega)) (abs_nonneg _)
  obtain ⟨y1, a1, a2⟩ := comp z.re (Complex.abs_re_le_norm z)
  obtain ⟨y2, b1, b2⟩ := comp z.im (Complex.abs_im_le_norm z)
  have c := norm_comp g0 (y := ⟨y1, y2⟩) (z := z) (C := C) a1 b1
  have d : ‖rsmulF F.toFloatOps k z - ⟨y1, y2⟩‖ ≤ 2 * η := by
    refine (Complex.norm_le_abs_re_add_abs_im _).trans ?_
    simp only [rsmulF, Complex.sub_re, Complex.sub_im]
    linarith
  have e : rsmulF F.toFloatOps k z - (C : ℂ) * z = (rsmulF F.toFloatOps k z - ⟨y1, y2⟩) + (⟨y1, y2⟩ - (C : ℂ) * z) := by ring
  rw [e]
  exact (norm_add_le _ _).trans (by linarith)

theorem combineYI {k C σ e : ℝ} (hR2 : Range u η ν Ω eps (n + 2)) (hk : Near u 4 k C) (hCn : |C| ≤ n + 1) {z E D : ℂ} (hσ : |σ| = 1)
    (hz : z = σ * E) (h2 : ‖E - D‖ ≤ e) (he : e ≤ 7) (h3 : ‖D‖ ≤ 1) :
    ‖rsmulF F.toFloatOps k z - (C : ℂ) * (σ * D)‖ ≤ |C| * poleErrY u e + 2 * η := by
  have hu0 := hF.u_nonneg
  have hu1 := hF.u_lt_one
  have g0 := gam_nonneg hu0 hu1 5
  have hE : ‖E‖ ≤ 1 + e := by
    calc ‖E‖ = ‖D + (E - D)‖ := by rw [add_sub_cancel]
      _ ≤ _ := (norm_add_le _ _).trans (add_le_add h3 h2)
  have hzn : ‖z‖ = ‖E‖ := by rw [hz, norm_mul, Complex.norm_real, Real.norm_eq_abs, hσ, one_mul]
  have n0 : (0 : ℝ) ≤ n := Nat.cast_nonneg n
  have hk2 := Near.abs_le_two hF.toIEEE (show 4 ≤ 7 * (n + 2) + 30 by omega) hR2.half hk
  have a := rsmulI_err hF hk (z := z) (by
    apply Range.Ω_n hF.toIEEE hR2
    calc |k| * ‖z‖ ≤ (2 * (n + 1)) * 8 := mul_le_mul (by linarith) (by linarith) (norm_nonneg _) (by positivity)
      _ ≤ _ := by push_cast; linarith)
  have hs : rsmulF F.toFloatOps k z - (C : ℂ) * (σ * D) = (rsmulF F.toFloatOps k z - (C : ℂ) * z) + (C : ℂ) * (σ * (E - D)) := by
    rw [hz]; ring
  rw [hs]
  refine (norm_add_le _ _).trans ?_
  have b : ‖(C : ℂ) * (σ * (E - D))‖ ≤ |C| * e := by
    rw [norm_mul, norm_mul, Complex.norm_real, Complex.norm_real, Real.norm_eq_abs, Real.norm_eq_abs, hσ, one_mul]
    gcongr
  have c : gam u 5 * (|C| * ‖z‖) ≤ gam u 5 * (|C| * (1 + e)) := by rw [hzn]; gcongr
  unfold poleErrY
  linarith

omit hF in
theorem ieeePole_le {x : ℝ} (hτ0 : 0 ≤ τ) (hτ : τ < 1) (hτn : 1 / 2 ≤ (1 - τ) ^ n) (hw0 : 0 ≤ w) (hw : w ≤ 1) (hp0 : 0 ≤ poleErr x n)
    (hp : poleErr x n ≤ 1) : 0 ≤ ieeePole w τ x n ∧ ieeePole w τ x n ≤ 7 := by
  have g0 := gam_nonneg hτ0 hτ n
  have g1 : gam τ n ≤ 1 := by
    unfold gam
    have : ((1 - τ) ^ n)⁻¹ ≤ 2 := by
      rw [inv_le_comm₀ (by linarith) (by norm_num)]; linarith
    linarith
  unfold ieeePole
  constructor
  · positivity
  · have a : w * (1 + gam τ n) ≤ 1 * 2 := mul_le_mul hw (by linarith) (by linarith) (by norm_num)
    have : (w * (1 + gam τ n) + gam τ n) * (1 + poleErr x n) ≤ 3 * 2 := mul_le_mul (by linarith) (by linarith) (by linarith) (by norm_num)
    linarith

theorem swshI_ra_small_err (hR2 : Range u η ν Ω eps (n + 2)) (hw : w ≤ 1) {x N : ℝ} (hτ0 : 0 ≤ τ) (hτ : τ < 1) (hN : Fac τ 1 N)
    (hτn : 1 / 2 ≤ (1 - τ) ^ n) (hx1 : x < 1) (hp : poleErr x n ≤ 1) {za zb : ℂ} (hu : Spec.IsUnit' za zb) (hx : ‖za‖ ≤ x) {s ell m : ℤ}
    (hn : 2 * ell = n) (h1 : |m| ≤ ell) (h2 : |s| ≤ ell) :
    ‖swshF_ra_small F (N * zb) s ell m - Spec.sYlm za zb s ell m‖ ≤ swshConst ell * poleErrY u (ieeePole w τ x n) + 2 * η := by
  have hu0 := hF.u_nonneg
  have hu1 := hF.u_lt_one
  have hη := hF.η_nonneg
  have h0 : 0 ≤ ell := by have := abs_nonneg m; omega
  have hR : Range u η ν Ω eps n := hR2.mono hu0 hu1 hF.ν_pos (by omega)
  obtain ⟨p', q', p, q, hsum, g1, g2, g3, g4⟩ := int_pq h1 (show |-s| ≤ ell by rwa [abs_neg])
  have h1' := abs_le.mp h1
  have h2' := abs_le.mp h2
  have hv : Spec.ValidD (n : ℤ) (2 * m) (-2 * s) := by
    refine ⟨?_, ?_, by omega, by omega⟩ <;> rw [abs_le] <;> omega
  have hnear := small_elemI_ra hF.toIEEE hR hτ0 hτ hN hτn hx1 hp hu hx hv
  have hC := swshConst_pos h0
  have hCn := swshConst_le hn
  rw [sYlm_pq za zb h1 h2 hsum g1 g2 g3 g4]
  rw [wignerD_pq za zb hsum (by omega) (by omega) (by omega)] at hnear
  have hD := Dpq_norm_le hu hsum
  have pe0 := poleErr_nonneg ((norm_nonneg za).trans hx) hx1 n
  obtain ⟨e0, e7⟩ := ieeePole_le hτ0 hτ hτn hF.w_nonneg hw pe0 hp
  set e := ieeePole w τ x n with he
  unfold swshF_ra_small
  by_cases hms : m = s
  · rw [if_neg (by rintro (h | h | h) <;> omega)]
    have hE : elemF_ra_small F.toFloatOps (N * zb) (n : ℤ) (2 * m) (-2 * s)
        = if (ell + s) % 2 = 0 then F.cpow (N * zb) (-2 * s) else -F.cpow (N * zb) (-2 * s) := by
      unfold elemF_ra_small
      have hv1 := hv.1
      have hv2 := hv.2.1
      rw [if_neg (by rintro (h | h | h) <;> omega)]
      by_cases h4 : (ell + s) % 2 = 0
      · rw [if_pos h4, if_pos (by omega)]
      · rw [if_neg h4, if_neg (by omega)]
    rw [hE] at hnear
    have cn := const_nearI hF hR2 hn (by omega)
    by_cases he2 : ell % 2 = 0
    · rw [if_pos he2]
      have := combineYI hF hR2 (z := F.cpow (N * zb) (-2 * s)) (σ := if s % 2 = 0 then 1 else -1) cn (by rw [abs_of_pos hC]; exact hCn)
        (by split_ifs <;> simp)
        (E := if (ell + s) % 2 = 0 then F.cpow (N * zb) (-2 * s) else -F.cpow (N * zb) (-2 * s)) (by
          by_cases hs : s % 2 = 0
          · rw [if_pos hs, if_pos (by omega)]; simp
          · rw [if_neg hs, if_neg (by omega)]; simp) hnear e7 hD
      rw [abs_of_pos hC] at this
      rw [neg_one_zpow_iff]
      refine le_trans (le_of_eq ?_) this
      congr 2
      split_ifs <;> simp
    · rw [if_neg he2]
      have := combineYI hF hR2 (z := F.cpow (N * zb) (-2 * s)) (σ := if s % 2 = 0 then -1 else 1) (cn.neg hu0 hu1)
        (by rw [abs_neg, abs_of_pos hC]; exact hCn) (by split_ifs <;> simp)
        (E := if (ell + s) % 2 = 0 then F.cpow (N * zb) (-2 * s) else -F.cpow (N * zb) (-2 * s)) (by
          by_cases hs : s % 2 = 0
          · rw [if_pos hs, if_neg (by omega)]; simp
          · rw [if_neg hs, if_pos (by omega)]; simp) hnear e7 hD
      rw [abs_neg, abs_of_pos hC] at this
      rw [neg_one_zpow_iff]
      refine le_trans (le_of_eq ?_) this
      congr 2
      split_ifs <;> simp
  · rw [if_pos (Or.inl hms)]
    have hE : elemF_ra_small F.toFloatOps (N * zb) (n : ℤ) (2 * m) (-2 * s) = 0 := by
      unfold elemF_ra_small
      rw [if_pos (Or.inl (by omega))]
    rw [hE] at hnear
    have hσ : ‖((-1 : ℂ) ^ s)‖ = 1 := by rw [norm_zpow, norm_neg, norm_one, one_zpow]
    have := zero_err (C := swshConst ell) hσ hnear
    rw [abs_of_pos hC] at this
    have k := mul_le_mul_of_nonneg_left (le_poleErrY hu0 hu1 e0) hC.le
    linarith

theorem swshI_rb_small_err (hR2 : Range u η ν Ω eps (n + 2)) (hw : w ≤ 1) {x N : ℝ} (hτ0 : 0 ≤ τ) (hτ : τ < 1) (hN : Fac τ 1 N)
    (hτn : 1 / 2 ≤ (1 - τ) ^ n) (hx1 : x < 1) (hp : poleErr x n ≤ 1) {za zb : ℂ} (hu : Spec.IsUnit' za zb) (hx : ‖zb‖ ≤ x) {s ell m : ℤ}
    (hn : 2 * ell = n) (h1 : |m| ≤ ell) (h2 : |s| ≤ ell) :
    ‖swshF_rb_small F (N * za) s ell m - Spec.sYlm za zb s ell m‖ ≤ swshConst ell * poleErrY u (ieeePole w τ x n) + 2 * η := by
  have hu0 := hF.u_nonneg
  have hu1 := hF.u_lt_one
  have hη := hF.η_nonneg
  have h0 : 0 ≤ ell := by have := abs_nonneg m; omega
  have hR : Range u η ν Ω eps n := hR2.mono hu0 hu1 hF.ν_pos (by omega)
  obtain ⟨p', q', p, q, hsum, g1, g2, g3, g4⟩ := int_pq h1 (show |-s| ≤ ell by rwa [abs_neg])
  have h1' := abs_le.mp h1
  have h2' := abs_le.mp h2
  have hv : Spec.ValidD (n : ℤ) (2 * m) (-2 * s) := by
    refine ⟨?_, ?_, by omega, by omega⟩ <;> rw [abs_le] <;> omega
  have hnear := small_elemI_rb hF.toIEEE hR hτ0 hτ hN hτn hx1 hp hu hx hv
  have hC := swshConst_pos h0
  have hCn := swshConst_le hn
  rw [sYlm_pq za zb h1 h2 hsum g1 g2 g3 g4]
  rw [wignerD_pq za zb hsum (by omega) (by omega) (by omega)] at hnear
  have hD := Dpq_norm_le hu hsum
  have pe0 := poleErr_nonneg ((norm_nonneg zb).trans hx) hx1 n
  obtain ⟨e0, e7⟩ := ieeePole_le hτ0 hτ hτn hF.w_nonneg hw pe0 hp
  set e := ieeePole w τ x n with he
  unfold swshF_rb_small
  by_cases hms : m = -s
  · rw [if_neg (by rintro (h | h | h) <;> omega)]
    have hE : elemF_rb_small F.toFloatOps (N * za) (n : ℤ) (2 * m) (-2 * s) = F.cpow (N * za) (-2 * s) := by
      unfold elemF_rb_small
      have hv1 := hv.1
      have hv2 := hv.2.1
      rw [if_neg (by rintro (h | h | h) <;> omega)]
    rw [hE] at hnear
    have cn := const_nearI hF hR2 hn (by omega)
    rw [neg_one_zpow_iff]
    by_cases he2 : s % 2 = 0
    · rw [if_pos he2, if_pos he2]
      have := combineYI hF hR2 (z := F.cpow (N * za) (-2 * s)) (σ := 1) cn (by rw [abs_of_pos hC]; exact hCn) (by simp)
        (E := F.cpow (N * za) (-2 * s)) (by simp) hnear e7 hD
      rw [abs_of_pos hC] at this
      simpa using this
    · rw [if_neg he2, if_neg he2]
      have := combineYI hF hR2 (z := F.cpow (N * za) (-2 * s)) (σ := 1) (cn.neg hu0 hu1) (by rw [abs_neg, abs_of_pos hC]; exact hCn) (by simp)
        (E := F.cpow (N * za) (-2 * s)) (by simp) hnear e7 hD
      rw [abs_neg, abs_of_pos hC] at this
      refine le_trans (le_of_eq ?_) this
      congr 2
      push_cast; ring
  · rw [if_pos (Or.inl hms)]
    have hE : elemF_rb_small F.toFloatOps (N * za) (n : ℤ) (2 * m) (-2 * s) = 0 := by
      unfold elemF_rb_small
      rw [if_pos (Or.inl (by omega))]
    rw [hE] at hnear
    have hσ : ‖((-1 : ℂ) ^ s)‖ = 1 := by rw [norm_zpow, norm_neg, norm_one, one_zpow]
    have := zero_err (C := swshConst ell) hσ hnear
    rw [abs_of_pos hC] at this
    have k := mul_le_mul_of_nonneg_left (le_poleErrY hu0 hu1 e0) hC.le
    linarith

end

end SF
