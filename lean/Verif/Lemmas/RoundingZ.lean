import Verif.Lemmas.RoundingY
import Verif.Props.FloatError
import Verif.Props.SWSH
import Verif.Lemmas.ModesEval

/-! # Rounding errors of the spin-weighted harmonics: the values stored by the kernels -/

set_option autoImplicit false

namespace SF

open Finset ComplexConjugate

theorem RoundedTable.coeff_int {u : ℝ} {L : ℤ} {table' : List ℝ} (ht : RoundedTable u L table') {p' q' p q : ℕ}
    {ell mp m : ℤ} (h1 : ell + mp = p') (h2 : ell - mp = q') (h3 : ell + m = p) (h4 : ell - m = q) (hle : ell ≤ L) :
    ∃ w, Wigner_coefficient table' ell mp m = .ok w ∧ RelErr u w (Wcoef p' q' p q) := by
  unfold Wigner_coefficient
  have e : ∀ n : ℤ, pyRound (2 * (n : ℚ)) = 2 * n := by
    intro n
    have := pyRound_intCast (2 * n)
    push_cast at this
    exact this
  rw [e, e, e]
  exact ht.coeff (by omega) (by omega) (by omega) (by omega) (by omega)

/-- The harmonic in terms of the closed form. -/
theorem sYlm_pq (Ra Rb : ℂ) {s ell m : ℤ} (h1 : |m| ≤ ell) (h2 : |s| ≤ ell) {p' q' p q : ℕ} (hsum : p' + q' = p + q)
    (g1 : ell + m = p') (g2 : ell - m = q') (g3 : ell + -s = p) (g4 : ell - -s = q) :
    Spec.sYlm Ra Rb s ell m = (swshConst ell : ℂ) * ((-1 : ℂ) ^ s * Spec.Dpq Ra Rb p' q' p q) := by
  unfold Spec.sYlm
  rw [if_pos ⟨h1, h2⟩, wignerD_pq Ra Rb hsum (by omega) (by omega) (by omega), swshConst_eq]
  ring

theorem norm_sYlm {Ra Rb : ℂ} {s ell m : ℤ} (h1 : |m| ≤ ell) (h2 : |s| ≤ ell) {p' q' p q : ℕ} (hsum : p' + q' = p + q)
    (g1 : ell + m = p') (g2 : ell - m = q') (g3 : ell + -s = p) (g4 : ell - -s = q) :
    ‖Spec.sYlm Ra Rb s ell m‖ = swshConst ell * ‖Spec.Dpq Ra Rb p' q' p q‖ := by
  have := abs_nonneg m
  rw [sYlm_pq Ra Rb h1 h2 hsum g1 g2 g3 g4, norm_mul, norm_mul, norm_zpow, norm_neg, norm_one, one_zpow, one_mul,
    Complex.norm_real, Real.norm_eq_abs, abs_of_nonneg (swshConst_pos (by omega)).le]

/-- `(-1)^a` as a sign. -/
theorem sgn_eq {neg : Bool} {τ : ℝ} {a : ℕ} {s : ℤ} (h : (if neg then (-1 : ℂ) else 1) * (τ : ℂ) = (-1) ^ (s + a)) :
    (if neg then (-1 : ℂ) else 1) * (τ : ℂ) * (-1) ^ a = (-1) ^ s := by
  rw [h, zpow_add₀ (by norm_num), mul_assoc, zpow_natCast, ← mul_pow]
  norm_num

section
variable {u w : ℝ} {δ : ℕ → ℝ} {F : FloatOpsY} (hF : F.Std u w δ)
include hF

/-- What is proved of the value `v` computed for the harmonic `(s, ell, m)`. -/
def GenericY (u : ℝ) (Ra Rb : ℂ) (s ell m : ℤ) (v : ℂ) : Prop :=
  ‖v - Spec.sYlm Ra Rb s ell m‖ ≤ floatErrY u (2 * ell).toNat * (swshConst ell * (‖Ra‖ + ‖Rb‖) ^ (2 * ell).toNat) ∧
  (|m| = ell ∨ |s| = ell → ‖v - Spec.sYlm Ra Rb s ell m‖ ≤ floatErrY u (2 * ell).toNat * ‖Spec.sYlm Ra Rb s ell m‖)

omit hF in
theorem neg_iteC (b : Prop) [Decidable b] : (if decide b = true then (-1 : ℂ) else 1) * ((1 : ℝ) : ℂ) = if b then -1 else 1 := by
  by_cases h : b <;> simp [h]

/-- Regime `ra >= rb` for `_SWSH` (`neg`, `τ = 1`) and for `_SWSHs` (sign in the coefficient). -/
theorem valA {Ra Rb : ℂ} (ha : Ra ≠ 0) (hb : Rb ≠ 0) {s ell m : ℤ} (h1 : |m| ≤ ell) (h2 : |s| ≤ ell) {p' q' p q : ℕ}
    (hsum : p' + q' = p + q) (g1 : ell + m = p') (g2 : ell - m = q') (g3 : ell + -s = p) (g4 : ell - -s = q)
    {c' τ : ℝ} (hτ : |τ| = 1) (hc : RelErr u c' (τ * Wcoef p' q' p q)) :
    ∃ S, hornerLoopF F.toFloatOps (F.div (F.mul (-F.abs Rb) (F.abs Rb)) (F.mul (F.abs Ra) (F.abs Ra))) (ell + m + 1) (ell + s + 1)
        (-s - m) (min (ell + m) (ell + s)) (max 0 (m + s)) = .ok S ∧
      ∀ neg : Bool, (if neg then (-1 : ℂ) else 1) * (τ : ℂ) = (-1) ^ (s + max 0 (m + s)) →
        GenericY u Ra Rb s ell m (smulF F.toFloatOps (rsmulF F.toFloatOps (swshConstF F ell)
          (if neg then -rectF F.toFloatOps
            (F.mul (F.mul c' (F.ipow (F.abs Ra) (2 * ell + s + m - 2 * max 0 (m + s)))) (F.ipow (F.abs Rb) (-s - m + 2 * max 0 (m + s))))
            (F.add (F.mul (F.arg Ra) ((-s + m : ℤ) : ℝ)) (F.mul (F.arg Rb) ((-s - m : ℤ) : ℝ)))
          else rectF F.toFloatOps
            (F.mul (F.mul c' (F.ipow (F.abs Ra) (2 * ell + s + m - 2 * max 0 (m + s)))) (F.ipow (F.abs Rb) (-s - m + 2 * max 0 (m + s))))
            (F.add (F.mul (F.arg Ra) ((-s + m : ℤ) : ℝ)) (F.mul (F.arg Rb) ((-s - m : ℤ) : ℝ))))) S) := by
  have h0 : 0 ≤ ell := by have := abs_nonneg m; omega
  have hone : |m| = ell ∨ |s| = ell → min p' q = p' - p := by
    intro h
    rcases h with h | h <;> rcases (abs_eq h0).mp h with h | h <;> omega
  obtain ⟨S, e1, e2⟩ := regAF hF ha hb hsum hτ hc (const_near hF h0) (swshConst_pos h0).le
  have a1 : ell + m + 1 = (p' : ℤ) + 1 := by omega
  have a2 : ell + s + 1 = (q : ℤ) + 1 := by omega
  have a3 : -s - m = (q' : ℤ) - q := by omega
  have a4 : min (ell + m) (ell + s) = ((min p' q : ℕ) : ℤ) := by omega
  have a5 : max 0 (m + s) = ((p' - p : ℕ) : ℤ) := by omega
  have a6 : 2 * ell + s + m - 2 * ((p' - p : ℕ) : ℤ) = ((p' + q - 2 * (p' - p) : ℕ) : ℤ) := by omega
  have a7 : (q' : ℤ) - q + 2 * ((p' - p : ℕ) : ℤ) = ((q' - q + 2 * (p' - p) - (q - q') : ℕ) : ℤ) := by omega
  have a8 : -s + m = (p' : ℤ) - q := by omega
  rw [a1, a2, a3, a4, a5, a6, a7, a8]
  refine ⟨S, e1, fun neg hn => ?_⟩
  obtain ⟨f1, f2⟩ := e2 neg _ rfl
  rw [sgn_eq hn] at f1 f2
  have hn2 : (2 * ell).toNat = p' + q' := by omega
  unfold GenericY
  rw [norm_sYlm h1 h2 hsum g1 g2 g3 g4, sYlm_pq Ra Rb h1 h2 hsum g1 g2 g3 g4, hn2]
  exact ⟨f1, fun h => f2 (hone h)⟩

/-- Regime `ra < rb`. -/
theorem valB {Ra Rb : ℂ} (ha : Ra ≠ 0) (hb : Rb ≠ 0) {s ell m : ℤ} (h1 : |m| ≤ ell) (h2 : |s| ≤ ell) {p' q' p q : ℕ}
    (hsum : p' + q' = p + q) (g1 : ell + m = p') (g2 : ell - m = q') (g3 : ell + -s = p) (g4 : ell - -s = q)
    {c' τ : ℝ} (hτ : |τ| = 1) (hc : RelErr u c' (τ * Wcoef q' p' p q)) :
    ∃ S, hornerLoopF F.toFloatOps (F.div (F.mul (-F.abs Ra) (F.abs Ra)) (F.mul (F.abs Rb) (F.abs Rb))) (ell - m + 1) (ell + s + 1)
        (-s + m) (min (ell - m) (ell + s)) (max 0 (-m + s)) = .ok S ∧
      ∀ neg : Bool, (if neg then (-1 : ℂ) else 1) * (τ : ℂ) = (-1) ^ (ell + max 0 (-m + s)) →
        GenericY u Ra Rb s ell m (smulF F.toFloatOps (rsmulF F.toFloatOps (swshConstF F ell)
          (if neg then -rectF F.toFloatOps
            (F.mul (F.mul c' (F.ipow (F.abs Rb) (2 * ell + s - m - 2 * max 0 (-m + s)))) (F.ipow (F.abs Ra) (-s + m + 2 * max 0 (-m + s))))
            (F.add (F.mul (F.arg Rb) ((-s - m : ℤ) : ℝ)) (F.mul (F.arg Ra) ((-s + m : ℤ) : ℝ)))
          else rectF F.toFloatOps
            (F.mul (F.mul c' (F.ipow (F.abs Rb) (2 * ell + s - m - 2 * max 0 (-m + s)))) (F.ipow (F.abs Ra) (-s + m + 2 * max 0 (-m + s))))
            (F.add (F.mul (F.arg Rb) ((-s - m : ℤ) : ℝ)) (F.mul (F.arg Ra) ((-s + m : ℤ) : ℝ))))) S) := by
  have h0 : 0 ≤ ell := by have := abs_nonneg m; omega
  have hone : |m| = ell ∨ |s| = ell → min q' q = q' - p := by
    intro h
    rcases h with h | h <;> rcases (abs_eq h0).mp h with h | h <;> omega
  obtain ⟨S, e1, e2⟩ := regBF hF ha hb hsum hτ hc (const_near hF h0) (swshConst_pos h0).le
  have a1 : ell - m + 1 = (q' : ℤ) + 1 := by omega
  have a2 : ell + s + 1 = (q : ℤ) + 1 := by omega
  have a3 : -s + m = (p' : ℤ) - q := by omega
  have a4 : min (ell - m) (ell + s) = ((min q' q : ℕ) : ℤ) := by omega
  have a5 : max 0 (-m + s) = ((q' - p : ℕ) : ℤ) := by omega
  have a6 : 2 * ell + s - m - 2 * ((q' - p : ℕ) : ℤ) = ((q' + q - 2 * (q' - p) : ℕ) : ℤ) := by omega
  have a7 : (p' : ℤ) - q + 2 * ((q' - p : ℕ) : ℤ) = ((p' - q + 2 * (q' - p) - (q - p') : ℕ) : ℤ) := by omega
  have a8 : -s - m = (q' : ℤ) - q := by omega
  rw [a1, a2, a3, a4, a5, a6, a7, a8]
  refine ⟨S, e1, fun neg hn => ?_⟩
  obtain ⟨f1, f2⟩ := e2 neg _ rfl
  have hn' : (if neg then (-1 : ℂ) else 1) * (τ : ℂ) = (-1) ^ (s + ((q + (q' - p) : ℕ) : ℤ)) := by
    rw [hn, neg_one_zpow_iff, neg_one_zpow_iff]
    push_cast
    have : (ell + ((q' - p : ℕ) : ℤ)) % 2 = (s + ((q : ℤ) + ((q' - p : ℕ) : ℤ))) % 2 := by omega
    rw [this]
  rw [sgn_eq hn'] at f1 f2
  have hn2 : (2 * ell).toNat = p' + q' := by omega
  unfold GenericY
  rw [norm_sYlm h1 h2 hsum g1 g2 g3 g4, sYlm_pq Ra Rb h1 h2 hsum g1 g2 g3 g4, hn2]
  exact ⟨f1, fun h => f2 (hone h)⟩

theorem rsmulF_zero (x : ℝ) : rsmulF F.toFloatOps x 0 = 0 := by
  have : ∀ x, F.mul x 0 = 0 := by
    intro x
    have := hF.mul x 0
    unfold RelErr at this
    simpa using this
  unfold rsmulF
  apply Complex.ext <;> simp [this]

theorem swshF_ge_err {L : ℤ} {table : List ℝ} (ht : RoundedTable u L table) {Ra Rb : ℂ} (ha : Ra ≠ 0) (hb : Rb ≠ 0) {s ell m : ℤ}
    (h1 : |m| ≤ ell) (h2 : |s| ≤ ell) (hle : ell ≤ L) :
    ∃ v, swshF_ra_ge_rb F table (F.abs Ra) (F.arg Ra) (F.abs Rb) (F.arg Rb) s ell m = .ok v ∧ GenericY u Ra Rb s ell m v := by
  obtain ⟨p', q', p, q, hsum, g1, g2, g3, g4⟩ := int_pq h1 (show |-s| ≤ ell by rwa [abs_neg])
  obtain ⟨c, c1, c2⟩ := ht.coeff_int g1 g2 g3 g4 hle
  obtain ⟨S, e1, e2⟩ := valA hF ha hb h1 h2 hsum g1 g2 g3 g4 (c' := c) (τ := 1) (by simp) (by simpa using c2)
  have e3 := e2 (decide ((max 0 (m + s) + s) % 2 ≠ 0)) (by
    rw [neg_iteC, neg_one_zpow_iff, add_comm s, ite_not])
  refine ⟨_, ?_, e3⟩
  unfold swshF_ra_ge_rb
  simp only
  rw [if_neg (by rintro (h | h) <;> omega)]
  push_cast at c1
  rw [c1, bind_ok]
  set pre := rectF F.toFloatOps
      (F.mul (F.mul c (F.ipow (F.abs Ra) (2 * ell + s + m - 2 * max 0 (m + s)))) (F.ipow (F.abs Rb) (-s - m + 2 * max 0 (m + s))))
      (F.add (F.mul (F.arg Ra) ((-s + m : ℤ) : ℝ)) (F.mul (F.arg Rb) ((-s - m : ℤ) : ℝ))) with hpre
  by_cases h0 : pre = 0
  · rw [if_pos h0, h0]
    have z : (if decide ((max 0 (m + s) + s) % 2 ≠ 0) = true then -(0 : ℂ) else 0) = 0 := by split_ifs <;> simp
    rw [z, rsmulF_zero hF, smulF_zero hF.toStd]
  · rw [if_neg h0, e1, bind_ok]
    simp only [decide_eq_true_eq]
    rfl

theorem swshF_lt_err {L : ℤ} {table : List ℝ} (ht : RoundedTable u L table) {Ra Rb : ℂ} (ha : Ra ≠ 0) (hb : Rb ≠ 0) {s ell m : ℤ}
    (h1 : |m| ≤ ell) (h2 : |s| ≤ ell) (hle : ell ≤ L) :
    ∃ v, swshF_ra_lt_rb F table (F.abs Ra) (F.arg Ra) (F.abs Rb) (F.arg Rb) s ell m = .ok v ∧ GenericY u Ra Rb s ell m v := by
  obtain ⟨p', q', p, q, hsum, g1, g2, g3, g4⟩ := int_pq h1 (show |-s| ≤ ell by rwa [abs_neg])
  obtain ⟨c, c1, c2⟩ := ht.coeff_int (p' := q') (q' := p') (ell := ell) (mp := -m) (m := -s) (by omega) (by omega) g3 g4 hle
  obtain ⟨S, e1, e2⟩ := valB hF ha hb h1 h2 hsum g1 g2 g3 g4 (c' := c) (τ := 1) (by simp) (by simpa using c2)
  have e3 := e2 (decide ((ell + max 0 (-m + s)) % 2 ≠ 0)) (by
    rw [neg_iteC, neg_one_zpow_iff, ite_not])
  refine ⟨_, ?_, e3⟩
  unfold swshF_ra_lt_rb
  simp only
  rw [if_neg (by rintro (h | h) <;> omega)]
  push_cast at c1
  rw [c1, bind_ok]
  set pre := rectF F.toFloatOps
      (F.mul (F.mul c (F.ipow (F.abs Rb) (2 * ell + s - m - 2 * max 0 (-m + s)))) (F.ipow (F.abs Ra) (-s + m + 2 * max 0 (-m + s))))
      (F.add (F.mul (F.arg Rb) ((-s - m : ℤ) : ℝ)) (F.mul (F.arg Ra) ((-s + m : ℤ) : ℝ))) with hpre
  by_cases h0 : pre = 0
  · rw [if_pos h0, h0]
    have z : (if decide ((ell + max 0 (-m + s)) % 2 ≠ 0) = true then -(0 : ℂ) else 0) = 0 := by split_ifs <;> simp
    rw [z, rsmulF_zero hF, smulF_zero hF.toStd]
  · rw [if_neg h0, e1, bind_ok]
    simp only [decide_eq_true_eq]
    rfl

/-- Product with a constant. -/
theorem rsmulF_err {k C : ℝ} (hk : Near u 4 k C) (z : ℂ) : ‖rsmulF F.toFloatOps k z - (C : ℂ) * z‖ ≤ gam u 5 * (|C| * ‖z‖) := by
  have hu0 := hF.u_nonneg
  have hu1 := hF.u_lt_one
  have g0 := gam_nonneg hu0 hu1 5
  have comp : ∀ x, |F.mul k x - C * x| ≤ gam u 5 * |C * x| := fun x =>
    Near.err hu0 hu1 (((hF.mul k x).fac hu0 hu1).trans hu0 hu1 (hk.mul hu0 hu1 (Near.refl hu0 hu1 x)))
  have e : gam u 5 * (|C| * ‖z‖) = ‖((gam u 5 * C : ℝ) : ℂ) * z‖ := by
    rw [norm_mul, Complex.norm_real, Real.norm_eq_abs, abs_mul, abs_of_nonneg g0]; ring
  rw [e]
  apply abs_le_of_sq_le_sq' _ (norm_nonneg _) |>.2
  rw [← Complex.normSq_eq_norm_sq, ← Complex.normSq_eq_norm_sq, Complex.normSq_apply, Complex.normSq_apply]
  have a2 := mul_self_le_mul_self (abs_nonneg _) (comp z.re)
  have b2 := mul_self_le_mul_self (abs_nonneg _) (comp z.im)
  rw [abs_mul_abs_self] at a2 b2
  have e1 : ∀ x : ℝ, (gam u 5 * |C * x|) * (gam u 5 * |C * x|) = (gam u 5 * C * x) * (gam u 5 * C * x) := by
    intro x
    calc _ = gam u 5 ^ 2 * (|C * x| * |C * x|) := by ring
      _ = _ := by rw [abs_mul_abs_self]; ring
  rw [e1] at a2 b2
  simp only [rsmulF, Complex.sub_re, Complex.sub_im, Complex.mul_re, Complex.mul_im, Complex.ofReal_re, Complex.ofReal_im, zero_mul,
    sub_zero, add_zero]
  linarith

/-- Error of the shortcuts of the harmonics, relative to `sqrt((2ell+1)/(4π))`: `e` is the error of the D shortcut. -/
noncomputable def poleErrY (u e : ℝ) : ℝ := gam u 5 * (1 + e) + e

theorem combineY {k C σ e : ℝ} (hk : Near u 4 k C) {z E D : ℂ} (hσ : |σ| = 1) (hz : z = σ * E) (h2 : ‖E - D‖ ≤ e)
    (h3 : ‖D‖ ≤ 1) : ‖rsmulF F.toFloatOps k z - (C : ℂ) * (σ * D)‖ ≤ |C| * poleErrY u e := by
  have hu0 := hF.u_nonneg
  have hu1 := hF.u_lt_one
  have g0 := gam_nonneg hu0 hu1 5
  have a := rsmulF_err hF hk z
  have hE : ‖E‖ ≤ 1 + e := by
    calc ‖E‖ = ‖D + (E - D)‖ := by rw [add_sub_cancel]
      _ ≤ _ := (norm_add_le _ _).trans (add_le_add h3 h2)
  have hzn : ‖z‖ = ‖E‖ := by rw [hz, norm_mul, Complex.norm_real, Real.norm_eq_abs, hσ, one_mul]
  have hs : rsmulF F.toFloatOps k z - (C : ℂ) * (σ * D) = (rsmulF F.toFloatOps k z - (C : ℂ) * z) + (C : ℂ) * (σ * (E - D)) := by
    rw [hz]; ring
  rw [hs]
  refine (norm_add_le _ _).trans ?_
  have b : ‖(C : ℂ) * (σ * (E - D))‖ ≤ |C| * e := by
    rw [norm_mul, norm_mul, Complex.norm_real, Complex.norm_real, Real.norm_eq_abs, Real.norm_eq_abs, hσ, one_mul]
    gcongr
  have c : gam u 5 * (|C| * ‖z‖) ≤ gam u 5 * (|C| * (1 + e)) := by rw [hzn]; gcongr
  unfold poleErrY
  linarith

omit hF in
theorem zero_err {C e : ℝ} {σ D : ℂ} (hσ : ‖σ‖ = 1) (h : ‖0 - D‖ ≤ e) : ‖0 - (C : ℂ) * (σ * D)‖ ≤ |C| * e := by
  rw [zero_sub, norm_neg] at h ⊢
  rw [norm_mul, norm_mul, hσ, one_mul, Complex.norm_real, Real.norm_eq_abs]
  gcongr

omit hF in
theorem le_poleErrY (hu0 : 0 ≤ u) (hu1 : u < 1) {e : ℝ} (he : 0 ≤ e) : e ≤ poleErrY u e := by
  have g0 := gam_nonneg hu0 hu1 5
  unfold poleErrY
  nlinarith

theorem swshF_ra_small_err {Ra Rb : ℂ} (hu : Spec.IsUnit' Ra Rb) {x : ℝ} (hx : ‖Ra‖ ≤ x) (hx1 : x < 1) {s ell m : ℤ}
    (h1 : |m| ≤ ell) (h2 : |s| ≤ ell) :
    ‖swshF_ra_small F Rb s ell m - Spec.sYlm Ra Rb s ell m‖
      ≤ swshConst ell * poleErrY u ((1 + w) * poleErr x (2 * ell).toNat + w) := by
  have hu0 := hF.u_nonneg
  have hu1 := hF.u_lt_one
  have h0 : 0 ≤ ell := by have := abs_nonneg m; omega
  obtain ⟨p', q', p, q, hsum, g1, g2, g3, g4⟩ := int_pq h1 (show |-s| ≤ ell by rwa [abs_neg])
  have h1' := abs_le.mp h1
  have h2' := abs_le.mp h2
  have hv : Spec.ValidD (((2 * ell).toNat : ℕ) : ℤ) (2 * m) (-2 * s) := by
    refine ⟨?_, ?_, by omega, by omega⟩ <;> rw [abs_le] <;> omega
  have hnear := small_elem_ra hF.toStd hu hx hx1 hv
  have hC := swshConst_pos h0
  rw [sYlm_pq Ra Rb h1 h2 hsum g1 g2 g3 g4]
  rw [wignerD_pq Ra Rb hsum (by omega) (by omega) (by omega)] at hnear
  have hD := Dpq_norm_le hu hsum
  set e := (1 + w) * poleErr x (2 * ell).toNat + w with he
  have e0 : 0 ≤ e := (norm_nonneg _).trans hnear
  unfold swshF_ra_small
  by_cases hms : m = s
  · rw [if_neg (by rintro (h | h | h) <;> omega)]
    have hE : elemF_ra_small F.toFloatOps Rb (((2 * ell).toNat : ℕ) : ℤ) (2 * m) (-2 * s)
        = if (ell + s) % 2 = 0 then F.cpow Rb (-2 * s) else -F.cpow Rb (-2 * s) := by
      unfold elemF_ra_small
      have hv1 := hv.1
      have hv2 := hv.2.1
      rw [if_neg (by rintro (h | h | h) <;> omega)]
      by_cases h4 : (ell + s) % 2 = 0
      · rw [if_pos h4, if_pos (by omega)]
      · rw [if_neg h4, if_neg (by omega)]
    rw [hE] at hnear
    have cn := const_near hF h0
    by_cases he2 : ell % 2 = 0
    · rw [if_pos he2]
      have := combineY hF (z := F.cpow Rb (-2 * s)) (σ := if s % 2 = 0 then 1 else -1) cn (by split_ifs <;> simp)
        (E := if (ell + s) % 2 = 0 then F.cpow Rb (-2 * s) else -F.cpow Rb (-2 * s)) (by
          by_cases hs : s % 2 = 0
          · rw [if_pos hs, if_pos (by omega)]; simp
          · rw [if_neg hs, if_neg (by omega)]; simp) hnear hD
      rw [abs_of_pos hC] at this
      rw [neg_one_zpow_iff]
      refine le_trans (le_of_eq ?_) this
      congr 2
      split_ifs <;> simp
    · rw [if_neg he2]
      have := combineY hF (z := F.cpow Rb (-2 * s)) (σ := if s % 2 = 0 then -1 else 1) (cn.neg hu0 hu1) (by split_ifs <;> simp)
        (E := if (ell + s) % 2 = 0 then F.cpow Rb (-2 * s) else -F.cpow Rb (-2 * s)) (by
          by_cases hs : s % 2 = 0
          · rw [if_pos hs, if_neg (by omega)]; simp
          · rw [if_neg hs, if_pos (by omega)]; simp) hnear hD
      rw [abs_neg, abs_of_pos hC] at this
      rw [neg_one_zpow_iff]
      refine le_trans (le_of_eq ?_) this
      congr 2
      split_ifs <;> simp
  · rw [if_pos (Or.inl hms)]
    have hE : elemF_ra_small F.toFloatOps Rb (((2 * ell).toNat : ℕ) : ℤ) (2 * m) (-2 * s) = 0 := by
      unfold elemF_ra_small
      rw [if_pos (Or.inl (by omega))]
    rw [hE] at hnear
    have hσ : ‖((-1 : ℂ) ^ s)‖ = 1 := by rw [norm_zpow, norm_neg, norm_one, one_zpow]
    have := zero_err (C := swshConst ell) hσ hnear
    rw [abs_of_pos hC] at this
    exact this.trans (mul_le_mul_of_nonneg_left (le_poleErrY hu0 hu1 e0) hC.le)

theorem swshF_rb_small_err {Ra Rb : ℂ} (hu : Spec.IsUnit' Ra Rb) {x : ℝ} (hx : ‖Rb‖ ≤ x) (hx1 : x < 1) {s ell m : ℤ}
    (h1 : |m| ≤ ell) (h2 : |s| ≤ ell) :
    ‖swshF_rb_small F Ra s ell m - Spec.sYlm Ra Rb s ell m‖
      ≤ swshConst ell * poleErrY u ((1 + w) * poleErr x (2 * ell).toNat + w) := by
  have hu0 := hF.u_nonneg
  have hu1 := hF.u_lt_one
  have h0 : 0 ≤ ell := by have := abs_nonneg m; omega
  obtain ⟨p', q', p, q, hsum, g1, g2, g3, g4⟩ := int_pq h1 (show |-s| ≤ ell by rwa [abs_neg])
  have h1' := abs_le.mp h1
  have h2' := abs_le.mp h2
  have hv : Spec.ValidD (((2 * ell).toNat : ℕ) : ℤ) (2 * m) (-2 * s) := by
    refine ⟨?_, ?_, by omega, by omega⟩ <;> rw [abs_le] <;> omega
  have hnear := small_elem_rb hF.toStd hu hx hx1 hv
  have hC := swshConst_pos h0
  rw [sYlm_pq Ra Rb h1 h2 hsum g1 g2 g3 g4]
  rw [wignerD_pq Ra Rb hsum (by omega) (by omega) (by omega)] at hnear
  have hD := Dpq_norm_le hu hsum
  set e := (1 + w) * poleErr x (2 * ell).toNat + w with he
  have e0 : 0 ≤ e := (norm_nonneg _).trans hnear
  unfold swshF_rb_small
  by_cases hms : m = -s
  · rw [if_neg (by rintro (h | h | h) <;> omega)]
    have hE : elemF_rb_small F.toFloatOps Ra (((2 * ell).toNat : ℕ) : ℤ) (2 * m) (-2 * s) = F.cpow Ra (-2 * s) := by
      unfold elemF_rb_small
      have hv1 := hv.1
      have hv2 := hv.2.1
      rw [if_neg (by rintro (h | h | h) <;> omega)]
    rw [hE] at hnear
    have cn := const_near hF h0
    rw [neg_one_zpow_iff]
    by_cases he2 : s % 2 = 0
    · rw [if_pos he2, if_pos he2]
      have := combineY hF (z := F.cpow Ra (-2 * s)) (σ := 1) cn (by simp) (E := F.cpow Ra (-2 * s)) (by simp) hnear hD
      rw [abs_of_pos hC] at this
      simpa using this
    · rw [if_neg he2, if_neg he2]
      have := combineY hF (z := F.cpow Ra (-2 * s)) (σ := 1) (cn.neg hu0 hu1) (by simp) (E := F.cpow Ra (-2 * s)) (by simp) hnear hD
      rw [abs_neg, abs_of_pos hC] at this
      refine le_trans (le_of_eq ?_) this
      congr 2
      push_cast; ring
  · rw [if_pos (Or.inl hms)]
    have hE : elemF_rb_small F.toFloatOps Ra (((2 * ell).toNat : ℕ) : ℤ) (2 * m) (-2 * s) = 0 := by
      unfold elemF_rb_small
      rw [if_pos (Or.inl (by omega))]
    rw [hE] at hnear
    have hσ : ‖((-1 : ℂ) ^ s)‖ = 1 := by rw [norm_zpow, norm_neg, norm_one, one_zpow]
    have := zero_err (C := swshConst ell) hσ hnear
    rw [abs_of_pos hC] at this
    exact this.trans (mul_le_mul_of_nonneg_left (le_poleErrY hu0 hu1 e0) hC.le)

end

theorem SWSH_kernelF_map (F : FloatOpsY) (eps : ℝ) (table : List ℝ) (Ra Rb : ℂ) (s : ℤ) (indices : List (ℤ × ℤ)) (values : List ℂ)
    (hlen : values.length = indices.length) (f : ℤ × ℤ → ℂ)
    (h1 : F.abs Ra ≤ eps → ∀ t ∈ indices, swshF_ra_small F Rb s t.1 t.2 = f t)
    (h2 : ¬ F.abs Ra ≤ eps → F.abs Rb ≤ eps → ∀ t ∈ indices, swshF_rb_small F Ra s t.1 t.2 = f t)
    (h3 : ¬ F.abs Ra ≤ eps → ¬ F.abs Rb ≤ eps → F.abs Ra < F.abs Rb →
      ∀ t ∈ indices, swshF_ra_lt_rb F table (F.abs Ra) (F.arg Ra) (F.abs Rb) (F.arg Rb) s t.1 t.2 = .ok (f t))
    (h4 : ¬ F.abs Ra ≤ eps → ¬ F.abs Rb ≤ eps → ¬ F.abs Ra < F.abs Rb →
      ∀ t ∈ indices, swshF_ra_ge_rb F table (F.abs Ra) (F.arg Ra) (F.abs Rb) (F.arg Rb) s t.1 t.2 = .ok (f t)) :
    SWSH_kernelF F eps table Ra Rb s indices values = .ok (indices.map f) := by
  unfold SWSH_kernelF
  simp only
  split_ifs with k1 k2 k3
  · exact forL_map_wr indices values hlen (fun t => .ok (swshF_ra_small F Rb s t.1 t.2)) f (fun t ht => by rw [h1 k1 t ht])
  · exact forL_map_wr indices values hlen (fun t => .ok (swshF_rb_small F Ra s t.1 t.2)) f (fun t ht => by rw [h2 k1 k2 t ht])
  · exact forL_map_wr indices values hlen
      (fun t => swshF_ra_lt_rb F table (F.abs Ra) (F.arg Ra) (F.abs Rb) (F.arg Rb) s t.1 t.2) f (h3 k1 k2 k3)
  · exact forL_map_wr indices values hlen
      (fun t => swshF_ra_ge_rb F table (F.abs Ra) (F.arg Ra) (F.abs Rb) (F.arg Rb) s t.1 t.2) f (h4 k1 k2 k3)

end SF
