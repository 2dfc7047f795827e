import Verif.Lemmas.IEEER
import Verif.Props.FloatError
import Verif.Props.Unnormalised

/-!
# Property C78: Wigner D elements in floating-point arithmetic with underflow and overflow, for approximately normalised rotors

`FloatOps.IEEE F u w η ν Ω` (Model/FloatIEEE): every operation whose exact result is at most `Ω` has relative error at most `u`, or — if
the exact result is below `ν` — absolute error at most `η`.  Nothing is assumed about the other operations.  The rotor handed to the
kernel is `N (za, zb)` with `(za, zb)` a unit rotor and `|N - 1| ≤ τ`, because a rotor of floating-point numbers is normalised only up
to rounding.
-/

set_option autoImplicit false

namespace SF

open Finset ComplexConjugate

theorem Range.mono {u η ν Ω eps : ℝ} {n m : ℕ} (hu0 : 0 ≤ u) (hu1 : u < 1) (hν : 0 < ν) (h : n ≤ m) (hR : Range u η ν Ω eps m) : Range u η ν Ω eps n where
  half := hR.half.trans (pow_le_pow_of_le_one (by linarith) (by linarith) (by omega))
  η_le := hR.η_le
  η_eps := hR.η_eps
  eps_pos := hR.eps_pos
  eps_le := hR.eps_le
  small := by
    refine le_trans ?_ hR.small
    have : (n : ℝ) ≤ m := by exact_mod_cast h
    gcongr
  large := by
    refine le_trans ?_ hR.large
    have : (n : ℝ) ≤ m := by exact_mod_cast h
    have : (2 : ℝ) ^ n ≤ 2 ^ m := pow_le_pow_right₀ (by norm_num) h
    gcongr

/-- A norm close to one. -/
theorem fac_of_abs {τ N : ℝ} (h : |N - 1| ≤ τ) (hτ : τ < 1) : Fac τ 1 N := by
  obtain ⟨h1, h2⟩ := abs_le.mp h
  unfold Fac
  rw [pow_one]
  constructor <;> nlinarith

theorem fac_zpow {τ N : ℝ} (hτ0 : 0 ≤ τ) (hτ : τ < 1) (h : Fac τ 1 N) {m : ℤ} {n : ℕ} (hm : |m| ≤ n) : Fac τ n (N ^ m) := by
  obtain ⟨k, hk | hk⟩ := Int.eq_nat_or_neg m
  · rw [hk, zpow_natCast]
    refine Fac.mono hτ0 hτ ?_ (Fac.pow hτ0 hτ h k)
    rw [hk, Nat.abs_cast] at hm; omega
  · rw [hk, zpow_neg, zpow_natCast]
    refine Fac.inv hτ0 hτ (Fac.mono hτ0 hτ ?_ (Fac.pow hτ0 hτ h k))
    rw [hk, abs_neg, Nat.abs_cast] at hm; omega

/-- Error of the formula for a rotor of norm close to 1, `n = 2 ell`. -/
noncomputable def ieeeGeneric (u η τ : ℝ) (n : ℕ) : ℝ :=
  floatErr u n * Real.sqrt 2 ^ n * (1 + gam τ n) + underErr η n + gam τ n

/-- Error of the shortcuts near the poles for a rotor of norm close to 1, `n = 2 ell`. -/
noncomputable def ieeePole (w τ x : ℝ) (n : ℕ) : ℝ :=
  (w * (1 + gam τ n) + gam τ n) * (1 + poleErr x n) + poleErr x n

section
variable {u w η ν Ω eps τ : ℝ} {F : FloatOps} (hF : F.IEEE u w η ν Ω)

theorem wignerD_scale (N : ℝ) (za zb : ℂ) {n : ℕ} {b c : ℤ} (hv : Spec.ValidD n b c) :
    Spec.wignerD (N * za) (N * zb) n b c = ((N ^ n : ℝ) : ℂ) * Spec.wignerD za zb n b c := by
  obtain ⟨p', q', p, q, hsum, hap, hb, hc⟩ := valid_pq hv
  rw [wignerD_pq _ _ hsum hap hb hc, wignerD_pq _ _ hsum hap hb hc, Dpq_scale N za zb hsum, show p + q = n by omega]
  push_cast
  rfl

theorem wignerD_norm_le {za zb : ℂ} (hu : Spec.IsUnit' za zb) {n : ℕ} {b c : ℤ} (hv : Spec.ValidD n b c) :
    ‖Spec.wignerD za zb n b c‖ ≤ 1 := by
  obtain ⟨p', q', p, q, hsum, hap, hb, hc⟩ := valid_pq hv
  rw [wignerD_pq _ _ hsum hap hb hc]
  exact Dpq_norm_le hu hsum

include hF

/-- A computed modulus below the cut-off. -/
theorem absI_le {n : ℕ} (hR : Range u η ν Ω eps n) {z : ℂ} (hz : ‖z‖ ≤ 2) (h : F.abs z ≤ eps) : ‖z‖ ≤ eps / (1 - u) := by
  have hu0 := hF.u_nonneg
  have hu1 := hF.u_lt_one
  have he := hR.eps_pos
  rw [le_div_iff₀ (by linarith)]
  rcases hF.abs z (Range.Ω_ge hF hR (by linarith)) with e | ⟨e, -⟩
  · unfold RelErr at e
    rw [abs_of_nonneg (norm_nonneg z)] at e
    have := (abs_le.mp e).1
    linarith
  · rw [abs_of_nonneg (norm_nonneg z)] at e
    have := Range.ν_le_eps hF hR
    nlinarith [norm_nonneg z]

/-- Combination of the errors of the shortcuts. -/
theorem combineI {n : ℕ} {x N : ℝ} (hτ0 : 0 ≤ τ) (hτ : τ < 1) (hN : Fac τ 1 N) (hx : 0 ≤ poleErr x n) {v z D : ℂ} {m : ℤ} (hm : |m| ≤ n)
    {s : ℂ} (hs : ‖s‖ = 1) (h1 : ‖v - s * (N * z) ^ m‖ ≤ w * ‖((N : ℂ) * z) ^ m‖) (h2 : ‖s * z ^ m - D‖ ≤ poleErr x n) (h3 : ‖D‖ ≤ 1) :
    ‖v - D‖ ≤ ieeePole w τ x n := by
  have hw := hF.w_nonneg
  have hP : ‖z ^ m‖ ≤ 1 + poleErr x n := by
    calc ‖z ^ m‖ = ‖s * z ^ m‖ := by rw [norm_mul, hs, one_mul]
      _ = ‖D + (s * z ^ m - D)‖ := by rw [add_sub_cancel]
      _ ≤ _ := (norm_add_le _ _).trans (add_le_add h3 h2)
  have hf := fac_zpow hτ0 hτ hN hm
  have hf0 := Fac.pos hτ0 hτ hf
  have hfa := Fac.abs_sub hτ0 hτ hf
  have hNm : N ^ m ≤ 1 + gam τ n := by have := (abs_le.mp hfa).2; linarith
  have g0 := gam_nonneg hτ0 hτ n
  have hnorm : ‖((N : ℂ) * z) ^ m‖ ≤ (1 + gam τ n) * (1 + poleErr x n) := by
    rw [mul_zpow, norm_mul, ← Complex.ofReal_zpow, Complex.norm_real, Real.norm_eq_abs, abs_of_pos hf0]
    exact mul_le_mul hNm hP (norm_nonneg _) (by positivity)
  have hd : ‖s * ((N : ℂ) * z) ^ m - s * z ^ m‖ ≤ gam τ n * (1 + poleErr x n) := by
    rw [← mul_sub, norm_mul, hs, one_mul, mul_zpow, ← Complex.ofReal_zpow]
    have : ((N ^ m : ℝ) : ℂ) * z ^ m - z ^ m = ((N ^ m - 1 : ℝ) : ℂ) * z ^ m := by push_cast; ring
    rw [this, norm_mul, Complex.norm_real, Real.norm_eq_abs]
    exact mul_le_mul hfa hP (norm_nonneg _) g0
  have e : v - D = (v - s * ((N : ℂ) * z) ^ m) + (s * ((N : ℂ) * z) ^ m - s * z ^ m) + (s * z ^ m - D) := by ring
  rw [e]
  refine (norm_add₃_le ..).trans ?_
  have := mul_le_mul_of_nonneg_left hnorm hw
  unfold ieeePole
  nlinarith

/-- The power taken by the shortcuts is neither too small nor too large. -/
theorem pole_pow {n : ℕ} (hR : Range u η ν Ω eps n) {x N : ℝ} (hτ0 : 0 ≤ τ) (hτ : τ < 1) (hN : Fac τ 1 N) (hτn : 1 / 2 ≤ (1 - τ) ^ n) (hx1 : x < 1)
    (hp : poleErr x n ≤ 1) {za zb : ℂ} (hu : Spec.IsUnit' za zb) (hzx : ‖za‖ ≤ x) {m : ℤ} (hm : |m| ≤ n) :
    (N : ℂ) * zb ≠ 0 ∧ ν ≤ ‖((N : ℂ) * zb) ^ m‖ ∧ ‖((N : ℂ) * zb) ^ m‖ ≤ Ω := by
  obtain ⟨h1, h2, h3⟩ := unit_norm_le hu
  have x0 := (norm_nonneg za).trans hzx
  have N0 := Fac.pos hτ0 hτ hN
  have b0 : 0 < ‖zb‖ := by
    rcases (norm_nonneg zb).eq_or_lt with h | h
    · rw [← h] at h3; nlinarith [norm_nonneg za]
    · exact h
  have hx2 : 0 ≤ x ^ 2 := sq_nonneg x
  have hx21 : x ^ 2 < 1 := by nlinarith
  have fb : Fac (x ^ 2) 1 ‖zb‖ := by
    have h4 : 1 - x ^ 2 ≤ ‖zb‖ ^ 2 := by
      rw [h3]; have : ‖za‖ ^ 2 ≤ x ^ 2 := by gcongr
      linarith
    unfold Fac
    rw [pow_one]
    constructor <;> nlinarith
  have f1 := fac_zpow hτ0 hτ hN hm
  have f2 := fac_zpow hx2 hx21 fb hm
  have hpe : 1 / 2 ≤ (1 - x ^ 2) ^ n := by
    unfold poleErr at hp
    have p0 : 0 < (1 - x ^ 2) ^ n := by apply pow_pos; linarith
    have : 0 ≤ ((n : ℝ) + 2) * x := by positivity
    have h5 : ((1 - x ^ 2) ^ n)⁻¹ ≤ 2 := by linarith
    rw [inv_le_comm₀ p0 (by norm_num)] at h5
    linarith
  have g1 := hτn.trans f1.1
  have g2 := hpe.trans f2.1
  have g3 := f1.2
  have g4 := f2.2
  have e1 : N ^ m ≤ 2 := by nlinarith
  have e2 : ‖zb‖ ^ m ≤ 2 := by nlinarith
  have hn : ‖((N : ℂ) * zb) ^ m‖ = N ^ m * ‖zb‖ ^ m := by
    rw [mul_zpow, norm_mul, norm_zpow, norm_zpow, Complex.norm_real, Real.norm_eq_abs, abs_of_pos N0]
  rw [hn]
  refine ⟨mul_ne_zero (by exact_mod_cast N0.ne') (norm_pos_iff.mp b0), ?_, Range.Ω_ge hF hR ?_⟩
  · have := Range.ν_le_eps hF hR
    have := hR.eps_le
    have : (1 : ℝ) / 2 * (1 / 2) ≤ N ^ m * ‖zb‖ ^ m := mul_le_mul g1 g2 (by norm_num) (by linarith)
    linarith
  · have : N ^ m * ‖zb‖ ^ m ≤ 2 * 2 := mul_le_mul e1 e2 (by linarith) (by norm_num)
    linarith

theorem small_elemI_ra {n : ℕ} (hR : Range u η ν Ω eps n) {x N : ℝ} (hτ0 : 0 ≤ τ) (hτ : τ < 1) (hN : Fac τ 1 N) (hτn : 1 / 2 ≤ (1 - τ) ^ n)
    (hx1 : x < 1) (hp : poleErr x n ≤ 1) {za zb : ℂ} (hu : Spec.IsUnit' za zb) (hx : ‖za‖ ≤ x) {mp m : ℤ} (hv : Spec.ValidD n mp m) :
    ‖elemF_ra_small F (N * zb) n mp m - Spec.wignerD za zb n mp m‖ ≤ ieeePole w τ x n := by
  obtain ⟨p', q', p, q, hsum, hap, hb, hc⟩ := valid_pq hv
  have hn : n = p + q := by omega
  have hv1 := hv.1
  have hv2 := hv.2.1
  obtain ⟨hz, o1, o2⟩ := pole_pow hF hR hτ0 hτ hN hτn hx1 hp hu hx hv2
  have hzb : zb ≠ 0 := right_ne_zero_of_mul hz
  have pe0 := poleErr_nonneg ((norm_nonneg za).trans hx) hx1 n
  have near := (Dpq_near_ra hu hzb hsum).trans (show _ ≤ poleErr x n by
    rw [hn]; exact poleErr_mono (norm_nonneg _) hx hx1 _)
  rw [wignerD_pq za zb hsum hap hb hc]
  have hc' := hF.cpow (N * zb) m hz o1 o2
  rw [← hc] at near
  unfold elemF_ra_small
  by_cases h : p' = q
  · rw [if_neg (by rintro (h | h | h) <;> omega)]
    rw [if_pos h] at near
    refine combineI hF hτ0 hτ hN pe0 hv2 (s := (-1) ^ q) (by simp) ?_ near (Dpq_norm_le hu hsum)
    rw [neg_one_pow_iffC]
    by_cases h4 : ((n : ℤ) - m) % 4 = 0
    · rw [if_pos h4, if_pos (by omega), one_mul]; exact hc'
    · rw [if_neg h4, if_neg (by omega), neg_one_mul, ← neg_sub', norm_neg]; exact hc'
  · rw [if_pos (by left; omega)]
    rw [if_neg h] at near
    refine near.trans ?_
    unfold ieeePole
    have := hF.w_nonneg
    have := gam_nonneg hτ0 hτ n
    have : 0 ≤ (w * (1 + gam τ n) + gam τ n) * (1 + poleErr x n) := by positivity
    linarith

theorem small_elemI_rb {n : ℕ} (hR : Range u η ν Ω eps n) {x N : ℝ} (hτ0 : 0 ≤ τ) (hτ : τ < 1) (hN : Fac τ 1 N) (hτn : 1 / 2 ≤ (1 - τ) ^ n)
    (hx1 : x < 1) (hp : poleErr x n ≤ 1) {za zb : ℂ} (hu : Spec.IsUnit' za zb) (hx : ‖zb‖ ≤ x) {mp m : ℤ} (hv : Spec.ValidD n mp m) :
    ‖elemF_rb_small F (N * za) n mp m - Spec.wignerD za zb n mp m‖ ≤ ieeePole w τ x n := by
  obtain ⟨p', q', p, q, hsum, hap, hb, hc⟩ := valid_pq hv
  have hn : n = p + q := by omega
  have hv1 := hv.1
  have hv2 := hv.2.1
  have hu' : Spec.IsUnit' zb za := by unfold Spec.IsUnit' at *; linarith
  obtain ⟨hz, o1, o2⟩ := pole_pow hF hR hτ0 hτ hN hτn hx1 hp hu' hx hv2
  have hza : za ≠ 0 := right_ne_zero_of_mul hz
  have pe0 := poleErr_nonneg ((norm_nonneg zb).trans hx) hx1 n
  have near := (Dpq_near_rb hu hza hsum).trans (show _ ≤ poleErr x n by
    rw [hn]; exact poleErr_mono (norm_nonneg _) hx hx1 _)
  rw [wignerD_pq za zb hsum hap hb hc]
  have hc' := hF.cpow (N * za) m hz o1 o2
  rw [← hc] at near
  unfold elemF_rb_small
  by_cases h : q' = q
  · rw [if_neg (by rintro (h | h | h) <;> omega)]
    rw [if_pos h] at near
    exact combineI hF hτ0 hτ hN pe0 hv2 (s := 1) (by simp) (by rw [one_mul]; exact hc') (by rw [one_mul]; exact near) (Dpq_norm_le hu hsum)
  · rw [if_pos (by left; omega)]
    rw [if_neg h] at near
    refine near.trans ?_
    unfold ieeePole
    have := hF.w_nonneg
    have := gam_nonneg hτ0 hτ n
    have : 0 ≤ (w * (1 + gam τ n) + gam τ n) * (1 + poleErr x n) := by positivity
    linarith

/-- Powers of a modulus close to or below 1. -/
theorem norm_pow_le_two {n : ℕ} {N : ℝ} (hτ0 : 0 ≤ τ) (hτ : τ < 1) (hN : Fac τ 1 N) (hτn : 1 / 2 ≤ (1 - τ) ^ n) {z : ℂ} (hz : ‖z‖ ≤ 1) :
    ∀ k ≤ n, ‖(N : ℂ) * z‖ ^ k ≤ 2 := by
  intro k hk
  have N0 := Fac.pos hτ0 hτ hN
  have f := Fac.mono hτ0 hτ (show k * 1 ≤ n by omega) (Fac.pow hτ0 hτ hN k)
  have f2 := f.2
  have f0 := Fac.pos hτ0 hτ f
  rw [norm_mul, Complex.norm_real, Real.norm_eq_abs, abs_of_pos N0, mul_pow]
  have : ‖z‖ ^ k ≤ 1 := pow_le_one₀ (norm_nonneg _) hz
  have z0 : 0 ≤ ‖z‖ ^ k := by positivity
  have : N ^ k ≤ 2 := by nlinarith
  nlinarith

/-- **C78.** Away from the poles. -/
theorem generic_elemI {n : ℕ} (hR : Range u η ν Ω eps n) {L : ℤ} {table : List ℝ} (ht : RoundedTable u L table) {N : ℝ} (hτ0 : 0 ≤ τ)
    (hτ : τ < 1) (hN : Fac τ 1 N) (hN2 : N ≤ 2) (hτn : 1 / 2 ≤ (1 - τ) ^ n) {za zb : ℂ} (hu : Spec.IsUnit' za zb)
    (ha : eps < F.abs (N * za)) (hb : eps < F.abs (N * zb)) {mp m : ℤ} (hv : Spec.ValidD n mp m) (hle : (n : ℤ) ≤ 2 * L) :
    (F.abs (N * za) < F.abs (N * zb) → ∃ v, elemF_ra_lt_rb F table (F.abs (N * za)) (F.arg (N * za)) (F.abs (N * zb)) (F.arg (N * zb)) n mp m = .ok v ∧
      ‖v - Spec.wignerD za zb n mp m‖ ≤ ieeeGeneric u η τ n) ∧
    (¬ F.abs (N * za) < F.abs (N * zb) → ∃ v, elemF_ra_ge_rb F table (F.abs (N * za)) (F.arg (N * za)) (F.abs (N * zb)) (F.arg (N * zb)) n mp m = .ok v ∧
      ‖v - Spec.wignerD za zb n mp m‖ ≤ ieeeGeneric u η τ n) := by
  obtain ⟨u1, u2, -⟩ := unit_norm_le hu
  have N0 := Fac.pos hτ0 hτ hN
  have nm : ∀ z : ℂ, ‖(N : ℂ) * z‖ = N * ‖z‖ := fun z => by rw [norm_mul, Complex.norm_real, Real.norm_eq_abs, abs_of_pos N0]
  have a2 : ‖(N : ℂ) * za‖ ≤ 2 := by rw [nm]; nlinarith [norm_nonneg za]
  have b2 : ‖(N : ℂ) * zb‖ ≤ 2 := by rw [nm]; nlinarith [norm_nonneg zb]
  have ak := norm_pow_le_two hF hτ0 hτ hN hτn u1
  have bk := norm_pow_le_two hF hτ0 hτ hN hτn u2
  have g0 := gam_nonneg hτ0 hτ n
  have fp : 0 ≤ floatErr u n := by
    unfold floatErr
    have := gam_nonneg hF.u_nonneg hF.u_lt_one (n + 8 + 11 * (n / 2))
    have := gam_nonneg hF.u_nonneg hF.u_lt_one 4
    have pi0 := Real.pi_pos
    positivity
  have hf := Fac.mono hτ0 hτ (show n * 1 ≤ n by omega) (Fac.pow hτ0 hτ hN n)
  have hfa := Fac.abs_sub hτ0 hτ hf
  have close : ∀ v : ℂ, ‖v - Spec.wignerD (N * za) (N * zb) n mp m‖ ≤ floatErr u n * (‖(N : ℂ) * za‖ + ‖(N : ℂ) * zb‖) ^ n + underErr η n →
      ‖v - Spec.wignerD za zb n mp m‖ ≤ ieeeGeneric u η τ n := by
    intro v h
    rw [wignerD_scale N za zb hv, nm, nm, ← mul_add, mul_pow] at h
    have e : v - Spec.wignerD za zb n mp m = (v - ((N ^ n : ℝ) : ℂ) * Spec.wignerD za zb n mp m)
        + ((N ^ n - 1 : ℝ) : ℂ) * Spec.wignerD za zb n mp m := by push_cast; ring
    rw [e]
    refine (norm_add_le _ _).trans ?_
    have h2 : ‖((N ^ n - 1 : ℝ) : ℂ) * Spec.wignerD za zb n mp m‖ ≤ gam τ n * 1 := by
      rw [norm_mul, Complex.norm_real, Real.norm_eq_abs]
      exact mul_le_mul hfa (wignerD_norm_le hu hv) (norm_nonneg _) g0
    have h3 : N ^ n * (‖za‖ + ‖zb‖) ^ n ≤ (1 + gam τ n) * Real.sqrt 2 ^ n :=
      mul_le_mul (by have := (abs_le.mp hfa).2; linarith) (norm_sum_unit hu n) (by positivity) (by positivity)
    have h4 := mul_le_mul_of_nonneg_left h3 fp
    unfold ieeeGeneric
    nlinarith
  refine ⟨fun h => ?_, fun h => ?_⟩
  · obtain ⟨v, v1, v2, -⟩ := elemI_ra_lt_rb_err hF hR ht a2 b2 ak bk ha hb h.le hv hle
    exact ⟨v, v1, close v v2⟩
  · obtain ⟨v, v1, v2, -⟩ := elemI_ra_ge_rb_err hF hR ht a2 b2 ak bk ha hb (not_lt.mp h) hv hle
    exact ⟨v, v1, close v v2⟩

/-- **C78.** Every element computed by the D kernel in floating-point arithmetic with underflow and overflow, at every rotor of norm
within `τ` of 1 — poles included — differs from the D function *of the exactly normalised rotor* by at most the larger of
`ieeeGeneric u η τ n` (the formula) and `ieeePole w τ (eps/((1-u)(1-τ))) n` (the shortcuts), `n = 2 ell`; out-of-range elements are
exactly zero.  (As nothing is assumed about operations whose result exceeds `Ω`, this includes that no overflow affects the result.) -/
theorem C78_every_rotor {L : ℤ} {table : List ℝ} (hR : Range u η ν Ω eps (2 * L).toNat) (ht : RoundedTable u L table) (N : ℝ) (hN : |N - 1| ≤ τ)
    (hτ : τ < 1) (hτn : 1 / 2 ≤ (1 - τ) ^ (2 * L).toNat) (hx1 : eps / ((1 - u) * (1 - τ)) < 1)
    (hp : ∀ n ≤ (2 * L).toNat, poleErr (eps / ((1 - u) * (1 - τ))) n ≤ 1) (za zb : ℂ) (hu : Spec.IsUnit' za zb)
    (indices : List (ℤ × ℤ × ℤ)) (elements : List ℂ) (hlen : elements.length = indices.length) (hi : ∀ t ∈ indices, Lookable L t) :
    ∃ f : ℤ × ℤ × ℤ → ℂ, Wigner_D_element_kernelF F eps table (N * za) (N * zb) indices elements = .ok (indices.map f) ∧
      ∀ t ∈ indices, (¬ (|t.2.1| ≤ t.1 ∧ |t.2.2| ≤ t.1) → f t = 0) ∧
        (|t.2.1| ≤ t.1 → |t.2.2| ≤ t.1 →
          ‖f t - Spec.wignerD za zb t.1 t.2.1 t.2.2‖
            ≤ max (ieeeGeneric u η τ t.1.toNat) (ieeePole w τ (eps / ((1 - u) * (1 - τ))) t.1.toNat)) := by
  classical
  have hu0 := hF.u_nonneg
  have hu1 := hF.u_lt_one
  have hτ0 : 0 ≤ τ := (abs_nonneg _).trans hN
  have fN := fac_of_abs hN hτ
  have N0 := Fac.pos hτ0 hτ fN
  have N1 := (abs_le.mp hN).1
  have N2 : N ≤ 2 := by have := (abs_le.mp hN).2; linarith
  obtain ⟨u1, u2, -⟩ := unit_norm_le hu
  have nm : ∀ z : ℂ, ‖(N : ℂ) * z‖ = N * ‖z‖ := fun z => by rw [norm_mul, Complex.norm_real, Real.norm_eq_abs, abs_of_pos N0]
  have a2 : ‖(N : ℂ) * za‖ ≤ 2 := by rw [nm]; nlinarith [norm_nonneg za]
  have b2 : ‖(N : ℂ) * zb‖ ≤ 2 := by rw [nm]; nlinarith [norm_nonneg zb]
  have small : ∀ z : ℂ, ‖(N : ℂ) * z‖ ≤ 2 → F.abs (N * z) ≤ eps → ‖z‖ ≤ eps / ((1 - u) * (1 - τ)) := by
    intro z h1 h2
    have h3 := absI_le hF hR h1 h2
    rw [nm, le_div_iff₀ (by linarith)] at h3
    rw [le_div_iff₀ (mul_pos (by linarith) (by linarith))]
    have : ‖z‖ * (1 - τ) ≤ ‖z‖ * N := mul_le_mul_of_nonneg_left (by linarith) (norm_nonneg z)
    have : ‖z‖ * (1 - τ) * (1 - u) ≤ ‖z‖ * N * (1 - u) := mul_le_mul_of_nonneg_right this (by linarith)
    linarith
  have prep : ∀ t ∈ indices, |t.2.1| ≤ t.1 → |t.2.2| ≤ t.1 → ∃ n : ℕ, t.1 = n ∧ n ≤ (2 * L).toNat ∧ Spec.ValidD n t.2.1 t.2.2 ∧
      (n : ℤ) ≤ 2 * L ∧ Range u η ν Ω eps n ∧ 1 / 2 ≤ (1 - τ) ^ n := by
    intro t m g1 g2
    obtain ⟨hv, hle⟩ := hi t m ⟨g1, g2⟩
    obtain ⟨n, hn⟩ : ∃ n : ℕ, t.1 = n := ⟨t.1.toNat, by have := abs_nonneg t.2.1; omega⟩
    rw [hn] at hv hle
    refine ⟨n, hn, by omega, hv, hle, hR.mono hu0 hu1 hF.ν_pos (by omega), ?_⟩
    exact hτn.trans (pow_le_pow_of_le_one (by linarith) (by linarith) (by omega))
  by_cases k1 : F.abs (N * za) ≤ eps
  · refine ⟨fun t => elemF_ra_small F (N * zb) t.1 t.2.1 t.2.2, kernelF_map F eps table _ _ indices elements hlen _
      (fun _ _ _ => rfl) (fun h => absurd k1 h) (fun h => absurd k1 h) (fun h => absurd k1 h), fun t m => ⟨fun h => ?_, fun g1 g2 => ?_⟩⟩
    · simp only; unfold elemF_ra_small; rw [if_pos (Or.inr (out_of_range h))]
    · obtain ⟨n, hn, hnL, hv, -, hRn, hτn'⟩ := prep t m g1 g2
      simp only
      rw [hn, Int.toNat_natCast]
      exact (small_elemI_ra hF hRn hτ0 hτ fN hτn' hx1 (hp n hnL) hu (small za a2 k1) hv).trans (le_max_right _ _)
  by_cases k2 : F.abs (N * zb) ≤ eps
  · refine ⟨fun t => elemF_rb_small F (N * za) t.1 t.2.1 t.2.2, kernelF_map F eps table _ _ indices elements hlen _
      (fun h => absurd h k1) (fun _ _ _ _ => rfl) (fun _ h => absurd k2 h) (fun _ h => absurd k2 h),
      fun t m => ⟨fun h => ?_, fun g1 g2 => ?_⟩⟩
    · simp only; unfold elemF_rb_small; rw [if_pos (Or.inr (out_of_range h))]
    · obtain ⟨n, hn, hnL, hv, -, hRn, hτn'⟩ := prep t m g1 g2
      simp only
      rw [hn, Int.toNat_natCast]
      exact (small_elemI_rb hF hRn hτ0 hτ fN hτn' hx1 (hp n hnL) hu (small zb b2 k2) hv).trans (le_max_right _ _)
  have ha := not_le.mp k1
  have hb := not_le.mp k2
  -- one value per triple, in either regime
  have pick : ∀ (g : ℤ → ℤ → ℤ → Py ℂ), (∀ (a b c : ℤ), |b| > a ∨ |c| > a → g a b c = .ok 0) →
      (∀ t ∈ indices, |t.2.1| ≤ t.1 → |t.2.2| ≤ t.1 → ∃ v, g t.1 t.2.1 t.2.2 = .ok v ∧
        ‖v - Spec.wignerD za zb t.1 t.2.1 t.2.2‖ ≤ ieeeGeneric u η τ t.1.toNat) →
      ∃ f : ℤ × ℤ × ℤ → ℂ, (∀ t ∈ indices, g t.1 t.2.1 t.2.2 = .ok (f t)) ∧
        ∀ t ∈ indices, (¬ (|t.2.1| ≤ t.1 ∧ |t.2.2| ≤ t.1) → f t = 0) ∧ (|t.2.1| ≤ t.1 → |t.2.2| ≤ t.1 →
          ‖f t - Spec.wignerD za zb t.1 t.2.1 t.2.2‖
            ≤ max (ieeeGeneric u η τ t.1.toNat) (ieeePole w τ (eps / ((1 - u) * (1 - τ))) t.1.toNat)) := by
    intro g g0 g1
    let f : ℤ × ℤ × ℤ → ℂ := fun t => match g t.1 t.2.1 t.2.2 with | .ok v => v | .error _ => 0
    have hf : ∀ {t v}, g t.1 t.2.1 t.2.2 = .ok v → f t = v := by intro t v h; simp only [f, h]
    refine ⟨f, fun t m => ?_, fun t m => ⟨fun h => hf (g0 _ _ _ (out_of_range h)), fun h1 h2 => ?_⟩⟩
    · by_cases h : |t.2.1| ≤ t.1 ∧ |t.2.2| ≤ t.1
      · obtain ⟨v, v1, -⟩ := g1 t m h.1 h.2
        rw [hf v1, v1]
      · rw [hf (g0 _ _ _ (out_of_range h)), g0 _ _ _ (out_of_range h)]
    · obtain ⟨v, v1, v2⟩ := g1 t m h1 h2
      rw [hf v1]
      exact v2.trans (le_max_left _ _)
  by_cases hlt : F.abs (N * za) < F.abs (N * zb)
  · obtain ⟨f, f1, f2⟩ := pick (elemF_ra_lt_rb F table (F.abs (N * za)) (F.arg (N * za)) (F.abs (N * zb)) (F.arg (N * zb)))
      (fun a b c h => by unfold elemF_ra_lt_rb; simp only; rw [if_pos h])
      (fun t m g1 g2 => by
        obtain ⟨n, hn, -, hv, hle, hRn, hτn'⟩ := prep t m g1 g2
        rw [hn, Int.toNat_natCast]
        exact (generic_elemI hF hRn ht hτ0 hτ fN N2 hτn' hu ha hb hv hle).1 hlt)
    exact ⟨f, kernelF_map F eps table _ _ indices elements hlen f (fun h => absurd h k1) (fun _ h => absurd h k2)
      (fun _ _ _ => f1) (fun _ _ h => absurd hlt h), f2⟩
  · obtain ⟨f, f1, f2⟩ := pick (elemF_ra_ge_rb F table (F.abs (N * za)) (F.arg (N * za)) (F.abs (N * zb)) (F.arg (N * zb)))
      (fun a b c h => by unfold elemF_ra_ge_rb; simp only; rw [if_pos h])
      (fun t m g1 g2 => by
        obtain ⟨n, hn, -, hv, hle, hRn, hτn'⟩ := prep t m g1 g2
        rw [hn, Int.toNat_natCast]
        exact (generic_elemI hF hRn ht hτ0 hτ fN N2 hτn' hu ha hb hv hle).2 hlt)
    exact ⟨f, kernelF_map F eps table _ _ indices elements hlen f (fun h => absurd h k1) (fun _ h => absurd h k2)
      (fun _ _ h => absurd h hlt) (fun _ _ _ => f1), f2⟩

end

set_option exponentiation.threshold 2000

/-- The range of double precision suffices for every `ell ≤ 32`. -/
theorem range_double {u η ν Ω : ℝ} (hu0 : 0 ≤ u) (hu : u ≤ 2 ^ (-50 : ℤ)) (hη : η ≤ 1 / 10 ^ 300) (hηu : 2 * η ≤ u) (hν0 : 0 < ν)
    (hν : ν ≤ 1 / 10 ^ 300) (hΩ : 10 ^ 300 ≤ Ω) {n : ℕ} (hn : n ≤ 64) : Range u η ν Ω (1 / 10 ^ 15) n := by
  have hu' : u ≤ 1 / 10 ^ 15 := hu.trans (by norm_num)
  have hu1 : u < 1 := lt_of_le_of_lt hu' (by norm_num)
  refine Range.mono hu0 hu1 hν0 hn ?_
  refine ⟨?_, hηu, hη.trans (by norm_num), by norm_num, by norm_num, ?_, le_trans (by norm_num) hΩ⟩
  · have := one_add_mul_le_pow (a := -u) (by linarith) (7 * 64 + 30)
    rw [← sub_eq_add_neg] at this
    refine le_trans ?_ this
    push_cast
    linarith
  · push_cast
    calc ν * (256 * (64 + 1) ^ 2) ≤ 1 / 10 ^ 300 * (256 * (64 + 1) ^ 2) := by gcongr
      _ ≤ _ := by norm_num

/-- **C78.** In numbers: with `u ≤ 2^-50`, underflow below `1e-300`, overflow above `1e300`, the package's `epsilon = 1e-15`, complex
powers accurate to `1e-14` and the table for `L ≤ 32`, every element with `ell ≤ 8` at every rotor normalised to within `1e-13` is
within `1e-10` of the D function of the exactly normalised rotor. -/
theorem C78_double {u w η ν Ω : ℝ} {F : FloatOps} (hF : F.IEEE u w η ν Ω) (hu50 : u ≤ 2 ^ (-50 : ℤ)) (hw : w ≤ 1 / 10 ^ 14)
    (hη : η ≤ 1 / 10 ^ 300) (hηu : 2 * η ≤ u) (hν : ν ≤ 1 / 10 ^ 300) (hΩ : 10 ^ 300 ≤ Ω) {L : ℤ} (hL : L ≤ 32) {table : List ℝ}
    (ht : RoundedTable u L table) (N : ℝ) (hN : |N - 1| ≤ 1 / 10 ^ 13) (za zb : ℂ) (hu : Spec.IsUnit' za zb) (indices : List (ℤ × ℤ × ℤ))
    (elements : List ℂ) (hlen : elements.length = indices.length) (hi : ∀ t ∈ indices, Lookable L t) :
    ∃ f : ℤ × ℤ × ℤ → ℂ, Wigner_D_element_kernelF F (1 / 10 ^ 15) table (N * za) (N * zb) indices elements = .ok (indices.map f) ∧
      ∀ t ∈ indices, (¬ (|t.2.1| ≤ t.1 ∧ |t.2.2| ≤ t.1) → f t = 0) ∧
        (|t.2.1| ≤ t.1 → |t.2.2| ≤ t.1 → t.1 ≤ 16 → ‖f t - Spec.wignerD za zb t.1 t.2.1 t.2.2‖ ≤ 1 / 10 ^ 10) := by
  have hu0 := hF.u_nonneg
  have hη0 := hF.η_nonneg
  have w0 := hF.w_nonneg
  have hu' : u ≤ 1 / 10 ^ 15 := hu50.trans (by norm_num)
  have hL' : (2 * L).toNat ≤ 64 := by omega
  obtain ⟨τ, hτ⟩ : ∃ τ : ℝ, τ = 1 / 10 ^ 13 := ⟨_, rfl⟩
  rw [← hτ] at hN
  set x : ℝ := 1 / 10 ^ 15 / ((1 - u) * (1 - τ)) with hx
  have hden : 1 / 2 ≤ (1 - u) * (1 - τ) := by
    have : (1 - 1 / 10 ^ 15 : ℝ) * (1 - τ) ≤ (1 - u) * (1 - τ) := mul_le_mul_of_nonneg_right (by linarith) (by rw [hτ]; norm_num)
    refine le_trans ?_ this
    rw [hτ]; norm_num
  have hd0 : 0 < (1 - u) * (1 - τ) := lt_of_lt_of_le (by norm_num) hden
  have x0 : 0 ≤ x := by rw [hx]; exact div_nonneg (by norm_num) hd0.le
  have x1 : x ≤ 2 / 10 ^ 15 := by
    rw [hx, div_le_iff₀ hd0]
    calc (1 : ℝ) / 10 ^ 15 = 2 / 10 ^ 15 * (1 / 2) := by norm_num
      _ ≤ _ := mul_le_mul_of_nonneg_left hden (by norm_num)
  clear_value x
  have pe : ∀ n ≤ 64, poleErr x n ≤ 2 / 10 ^ 13 := by
    intro n hn
    refine (poleErr_mono x0 x1 (by norm_num) n).trans ?_
    unfold poleErr
    have a1 : ((1 - (2 / 10 ^ 15 : ℝ) ^ 2) ^ 64) ≤ ((1 - (2 / 10 ^ 15 : ℝ) ^ 2) ^ n) :=
      pow_le_pow_of_le_one (by norm_num) (by norm_num) hn
    have a2 := inv_anti₀ (by norm_num) a1
    have a3 : ((1 - (2 / 10 ^ 15 : ℝ) ^ 2) ^ 64)⁻¹ - 1 ≤ 1 / 10 ^ 15 := by norm_num
    have hn' : (n : ℝ) ≤ 64 := by exact_mod_cast hn
    have : ((n : ℝ) + 2) * (2 / 10 ^ 15) ≤ (64 + 2) * (2 / 10 ^ 15) := by gcongr
    have : ((64 : ℝ) + 2) * (2 / 10 ^ 15) + 1 / 10 ^ 15 ≤ 2 / 10 ^ 13 := by norm_num
    linarith
  have hτ64 : 1 / 2 ≤ (1 - τ) ^ (2 * L).toNat := by
    refine le_trans ?_ (pow_le_pow_of_le_one (by rw [hτ]; norm_num) (by rw [hτ]; norm_num) hL')
    rw [hτ]; norm_num
  have hgen := C78_every_rotor hF (range_double hu0 hu50 hη hηu hF.ν_pos hν hΩ hL') ht N hN (by rw [hτ]; norm_num) hτ64
    (by rw [← hx]; exact lt_of_le_of_lt x1 (by norm_num)) (fun n hn => by rw [← hx]; exact (pe n (hn.trans hL')).trans (by norm_num))
    za zb hu indices elements hlen hi
  rw [← hx] at hgen
  obtain ⟨f, f1, f2⟩ := hgen
  clear hx hden hd0
  refine ⟨f, f1, fun t m => ⟨(f2 t m).1, fun g1 g2 g3 => ((f2 t m).2 g1 g2).trans ?_⟩⟩
  have hn : t.1.toNat ≤ 16 := by omega
  set n := t.1.toNat
  have hn' : (n : ℝ) ≤ 16 := by exact_mod_cast hn
  have n0 : (0 : ℝ) ≤ n := Nat.cast_nonneg n
  have g : gam τ n ≤ 2 / 10 ^ 12 := by
    refine (gam_mono (by rw [hτ]; norm_num) (by rw [hτ]; norm_num) hn).trans ?_
    unfold gam
    rw [hτ]; norm_num
  have g0 : 0 ≤ gam τ n := gam_nonneg (by rw [hτ]; norm_num) (by rw [hτ]; norm_num) n
  apply max_le
  · have b := C69_bound hu0 hu50 (show n ≤ 64 by omega)
    have s : Real.sqrt 2 ^ n ≤ 256 := by
      have h1 : (1 : ℝ) ≤ Real.sqrt 2 := by rw [Real.one_le_sqrt]; norm_num
      calc Real.sqrt 2 ^ n ≤ Real.sqrt 2 ^ 16 := pow_le_pow_right₀ h1 hn
        _ = (Real.sqrt 2 ^ 2) ^ 8 := by rw [← pow_mul]
        _ = 256 := by rw [Real.sq_sqrt (by norm_num)]; norm_num
    have b2 : 20 * ((n : ℝ) + 1) * u ≤ 340 * 2 ^ (-50 : ℤ) := by
      have : 20 * ((n : ℝ) + 1) ≤ 340 := by linarith
      gcongr
    have c1 : floatErr u n * Real.sqrt 2 ^ n ≤ (340 * 2 ^ (-50 : ℤ)) * 256 :=
      mul_le_mul (b.trans b2) s (by positivity) (by positivity)
    have c2 : floatErr u n * Real.sqrt 2 ^ n * (1 + gam τ n) ≤ ((340 * 2 ^ (-50 : ℤ)) * 256) * (1 + 2 / 10 ^ 12) :=
      mul_le_mul c1 (by linarith) (by linarith) (by positivity)
    have c3 : underErr η n ≤ 1 / 10 ^ 200 := by
      unfold underErr
      have : (2 : ℝ) ^ n ≤ 2 ^ 16 := pow_le_pow_right₀ (by norm_num) hn
      calc 30000 * ((n : ℝ) + 1) * 2 ^ n * η ≤ 30000 * (16 + 1) * 2 ^ 16 * (1 / 10 ^ 300) := by gcongr
        _ ≤ _ := by norm_num
    have c4 : ((340 * (2 : ℝ) ^ (-50 : ℤ)) * 256) * (1 + 2 / 10 ^ 12) + 1 / 10 ^ 200 + 2 / 10 ^ 12 ≤ 1 / 10 ^ 10 := by norm_num
    unfold ieeeGeneric
    linarith
  · have p := pe n (by omega)
    have p0 : 0 ≤ poleErr x n := poleErr_nonneg x0 (lt_of_le_of_lt x1 (by norm_num)) n
    have c1 : w * (1 + gam τ n) ≤ 1 / 10 ^ 14 * 2 := mul_le_mul hw (by linarith) (by linarith) (by norm_num)
    have c2 : (w * (1 + gam τ n) + gam τ n) * (1 + poleErr x n) ≤ (1 / 10 ^ 14 * 2 + 2 / 10 ^ 12) * 2 :=
      mul_le_mul (by linarith) (by linarith) (by linarith) (by norm_num)
    have c3 : ((1 : ℝ) / 10 ^ 14 * 2 + 2 / 10 ^ 12) * 2 + 2 / 10 ^ 13 ≤ 1 / 10 ^ 10 := by norm_num
    unfold ieeePole
    linarith

/-! ## IEEE double precision satisfies the hypotheses -/

/-- The largest double. -/
noncomputable def maxDouble : ℝ := (2 - 2 ^ (-52 : ℤ)) * 2 ^ (1023 : ℤ)

/-- Rounding to double precision, subnormal numbers included; a result beyond the largest double is replaced by anything (`ovf`), since
infinity is not a number. -/
noncomputable def fl64 (ovf : ℝ → ℝ) (x : ℝ) : ℝ :=
  if |x| ≤ maxDouble then
    round (x * 2 ^ (min (52 - Int.log 2 |x|) 1074)) / 2 ^ (min (52 - Int.log 2 |x|) 1074)
  else ovf x

theorem fl64_err (ovf : ℝ → ℝ) {x : ℝ} (hx : |x| ≤ maxDouble) :
    IErr (2 ^ (-53 : ℤ)) (2 ^ (-1075 : ℤ)) (2 ^ (-1022 : ℤ)) (fl64 ovf x) x := by
  unfold IErr fl64
  rw [if_pos hx]
  by_cases h : (2 : ℝ) ^ (-1022 : ℤ) ≤ |x|
  · left
    have hpos : 0 < |x| := lt_of_lt_of_le (by positivity) h
    have hlog : -1022 ≤ Int.log 2 |x| := by
      rw [← Int.zpow_le_iff_le_log (by norm_num) hpos]
      exact_mod_cast h
    rw [min_eq_left (by omega)]
    exact fl53_err x
  · right
    rw [not_le] at h
    refine ⟨h, ?_⟩
    have hk : min (52 - Int.log 2 |x|) 1074 = 1074 ∨ x = 0 := by
      by_cases h0 : x = 0
      · exact Or.inr h0
      · left
        apply min_eq_right
        have : Int.log 2 |x| < -1022 := by
          rw [← Int.lt_zpow_iff_log_lt (by norm_num) (abs_pos.mpr h0)]
          exact_mod_cast h
        omega
    rcases hk with hk | hk
    · rw [hk]
      have p : (0 : ℝ) < 2 ^ (1074 : ℤ) := by positivity
      have e : (round (x * 2 ^ (1074 : ℤ)) : ℝ) / 2 ^ (1074 : ℤ) - x = (round (x * 2 ^ (1074 : ℤ)) - x * 2 ^ (1074 : ℤ)) / 2 ^ (1074 : ℤ) := by
        field_simp
      rw [e, abs_div, abs_of_pos p, div_le_iff₀ p, abs_sub_comm, ← zpow_add₀ (by norm_num)]
      refine (abs_sub_round _).trans ?_
      norm_num
    · rw [hk]
      simp only [zero_mul, round_zero, Int.cast_zero, zero_div, sub_zero, abs_zero]
      positivity

/-- Correctly rounded double-precision operations. -/
noncomputable def F64 (ovf : ℝ → ℝ) : FloatOps where
  add x y := fl64 ovf (x + y)
  mul x y := fl64 ovf (x * y)
  div x y := fl64 ovf (x / y)
  pow x y := fl64 ovf (x ^ y)
  cos x := fl64 ovf (Real.cos x)
  sin x := fl64 ovf (Real.sin x)
  abs z := fl64 ovf ‖z‖
  arg z := fl64 ovf (Complex.arg z)
  cpow z n := ⟨fl64 ovf (z ^ n).re, fl64 ovf (z ^ n).im⟩

theorem maxDouble_ge : (10 : ℝ) ^ 300 ≤ maxDouble := by
  unfold maxDouble
  norm_num

theorem F64_ieee (ovf : ℝ → ℝ) : (F64 ovf).IEEE (2 ^ (-53 : ℤ)) (2 ^ (-51 : ℤ)) (2 ^ (-1075 : ℤ)) (2 ^ (-1022 : ℤ)) maxDouble where
  u_nonneg := by positivity
  u_lt_one := by norm_num
  η_nonneg := by positivity
  ν_pos := by positivity
  w_nonneg := by positivity
  add _ _ h := fl64_err ovf h
  mul _ _ h := fl64_err ovf h
  div _ _ _ h := fl64_err ovf h
  pow x y h1 h := fl64_err ovf (by rw [abs_of_nonneg (Real.rpow_nonneg h1.le y)]; exact h)
  cos x := fl64_err ovf ((Real.abs_cos_le_one x).trans ((by norm_num : (1 : ℝ) ≤ 10 ^ 300).trans maxDouble_ge))
  sin x := fl64_err ovf ((Real.abs_sin_le_one x).trans ((by norm_num : (1 : ℝ) ≤ 10 ^ 300).trans maxDouble_ge))
  abs z h := fl64_err ovf (by rw [abs_of_nonneg (norm_nonneg z)]; exact h)
  arg z := fl64_err ovf ((Complex.abs_arg_le_pi z).trans (Real.pi_le_four.trans ((by norm_num : (4 : ℝ) ≤ 10 ^ 300).trans maxDouble_ge)))
  cpow z n _ h1 h2 := by
    set Z := z ^ n
    have key : ∀ x : ℝ, |x| ≤ ‖Z‖ → |fl64 ovf x - x| ≤ 2 ^ (-52 : ℤ) * ‖Z‖ := by
      intro x hx
      rcases fl64_err ovf (hx.trans h2) with h | ⟨-, h⟩
      · refine h.trans ?_
        apply mul_le_mul _ hx (abs_nonneg _) (by positivity)
        exact zpow_le_zpow_right₀ (by norm_num) (by norm_num)
      · refine h.trans ?_
        calc (2 : ℝ) ^ (-1075 : ℤ) ≤ 2 ^ (-52 : ℤ) * 2 ^ (-1022 : ℤ) := by
              rw [← zpow_add₀ (by norm_num)]; exact zpow_le_zpow_right₀ (by norm_num) (by norm_num)
          _ ≤ _ := mul_le_mul_of_nonneg_left h1 (by positivity)
    have a := key Z.re (Complex.abs_re_le_norm Z)
    have b := key Z.im (Complex.abs_im_le_norm Z)
    refine (Complex.norm_le_abs_re_add_abs_im _).trans ?_
    have e : (2 : ℝ) ^ (-51 : ℤ) * ‖Z‖ = 2 ^ (-52 : ℤ) * ‖Z‖ + 2 ^ (-52 : ℤ) * ‖Z‖ := by
      rw [← add_mul]; norm_num
    rw [e]
    exact add_le_add a b

/-- Non-vacuity of C78: IEEE double precision with any treatment of overflow, the correctly rounded table for `L = 32`, a generic
rotor with norm `1 + 2^-52` and a pole. -/
example (ovf : ℝ → ℝ) : ∃ table, RoundedTable (2 ^ (-53 : ℤ)) 32 table ∧
    (∃ f : ℤ × ℤ × ℤ → ℂ, Wigner_D_element_kernelF (F64 ovf) (1 / 10 ^ 15) table (((1 + 2 ^ (-52 : ℤ) : ℝ) : ℂ) * (3 / 5))
        (((1 + 2 ^ (-52 : ℤ) : ℝ) : ℂ) * (4 / 5)) [(4, 0, 2), (3, -1, 3), (2, 4, 0)] [7, 7, 7]
      = .ok [f (4, 0, 2), f (3, -1, 3), f (2, 4, 0)] ∧ f (2, 4, 0) = 0 ∧
      ‖f (4, 0, 2) - Spec.wignerD (3 / 5) (4 / 5) 4 0 2‖ ≤ 1 / 10 ^ 10) ∧
    (∃ f : ℤ × ℤ × ℤ → ℂ, Wigner_D_element_kernelF (F64 ovf) (1 / 10 ^ 15) table ((1 : ℝ) * 1) ((1 : ℝ) * 0) [(4, 2, 2)] [7] = .ok [f (4, 2, 2)] ∧
      ‖f (4, 2, 2) - Spec.wignerD 1 0 4 2 2‖ ≤ 1 / 10 ^ 10) := by
  obtain ⟨t, ht⟩ := IsWignerTable.exists 32 (by norm_num)
  have hi : ∀ t ∈ [((4 : ℤ), (0 : ℤ), (2 : ℤ)), (3, -1, 3), (2, 4, 0)], Lookable 32 t := by
    simp [Lookable, Spec.ValidD]
  have hi' : ∀ t ∈ [((4 : ℤ), (2 : ℤ), (2 : ℤ))], Lookable 32 t := by
    simp [Lookable, Spec.ValidD]
  have u1 : Spec.IsUnit' (3 / 5) (4 / 5) := by
    unfold Spec.IsUnit'
    rw [map_div₀, map_div₀]
    norm_num [Complex.normSq_apply]
  have u2 : Spec.IsUnit' 1 0 := by unfold Spec.IsUnit'; simp
  have h50 : (2 : ℝ) ^ (-53 : ℤ) ≤ 2 ^ (-50 : ℤ) := by norm_num
  have hw : (2 : ℝ) ^ (-51 : ℤ) ≤ 1 / 10 ^ 14 := by norm_num
  obtain ⟨f, f1, f2⟩ := C78_double (F64_ieee ovf) h50 hw (by norm_num) (by norm_num) (by norm_num) maxDouble_ge le_rfl (table53 ht)
    (1 + 2 ^ (-52 : ℤ)) (by norm_num) (3 / 5) (4 / 5) u1 [(4, 0, 2), (3, -1, 3), (2, 4, 0)] [7, 7, 7] rfl hi
  obtain ⟨h, h1, h2⟩ := C78_double (F64_ieee ovf) h50 hw (by norm_num) (by norm_num) (by norm_num) maxDouble_ge le_rfl (table53 ht)
    1 (by norm_num) 1 0 u2 [(4, 2, 2)] [7] rfl hi'
  exact ⟨t.map fl53, table53 ht, ⟨f, f1, (f2 _ (by simp)).1 (by norm_num), (f2 _ (by simp)).2 (by norm_num) (by norm_num) (by norm_num)⟩,
    ⟨h, h1, (h2 _ (by simp)).2 (by norm_num) (by norm_num) (by norm_num)⟩⟩

end SF
