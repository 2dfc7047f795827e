import Verif.Lemmas.RoundingE
import Verif.Lemmas.DNear
import Mathlib.Data.Int.Log
import Mathlib.Algebra.Order.Round

/-!
# Property C69: rounding errors of the Wigner D elements

`FloatOps.Std F u w` is the standard model of floating-point arithmetic: every operation and library function used by the kernel
returns the exact result up to a relative error `u` (`w` for a complex power).  `RoundedTable u L table` says that the table of
coefficients is the exact one up to the same relative error.  `gam u k = (1-u)^(-k) - 1 ≤ k u / (1 - k u)`, and

`floatErr u n = gam u (n + 8 + 11 (n/2)) + gam u 4 · π n`, at most `20 (n+1) u` for `n ≤ 64`, `u ≤ 2^-50`.
-/

set_option autoImplicit false

namespace SF

open Finset ComplexConjugate

theorem kernelF_map (F : FloatOps) (eps : ℝ) (table : List ℝ) (Ra Rb : ℂ) (indices : List (ℤ × ℤ × ℤ)) (elements : List ℂ)
    (hlen : elements.length = indices.length) (f : ℤ × ℤ × ℤ → ℂ)
    (h1 : F.abs Ra ≤ eps → ∀ t ∈ indices, elemF_ra_small F Rb t.1 t.2.1 t.2.2 = f t)
    (h2 : ¬ F.abs Ra ≤ eps → F.abs Rb ≤ eps → ∀ t ∈ indices, elemF_rb_small F Ra t.1 t.2.1 t.2.2 = f t)
    (h3 : ¬ F.abs Ra ≤ eps → ¬ F.abs Rb ≤ eps → F.abs Ra < F.abs Rb →
      ∀ t ∈ indices, elemF_ra_lt_rb F table (F.abs Ra) (F.arg Ra) (F.abs Rb) (F.arg Rb) t.1 t.2.1 t.2.2 = .ok (f t))
    (h4 : ¬ F.abs Ra ≤ eps → ¬ F.abs Rb ≤ eps → ¬ F.abs Ra < F.abs Rb →
      ∀ t ∈ indices, elemF_ra_ge_rb F table (F.abs Ra) (F.arg Ra) (F.abs Rb) (F.arg Rb) t.1 t.2.1 t.2.2 = .ok (f t)) :
    Wigner_D_element_kernelF F eps table Ra Rb indices elements = .ok (indices.map f) := by
  unfold Wigner_D_element_kernelF
  simp only
  split_ifs with k1 k2 k3
  · exact forL_map_wr indices elements hlen (fun t => .ok (elemF_ra_small F Rb t.1 t.2.1 t.2.2)) f
      (fun t ht => by rw [h1 k1 t ht])
  · exact forL_map_wr indices elements hlen (fun t => .ok (elemF_rb_small F Ra t.1 t.2.1 t.2.2)) f
      (fun t ht => by rw [h2 k1 k2 t ht])
  · exact forL_map_wr indices elements hlen
      (fun t => elemF_ra_lt_rb F table (F.abs Ra) (F.arg Ra) (F.abs Rb) (F.arg Rb) t.1 t.2.1 t.2.2) f (h3 k1 k2 k3)
  · exact forL_map_wr indices elements hlen
      (fun t => elemF_ra_ge_rb F table (F.abs Ra) (F.arg Ra) (F.abs Rb) (F.arg Rb) t.1 t.2.1 t.2.2) f (h4 k1 k2 k3)

theorem absF_pos {u w : ℝ} {F : FloatOps} (hF : F.Std u w) {eps : ℝ} (he : 0 ≤ eps) {z : ℂ} (h : ¬ F.abs z ≤ eps) : z ≠ 0 := by
  rintro rfl
  have := hF.abs 0
  unfold RelErr at this
  rw [norm_zero, abs_zero, mul_zero, sub_zero] at this
  have := (le_abs_self _).trans this
  exact h (this.trans he)

theorem absF_le {u w : ℝ} {F : FloatOps} (hF : F.Std u w) {eps : ℝ} {z : ℂ} (h : F.abs z ≤ eps) : ‖z‖ ≤ eps / (1 - u) := by
  have hu1 := hF.u_lt_one
  have := hF.abs z
  unfold RelErr at this
  rw [abs_of_nonneg (norm_nonneg z)] at this
  rw [le_div_iff₀ (by linarith)]
  have := (abs_le.mp this).1
  linarith

theorem out_of_range {t : ℤ × ℤ × ℤ} (h : ¬ (|t.2.1| ≤ t.1 ∧ |t.2.2| ≤ t.1)) : |t.2.1| > t.1 ∨ |t.2.2| > t.1 := by
  by_contra hc
  rw [not_or, not_lt, not_lt] at hc
  exact h hc

/-- What C69 says of the value `v` stored for the triple `t` of doubled indices, away from the poles. -/
def GenericAccuracy (u : ℝ) (Ra Rb : ℂ) (t : ℤ × ℤ × ℤ) (v : ℂ) : Prop :=
  (¬ (|t.2.1| ≤ t.1 ∧ |t.2.2| ≤ t.1) → v = 0) ∧
  (|t.2.1| ≤ t.1 → |t.2.2| ≤ t.1 →
    ‖v - Spec.wignerD Ra Rb t.1 t.2.1 t.2.2‖ ≤ floatErr u t.1.toNat * (‖Ra‖ + ‖Rb‖) ^ t.1.toNat ∧
    (|t.2.1| = t.1 ∨ |t.2.2| = t.1 →
      ‖v - Spec.wignerD Ra Rb t.1 t.2.1 t.2.2‖ ≤ floatErr u t.1.toNat * ‖Spec.wignerD Ra Rb t.1 t.2.1 t.2.2‖))

theorem generic_elem {u w : ℝ} {F : FloatOps} (hF : F.Std u w) {L : ℤ} {table : List ℝ} (ht : RoundedTable u L table) {Ra Rb : ℂ}
    (ha : Ra ≠ 0) (hb : Rb ≠ 0) {t : ℤ × ℤ × ℤ} (hi : Lookable L t) :
    (∃ v, elemF_ra_lt_rb F table (F.abs Ra) (F.arg Ra) (F.abs Rb) (F.arg Rb) t.1 t.2.1 t.2.2 = .ok v ∧ GenericAccuracy u Ra Rb t v) ∧
    (∃ v, elemF_ra_ge_rb F table (F.abs Ra) (F.arg Ra) (F.abs Rb) (F.arg Rb) t.1 t.2.1 t.2.2 = .ok v ∧ GenericAccuracy u Ra Rb t v) := by
  by_cases h : |t.2.1| ≤ t.1 ∧ |t.2.2| ≤ t.1
  · obtain ⟨hv, hle⟩ := hi h
    obtain ⟨n, hn⟩ : ∃ n : ℕ, t.1 = n := ⟨t.1.toNat, by have := h.1; have := abs_nonneg t.2.1; omega⟩
    unfold GenericAccuracy
    rw [hn] at hv hle ⊢
    rw [hn] at h
    obtain ⟨v, v1, v2, v3⟩ := elemF_ra_lt_rb_err hF ht ha hb hv hle
    obtain ⟨x, x1, x2, x3⟩ := elemF_ra_ge_rb_err hF ht ha hb hv hle
    rw [Int.toNat_natCast]
    exact ⟨⟨v, v1, fun g => absurd h g, fun _ _ => ⟨v2, v3⟩⟩, ⟨x, x1, fun g => absurd h g, fun _ _ => ⟨x2, x3⟩⟩⟩
  · have z : GenericAccuracy u Ra Rb t 0 := ⟨fun _ => rfl, fun g1 g2 => absurd ⟨g1, g2⟩ h⟩
    refine ⟨⟨0, ?_, z⟩, ⟨0, ?_, z⟩⟩
    · unfold elemF_ra_lt_rb; simp only; rw [if_pos (out_of_range h)]
    · unfold elemF_ra_ge_rb; simp only; rw [if_pos (out_of_range h)]

/-- **C69.** Rounding errors of the D kernel for any pair `(Ra, Rb)` — not necessarily a unit — whose computed moduli exceed the
cut-off: every in-range element differs from the closed form by at most `floatErr u n · (|Ra| + |Rb|)^n`, `n = 2 ell`; the elements
with `|m'| = ell` or `|m| = ell` are accurate in the *relative* sense; out-of-range elements are exactly zero. -/
theorem C69_away_from_poles {u w : ℝ} {F : FloatOps} (hF : F.Std u w) {L : ℤ} {table : List ℝ} (ht : RoundedTable u L table)
    (eps : ℝ) (he : 0 ≤ eps) (Ra Rb : ℂ) (ha : eps < F.abs Ra) (hb : eps < F.abs Rb) (indices : List (ℤ × ℤ × ℤ))
    (elements : List ℂ) (hlen : elements.length = indices.length) (hi : ∀ t ∈ indices, Lookable L t) :
    ∃ f : ℤ × ℤ × ℤ → ℂ, Wigner_D_element_kernelF F eps table Ra Rb indices elements = .ok (indices.map f) ∧
      ∀ t ∈ indices, (¬ (|t.2.1| ≤ t.1 ∧ |t.2.2| ≤ t.1) → f t = 0) ∧
        (|t.2.1| ≤ t.1 → |t.2.2| ≤ t.1 →
          ‖f t - Spec.wignerD Ra Rb t.1 t.2.1 t.2.2‖ ≤ floatErr u t.1.toNat * (‖Ra‖ + ‖Rb‖) ^ t.1.toNat ∧
          (|t.2.1| = t.1 ∨ |t.2.2| = t.1 →
            ‖f t - Spec.wignerD Ra Rb t.1 t.2.1 t.2.2‖ ≤ floatErr u t.1.toNat * ‖Spec.wignerD Ra Rb t.1 t.2.1 t.2.2‖)) := by
  classical
  have ha0 := absF_pos hF he (not_le.mpr ha)
  have hb0 := absF_pos hF he (not_le.mpr hb)
  by_cases hlt : F.abs Ra < F.abs Rb
  · let f : ℤ × ℤ × ℤ → ℂ := fun t => if h : Lookable L t then (generic_elem hF ht ha0 hb0 h).1.choose else 0
    have hf : ∀ (t) (m : t ∈ indices), f t = (generic_elem hF ht ha0 hb0 (hi t m)).1.choose := fun t m => dif_pos (hi t m)
    refine ⟨f, kernelF_map F eps table Ra Rb indices elements hlen f (fun h => absurd ha (not_lt.mpr h))
      (fun _ h => absurd hb (not_lt.mpr h)) (fun _ _ _ t m => ?_) (fun _ _ h => absurd hlt h), fun t m => ?_⟩
    · rw [hf t m]; exact (generic_elem hF ht ha0 hb0 (hi t m)).1.choose_spec.1
    · rw [hf t m]; exact (generic_elem hF ht ha0 hb0 (hi t m)).1.choose_spec.2
  · let f : ℤ × ℤ × ℤ → ℂ := fun t => if h : Lookable L t then (generic_elem hF ht ha0 hb0 h).2.choose else 0
    have hf : ∀ (t) (m : t ∈ indices), f t = (generic_elem hF ht ha0 hb0 (hi t m)).2.choose := fun t m => dif_pos (hi t m)
    refine ⟨f, kernelF_map F eps table Ra Rb indices elements hlen f (fun h => absurd ha (not_lt.mpr h))
      (fun _ h => absurd hb (not_lt.mpr h)) (fun _ _ h => absurd h hlt) (fun _ _ _ t m => ?_), fun t m => ?_⟩
    · rw [hf t m]; exact (generic_elem hF ht ha0 hb0 (hi t m)).2.choose_spec.1
    · rw [hf t m]; exact (generic_elem hF ht ha0 hb0 (hi t m)).2.choose_spec.2

/-- Error of the shortcuts for a modulus `x`, `n = 2 ell`. -/
noncomputable def poleErr (x : ℝ) (n : ℕ) : ℝ := (n + 2) * x + (((1 - x ^ 2) ^ n)⁻¹ - 1)

theorem poleErr_mono {x y : ℝ} (hx : 0 ≤ x) (h : x ≤ y) (hy : y < 1) (n : ℕ) : poleErr x n ≤ poleErr y n := by
  have h2 : x ^ 2 ≤ y ^ 2 := by gcongr
  have h3 : 0 < 1 - y ^ 2 := by nlinarith
  have h4 : (1 - y ^ 2) ^ n ≤ (1 - x ^ 2) ^ n := by gcongr
  have h5 : ((1 - x ^ 2) ^ n)⁻¹ ≤ ((1 - y ^ 2) ^ n)⁻¹ := inv_anti₀ (by positivity) h4
  unfold poleErr
  gcongr

theorem poleErr_nonneg {y : ℝ} (h : 0 ≤ y) (hy : y < 1) (n : ℕ) : 0 ≤ poleErr y n := by
  have := poleErr_mono le_rfl h hy n
  simpa [poleErr] using this

theorem norm_sum_unit {Ra Rb : ℂ} (hu : Spec.IsUnit' Ra Rb) (n : ℕ) : (‖Ra‖ + ‖Rb‖) ^ n ≤ Real.sqrt 2 ^ n := by
  obtain ⟨h1, h2, h3⟩ := unit_norm_le hu
  have : ‖Ra‖ + ‖Rb‖ ≤ Real.sqrt 2 := by
    apply Real.le_sqrt_of_sq_le
    nlinarith [sq_nonneg (‖Ra‖ - ‖Rb‖)]
  have := norm_nonneg Ra
  have := norm_nonneg Rb
  gcongr

theorem Dpq_norm_le {za zb : ℂ} (hu : Spec.IsUnit' za zb) {p' q' p q : ℕ} (hsum : p' + q' = p + q) :
    ‖Spec.Dpq za zb p' q' p q‖ ≤ 1 := by
  by_cases h : q' = q
  · obtain rfl : p' = p := by omega
    subst h
    exact Dpq_diag_le hu _ _
  · have := (Dpq_two_le hu hsum h).1
    have h0 := sq_nonneg ‖Spec.Dpq za zb p' q' p' q'‖
    nlinarith [norm_nonneg (Spec.Dpq za zb p' q' p q)]

theorem wF_nonneg {u w : ℝ} {F : FloatOps} (hF : F.Std u w) : 0 ≤ w := by
  have h := hF.cpow 1 1 one_ne_zero
  rw [one_zpow, norm_one, mul_one] at h
  exact (norm_nonneg _).trans h

theorem combine {w e : ℝ} (hw : 0 ≤ w) {v P D : ℂ} (h1 : ‖v - P‖ ≤ w * ‖P‖) (h2 : ‖P - D‖ ≤ e) (h3 : ‖D‖ ≤ 1) :
    ‖v - D‖ ≤ (1 + w) * e + w := by
  have hP : ‖P‖ ≤ 1 + e := by
    calc ‖P‖ = ‖D + (P - D)‖ := by rw [add_sub_cancel]
      _ ≤ _ := (norm_add_le _ _).trans (add_le_add h3 h2)
  have hs : v - D = (v - P) + (P - D) := by ring
  rw [hs]
  refine (norm_add_le _ _).trans ?_
  have := mul_le_mul_of_nonneg_left hP hw
  linarith

theorem small_elem_ra {u w : ℝ} {F : FloatOps} (hF : F.Std u w) {Ra Rb : ℂ} (hu : Spec.IsUnit' Ra Rb) {x : ℝ} (hx : ‖Ra‖ ≤ x)
    (hx1 : x < 1) {n : ℕ} {mp m : ℤ} (hv : Spec.ValidD n mp m) :
    ‖elemF_ra_small F Rb n mp m - Spec.wignerD Ra Rb n mp m‖ ≤ (1 + w) * poleErr x n + w := by
  obtain ⟨p', q', p, q, hsum, hap, hb, hc⟩ := valid_pq hv
  have hn : n = p + q := by omega
  have hv1 := hv.1
  have hv2 := hv.2.1
  have hz : Rb ≠ 0 := by
    rintro rfl
    obtain ⟨-, -, h⟩ := unit_norm_le hu
    rw [norm_zero] at h
    nlinarith [norm_nonneg Ra]
  rw [wignerD_pq Ra Rb hsum hap hb hc]
  have near := (Dpq_near_ra hu hz hsum).trans (show _ ≤ poleErr x n by
    rw [hn]; exact poleErr_mono (norm_nonneg _) hx hx1 _)
  refine combine (wF_nonneg hF) ?_ near (Dpq_norm_le hu hsum)
  have hc' := hF.cpow Rb m hz
  unfold elemF_ra_small
  rw [← hc]
  by_cases h : p' = q
  · rw [if_neg (by rintro (h | h | h) <;> omega), if_pos h, neg_one_pow_iffC]
    by_cases h4 : ((n : ℤ) - m) % 4 = 0
    · rw [if_pos h4, if_pos (by omega), one_mul]; exact hc'
    · rw [if_neg h4, if_neg (by omega), neg_one_mul, norm_neg, ← neg_sub', norm_neg]; exact hc'
  · rw [if_pos (by left; omega), if_neg h]; simp

theorem small_elem_rb {u w : ℝ} {F : FloatOps} (hF : F.Std u w) {Ra Rb : ℂ} (hu : Spec.IsUnit' Ra Rb) {x : ℝ} (hx : ‖Rb‖ ≤ x)
    (hx1 : x < 1) {n : ℕ} {mp m : ℤ} (hv : Spec.ValidD n mp m) :
    ‖elemF_rb_small F Ra n mp m - Spec.wignerD Ra Rb n mp m‖ ≤ (1 + w) * poleErr x n + w := by
  obtain ⟨p', q', p, q, hsum, hap, hb, hc⟩ := valid_pq hv
  have hn : n = p + q := by omega
  have hv1 := hv.1
  have hv2 := hv.2.1
  have hz : Ra ≠ 0 := by
    rintro rfl
    obtain ⟨-, -, h⟩ := unit_norm_le hu
    rw [norm_zero] at h
    nlinarith [norm_nonneg Rb]
  rw [wignerD_pq Ra Rb hsum hap hb hc]
  have near := (Dpq_near_rb hu hz hsum).trans (show _ ≤ poleErr x n by
    rw [hn]; exact poleErr_mono (norm_nonneg _) hx hx1 _)
  refine combine (wF_nonneg hF) ?_ near (Dpq_norm_le hu hsum)
  have hc' := hF.cpow Ra m hz
  unfold elemF_rb_small
  rw [← hc]
  by_cases h : q' = q
  · rw [if_neg (by rintro (h | h | h) <;> omega), if_pos h]; exact hc'
  · rw [if_pos (by left; omega), if_neg h]; simp

/-- **C69.** Rounding errors of the D kernel at *every* unit rotor, poles and their neighbourhoods included: every in-range element
differs from the D function by at most the larger of `floatErr u n · sqrt(2)^n` (the formula) and `(1+w) e + w` (the shortcuts),
`e = poleErr (eps/(1-u)) n`; out-of-range elements are exactly zero. -/
theorem C69_every_unit_rotor {u w : ℝ} {F : FloatOps} (hF : F.Std u w) {L : ℤ} {table : List ℝ} (ht : RoundedTable u L table)
    (eps : ℝ) (he : 0 ≤ eps) (he1 : eps < 1 - u) (Ra Rb : ℂ) (hu : Spec.IsUnit' Ra Rb) (indices : List (ℤ × ℤ × ℤ))
    (elements : List ℂ) (hlen : elements.length = indices.length) (hi : ∀ t ∈ indices, Lookable L t) :
    ∃ f : ℤ × ℤ × ℤ → ℂ, Wigner_D_element_kernelF F eps table Ra Rb indices elements = .ok (indices.map f) ∧
      ∀ t ∈ indices, (¬ (|t.2.1| ≤ t.1 ∧ |t.2.2| ≤ t.1) → f t = 0) ∧
        (|t.2.1| ≤ t.1 → |t.2.2| ≤ t.1 →
          ‖f t - Spec.wignerD Ra Rb t.1 t.2.1 t.2.2‖
            ≤ max (floatErr u t.1.toNat * Real.sqrt 2 ^ t.1.toNat) ((1 + w) * poleErr (eps / (1 - u)) t.1.toNat + w)) := by
  have hu1 := hF.u_lt_one
  have hx0 : 0 ≤ eps / (1 - u) := div_nonneg he (by linarith)
  have hx1 : eps / (1 - u) < 1 := by rw [div_lt_one (by linarith)]; exact he1
  by_cases k1 : F.abs Ra ≤ eps
  · refine ⟨fun t => elemF_ra_small F Rb t.1 t.2.1 t.2.2, kernelF_map F eps table Ra Rb indices elements hlen _
      (fun _ _ _ => rfl) (fun h => absurd k1 h) (fun h => absurd k1 h) (fun h => absurd k1 h), fun t m => ⟨fun h => ?_, fun g1 g2 => ?_⟩⟩
    · simp only; unfold elemF_ra_small; rw [if_pos (Or.inr (out_of_range h))]
    · have hv := (hi t m ⟨g1, g2⟩).1
      obtain ⟨n, hn⟩ : ∃ n : ℕ, t.1 = n := ⟨t.1.toNat, by have := abs_nonneg t.2.1; omega⟩
      simp only
      rw [hn] at hv ⊢
      rw [Int.toNat_natCast]
      exact (small_elem_ra hF hu (absF_le hF k1) hx1 hv).trans (le_max_right _ _)
  by_cases k2 : F.abs Rb ≤ eps
  · refine ⟨fun t => elemF_rb_small F Ra t.1 t.2.1 t.2.2, kernelF_map F eps table Ra Rb indices elements hlen _
      (fun h => absurd h k1) (fun _ _ _ _ => rfl) (fun _ h => absurd k2 h) (fun _ h => absurd k2 h),
      fun t m => ⟨fun h => ?_, fun g1 g2 => ?_⟩⟩
    · simp only; unfold elemF_rb_small; rw [if_pos (Or.inr (out_of_range h))]
    · have hv := (hi t m ⟨g1, g2⟩).1
      obtain ⟨n, hn⟩ : ∃ n : ℕ, t.1 = n := ⟨t.1.toNat, by have := abs_nonneg t.2.1; omega⟩
      simp only
      rw [hn] at hv ⊢
      rw [Int.toNat_natCast]
      exact (small_elem_rb hF hu (absF_le hF k2) hx1 hv).trans (le_max_right _ _)
  obtain ⟨f, f1, f2⟩ := C69_away_from_poles hF ht eps he Ra Rb (not_le.mp k1) (not_le.mp k2) indices elements hlen hi
  refine ⟨f, f1, fun t m => ⟨(f2 t m).1, fun g1 g2 => ?_⟩⟩
  refine ((f2 t m).2 g1 g2).1.trans (le_trans ?_ (le_max_left _ _))
  apply mul_le_mul_of_nonneg_left (norm_sum_unit hu _)
  unfold floatErr
  have := gam_nonneg hF.u_nonneg hu1 4
  have := gam_nonneg hF.u_nonneg hu1 (t.1.toNat + 8 + 11 * (t.1.toNat / 2))
  have := Real.pi_pos
  positivity

/-- **C69.** Size of the bound for every `ell ≤ 32`.  `u ≤ 2^-50` covers double precision with library functions within a few units
in the last place, and the shipped tables. -/
theorem C69_bound {u : ℝ} (h0 : 0 ≤ u) (hu : u ≤ 2 ^ (-50 : ℤ)) {n : ℕ} (hn : n ≤ 64) : floatErr u n ≤ 20 * (n + 1) * u := by
  have hu' : u ≤ 1 / 10 ^ 15 := hu.trans (by norm_num)
  have hu1 : u < 1 := lt_of_le_of_lt hu' (by norm_num)
  have g : ∀ k : ℕ, k ≤ 424 → gam u k ≤ k * u * (1 + 1 / 10 ^ 6) := by
    intro k hk
    have hk' : (k : ℝ) ≤ 424 := by exact_mod_cast hk
    have hku : (k : ℝ) * u ≤ 1 / 10 ^ 7 := by nlinarith
    have ku0 : 0 ≤ (k : ℝ) * u := by positivity
    have := gam_le h0 hu1 (k := k) (by linarith)
    refine this.trans ?_
    rw [div_le_iff₀ (by linarith)]
    nlinarith
  unfold floatErr
  have hpi := Real.pi_lt_d2
  have hpi0 := Real.pi_pos
  have g1 := g (n + 8 + 11 * (n / 2)) (by omega)
  have g2 := g 4 (by norm_num)
  have hn' : (n : ℝ) ≤ 64 := by exact_mod_cast hn
  have n0 : (0 : ℝ) ≤ n := by positivity
  have e1 : ((n + 8 + 11 * (n / 2) : ℕ) : ℝ) ≤ 6.5 * n + 8 := by
    have : 2 * (n + 8 + 11 * (n / 2)) ≤ 13 * n + 16 := by omega
    have h : (2 : ℝ) * ((n + 8 + 11 * (n / 2) : ℕ) : ℝ) ≤ 13 * n + 16 := by exact_mod_cast this
    linarith
  have f1 : gam u (n + 8 + 11 * (n / 2)) ≤ (6.5 * n + 8) * u * (1 + 1 / 10 ^ 6) := g1.trans (by gcongr)
  have f2 : gam u 4 * (Real.pi * n) ≤ (4 * u * (1 + 1 / 10 ^ 6)) * (3.15 * n) := by
    push_cast at g2
    gcongr
  have : (6.5 * (n : ℝ) + 8) * u * (1 + 1 / 10 ^ 6) + (4 * u * (1 + 1 / 10 ^ 6)) * (3.15 * n) ≤ 20 * (n + 1) * u := by
    have : ((6.5 * (n : ℝ) + 8) * (1 + 1 / 10 ^ 6) + (4 * (1 + 1 / 10 ^ 6)) * (3.15 * n)) ≤ 20 * (n + 1) := by
      norm_num; linarith
    nlinarith [mul_le_mul_of_nonneg_right this h0]
  linarith

/-- **C69.** In numbers: with `u ≤ 2^-50`, the package's `epsilon = 1e-15` and complex powers accurate to
`1e-14`, every element with `ell ≤ 8` at every unit rotor is within `1e-10` of the D function. -/
theorem C69_double {u w : ℝ} {F : FloatOps} (hF : F.Std u w) (hu50 : u ≤ 2 ^ (-50 : ℤ)) (hw : w ≤ 1 / 10 ^ 14) {L : ℤ}
    {table : List ℝ} (ht : RoundedTable u L table) (Ra Rb : ℂ) (hu : Spec.IsUnit' Ra Rb) (indices : List (ℤ × ℤ × ℤ))
    (elements : List ℂ) (hlen : elements.length = indices.length) (hi : ∀ t ∈ indices, Lookable L t) :
    ∃ f : ℤ × ℤ × ℤ → ℂ, Wigner_D_element_kernelF F (1 / 10 ^ 15) table Ra Rb indices elements = .ok (indices.map f) ∧
      ∀ t ∈ indices, |t.2.1| ≤ t.1 → |t.2.2| ≤ t.1 → t.1 ≤ 16 →
          ‖f t - Spec.wignerD Ra Rb t.1 t.2.1 t.2.2‖ ≤ 1 / 10 ^ 10 := by
  have hu0 := hF.u_nonneg
  have hu' : u ≤ 1 / 10 ^ 15 := hu50.trans (by norm_num)
  obtain ⟨f, f1, f2⟩ := C69_every_unit_rotor hF ht (1 / 10 ^ 15) (by norm_num)
    (lt_of_lt_of_le (show (1 : ℝ) / 10 ^ 15 < 1 / 2 by norm_num) (by linarith)) Ra Rb hu indices elements hlen hi
  refine ⟨f, f1, fun t m g1 g2 g3 => ((f2 t m).2 g1 g2).trans ?_⟩
  have hn : t.1.toNat ≤ 16 := by omega
  set n := t.1.toNat
  have hn' : (n : ℝ) ≤ 16 := by exact_mod_cast hn
  have n0 : (0 : ℝ) ≤ n := by positivity
  apply max_le
  · have b := C69_bound hu0 hu50 (show n ≤ 64 by omega)
    have s : Real.sqrt 2 ^ n ≤ 256 := by
      have h1 : (1 : ℝ) ≤ Real.sqrt 2 := by rw [Real.one_le_sqrt]; norm_num
      calc Real.sqrt 2 ^ n ≤ Real.sqrt 2 ^ 16 := pow_le_pow_right₀ h1 hn
        _ = (Real.sqrt 2 ^ 2) ^ 8 := by rw [← pow_mul]
        _ = 256 := by rw [Real.sq_sqrt (by norm_num)]; norm_num
    have b2 : 20 * ((n : ℝ) + 1) * u ≤ 340 * 2 ^ (-50 : ℤ) := by
      have : 20 * ((n : ℝ) + 1) ≤ 340 := by linarith
      gcongr
    calc floatErr u n * Real.sqrt 2 ^ n ≤ (340 * 2 ^ (-50 : ℤ)) * 256 := by
          apply mul_le_mul (b.trans b2) s (by positivity) (by positivity)
      _ ≤ _ := by norm_num
  · set x := 1 / 10 ^ 15 / (1 - u) with hx
    have x1 : x ≤ 2 / 10 ^ 15 := by
      rw [hx, div_le_iff₀ (by linarith)]
      linarith
    have x0 : 0 ≤ x := by rw [hx]; apply div_nonneg (by norm_num); linarith
    have p : poleErr x n ≤ poleErr (2 / 10 ^ 15) 16 := by
      refine (poleErr_mono x0 x1 (by norm_num) n).trans ?_
      unfold poleErr
      have a1 : ((1 - (2 / 10 ^ 15 : ℝ) ^ 2) ^ 16) ≤ ((1 - (2 / 10 ^ 15 : ℝ) ^ 2) ^ n) :=
        pow_le_pow_of_le_one (by norm_num) (by norm_num) hn
      have a2 := inv_anti₀ (by norm_num) a1
      push_cast
      have : ((n : ℝ) + 2) * (2 / 10 ^ 15) ≤ (16 + 2) * (2 / 10 ^ 15) := by gcongr
      linarith
    have p2 : poleErr (2 / 10 ^ 15) 16 ≤ 1 / 10 ^ 13 := by unfold poleErr; norm_num
    have w0 := wF_nonneg hF
    have : (1 + w) * poleErr x n ≤ 2 * (1 / 10 ^ 13) := by
      apply mul_le_mul (by linarith) (p.trans p2) _ (by norm_num)
      exact poleErr_nonneg x0 (lt_of_le_of_lt x1 (by norm_num)) n
    have e : (2 : ℝ) * (1 / 10 ^ 13) + 1 / 10 ^ 14 ≤ 1 / 10 ^ 10 := by norm_num
    linarith

/-! ## Binary rounding with 53 significant bits satisfies the hypotheses -/

/-- Round to nearest, 53 significant bits, unbounded exponent. -/
noncomputable def fl53 (x : ℝ) : ℝ :=
  round (x * 2 ^ (52 - Int.log 2 |x|)) / 2 ^ (52 - Int.log 2 |x|)

theorem fl53_err (x : ℝ) : RelErr (2 ^ (-53 : ℤ)) (fl53 x) x := by
  unfold RelErr fl53
  by_cases h : x = 0
  · simp [h]
  set k := 52 - Int.log 2 |x| with hk
  have p : (0 : ℝ) < 2 ^ k := by positivity
  have l : (2 : ℝ) ^ Int.log 2 |x| ≤ |x| := by
    have := Int.zpow_log_le_self (b := 2) (by norm_num) (abs_pos.mpr h)
    exact_mod_cast this
  have e : (round (x * 2 ^ k) : ℝ) / 2 ^ k - x = (round (x * 2 ^ k) - x * 2 ^ k) / 2 ^ k := by field_simp
  rw [e, abs_div, abs_of_pos p, div_le_iff₀ p, abs_sub_comm]
  refine (abs_sub_round _).trans ?_
  have e2 : (2 : ℝ) ^ (-53 : ℤ) * |x| * 2 ^ k = |x| * 2 ^ (-1 - Int.log 2 |x|) := by
    rw [hk, mul_comm ((2 : ℝ) ^ (-53 : ℤ)), mul_assoc, ← zpow_add₀ (by norm_num)]
    congr 2; ring
  rw [e2, sub_eq_add_neg, zpow_add₀ (by norm_num), zpow_neg, zpow_one, zpow_neg]
  have pl : (0 : ℝ) < 2 ^ Int.log 2 |x| := by positivity
  have : 1 ≤ |x| * (2 ^ Int.log 2 |x|)⁻¹ := by rw [← div_eq_mul_inv, le_div_iff₀ pl, one_mul]; exact l
  have e3 : |x| * ((2 : ℝ)⁻¹ * (2 ^ Int.log 2 |x|)⁻¹) = 2⁻¹ * (|x| * (2 ^ Int.log 2 |x|)⁻¹) := by ring
  rw [e3]
  linarith

/-- Correctly rounded operations. -/
noncomputable def F53 : FloatOps where
  add x y := fl53 (x + y)
  mul x y := fl53 (x * y)
  div x y := fl53 (x / y)
  pow x y := fl53 (x ^ y)
  cos x := fl53 (Real.cos x)
  sin x := fl53 (Real.sin x)
  abs z := fl53 ‖z‖
  arg z := fl53 (Complex.arg z)
  cpow z n := ⟨fl53 (z ^ n).re, fl53 (z ^ n).im⟩

theorem F53_std : F53.Std (2 ^ (-53 : ℤ)) (2 ^ (-53 : ℤ)) where
  u_nonneg := by positivity
  u_lt_one := by norm_num
  add _ _ := fl53_err _
  mul _ _ := fl53_err _
  div _ _ _ := fl53_err _
  pow _ _ _ := fl53_err _
  cos _ := fl53_err _
  sin _ := fl53_err _
  abs _ := by have := fl53_err; simpa [F53] using this _
  arg _ := fl53_err _
  cpow z n _ := by
    have a := fl53_err (z ^ n).re
    have b := fl53_err (z ^ n).im
    unfold RelErr at a b
    have p : (0 : ℝ) ≤ 2 ^ (-53 : ℤ) := by positivity
    apply abs_le_of_sq_le_sq' _ (by positivity) |>.2
    rw [mul_pow, ← Complex.normSq_eq_norm_sq, ← Complex.normSq_eq_norm_sq, Complex.normSq_apply, Complex.normSq_apply]
    have a2 := mul_self_le_mul_self (abs_nonneg _) a
    have b2 := mul_self_le_mul_self (abs_nonneg _) b
    rw [abs_mul_abs_self] at a2 b2
    have e1 : (2 ^ (-53 : ℤ) * |(z ^ n).re|) * (2 ^ (-53 : ℤ) * |(z ^ n).re|) = (2 ^ (-53 : ℤ) : ℝ) ^ 2 * ((z ^ n).re * (z ^ n).re) := by
      rw [← abs_mul_abs_self (z ^ n).re]; ring
    have e2 : (2 ^ (-53 : ℤ) * |(z ^ n).im|) * (2 ^ (-53 : ℤ) * |(z ^ n).im|) = (2 ^ (-53 : ℤ) : ℝ) ^ 2 * ((z ^ n).im * (z ^ n).im) := by
      rw [← abs_mul_abs_self (z ^ n).im]; ring
    rw [e1] at a2
    rw [e2] at b2
    simp only [F53, Complex.sub_re, Complex.sub_im]
    linarith

theorem table53 {L : ℤ} {table : List ℝ} (ht : IsWignerTable L table) : RoundedTable (2 ^ (-53 : ℤ)) L (table.map fl53) :=
  ⟨table, ht, by simp, fun k x hx => ⟨fl53 x, by simp [hx], fl53_err x⟩⟩

/-- Non-vacuity of C69: correctly rounded 53-bit arithmetic, the table for `L = 32`, the rotor `(3 + 4 i)/5` and the rotor `1`,
elements of integer and half-integer degree, in and out of range. -/
example : ∃ table, RoundedTable (2 ^ (-53 : ℤ)) 32 table ∧
    (∃ f : ℤ × ℤ × ℤ → ℂ, Wigner_D_element_kernelF F53 (1 / 10 ^ 15) table (3 / 5) (4 / 5) [(4, 0, 2), (3, -1, 3), (2, 4, 0)] [7, 7, 7]
      = .ok [f (4, 0, 2), f (3, -1, 3), f (2, 4, 0)] ∧ f (2, 4, 0) = 0 ∧
      ‖f (4, 0, 2) - Spec.wignerD (3 / 5) (4 / 5) 4 0 2‖ ≤ 1 / 10 ^ 10) ∧
    (∃ f : ℤ × ℤ × ℤ → ℂ, Wigner_D_element_kernelF F53 (1 / 10 ^ 15) table 1 0 [(4, 2, 2)] [7] = .ok [f (4, 2, 2)] ∧
      ‖f (4, 2, 2) - Spec.wignerD 1 0 4 2 2‖ ≤ 1 / 10 ^ 10) := by
  obtain ⟨t, ht⟩ := IsWignerTable.exists 32 (by norm_num)
  have hi : ∀ t ∈ [((4 : ℤ), (0 : ℤ), (2 : ℤ)), (3, -1, 3), (2, 4, 0)], Lookable 32 t := by
    simp [Lookable, Spec.ValidD]
  have hi' : ∀ t ∈ [((4 : ℤ), (2 : ℤ), (2 : ℤ))], Lookable 32 t := by
    simp [Lookable, Spec.ValidD]
  have u1 : Spec.IsUnit' (3 / 5) (4 / 5) := by
    unfold Spec.IsUnit'
    rw [map_div₀, map_div₀]
    norm_num [Complex.normSq_apply]
  have u2 : Spec.IsUnit' 1 0 := by unfold Spec.IsUnit'; simp
  have tt := table53 ht
  have h50 : (2 : ℝ) ^ (-53 : ℤ) ≤ 2 ^ (-50 : ℤ) := by norm_num
  have hw : (2 : ℝ) ^ (-53 : ℤ) ≤ 1 / 10 ^ 14 := by norm_num
  obtain ⟨f, f1, f2⟩ := C69_double F53_std h50 hw tt (3 / 5) (4 / 5) u1 [(4, 0, 2), (3, -1, 3), (2, 4, 0)] [7, 7, 7] rfl hi
  obtain ⟨g, g1, g2⟩ := C69_every_unit_rotor F53_std tt (1 / 10 ^ 15) (by norm_num) (by norm_num) (3 / 5) (4 / 5) u1
    [(4, 0, 2), (3, -1, 3), (2, 4, 0)] [7, 7, 7] rfl hi
  obtain ⟨h, h1, h2⟩ := C69_double F53_std h50 hw tt 1 0 u2 [(4, 2, 2)] [7] rfl hi'
  have hfg : f (2, 4, 0) = g (2, 4, 0) := by
    rw [f1] at g1
    injection g1 with g1
    simp only [List.map_cons, List.map_nil, List.cons.injEq] at g1
    exact g1.2.2.1
  refine ⟨t.map fl53, tt, ⟨f, f1, ?_, f2 _ (by simp) (by norm_num) (by norm_num) (by norm_num)⟩,
    ⟨h, h1, h2 _ (by simp) (by norm_num) (by norm_num) (by norm_num)⟩⟩
  rw [hfg]
  exact (g2 (2, 4, 0) (by simp)).1 (by norm_num)

end SF
