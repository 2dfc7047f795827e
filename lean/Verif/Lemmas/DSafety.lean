import Verif.Lemmas.DMatrices
import Verif.Lemmas.Rep
import Verif.Model.WignerDApi
import Mathlib.Data.Nat.Choose.Vandermonde

set_option autoImplicit false

namespace SF

open Finset ComplexConjugate

/-! ## No lookup fails, whatever the parity of the indices -/

theorem Wigner_index_parity (a b c : ℤ) :
    Wigner_index a b c = Wigner_index a (2 * ((a + b) / 2) - a) (2 * ((a + c) / 2) - a) := by
  unfold Wigner_index
  have h1 : (a + (2 * ((a + b) / 2) - a)) / 2 = (a + b) / 2 := by omega
  have h2 : (a + (2 * ((a + c) / 2) - a)) / 2 = (a + c) / 2 := by omega
  rw [h1, h2]

theorem coeff_two_total {L : ℤ} {table : List ℝ} (ht : IsWignerTable L table) {a b c : ℤ}
    (hb : |b| ≤ a) (hc : |c| ≤ a) (hle : a ≤ 2 * L) : ∃ v, Wigner_coefficient_two table a b c = .ok v := by
  unfold Wigner_coefficient_two
  rw [Wigner_index_parity]
  rw [abs_le] at hb hc
  have hv : Spec.ValidD a (2 * ((a + b) / 2) - a) (2 * ((a + c) / 2) - a) := by
    refine ⟨?_, ?_, by omega, by omega⟩ <;> rw [abs_le] <;> omega
  obtain ⟨p', q', p, q, h1, h2, h3, h4⟩ := valid_pq hv
  exact ⟨_, coeff_two ht h1 h2 h3 h4 hle⟩

theorem hornerLoop2_total (x : ℝ) (N1 N2 M hi lo : ℤ) (h0 : 0 ≤ lo) (h1 : -M ≤ lo) :
    ∃ S, hornerLoop2 x N1 N2 M hi lo = .ok S := by
  unfold hornerLoop2
  obtain ⟨s, hs, -⟩ := forL_inv (fun _ _ => True) (pyRangeDown2 hi lo) (1 : ℝ) (fun tworho Sum => do
    let q ← pyDiv (x * (((N1 - tworho) * (N2 - tworho) : ℤ) : ℝ)) ((tworho * (M + tworho) : ℤ) : ℝ)
    return Sum * q + 1) trivial (by
      intro pre t post s hx _
      have hm : t ∈ pyRangeDown2 hi lo := by rw [hx]; simp
      unfold pyRangeDown2 at hm
      simp only [List.mem_map, List.mem_range] at hm
      obtain ⟨k, hk, rfl⟩ := hm
      have hlt : lo < hi - 2 * (k : ℤ) := by omega
      have hne : (((hi - 2 * (k : ℤ)) * (M + (hi - 2 * (k : ℤ))) : ℤ) : ℝ) ≠ 0 := by
        rw [Int.cast_ne_zero]
        exact mul_ne_zero (by omega) (by omega)
      unfold pyDiv
      rw [if_neg hne]
      exact ⟨_, rfl, trivial⟩)
  exact ⟨s, hs⟩

theorem elem_ra_lt_rb_total {L : ℤ} {table : List ℝ} (ht : IsWignerTable L table) (ra phia rb phib : ℝ)
    {a b c : ℤ} (hle : |b| ≤ a → |c| ≤ a → a ≤ 2 * L) :
    ∃ v, elem_ra_lt_rb table ra phia rb phib a b c = .ok v := by
  unfold elem_ra_lt_rb
  simp only
  by_cases h : |b| > a ∨ |c| > a
  · rw [if_pos h]; exact ⟨_, rfl⟩
  · rw [if_neg h]
    rw [not_or, not_lt, not_lt] at h
    obtain ⟨v, hv⟩ := coeff_two_total ht (b := -b) (by rw [abs_neg]; exact h.1) h.2 (hle h.1 h.2)
    rw [hv, bind_ok]
    split_ifs
    · exact ⟨_, rfl⟩
    all_goals
      obtain ⟨S, hS⟩ := hornerLoop2_total (-ra * ra / (rb * rb)) (a - b + 2) (a - c + 2) (c + b)
        (min (a - b) (a - c)) (max 0 (-b - c)) (by simp) (by omega)
      rw [hS]
      exact ⟨_, rfl⟩

theorem elem_ra_ge_rb_total {L : ℤ} {table : List ℝ} (ht : IsWignerTable L table) (ra phia rb phib : ℝ)
    {a b c : ℤ} (hle : |b| ≤ a → |c| ≤ a → a ≤ 2 * L) :
    ∃ v, elem_ra_ge_rb table ra phia rb phib a b c = .ok v := by
  unfold elem_ra_ge_rb
  simp only
  by_cases h : |b| > a ∨ |c| > a
  · rw [if_pos h]; exact ⟨_, rfl⟩
  · rw [if_neg h]
    rw [not_or, not_lt, not_lt] at h
    obtain ⟨v, hv⟩ := coeff_two_total ht (b := b) h.1 h.2 (hle h.1 h.2)
    rw [hv, bind_ok]
    split_ifs
    · exact ⟨_, rfl⟩
    all_goals
      obtain ⟨S, hS⟩ := hornerLoop2_total (-rb * rb / (ra * ra)) (a + b + 2) (a - c + 2) (c - b)
        (min (a + b) (a - c)) (max 0 (b - c)) (by simp) (by omega)
      rw [hS]
      exact ⟨_, rfl⟩

theorem elem_ra_small_total {Rb : ℂ} (h : Rb ≠ 0) (a b c : ℤ) : ∃ v, elem_ra_small Rb a b c = .ok v := by
  unfold elem_ra_small
  rw [cpowInt_ok h]
  split_ifs <;> exact ⟨_, rfl⟩

theorem elem_rb_small_total {Ra : ℂ} (h : Ra ≠ 0) (a b c : ℤ) : ∃ v, elem_rb_small Ra a b c = .ok v := by
  unfold elem_rb_small
  rw [cpowInt_ok h]
  split_ifs <;> exact ⟨_, rfl⟩

/-- What the element kernel stores for one triple, for any rotor. -/
noncomputable def elemAny (table : List ℝ) (Ra Rb : ℂ) (t : ℤ × ℤ × ℤ) : Py ℂ :=
  open scoped Classical in
  if ‖Ra‖ ≤ epsilon then elem_ra_small Rb t.1 t.2.1 t.2.2
  else if ‖Rb‖ ≤ epsilon then elem_rb_small Ra t.1 t.2.1 t.2.2
  else if ‖Ra‖ < ‖Rb‖ then
    elem_ra_lt_rb table ‖Ra‖ (Complex.arg Ra) ‖Rb‖ (Complex.arg Rb) t.1 t.2.1 t.2.2
  else elem_ra_ge_rb table ‖Ra‖ (Complex.arg Ra) ‖Rb‖ (Complex.arg Rb) t.1 t.2.1 t.2.2

/-- The kernel is `elements[i] = elemAny(indices[i])`. -/
theorem kernel_eq_map {table : List ℝ} {Ra Rb : ℂ} (indices : List (ℤ × ℤ × ℤ)) (elements : List ℂ)
    (hlen : elements.length = indices.length) (f : ℤ × ℤ × ℤ → ℂ)
    (hf : ∀ t ∈ indices, elemAny table Ra Rb t = .ok (f t)) :
    Wigner_D_element_kernel table Ra Rb indices elements = .ok (indices.map f) := by
  unfold Wigner_D_element_kernel
  unfold elemAny at hf
  simp only
  split_ifs with h1 h2 h3
  · exact forL_map_wr indices elements hlen (fun t => elem_ra_small Rb t.1 t.2.1 t.2.2) f
      (fun t htm => by simpa [h1] using hf t htm)
  · exact forL_map_wr indices elements hlen (fun t => elem_rb_small Ra t.1 t.2.1 t.2.2) f
      (fun t htm => by simpa only [h1, h2, if_true, if_false] using hf t htm)
  · exact forL_map_wr indices elements hlen
      (fun t => elem_ra_lt_rb table ‖Ra‖ (Complex.arg Ra) ‖Rb‖ (Complex.arg Rb) t.1 t.2.1 t.2.2) f
      (fun t htm => by simpa only [h1, h2, h3, if_true, if_false] using hf t htm)
  · exact forL_map_wr indices elements hlen
      (fun t => elem_ra_ge_rb table ‖Ra‖ (Complex.arg Ra) ‖Rb‖ (Complex.arg Rb) t.1 t.2.1 t.2.2) f
      (fun t htm => by simpa only [h1, h2, h3, if_true, if_false] using hf t htm)

theorem elemAny_total {L : ℤ} {table : List ℝ} (ht : IsWignerTable L table) {Ra Rb : ℂ}
    (hu : Spec.IsUnit' Ra Rb) {t : ℤ × ℤ × ℤ} (hle : |t.2.1| ≤ t.1 → |t.2.2| ≤ t.1 → t.1 ≤ 2 * L) :
    ∃ v, elemAny table Ra Rb t = .ok v := by
  unfold elemAny
  split_ifs with h1 h2 h3
  · exact elem_ra_small_total (unit_ra_small hu h1) _ _ _
  · exact elem_rb_small_total (unit_rb_small hu h2) _ _ _
  · exact elem_ra_lt_rb_total ht _ _ _ _ hle
  · exact elem_ra_ge_rb_total ht _ _ _ _ hle

/-- The value for an arbitrary unit rotor, for integer indices. -/
theorem elemAny_any {L : ℤ} {table : List ℝ} (ht : IsWignerTable L table) {Ra Rb : ℂ}
    (hu : Spec.IsUnit' Ra Rb) {ell mp m : ℤ} (h1 : |mp| ≤ ell) (h2 : |m| ≤ ell) (hle : ell ≤ L) :
    elemAny table Ra Rb (2 * ell, 2 * mp, 2 * m) = .ok (Dret Ra Rb ell mp m) := by
  have hv := validD_int h1 h2
  have a1 := abs_le.mp h1
  have a2 := abs_le.mp h2
  have v1 := hv.1
  have v2 := hv.2.1
  unfold elemAny
  split_ifs with k1 k2 k3
  · simp only
    unfold elem_ra_small
    rw [cpowInt_ok (unit_ra_small hu k1), Dret_ra k1]
    by_cases hm : mp = -m
    · have e : 2 * m = -2 * mp := by omega
      rw [if_neg (by rintro (h | h | h) <;> omega), if_pos hm, e]
      by_cases h4 : (ell + mp) % 2 = 0
      · rw [if_pos (by omega), if_pos h4, one_mul]
      · rw [if_neg (by omega), if_neg h4, neg_one_mul]; rfl
    · rw [if_pos (by left; omega), if_neg hm]
  · simp only
    unfold elem_rb_small
    rw [cpowInt_ok (unit_rb_small hu k2), Dret_rb k1 k2]
    by_cases hm : mp = m
    · subst hm
      rw [if_neg (by rintro (h | h | h) <;> omega), if_pos rfl]
    · rw [if_pos (by left; omega), if_neg hm]
  · rw [Dret_gen k1 k2]
    exact elem_ra_lt_rb_eq ht (pos_of_eps k2) hv (by omega)
  · rw [Dret_gen k1 k2]
    exact elem_ra_ge_rb_eq ht (pos_of_eps k1) hv (by omega)

theorem kernel_total {L : ℤ} {table : List ℝ} (ht : IsWignerTable L table) {Ra Rb : ℂ}
    (hu : Spec.IsUnit' Ra Rb) (indices : List (ℤ × ℤ × ℤ))
    (hi : ∀ t ∈ indices, |t.2.1| ≤ t.1 → |t.2.2| ≤ t.1 → t.1 ≤ 2 * L) (elements : List ℂ)
    (hlen : elements.length = indices.length) :
    ∃ out, Wigner_D_element_kernel table Ra Rb indices elements = .ok out ∧ out.length = indices.length := by
  refine ⟨_, kernel_eq_map indices elements hlen
    (fun t => match elemAny table Ra Rb t with | .ok v => v | .error _ => 0) ?_, by simp⟩
  intro t htm
  obtain ⟨v, hv⟩ := elemAny_total ht hu (t := t) (hi t htm)
  rw [hv]

/-! ## Size of the error of the small-angle shortcuts -/

theorem unit_norm_le {za zb : ℂ} (hu : Spec.IsUnit' za zb) : ‖za‖ ≤ 1 ∧ ‖zb‖ ≤ 1 ∧ ‖zb‖ ^ 2 = 1 - ‖za‖ ^ 2 := by
  unfold Spec.IsUnit' at hu
  rw [Complex.normSq_eq_norm_sq, Complex.normSq_eq_norm_sq] at hu
  refine ⟨?_, ?_, by linarith⟩ <;> nlinarith [norm_nonneg za, norm_nonneg zb]

end SF
