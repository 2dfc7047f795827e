import Verif.Lemmas.ThreeJ

/-!
# Orthogonality of the 3-j symbols
-/

set_option autoImplicit false

namespace SF

open Finset Spec

/-- The overlap of two rows: `Σ_{m2} (j j2 j3; m1 m2 -m1-m2) (j' j2 j3; m1 m2 -m1-m2)`. -/
noncomputable def overlap (j j' j2 j3 m1 : ℤ) : ℝ :=
  ∑ᶠ m2 : ℤ, threeJ j j2 j3 m1 m2 (-m1 - m2) * threeJ j' j2 j3 m1 m2 (-m1 - m2)

theorem threeJ_m2_zero {j1 j2 j3 m1 m2 m3 : ℤ} (h : m2 < -j2 ∨ j2 < m2) : threeJ j1 j2 j3 m1 m2 m3 = 0 :=
  threeJ_eq_zero fun ha => by have := abs_le.1 ha.2.2.1; omega

theorem overlap_comm (j j' j2 j3 m1 : ℤ) : overlap j j' j2 j3 m1 = overlap j' j j2 j3 m1 :=
  finsum_congr fun _ => mul_comm _ _

theorem overlap_eq_sum (j j' j2 j3 m1 : ℤ) : overlap j j' j2 j3 m1 =
    ∑ m2 ∈ Icc (-j2) j2, threeJ j j2 j3 m1 m2 (-m1 - m2) * threeJ j' j2 j3 m1 m2 (-m1 - m2) := by
  unfold overlap
  refine finsum_eq_sum_of_support_subset _ ?_
  intro k hk
  rw [Finset.coe_Icc, Set.mem_Icc]
  by_contra hc
  exact hk (by show _ * _ = _; rw [threeJ_m2_zero (by omega), zero_mul])

theorem overlap_step (j j' j2 j3 m : ℤ) : lad j m * overlap j j' j2 j3 (m + 1) = lad j' m * overlap j j' j2 j3 m := by
  unfold overlap
  set a : ℤ → ℝ := fun k => lad j2 k * threeJ j j2 j3 m (k + 1) (-1 - m - k) * threeJ j' j2 j3 (m + 1) k (-1 - m - k) with ha
  set b : ℤ → ℝ := fun k => lad j3 (-1 - m - k) * threeJ j j2 j3 m k (-m - k) * threeJ j' j2 j3 (m + 1) k (-1 - m - k) with hb
  have hsa : (Function.support a).Finite := support_finite (a := -j2) (b := j2) fun k hk => by
    simp only [ha]; rw [threeJ_m2_zero (m2 := k) (by omega)]; ring
  have hsb : (Function.support b).Finite := support_finite (a := -j2) (b := j2) fun k hk => by
    simp only [hb]; rw [threeJ_m2_zero (m2 := k) (by omega)]; ring
  have hsa' : (Function.support fun k => a (k - 1)).Finite := support_finite (a := -j2 + 1) (b := j2 + 1) fun k hk => by
    simp only [ha]; rw [threeJ_m2_zero (m2 := k - 1) (m1 := m + 1) (by omega)]; ring
  have hw : ∀ (j j' m : ℤ), (Function.support fun m2 => threeJ j j2 j3 m m2 (-m - m2) * threeJ j' j2 j3 m m2 (-m - m2)).Finite :=
    fun j j' m => support_finite (a := -j2) (b := j2) fun k hk => by rw [threeJ_m2_zero (by omega), zero_mul]
  rw [mul_finsum' _ _ (hw _ _ _), mul_finsum' _ _ (hw _ _ _)]
  have e1 : ∀ k, lad j m * (threeJ j j2 j3 (m + 1) k (-(m + 1) - k) * threeJ j' j2 j3 (m + 1) k (-(m + 1) - k))
      = -(a k + b k) := by
    intro k
    have := threeJ_raise (j1 := j) (j2 := j2) (j3 := j3) (m1 := m) (m2 := k) (m3 := -1 - m - k) (by ring)
    rw [show -1 - m - k + 1 = -m - k by ring] at this
    rw [show -(m + 1) - k = -1 - m - k by ring]
    simp only [ha, hb]
    linear_combination threeJ j' j2 j3 (m + 1) k (-1 - m - k) * this
  have e2 : ∀ k, lad j' m * (threeJ j j2 j3 m k (-m - k) * threeJ j' j2 j3 m k (-m - k)) = -(a (k - 1) + b k) := by
    intro k
    have := threeJ_lower (j1 := j') (j2 := j2) (j3 := j3) (m1 := m + 1) (m2 := k) (m3 := -m - k) (by ring)
    rw [show m + 1 - 1 = m by ring, show -m - k - 1 = -1 - m - k by ring] at this
    simp only [ha, hb]
    rw [show k - 1 + 1 = k by ring, show -1 - m - (k - 1) = -m - k by ring]
    linear_combination threeJ j j2 j3 m k (-m - k) * this
  rw [finsum_congr e1, finsum_congr e2, finsum_neg_distrib, finsum_neg_distrib, finsum_add_distrib hsa hsb,
    finsum_add_distrib hsa' hsb, ← finsum_comp_equiv (Equiv.subRight (1 : ℤ)) (f := a)]
  rfl

theorem lad_pos {j m : ℤ} (h1 : -j ≤ m) (h2 : m < j) : 0 < lad j m := by
  unfold lad
  refine Real.sqrt_pos.2 ?_
  have : 0 < (j - m) * (j + m + 1) := mul_pos (by omega) (by omega)
  exact_mod_cast this

theorem lad_top (j : ℤ) : lad j j = 0 := by unfold lad; simp

theorem overlap_off {j j' j2 j3 m : ℤ} (hne : j < j') (h1 : -j ≤ m) (h2 : m ≤ j) : overlap j j' j2 j3 m = 0 := by
  obtain ⟨n, hn⟩ := Int.eq_ofNat_of_zero_le (show 0 ≤ j - m by omega)
  induction n generalizing m with
  | zero =>
    have hm : m = j := by simp at hn; omega
    subst hm
    have := overlap_step m j' j2 j3 m
    rw [lad_top, zero_mul] at this
    rcases mul_eq_zero.1 this.symm with h | h
    · exact absurd h (lad_pos (by omega) (by omega)).ne'
    · exact h
  | succ n ih =>
    have h := ih (m := m + 1) (by omega) (by push_cast at hn; omega) (by push_cast at hn ⊢; omega)
    have := overlap_step j j' j2 j3 m
    rw [h, mul_zero] at this
    rcases mul_eq_zero.1 this.symm with h | h
    · exact absurd h (lad_pos (by omega) (by push_cast at hn; omega)).ne'
    · exact h

theorem overlap_const {j j2 j3 m : ℤ} (h1 : -j ≤ m) (h2 : m ≤ j) : overlap j j j2 j3 m = overlap j j j2 j3 j := by
  obtain ⟨n, hn⟩ := Int.eq_ofNat_of_zero_le (show 0 ≤ j - m by omega)
  induction n generalizing m with
  | zero => rw [show m = j by simp at hn; omega]
  | succ n ih =>
    rw [← ih (m := m + 1) (by omega) (by push_cast at hn; omega) (by push_cast at hn ⊢; omega)]
    have := overlap_step j j j2 j3 m
    exact (mul_left_cancel₀ (lad_pos (by omega) (by push_cast at hn; omega)).ne' this).symm

/-- Vandermonde's identity in the upper indices. -/
theorem choose_upper (b : ℕ) : ∀ c a : ℕ, ∑ i ∈ range (a + 1), (i + b).choose b * (a - i + c).choose c
    = (a + b + c + 1).choose (b + c + 1) := by
  intro c
  induction c with
  | zero =>
    intro a
    simp only [Nat.choose_zero_right, mul_one, Nat.add_zero]
    exact Nat.sum_range_add_choose a b
  | succ c ihc =>
    intro a
    induction a with
    | zero => simp
    | succ a iha =>
      have e : ∀ i ∈ range (a + 2), (i + b).choose b * (a + 1 - i + (c + 1)).choose (c + 1)
          = (i + b).choose b * (a + 1 - i + c).choose c + (i + b).choose b * (a + 1 - i + c).choose (c + 1) := by
        intro i _
        rw [← Nat.mul_add, show a + 1 - i + (c + 1) = (a + 1 - i + c) + 1 by ring, Nat.choose_succ_succ]
      rw [Finset.sum_congr rfl e, Finset.sum_add_distrib, ihc (a + 1), Finset.sum_range_succ]
      have e2 : ∀ i ∈ range (a + 1), (i + b).choose b * (a + 1 - i + c).choose (c + 1)
          = (i + b).choose b * (a - i + (c + 1)).choose (c + 1) := by
        intro i hi
        rw [Finset.mem_range] at hi
        rw [show a + 1 - i + c = a - i + (c + 1) by omega]
      rw [Finset.sum_congr rfl e2, iha]
      simp only [Nat.sub_self, Nat.zero_add, Nat.choose_succ_self, mul_zero, Nat.add_zero]
      rw [show a + 1 + b + (c + 1) + 1 = (a + 1 + b + c + 1) + 1 by ring,
        show b + (c + 1) + 1 = (b + c + 1) + 1 by ring, Nat.choose_succ_succ (a + 1 + b + c + 1) (b + c + 1)]
      rw [show a + b + (c + 1) + 1 = a + 1 + b + c + 1 by ring]

theorem rsum_single (c x y1 y2 : ℤ) : rsum c 0 x y1 y2 = invFact c * invFact x * invFact y1 * invFact y2 := by
  unfold rsum
  rw [finsum_eq_single _ (0 : ℤ)]
  · unfold rterm; simp [invFact_zero]
  · intro k hk
    exact rterm_zero (by omega)

theorem fact_natCast (n : ℕ) : fact (n : ℤ) = (n.factorial : ℝ) := by unfold fact; simp

theorem invFact_natCast (n : ℕ) : invFact (n : ℤ) = ((n.factorial : ℕ) : ℝ)⁻¹ := by unfold invFact; simp

/-- `i ↦ i - j`. -/
def subEmb (j : ℤ) : ℕ ↪ ℤ := ⟨fun i : ℕ => (i : ℤ) - j, by intro x y h; simpa using h⟩

theorem subEmb_apply (j : ℤ) (i : ℕ) : subEmb j i = (i : ℤ) - j := rfl

/-- Normalisation at the top. -/
theorem overlap_top {j j2 j3 : ℤ} (h1 : |j2 - j3| ≤ j) (h2 : j ≤ j2 + j3) : overlap j j j2 j3 j = 1 / (2 * j + 1) := by
  rw [abs_le] at h1
  obtain ⟨a, ha⟩ := Int.eq_ofNat_of_zero_le (show 0 ≤ j2 + j3 - j by omega)
  obtain ⟨b, hb⟩ := Int.eq_ofNat_of_zero_le (show 0 ≤ j - j2 + j3 by omega)
  obtain ⟨c, hc⟩ := Int.eq_ofNat_of_zero_le (show 0 ≤ j + j2 - j3 by omega)
  have val : ∀ m2, threeJ j j2 j3 j m2 (-j - m2) * threeJ j j2 j3 j m2 (-j - m2)
      = triF j j2 j3 * (muF j j ^ 2 * muF j2 m2 ^ 2 * muF j3 (-j - m2) ^ 2)
        * (invFact c * invFact (j2 + m2) * invFact b * invFact (j3 - j - m2)) ^ 2 := by
    intro m2
    rw [threeJ_eq (by ring), show j - j = 0 by ring, rsum_single, show j3 - j2 + j = (b : ℤ) by omega, hc]
    have hs := Real.sq_sqrt (triF_pos j j2 j3).le
    have hp : ((-1 : ℝ) ^ (j - j2 - (-j - m2))) ^ 2 = 1 := by
      rcases Int.even_or_odd (j - j2 - (-j - m2)) with h | h <;> rw [h.neg_one_zpow] <;> norm_num
    linear_combination (Real.sqrt (triF j j2 j3) ^ 2 * (muF j j * muF j2 m2 * muF j3 (-j - m2)) ^ 2
      * (invFact c * invFact (j2 + m2) * invFact b * invFact (j3 - j - m2)) ^ 2) * hp
      + (muF j j * muF j2 m2 * muF j3 (-j - m2)) ^ 2
      * (invFact c * invFact (j2 + m2) * invFact b * invFact (j3 - j - m2)) ^ 2 * hs
  unfold overlap
  rw [finsum_congr val, finsum_eq_sum_of_support_subset (s := (range (a + 1)).map (subEmb j2))]
  · rw [Finset.sum_map]
    simp only [subEmb_apply]
    have e : ∀ i ∈ range (a + 1), triF j j2 j3 * (muF j j ^ 2 * muF j2 ((i : ℤ) - j2) ^ 2 * muF j3 (-j - ((i : ℤ) - j2)) ^ 2)
        * (invFact c * invFact (j2 + ((i : ℤ) - j2)) * invFact b * invFact (j3 - j - ((i : ℤ) - j2))) ^ 2
        = triF j j2 j3 * ((b + c).factorial : ℝ) * ((b.factorial : ℝ)⁻¹ * (c.factorial : ℝ)⁻¹)
          * (((i + b).choose b * (a - i + c).choose c : ℕ) : ℝ) := by
      intro i hi
      rw [Finset.mem_range] at hi
      rw [muF_sq, muF_sq, muF_sq, show j - j = ((0 : ℕ) : ℤ) by simp, show j + j = ((b + c : ℕ) : ℤ) by push_cast; omega,
        show j2 + ((i : ℤ) - j2) = ((i : ℕ) : ℤ) by ring,
        show j2 - ((i : ℤ) - j2) = ((a - i + c : ℕ) : ℤ) by push_cast [show i ≤ a by omega]; omega,
        show j3 + (-j - ((i : ℤ) - j2)) = ((a - i : ℕ) : ℤ) by push_cast [show i ≤ a by omega]; omega,
        show j3 - (-j - ((i : ℤ) - j2)) = ((i + b : ℕ) : ℤ) by push_cast; omega,
        show j3 - j - ((i : ℤ) - j2) = ((a - i : ℕ) : ℤ) by push_cast [show i ≤ a by omega]; omega]
      simp only [fact_natCast, invFact_natCast]
      have c1 := Nat.add_choose_mul_factorial_mul_factorial i b
      have c2 := Nat.add_choose_mul_factorial_mul_factorial (a - i) c
      have d1 : ((i + b).choose b : ℝ) * (i.factorial : ℝ) * (b.factorial : ℝ) = ((i + b).factorial : ℝ) := by
        rw [← c1]; push_cast; ring
      have d2 : ((a - i + c).choose c : ℝ) * ((a - i).factorial : ℝ) * (c.factorial : ℝ) = ((a - i + c).factorial : ℝ) := by
        rw [← c2]; push_cast; ring
      have n1 : (i.factorial : ℝ) ≠ 0 := by positivity
      have n2 : (b.factorial : ℝ) ≠ 0 := by positivity
      have n3 : ((a - i).factorial : ℝ) ≠ 0 := by positivity
      have n4 : (c.factorial : ℝ) ≠ 0 := by positivity
      rw [← d1, ← d2]
      push_cast
      field_simp
      simp
    rw [Finset.sum_congr rfl e, ← Finset.mul_sum, ← Nat.cast_sum, choose_upper]
    unfold triF
    rw [hc, hb, show -j + j2 + j3 = (a : ℤ) by omega, show j + j2 + j3 + 1 = ((a + b + c + 1 : ℕ) : ℤ) by push_cast; omega]
    simp only [fact_natCast]
    have c1 := Nat.add_choose_mul_factorial_mul_factorial a (b + c + 1)
    have d1 : ((a + (b + c + 1)).choose (b + c + 1) : ℝ) * (a.factorial : ℝ) * ((b + c + 1).factorial : ℝ)
        = ((a + (b + c + 1)).factorial : ℝ) := by
      rw [← c1]; push_cast; ring
    rw [show a + b + c + 1 = a + (b + c + 1) by ring, ← d1, Nat.factorial_succ]
    have n0 : (0 : ℝ) < ((a + (b + c + 1)).choose (b + c + 1) : ℝ) := by
      exact_mod_cast Nat.choose_pos (by omega)
    have n1 : (a.factorial : ℝ) ≠ 0 := by positivity
    have n2 : (b.factorial : ℝ) ≠ 0 := by positivity
    have n4 : (c.factorial : ℝ) ≠ 0 := by positivity
    have n5 : ((b + c).factorial : ℝ) ≠ 0 := by positivity
    have hj : (2 * j + 1 : ℝ) = b + c + 1 := by
      have : 2 * j + 1 = (b : ℤ) + c + 1 := by omega
      exact_mod_cast this
    rw [hj]
    have n6 : (b + c + 1 : ℝ) ≠ 0 := by positivity
    push_cast
    field_simp
  · intro k hk
    rw [Finset.coe_map, Set.mem_image]
    by_cases h : 0 ≤ j2 + k ∧ 0 ≤ j3 - j - k
    · exact ⟨(j2 + k).toNat, by simp only [Finset.coe_range, Set.mem_Iio]; omega,
        by rw [subEmb_apply]; omega⟩
    · refine absurd ?_ hk
      rcases not_and_or.1 h with h | h
      · simp only; rw [invFact_neg (show j2 + k < 0 by omega)]; ring
      · simp only; rw [invFact_neg (show j3 - j - k < 0 by omega)]; ring

/-- First orthogonality relation. -/
theorem threeJ_orth_m {j j' j2 j3 m1 : ℤ} (h1 : |j2 - j3| ≤ j) (h2 : j ≤ j2 + j3) (hm : |m1| ≤ j) (hm' : |m1| ≤ j') :
    ∑ m2 ∈ Icc (-j2) j2, threeJ j j2 j3 m1 m2 (-m1 - m2) * threeJ j' j2 j3 m1 m2 (-m1 - m2)
      = if j = j' then 1 / (2 * (j : ℝ) + 1) else 0 := by
  rw [← overlap_eq_sum]
  have hm2 := abs_le.1 hm
  have hm2' := abs_le.1 hm'
  rcases lt_trichotomy j j' with h | h | h
  · rw [if_neg h.ne, overlap_off h (by omega) (by omega)]
  · subst h; rw [if_pos rfl, overlap_const (by omega) (by omega), overlap_top h1 h2]
  · rw [if_neg h.ne', overlap_comm, overlap_off h (by omega) (by omega)]

/-- Second orthogonality relation. -/
theorem threeJ_orth_j {j2 j3 m1 m2 m2' : ℤ} (hm2 : |m2| ≤ j2) (hm3 : |-m1 - m2| ≤ j3) (hm2' : |m2'| ≤ j2)
    (hm3' : |-m1 - m2'| ≤ j3) :
    ∑ j ∈ Icc (max |j2 - j3| |m1|) (j2 + j3), (2 * (j : ℝ) + 1)
      * (threeJ j j2 j3 m1 m2 (-m1 - m2) * threeJ j j2 j3 m1 m2' (-m1 - m2')) = if m2 = m2' then 1 else 0 := by
  classical
  rw [abs_le] at hm2 hm3 hm2' hm3'
  set jlo := max |j2 - j3| |m1| with hjlo
  set lo := max (-j2) (-j3 - m1) with hlo
  set hi := min j2 (j3 - m1) with hhi
  obtain ⟨M, hM⟩ : ∃ M : Matrix (Icc jlo (j2 + j3)) (Icc lo hi) ℝ, ∀ j m, M j m =
      Real.sqrt (2 * ((j : ℤ) : ℝ) + 1) * threeJ j j2 j3 m1 m (-m1 - m) := ⟨_, fun _ _ => rfl⟩
  have hjpos : ∀ j : Icc jlo (j2 + j3), (0 : ℝ) ≤ 2 * ((j : ℤ) : ℝ) + 1 := by
    intro j
    have := (Finset.mem_Icc.1 j.2).1
    have h0 : 0 ≤ jlo := le_trans (abs_nonneg _) (le_max_left _ _)
    have : (0 : ℤ) ≤ 2 * (j : ℤ) + 1 := by omega
    exact_mod_cast this
  have hMM : M * M.transpose = 1 := by
    ext j j'
    rw [Matrix.mul_apply]
    simp only [Matrix.transpose_apply, hM]
    have hj := Finset.mem_Icc.1 j.2
    have hj' := Finset.mem_Icc.1 j'.2
    have e : ∑ x : Icc lo hi, (Real.sqrt (2 * ((j : ℤ) : ℝ) + 1) * threeJ j j2 j3 m1 x (-m1 - x))
        * (Real.sqrt (2 * ((j' : ℤ) : ℝ) + 1) * threeJ j' j2 j3 m1 x (-m1 - x))
        = Real.sqrt (2 * ((j : ℤ) : ℝ) + 1) * Real.sqrt (2 * ((j' : ℤ) : ℝ) + 1)
          * ∑ x ∈ Icc lo hi, threeJ j j2 j3 m1 x (-m1 - x) * threeJ j' j2 j3 m1 x (-m1 - x) := by
      rw [Finset.mul_sum, ← Finset.sum_coe_sort (Icc lo hi)]
      exact Finset.sum_congr rfl fun x _ => by ring
    rw [e]
    have e2 : ∑ x ∈ Icc lo hi, threeJ j j2 j3 m1 x (-m1 - x) * threeJ j' j2 j3 m1 x (-m1 - x)
        = ∑ x ∈ Icc (-j2) j2, threeJ j j2 j3 m1 x (-m1 - x) * threeJ j' j2 j3 m1 x (-m1 - x) := by
      refine Finset.sum_subset (fun x hx => ?_) (fun x _ hx' => ?_)
      · rw [Finset.mem_Icc] at hx ⊢; omega
      · rw [threeJ_eq_zero, zero_mul]
        intro ha
        have h3 := abs_le.1 ha.2.2.1
        have h4 := abs_le.1 ha.2.2.2.1
        rw [Finset.mem_Icc] at hx'; omega
    rw [e2, threeJ_orth_m (le_trans (le_max_left _ _) hj.1) hj.2 (le_trans (le_max_right _ _) hj.1)
      (le_trans (le_max_right _ _) hj'.1), Matrix.one_apply]
    by_cases he : j = j'
    · subst he
      rw [if_pos rfl, if_pos rfl, Real.mul_self_sqrt (hjpos j)]
      have : (2 * ((j : ℤ) : ℝ) + 1) ≠ 0 := by
        have h0 : 0 ≤ jlo := le_trans (abs_nonneg _) (le_max_left _ _)
        have : (0 : ℤ) < 2 * (j : ℤ) + 1 := by omega
        have : (0 : ℝ) < 2 * ((j : ℤ) : ℝ) + 1 := by exact_mod_cast this
        exact this.ne'
      field_simp
    · rw [if_neg he, if_neg (fun h => he (Subtype.ext h)), mul_zero]
  have hcard : Fintype.card (Icc jlo (j2 + j3)) = Fintype.card (Icc lo hi) := by
    rw [Fintype.card_coe, Fintype.card_coe, Int.card_Icc, Int.card_Icc]
    have : j2 + j3 + 1 - jlo = hi + 1 - lo := by
      rw [hjlo, hlo, hhi]
      rcases abs_cases (j2 - j3) with ⟨h1, _⟩ | ⟨h1, _⟩ <;> rcases abs_cases m1 with ⟨h2, _⟩ | ⟨h2, _⟩ <;> rw [h1, h2] <;> omega
    rw [this]
  have hMM' := (Matrix.mul_eq_one_comm_of_equiv (Fintype.card_eq.1 hcard).some).1 hMM
  have mem : m2 ∈ Icc lo hi := by rw [Finset.mem_Icc]; omega
  have mem' : m2' ∈ Icc lo hi := by rw [Finset.mem_Icc]; omega
  have := congrFun (congrFun hMM' ⟨m2, mem⟩) ⟨m2', mem'⟩
  rw [Matrix.mul_apply, Matrix.one_apply] at this
  simp only [Matrix.transpose_apply, hM, Subtype.mk.injEq] at this
  rw [← this, ← Finset.sum_coe_sort (Icc jlo (j2 + j3))]
  refine Finset.sum_congr rfl fun j _ => ?_
  have hs := Real.mul_self_sqrt (hjpos j)
  linear_combination (-(threeJ j j2 j3 m1 m2 (-m1 - m2) * threeJ j j2 j3 m1 m2' (-m1 - m2'))) * hs

end SF
