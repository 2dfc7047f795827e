import Verif.Model.Int64
import Verif.Spec.Index

/-!
# Property C62: the index functions do not overflow

The functions are compiled with 64-bit integers.  In the stated ranges of ell (which are sharp) they return the same
numbers as the exact functions of C01, C03–C05, C52, C53, so those properties hold for the compiled functions.
-/

set_option autoImplicit false

namespace SF

open Spec

theorem w64_of_fits {x : ℤ} (h : -2 ^ 63 ≤ x) (h' : x < 2 ^ 63) : w64 x = x := by unfold w64; omega

theorem w64_congr {x y : ℤ} (h : x ≡ y [ZMOD 2 ^ 64]) : w64 x = w64 y := by
  unfold w64
  have := h.add_right (2 ^ 63)
  unfold Int.ModEq at this
  rw [this]

theorem w64_modEq (x : ℤ) : w64 x ≡ x [ZMOD 2 ^ 64] := by
  unfold w64 Int.ModEq
  omega

theorem w64_add_left (a b : ℤ) : w64 (w64 a + b) = w64 (a + b) := w64_congr ((w64_modEq a).add_right b)
theorem w64_add_right (a b : ℤ) : w64 (a + w64 b) = w64 (a + b) := w64_congr ((w64_modEq b).add_left a)
theorem w64_sub_left (a b : ℤ) : w64 (w64 a - b) = w64 (a - b) := w64_congr ((w64_modEq a).sub_right b)
theorem w64_sub_right (a b : ℤ) : w64 (a - w64 b) = w64 (a - b) := w64_congr ((w64_modEq b).sub_left a)
theorem w64_mul_left (a b : ℤ) : w64 (w64 a * b) = w64 (a * b) := w64_congr ((w64_modEq a).mul_right b)
theorem w64_mul_right (a b : ℤ) : w64 (a * w64 b) = w64 (a * b) := w64_congr ((w64_modEq b).mul_left a)

/-- All wrapping inside a polynomial can be postponed to the end. -/
macro "wrap_last" : tactic => `(tactic| simp only [add64, sub64, mul64, sq64, neg64, w64_add_left, w64_add_right,
  w64_sub_left, w64_sub_right, w64_mul_left, w64_mul_right])

/-- **C62.** `LM_index`: for all modes with `ell ≤ 3037000498`. -/
theorem C62_LM_index (ell_min ell_max ell m : ℤ) (h0 : 0 ≤ ell_min) (hL : ell_max ≤ 3037000498)
    (hm : IsMode ell_min ell_max (ell, m)) : LM_index64 ell m ell_min = LM_index ell m ell_min := by
  obtain ⟨a1, a2, a3, a4⟩ := hm
  simp only at a1 a2 a3 a4
  unfold LM_index64 LM_index
  wrap_last
  rw [← pow_two]
  apply w64_of_fits <;> nlinarith

/-- **C62.** `LM_total_size`: for `ell_max ≤ 3037000498`. -/
theorem C62_LM_total_size (ell_min ell_max : ℤ) (h0 : 0 ≤ ell_min) (h1 : ell_min ≤ ell_max + 1) (hL : ell_max ≤ 3037000498) :
    LM_total_size64 ell_min ell_max = LM_total_size ell_min ell_max := by
  unfold LM_total_size64 LM_total_size
  wrap_last
  rw [← pow_two]
  apply w64_of_fits <;> nlinarith

/-- The bound on `ell_max` cannot be improved: one more, and the 64-bit size is negative. -/
theorem C62_LM_sharp : LM_total_size64 0 3037000499 = -9223372036709301616 ∧
    LM_total_size 0 3037000499 = 9223372037000250000 := by
  decide

theorem cube_le {x N : ℤ} (h : 0 ≤ x) (h' : x ≤ N) : x ^ 3 ≤ N ^ 3 := pow_le_pow_left₀ h h' 3
theorem sq_le_N {x N : ℤ} (h : 0 ≤ x) (h' : x ≤ N) : x ^ 2 ≤ N ^ 2 := pow_le_pow_left₀ h h' 2
theorem le_cube {x : ℤ} (h : 0 ≤ x) : x ≤ x ^ 3 := by
  rcases eq_or_lt_of_le h with h | h
  · rw [← h]; norm_num
  · exact le_self_pow₀ (by omega) (by norm_num)

theorem mul_bounds {x y : ℤ} (h : |y| ≤ x) : -x ^ 2 ≤ y * x ∧ y * x ≤ x ^ 2 := by
  rw [abs_le] at h
  constructor <;> nlinarith [h.1, h.2]

/-- **C62.** `LMpM_index`, `nmpm_index`: for all triples with `ell ≤ 1321121`. -/
theorem C62_LMpM_index (ell_min ell_max ell mp m : ℤ) (h0 : 0 ≤ ell_min) (hL : ell_max ≤ 1321121)
    (hm : IsTriple ell_min ell_max (ell, mp, m)) :
    LMpM_index64 ell mp m ell_min = LMpM_index ell mp m ell_min ∧ nmpm_index64 ell mp m = nmpm_index ell mp m := by
  obtain ⟨a1, a2, a3, a4⟩ := hm
  simp only at a1 a2 a3 a4
  have hb := mul_bounds a3
  have c1 := cube_le (x := ell) (N := 1321121) (by omega) (by omega)
  have c2 := sq_le_N (x := ell) (N := 1321121) (by omega) (by omega)
  have c3 := cube_le h0 a1
  have c4 := le_cube h0
  have c5 := le_cube (x := ell) (by omega)
  have c6 := sq_nonneg ell
  rw [abs_le] at a3 a4
  constructor
  · unfold LMpM_index64 LMpM_index
    wrap_last
    rw [w64_of_fits]
    · rw [pow_two]
    · ring_nf at *; linarith
    · ring_nf at *; linarith
  · unfold nmpm_index64 nmpm_index
    wrap_last
    rw [w64_of_fits]
    · ring_nf at *; linarith
    · ring_nf at *; linarith

/-- **C62.** `LMpM_total_size`, `_total_size_D_matrices`: for `ell_max ≤ 1321121`. -/
theorem C62_LMpM_total_size (ell_min ell_max : ℤ) (h0 : 0 ≤ ell_min) (h1 : ell_min ≤ ell_max + 1) (hL : ell_max ≤ 1321121) :
    LMpM_total_size64 ell_min ell_max = LMpM_total_size ell_min ell_max ∧
    total_size_D_matrices64 ell_min ell_max = total_size_D_matrices ell_min ell_max := by
  have c3 := cube_le h0 h1
  have c4 := le_cube h0
  have key : -2 ^ 63 ≤ 4 * ell_max ^ 3 + 12 * ell_max ^ 2 + 11 * ell_max + 3 - 4 * ell_min ^ 3 + ell_min ∧
      4 * ell_max ^ 3 + 12 * ell_max ^ 2 + 11 * ell_max + 3 - 4 * ell_min ^ 3 + ell_min < 2 ^ 63 := by
    constructor
    · ring_nf at *; linarith
    · have c1 := cube_le (x := ell_max + 1) (N := 1321122) (by omega) (by omega)
      ring_nf at *; linarith
  constructor
  · unfold LMpM_total_size64 LMpM_total_size
    wrap_last
    rw [w64_of_fits]
    · rw [pow_two]
    · ring_nf at *; linarith
    · ring_nf at *; linarith
  · unfold total_size_D_matrices64 total_size_D_matrices
    wrap_last
    rw [w64_of_fits]
    · rw [pow_two]
    · ring_nf at *; linarith
    · ring_nf at *; linarith

/-- The bound cannot be improved. -/
theorem C62_LMpM_sharp : LMpM_total_size64 0 1321122 = -3074457169787507091 ∧ LMpM_total_size 0 1321122 = 3074457521449010115 := by
  decide

/-- **C62.** The offsets used by `Wigner_D_matrices`: for `ell ≤ 1321121`. -/
theorem C62_linear_matrix (ell_min ell_max ell mp m : ℤ) (h0 : 0 ≤ ell_min) (hL : ell_max ≤ 1321121)
    (hm : IsTriple ell_min ell_max (ell, mp, m)) :
    linear_matrix_index64 ell mp m = linear_matrix_index ell mp m ∧
    linear_matrix_diagonal_index64 ell m = linear_matrix_diagonal_index ell m ∧
    linear_matrix_offset64 ell ell_min = linear_matrix_offset ell ell_min := by
  obtain ⟨a1, a2, a3, a4⟩ := hm
  simp only at a1 a2 a3 a4
  have hb := mul_bounds a3
  have hb' := mul_bounds a4
  have c1 := cube_le (x := ell) (N := 1321121) (by omega) (by omega)
  have c2 := sq_le_N (x := ell) (N := 1321121) (by omega) (by omega)
  have c3 := cube_le h0 a1
  have c4 := le_cube h0
  have c5 := le_cube (x := ell) (by omega)
  have c6 := sq_nonneg ell
  rw [abs_le] at a3 a4
  refine ⟨?_, ?_, ?_⟩
  · unfold linear_matrix_index64 linear_matrix_index
    wrap_last
    rw [w64_of_fits]
    · ring_nf at *; linarith
    · ring_nf at *; linarith
  · unfold linear_matrix_diagonal_index64 linear_matrix_diagonal_index
    wrap_last
    rw [w64_of_fits]
    · ring_nf at *; linarith
    · ring_nf at *; linarith
  · unfold linear_matrix_offset64 linear_matrix_offset
    wrap_last
    rw [w64_of_fits]
    · rw [pow_two, pow_two]
    · ring_nf at *; linarith
    · ring_nf at *; linarith

/-- **C62.** `_Wigner_index` (doubled indices): for `2 ell ≤ 1664510`. -/
theorem C62_Wigner_index (b n mp m : ℤ) (hb : b ≤ 1664510) (h : IsTwoTriple 0 b (n, mp, m)) :
    Wigner_index64 n mp m = Wigner_index n mp m := by
  obtain ⟨a1, a2, a3, a4, -, -⟩ := h
  simp only at a1 a2 a3 a4
  rw [abs_le] at a3 a4
  have c1 := cube_le (x := n) (N := 1664510) (by omega) (by omega)
  have c2 := sq_le_N (x := n) (N := 1664510) (by omega) (by omega)
  have c3 := pow_nonneg a1 3
  have c6 := sq_nonneg n
  have e1 : w64 (n + mp) = n + mp := w64_of_fits (by omega) (by omega)
  have e2 : w64 (n + m) = n + m := w64_of_fits (by omega) (by omega)
  have e3 : w64 (n * ((2 * n + 3) * n + 1)) = n * ((2 * n + 3) * n + 1) :=
    w64_of_fits (by ring_nf at *; linarith) (by ring_nf at *; linarith)
  have b3 : 0 ≤ n * ((2 * n + 3) * n + 1) := by ring_nf at *; linarith
  have b4 : n * ((2 * n + 3) * n + 1) < 2 ^ 63 := by ring_nf at *; linarith
  have b1 : 0 ≤ (n + mp) / 2 ∧ (n + mp) / 2 ≤ n := by omega
  have b5 : 0 ≤ (n + mp) / 2 * (n + 1) ∧ (n + mp) / 2 * (n + 1) ≤ n * (n + 1) :=
    ⟨mul_nonneg b1.1 (by omega), mul_le_mul_of_nonneg_right b1.2 (by omega)⟩
  have b6 : n * (n + 1) ≤ 1664510 * (1664510 + 1) := by ring_nf at *; linarith
  unfold Wigner_index64 Wigner_index
  simp only [add64, mul64, w64_add_left, w64_add_right, w64_mul_left, w64_mul_right, e1, e2, e3]
  apply w64_of_fits
  · omega
  · omega

/-- The bound cannot be improved. -/
theorem C62_Wigner_index_sharp : Wigner_index64 1664511 (-1664511) (-1664511) = -1537226305247058347 ∧
    Wigner_index 1664511 (-1664511) (-1664511) = 1537231040371200256 := by decide

/-- **C62.** `wedge_size`, `wedge_index`, `nm_index`, `nabsm_index`: for `ell ≤ 1664509`. -/
theorem C62_wedge (ell_max ell mp m : ℤ) (hL : ell_max ≤ 1664509) (h : IsTriple 0 ell_max (ell, mp, m)) :
    wedge_size64 ell_max = wedge_size ell_max ∧ wedge_index64 ell mp m = wedge_index ell mp m ∧
    nm_index64 ell m = nm_index ell m ∧ nabsm_index64 ell |m| = nabsm_index ell |m| := by
  obtain ⟨a1, a2, a3, a4⟩ := h
  simp only at a1 a2 a3 a4
  have hb := mul_bounds a3
  have c1 := cube_le (x := ell) (N := 1664509) (by omega) (by omega)
  have c2 := sq_le_N (x := ell) (N := 1664509) (by omega) (by omega)
  have d1 := cube_le (x := ell_max) (N := 1664509) (by omega) (by omega)
  have d2 := sq_le_N (x := ell_max) (N := 1664509) (by omega) (by omega)
  have d3 := pow_nonneg (show 0 ≤ ell_max by omega) 3
  have d4 := sq_nonneg ell_max
  have c3 := pow_nonneg a1 3
  have c6 := sq_nonneg ell
  have c7 : mp ^ 2 ≤ ell ^ 2 := sq_le_sq' (by rw [abs_le] at a3; omega) (by rw [abs_le] at a3; omega)
  have c8 := sq_nonneg mp
  have a5 := abs_nonneg m
  refine ⟨?_, ?_, ?_, ?_⟩
  · unfold wedge_size64 wedge_size
    wrap_last
    rw [w64_of_fits]
    · ring_nf at *; linarith
    · ring_nf at *; linarith
  · rw [abs_le] at a3 a4
    unfold wedge_index64 wedge_index
    wrap_last
    split
    · rw [w64_of_fits]
      · ring_nf at *; linarith
      · ring_nf at *; nlinarith
    · rw [w64_of_fits]
      · ring_nf at *; nlinarith
      · ring_nf at *; nlinarith
  · rw [abs_le] at a4
    unfold nm_index64 nm_index
    wrap_last
    rw [w64_of_fits] <;> nlinarith
  · unfold nabsm_index64 nabsm_index
    wrap_last
    have : w64 (ell * (ell + 1)) = ell * (ell + 1) := w64_of_fits (by nlinarith) (by nlinarith)
    rw [this, w64_of_fits] <;> nlinarith [Int.ediv_mul_le (ell * (ell + 1)) (show (2 : ℤ) ≠ 0 by norm_num), Int.lt_ediv_add_one_mul_self (ell * (ell + 1)) (show (0 : ℤ) < 2 by norm_num)]

/-- The bound cannot be improved. -/
theorem C62_wedge_sharp : wedge_size64 1664510 = -1537226305247058347 ∧ wedge_size 1664510 = 1537231040371200256 := by decide

/-- Concrete instances: triple (1000, -7, 1000) with `ell_min = 2`, and the doubled triple (2001, -7, 3). -/
example : IsTriple 2 1000000 (1000, -7, 1000) ∧ LMpM_index64 1000 (-7) 1000 2 = 1335321983 ∧
    IsTwoTriple 0 3000 (2001, -7, 3) := by
  refine ⟨⟨by norm_num, by norm_num, by simp, by simp⟩, ?_, ⟨by norm_num, by norm_num, by simp, by simp, by norm_num, by norm_num⟩⟩
  decide

end SF
