import Verif.Props.Wigner3j
import Verif.Props.Recursions
import Verif.Props.WignerH
import Verif.Props.WignerD
/-
Concrete cases of the theorems for C46–C57, C59 and C60 that have hypotheses and no example beside them.
-/
set_option autoImplicit false
namespace SF
open Finset Spec Complex

/-! ### C46–C50 -/
example := C46_Wigner3j_zero (junk := fun _ => 7) (j1 := 5) (j2 := 2) (j3 := 2) (m1 := 0) (m2 := 1) (m3 := -1) (by norm_num)

/-- A row of 3-j symbols with `m2 = 1`, `m3 = 0`. -/
theorem exRow : ∃ f c', exCalc.calculate 1 2 1 0 = .ok (f, c') :=
  C47_returns exCalc_WF (by norm_num [exCalc]) (by norm_num) (Or.inl (C47_stretched (Or.inl (by norm_num))))
/-- ... and with `m2 = 0`, `m3 = 1`. -/
theorem exRow' : ∃ f c', exCalc.calculate 1 2 0 1 = .ok (f, c') := by
  refine C47_returns exCalc_WF (by norm_num [exCalc]) (by norm_num) (Or.inl fun h => ?_)
  have := C47_growing_zero_large h
  omega

example : ∃ f c', exCalc.calculate 1 2 1 0 = .ok (f, c') ∧ f[4]? = some 0 := by
  obtain ⟨f, c', h⟩ := exRow
  have hl := (C48_values exCalc_WF (by norm_num [exCalc]) (by norm_num) h).1
  exact ⟨f, c', h, C46_calculate_zero exCalc_WF (by norm_num [exCalc]) h (j := 4) (by rw [hl]; simp [exCalc]) (by norm_num)⟩
example (junk : ℕ → ℝ) : ∃ c, W3Calc.Reachable 2 2 c ∧ c.WF ∧ ∀ j2 j3 m2 m3, c.calculate j2 j3 m2 m3 = exCalc.calculate j2 j3 m2 m3 := by
  obtain ⟨c, h, _⟩ := C47_new (junk := junk) (j2_max := 2) (j3_max := 2) (by norm_num) (by norm_num)
  obtain ⟨h1, h2⟩ := C47_reachable (by norm_num) (by norm_num) (W3Calc.Reachable.new junk c h)
  exact ⟨c, .new junk c h, h1, C47_history h1 exCalc_WF (by rw [h2]; rfl)⟩
example := C47_outcome exCalc_WF (j2 := 2) (j3 := 2) (m2 := 1) (m3 := -2) (by norm_num [exCalc]) fun h2 h3 => W3Fits.of_le h2 h3 (by norm_num)
/-- The error case of `C47_exceptions`: none for these arguments. -/
example : ∀ e, exCalc.calculate 2 2 1 (-2) ≠ .error e := by
  intro e he
  have := C47_growing_zero_large (C47_exceptions exCalc_WF (by norm_num [exCalc]) (by norm_num) he).2.2
  omega
example : ∃ f c', exCalc.calculate 1 2 1 0 = .ok (f, c') ∧ f[2]? = some (threeJ 2 1 2 (-(1 + 0)) 1 0) := by
  obtain ⟨f, c', h⟩ := exRow
  obtain ⟨hl, hv⟩ := C48_values_of_fits exCalc_WF (by norm_num [exCalc]) (W3Fits.of_le (by norm_num) (by norm_num) (by norm_num)) h
  exact ⟨f, c', h, by simpa using hv 2 (by rw [hl]; simp [exCalc])⟩

/-- `Wigner3j` returns for all arguments with small sums. -/
theorem ex3j (junk : ℕ → ℝ) {j1 j2 j3 m1 m2 m3 : ℤ} (h : j2 ≤ j1 ∧ j3 ≤ j1 ∧ j1 ≤ j2 + j3 ∧ j2 + j3 ≤ 22 ∧ m1 + m2 + m3 = 0)
    (k1 : |m1| ≤ j1) (k2 : |m2| ≤ j2) (k3 : |m3| ≤ j3) : Wigner3j junk j1 j2 j3 m1 m2 m3 = .ok (threeJ j1 j2 j3 m1 m2 m3) :=
  wigner3j_returns h.1 h.2.1 h.2.2.1 (by omega) h.2.2.2.2 k1 k2 k3 fun hg => by have := C47_growing_zero_large hg; omega

example := C48_Wigner3j (by norm_num) (ex3j (fun _ => 7) (j1 := 3) (j2 := 2) (j3 := 2) (m1 := -1) (m2 := 1) (m3 := 0) (by norm_num) (by norm_num) (by norm_num) (by norm_num))

example (junk junk' : ℕ → ℝ) : threeJ 3 3 1 1 0 (-1) = (-1 : ℝ) ^ (3 + 3 + 1 : ℤ) * threeJ 3 3 1 0 1 (-1) :=
  C49_swap (junk := junk) (junk' := junk') (by norm_num) (ex3j junk (by norm_num) (by norm_num) (by norm_num) (by norm_num))
    (ex3j junk' (by norm_num) (by norm_num) (by norm_num) (by norm_num))
example (junk junk' : ℕ → ℝ) : threeJ 3 3 3 1 (-1) 0 = threeJ 3 3 3 0 1 (-1) :=
  C49_cyclic (junk := junk) (junk' := junk') (by norm_num) (ex3j junk (by norm_num) (by norm_num) (by norm_num) (by norm_num))
    (ex3j junk' (by norm_num) (by norm_num) (by norm_num) (by norm_num))
example (junk junk' : ℕ → ℝ) : threeJ 3 2 2 (- -1) (-1) (-0) = (-1 : ℝ) ^ (3 + 2 + 2 : ℤ) * threeJ 3 2 2 (-1) 1 0 :=
  C49_neg (junk := junk) (junk' := junk') (by norm_num) (ex3j junk (by norm_num) (by norm_num) (by norm_num) (by norm_num))
    (ex3j junk' (by norm_num) (by norm_num) (by norm_num) (by norm_num))

/-- The values for all `m2`, of which those with `|m3| > j3` vanish. -/
theorem ex3j_row (junk : ℕ → ℝ) {j : ℤ} (h2 : 2 ≤ j) (h4 : j ≤ 4) (m2 : ℤ) (h : |m2| ≤ 2) :
    Wigner3j junk j 2 2 1 m2 (-1 - m2) = .ok (if |-1 - m2| ≤ 2 then threeJ j 2 2 1 m2 (-1 - m2) else 0) := by
  split
  · exact ex3j junk (by omega) (by simp; omega) h ‹_›
  · exact C46_Wigner3j_zero (by omega)

example := C49_orthogonality_m (junk := fun _ => 7) (j := 3) (j' := 4) (j2 := 2) (j3 := 2) (m1 := 1) (by norm_num) (by norm_num) (by norm_num)
  (by norm_num) (by norm_num) (ex3j_row _ (by norm_num) (by norm_num)) (ex3j_row _ (by norm_num) (by norm_num))
example : ∃ f g : List ℝ, ∑ j ∈ Icc (max |(1 : ℤ) - 2| |1 + 0|) (1 + 2), (2 * (j : ℝ) + 1) * (f.getD j.toNat 0 * g.getD j.toNat 0) = 0 := by
  obtain ⟨f, c, hf⟩ := exRow
  obtain ⟨g, d, hg⟩ := exRow'
  refine ⟨f, g, ?_⟩
  rw [C49_orthogonality_j exCalc_WF exCalc_WF (by norm_num [exCalc]) (by norm_num [exCalc]) (by norm_num) (by norm_num) (by norm_num) (by norm_num)
    (by norm_num) (by norm_num) hf hg, if_neg (by norm_num)]

theorem exCG (junk : ℕ → ℝ) {j : ℤ} (h2 : 1 ≤ j) (h4 : j ≤ 2) (m1 : ℤ) (h : |m1| ≤ 2) :
    clebsch_gordan junk 2 m1 1 (1 - m1) j 1
      = .ok ((-1 : ℝ) ^ ((2 : ℤ) - 1 + 1) * Real.sqrt (2 * j + 1) * if |1 - m1| ≤ 1 then threeJ 2 1 j m1 (1 - m1) (-1) else 0) := by
  have : Wigner3j junk 2 1 j m1 (1 - m1) (-1) = .ok (if |1 - m1| ≤ 1 then threeJ 2 1 j m1 (1 - m1) (-1) else 0) := by
    split
    · exact ex3j junk (by omega) h ‹_› (by simp; omega)
    · exact C46_Wigner3j_zero (by omega)
  unfold clebsch_gordan
  rw [this]
  rfl

example := C49_clebsch_gordan (by norm_num) (exCG (fun _ => 7) (j := 2) (by norm_num) (by norm_num) 1 (by norm_num))
example := C49_clebsch_gordan_orthonormal (junk := fun _ => 7) (j1 := 2) (j2 := 1) (j := 1) (j' := 2) (m := 1) (by norm_num) (by norm_num) (by norm_num)
  (by norm_num) (by norm_num) (exCG _ (by norm_num) (by norm_num)) (exCG _ (by norm_num) (by norm_num))
example := C50_no_overflow (j2 := 64) (j3 := 63) (m2 := -64) (m3 := 5) (j := 100) (by norm_num) (by norm_num) (by norm_num) (by norm_num) (by norm_num)
  (by norm_num)

/-! ### C51–C57 -/
theorem exUnit2 : ∀ z ∈ ([I, -1] : List ℂ), ‖z‖ = 1 := by simp
example := C51_complex_powers 10 (by norm_num) (fun _ _ => 7) [2] [I, -1] rfl exUnit2 3 (by norm_num) none trivial
example := C51_M_zero_out_of_bounds 10 (by norm_num) (fun _ _ => 7) [2] [I, -1] (by simp)
example := C51_documented_buffer_rejected 10 (fun _ _ => 7) [1, 2] [I, -1] 3 ⟨3, []⟩ rfl (by simp)
example := C52_wedge_index_bijOn 8 (by norm_num)
example := C52_wedgeify 8 5 3 (-4) (by unfold IsTriple; decide)
example := C53_nabsm_index 8 (by norm_num)
example := C53_nm_nmpm_index 8 (by norm_num)
example := C55_euler 0.3 1 (-0.7) (by norm_num) (by linarith [Real.pi_gt_three])
example := C56_theta_phi 5 4 (by norm_num) (by norm_num)
example := C57_error_switch_ineffective [] 32 (fun _ => 7) (1, 0, 0, 0) true (4, 5, 0) (by norm_num)

/-! ### C54, C59, C60 -/
theorem exAngles : AreAngles ⟨[3], [1, 0, -1], none⟩ (fun j => Real.arccos ([1, 0, -1] : List ℝ)[j]) := areAngles_arccos _ _ (by simp) (by simp)
theorem exWs (r : HRow 3) : ∀ l, some (List.replicate 27 r) = some l → hRows 2 ≤ l.length := by
  intro l h; cases h; simp [hRows, wedge_size]
example (r : HRow 3) := C54_safe (fun _ => 7) 2 (by norm_num) _ _ exAngles (some (List.replicate 27 r)) (exWs r)
example (r : HRow 3) : ∃ C w₁ w₂ H, HCoef.make (fun _ => 7) 2 = .ok C ∧ HCalculator_call C ⟨[3], [1, 0, -1], none⟩ (some (List.replicate 27 r)) = .ok (w₁, H)
    ∧ HCalculator_call C ⟨[3], [1, 0, -1], none⟩ none = .ok (w₂, H) := by
  obtain ⟨C, -, -, hC, -⟩ := C54_safe (fun _ => 7) 2 (by norm_num) _ _ exAngles none (by simp)
  obtain ⟨w₁, w₂, H, h1, h2⟩ := C54_history_independent (fun _ => 7) (fun _ => 7) 2 (by norm_num) _ _ exAngles (some (List.replicate 27 r)) none (exWs r)
    (by simp) C C hC hC
  exact ⟨C, w₁, w₂, H, hC, h1, h2⟩
example := C54_n_max_zero (fun _ => 7) _ _ exAngles none (by simp)
example := C59_H_values_default (fun _ => 7) 8 (by norm_num) [3] [1, 0, -1/2] (by simp) (by simp; norm_num)
example (r : HRow 3) : ∃ C ws' H, HCoef.make (fun _ => 7) 2 = .ok C ∧ HCalculator_call C ⟨[3], [1, 0, -1], none⟩ (some (List.replicate 27 r)) = .ok (ws', H) := by
  obtain ⟨C, -, -, hC, -⟩ := C54_safe (fun _ => 7) 2 (by norm_num) _ _ exAngles none (by simp)
  obtain ⟨ws', H, h, -⟩ := C59_H_values _ 2 (by norm_num) C hC _ _ exAngles _ (exWs r)
  exact ⟨C, ws', H, hC, h⟩
example (r : HRow 3) : ∃ C H, HCoef.make (fun _ => 7) 2 = .ok C ∧ HFull_call C ⟨[3], [1, 0, -1], none⟩ (some (List.replicate 35 r)) = .ok H := by
  obtain ⟨C, -, -, hC, -⟩ := C54_safe (fun _ => 7) 2 (by norm_num) _ _ exAngles none (by simp)
  obtain ⟨H, h, -⟩ := C60_full_H_values _ 2 (by norm_num) C hC _ _ exAngles (some (List.replicate 35 r)) (by intro l h; cases h; simp [LMpM_total_size])
  exact ⟨C, H, hC, h⟩

end SF
