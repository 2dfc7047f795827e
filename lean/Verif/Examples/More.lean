import Verif.Examples.Basics
import Verif.Examples.Objects
import Verif.Props.NearPoles
import Verif.Props.Int64
import Verif.Props.Rounded
import Verif.Props.GridModes
import Verif.Props.Pickle
import Verif.Props.Unfinished
import Verif.Props.Pipeline
import Verif.Props.Unnormalised
import Verif.Props.FloatError
import Verif.Props.FloatErrorY
import Verif.Props.FloatErrorM
import Verif.Props.Leading
import Verif.Props.UfuncMethods
import Verif.Props.SetItem
import Verif.Props.Views
import Verif.Props.RawInput
import Verif.Props.FloatIEEE
import Verif.Props.Beyond
import Verif.Props.PowersFloat
/-
Concrete cases of the theorems for C61–C80 that have hypotheses and no example beside them.
-/
set_option autoImplicit false
namespace SF
open Finset Quaternion Spec

/-! C61 -/

example := C61_bound 32 (by norm_num) (by norm_num)
example := C61_array_of_rotors exTable_spec true (fun _ => 7) [exQ, 1, exR] (by simpa using ⟨exQ_unit, exR_unit⟩) 8 3 (-5) (by norm_num) (by norm_num) (by norm_num)
example := C61_SWSH_array exTable_spec (fun _ => 7) [exQ, 1, exR] (by simpa using ⟨exQ_unit, exR_unit⟩) (-2) 8 3 (by norm_num) (by norm_num)
example := C61_SWSH_grid exTable_spec (fun _ => (7, 7)) [exQ, 1, exR] (by simp) (by simpa using ⟨exQ_unit, exR_unit⟩) (-2) 8 (by norm_num) (by norm_num)

/-! C62 -/

theorem exTriple : IsTriple 2 1000000 (1000, -7, 1000) := ⟨by norm_num, by norm_num, by simp, by simp⟩

example := C62_LM_index 2 3000000000 2999999999 (-12) (by norm_num) (by norm_num) ⟨by norm_num, by norm_num, by simp⟩
example := C62_LM_total_size 2 3000000000 (by norm_num) (by norm_num) (by norm_num)
example := C62_LMpM_index 2 1000000 1000 (-7) 1000 (by norm_num) (by norm_num) exTriple
example := C62_LMpM_total_size 2 1000000 (by norm_num) (by norm_num) (by norm_num)
example := C62_linear_matrix 2 1000000 1000 (-7) 1000 (by norm_num) (by norm_num) exTriple
example := C62_Wigner_index 3000 2001 (-7) 3 (by norm_num) ⟨by norm_num, by norm_num, by simp, by simp, by norm_num, by norm_num⟩
example := C62_wedge 1000000 1000 (-7) 1000 (by norm_num) ⟨by norm_num, by norm_num, by simp, by simp⟩

/-! C63 -/

example (fl : ℝ → ℝ) (h : IsRounding fl) := C63_deduce_rounded h 77 2 (by norm_num)
example (fl : ℝ → ℝ) (h : IsRounding fl) : LM_deduce_ell_max_fl fl 77 2 = .ok 8 :=
  (C63_deduce_ell_max h 77 2 (by norm_num)).1 8 (by norm_num) (by rfl)
example (fl : ℝ → ℝ) (h : IsRounding fl) : LM_deduce_ell_max_fl fl 78 2 = .error .valueError := by
  refine (C63_deduce_ell_max h 78 2 (by norm_num)).2 ?_
  rintro ⟨L, h1, h2⟩
  simp only [LM_total_size] at h2
  have h3 : L < 9 := by by_contra hc; nlinarith
  interval_cases L <;> omega

/-! C64 -/

example := C64_shape isSalm2map_sum exModes exModes_WF (by simp [exModes]) none (some 11) (by simp [thetaPoints, exModes]) (by simp [phiPoints, exModes])

/-! C65 -/

example (junk junk' : ℕ → ℝ) (g : Modes) (h : ((exObj 0).val exHeap).conjugate true = .ok g) :=
  C65_history (exWorld_reachable junk junk') (.cons (.inplace exWorld 0 (exObj 0) rfl .conjugate g h) (.nil _)) (k := 1) (o := exObj 1) rfl (by simp [exObj])

/-! C66, C67 -/

theorem exQ_parts : partA exQ = 3 / 5 ∧ partB exQ = 4 / 5 * Complex.I := by
  constructor <;> apply Complex.ext <;> simp [exQ, mkQ, partA, partB]

theorem exR_parts : partA exR = 3 / 5 ∧ partB exR = 4 / 5 := by
  constructor <;> apply Complex.ext <;> simp [exR, mkQ, partA, partB]

theorem exQ_above : epsilon < ‖partA exQ‖ ∧ epsilon < ‖partB exQ‖ := by
  rw [exQ_parts.1, exQ_parts.2]; unfold epsilon; norm_num

theorem exR_above : epsilon < ‖partA exR‖ ∧ epsilon < ‖partB exR‖ := by
  rw [exR_parts.1, exR_parts.2]; unfold epsilon; norm_num

theorem exQ_away : AwayFromPoles exQ := ⟨exQ_unit, exQ_above⟩
theorem exR_away : AwayFromPoles exR := ⟨exR_unit, exR_above⟩

example := C66_rotate_formula exTable_spec (by norm_num) (fun _ => 7) (fun _ => 7) exQ exQ_away
example := C67_recursions_agree exTable_spec (fun _ => 7) (fun _ => 7) 8 (by norm_num) (by norm_num) [exQ, exR] (by simp)
  (by simpa using ⟨exQ_away, exR_away⟩)
example := C67_powers 4 (by norm_num) (fun _ _ => 7) [1, Complex.I] (by simp) 12 (by norm_num)

/-! C68 -/

theorem exQ_scaled (a : ℝ) (ha : 1 ≤ a) : epsilon < ‖partA (a • exQ)‖ ∧ epsilon < ‖partB (a • exQ)‖ := by
  have h1 : partA (a • exQ) = a * partA exQ := by apply Complex.ext <;> simp [partA]
  have h2 : partB (a • exQ) = a * partB exQ := by apply Complex.ext <;> simp [partB]
  rw [h1, h2, norm_mul, norm_mul, Complex.norm_real, Real.norm_of_nonneg (by linarith)]
  exact ⟨exQ_above.1.trans_le (le_mul_of_one_le_left (norm_nonneg _) ha), exQ_above.2.trans_le (le_mul_of_one_le_left (norm_nonneg _) ha)⟩

theorem exQ_norm : ‖exQ‖ = 1 := by
  have := exQ_unit
  rw [Quaternion.normSq_eq_norm_mul_self] at this
  nlinarith [norm_nonneg exQ]

example := C68_homogeneous exTable_spec (fun _ => 7) exQ 2 exQ_above.1 exQ_above.2 (exQ_scaled 2 (by norm_num)).1 (exQ_scaled 2 (by norm_num)).2
  5 3 (-1) (by simp [Spec.ValidD]) (by norm_num)

/-- The quaternion `1.001 exQ`, whose norm is `1.001`. -/
noncomputable def exQ' : ℍ[ℝ] := (1001 / 1000 : ℝ) • exQ

theorem exQ'_norm : ‖exQ'‖ = 1001 / 1000 := by unfold exQ'; rw [norm_smul, exQ_norm]; norm_num

theorem exQ'_back : ‖exQ'‖⁻¹ • exQ' = exQ := by
  rw [exQ'_norm, exQ', smul_smul, inv_mul_cancel₀ (by norm_num), one_smul]

example := C68_normalisation_error exTable_spec (fun _ => 7) exQ' (1 / 1000) (by rw [exQ'_norm]; norm_num) (by norm_num)
  (exQ_scaled _ (by norm_num)).1 (exQ_scaled _ (by norm_num)).2 (by rw [exQ'_back]; exact exQ_above.1) (by rw [exQ'_back]; exact exQ_above.2)
  5 3 (-1) (by simp [Spec.ValidD]) (by norm_num)

/-! C69, C70, C74 -/

example := C69_bound (u := 2 ^ (-53 : ℤ)) (by positivity) (by norm_num) (n := 16) (by norm_num)
example := C70_bound (u := 2 ^ (-53 : ℤ)) (by positivity) (by norm_num) (n := 16) (by norm_num)
example := C74_bound (u := 2 ^ (-53 : ℤ)) (by positivity) (by norm_num) (n := 16) (by norm_num)

theorem F53_abs_lt {z : ℂ} (h : 1 / 5 ≤ ‖z‖) : 1 / 10 ^ 15 < F53.abs z := by
  have := abs_le.mp (F53_std.abs z)
  rw [abs_of_nonneg (norm_nonneg z)] at this
  have e : (2 : ℝ) ^ (-53 : ℤ) * ‖z‖ ≤ 1 / 2 * ‖z‖ := by gcongr; norm_num
  have h2 : (1 : ℝ) / 10 ^ 15 < 1 / 10 := by norm_num
  have h3 := this.1
  clear this
  generalize (2 : ℝ) ^ (-53 : ℤ) * ‖z‖ = t at e h3
  linarith

example := C69_away_from_poles F53_std (table53 exTable_spec) (1 / 10 ^ 15) (by norm_num) (3 / 5) (4 / 5) (F53_abs_lt (by norm_num)) (F53_abs_lt (by norm_num))
  [(4, 0, 2), (3, -1, 3), (2, 4, 0)] [7, 7, 7] rfl (by simp [Lookable, Spec.ValidD])
example := C70_away_from_poles F53Y_std (table53 exTable_spec) (1 / 10 ^ 15) (by norm_num) (3 / 5) (4 / 5) (F53_abs_lt (by norm_num)) (F53_abs_lt (by norm_num))
  (-2) [(2, 1), (8, -3), (1, 0)] [7, 7, 7] rfl (by simp)
example := C70_grid F53Y_std (table53 exTable_spec) (1 / 10 ^ 15) (by norm_num) (by norm_num) (fun _ => (7, 7)) [exQ, 1, exR] (by simp)
  (by simpa using ⟨exQ_unit, exR_unit⟩) (-2) 8 (by norm_num) (by norm_num)

/-! C71, C72 -/

example (junk junk' : ℕ → ℝ) (op : Method2) := C71_two_objects junk junk' exModes exModes rfl [] (fun _ => [1]) op
example (junk junk' : ℕ → ℝ) (op : Method2) := C71_broadcast junk junk' exModes (exModes.at [1]) [2] rfl [0] (.cons (by decide) .nil) op
example := C71_numbers exModes ⟨[2], fun i => (i.headD 0 : ℂ) + 1⟩ [2] (by decide) rfl [1] (.cons (by decide) .nil)
example := C72_evaluate exTable_spec (fun _ => (7, 7)) exModes exModes_WF (by decide) 1 4 (by decide) (by decide) (by decide) (by decide) exQ [exR]
  (by simpa using ⟨exQ_unit, exR_unit⟩)

/-! C73 -/

example (junk junk' : ℕ → ℝ) := C73_reductions (junk := junk) (junk' := junk') (w := exWorld) (i := 0) (f := exObj 0) rfl .reduce (.inl rfl) .none
example (junk junk' : ℕ → ℝ) := C73_outer_reduceat (junk := junk) (junk' := junk') (w := exWorld) (u := .multiply) (by simp) .outer (.inl rfl) (.modes 0) (.modes 1) .none
example (junk junk' : ℕ → ℝ) := C73_any_all (junk := junk) (junk' := junk') (w := exWorld) (i := 0) (f := exObj 0) rfl .logical_or (.inl rfl) false

/-! C75 -/

theorem exDirty_cleaned : Cleaned exDirty exModes := by
  obtain ⟨g, e1, e2, e3, -⟩ := C75_below exModes exModes_WF (fun _ => true) 0 0 (by norm_num) (by simp [exModes]) (by simp [exModes]) (fun _ => 7)
  have e : exModes.setItem (fun _ => true) 0 (fun _ => 7) = .ok exDirty := rfl
  have e1' : exModes.setItem (fun _ => true) 0 (fun _ => 7) = .ok g := by
    simpa [LM_index] using e1
  rw [e] at e1'
  obtain rfl : exDirty = g := by injection e1'
  exact e3

example := C75_shape exDirty exDirty_sized
example := C75_positive exDirty exDirty_sized
example := C75_ignored exDirty exModes exDirty_sized exDirty_cleaned
example := C75_add exDirty exModes exDirty exModes exDirty_sized exDirty_sized exDirty_cleaned exDirty_cleaned true
example := C75_evaluate exDirty exModes exDirty_sized exDirty_cleaned 32 exTable exTable_spec (fun _ => (7, 7)) (by decide) [exQ, exR] exQs_unit
example := C75_kept exDirty exModes exDirty_sized exDirty_cleaned Modes.Lsquared (.inl rfl)
example := C75_kept exDirty exModes exDirty_sized exDirty_cleaned (fun f => f.truncate_ell 1) (.inr (.inr (.inr ⟨1, by simp [exDirty, exModes], rfl⟩)))

/-! C76 -/

example := C76_inplace exModes exModes_WF (View.item [] 1) (item_inj _ _) .conjugate (.inl rfl)
example := C76_set_single exModes exModes_WF (View.item [] 1) (item_inj _ _) ⟨[], 0, 0, .absent, [fun _ => 5]⟩
  ⟨by simp, by simp, fun ell m h1 h2 => absurd (abs_nonneg m) (by simp at h1; omega)⟩ rfl rfl
example := C76_set_rejected exModes exModes_WF (View.item [] 1) exModes1 exModes1_WF (.inr ⟨by decide, by decide⟩)

/-! C77 -/

example (dat : List (MIdx → ℝ)) (h : dat.length = 191) (c : List ℤ × Kw) (hc : c ∈ callsWithout (-2) 2 .absent) :
    Modes.newRaw 2 decFloat64 (.array [] dat) c.1 c.2 = .error .valueError :=
  (C77_rejects (q := 2) (by norm_num) dat c).2 hc (by rintro ⟨L, -, h'⟩; rw [h] at h'; push_cast at h'; omega)
example := C77_zero_dim (q := 2) (dec := decFloat64) (by norm_num) 3 [] {}
example (c : List ℤ × Kw) (hc : c ∈ callsWithEllMax (-2) 2 8 .absent) :=
  C77_with_ell_max (q := 2) (dec := decFloat64) (lead := []) le_rfl (by norm_num) ((List.range 77).map fun (k : ℕ) (_ : MIdx) => (k : ℝ)) (by simp) hc
example (dec : List ℝ → ℂ) (c : List ℤ × Kw) (hc : c ∈ callsWithout (-2) 0 .absent) :=
  C77_float32 (dec := dec) (lead := []) (L' := 3) (by norm_num) ((List.range 64).map fun (k : ℕ) (_ : MIdx) => (k : ℝ)) (by simp) hc
example := C77_misread (l0 := 2) (by norm_num) 100

/-! C79, C80 -/

theorem exQ_both : BothAbove (partA exQ) (partB exQ) := exQ_above
example := C79_evaluate exTable_spec (fun _ => (7, 7)) ⟨[], -2, 40, .absent, List.replicate 1681 fun _ => 1⟩ [1, exQ] (by simpa using exQ_unit)
  ⟨exQ, by simp, exQ_both⟩ (by norm_num) (by norm_num)
example := C80_complex_powers F53P_std 4 (by norm_num) (fun _ _ => 7) [2] [1, Complex.I] rfl (τ := 1 / 10 ^ 15) (by simp) 12 (by norm_num)
  (by norm_num) none trivial

end SF
