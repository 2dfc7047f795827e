import Verif.Examples.Basics
import Verif.Props.ModesOut
import Verif.Props.Conversions
import Verif.Props.Grid
/-
Concrete cases of the theorems for C24, C25, C37 and C39–C45, C58 that have hypotheses and no example beside them.
-/
set_option autoImplicit false
namespace SF
open Finset Quaternion

/-! ### C24, C25, C39, C40 -/

/-- Memory of four arrays: those of `exHeap`, one of four numbers and one of nine. -/
def exHeap4 : Heap := exHeap ++ [[fun _ => 5, fun _ => 5, fun _ => 5, fun _ => 5], List.replicate 9 fun _ => 6]

/-- The state with the two objects of `exWorld` and the two further arrays. -/
def exWorld4 : World := ⟨exHeap4, [exObj 0, exObj 1]⟩

theorem exWorld4_reachable (junk junk' : ℕ → ℝ) : Reachable junk junk' exWorld4 :=
  .step (.step (exWorld_reachable junk junk') (.array exWorld [] [fun _ => 5, fun _ => 5, fun _ => 5, fun _ => 5]))
    (.array ⟨exHeap ++ [[fun _ => 5, fun _ => 5, fun _ => 5, fun _ => 5]], exWorld.objs⟩ [] (List.replicate 9 fun _ => 6))

theorem exWorld4_valid : exWorld4.Valid := (exWorld4_reachable (fun _ => 7) (fun _ => 7)).good.valid

theorem exObj4_wf {b : ℕ} (hb : b < 2) : ((exObj b).val exWorld4.heap).WF := by
  refine C25_wf _ _ (exWorld4_reachable (fun _ => 7) (fun _ => 7)) ?_ (by simp [exObj])
  obtain rfl | rfl : b = 0 ∨ b = 1 := by omega
  · simp [exWorld4]
  · simp [exWorld4]

theorem exObj4_valid {b : ℕ} (hb : b < 2) : (exObj b).ref.Valid exWorld4.heap := by
  refine exWorld4_valid _ ?_
  obtain rfl | rfl : b = 0 ∨ b = 1 := by omega
  · simp [exWorld4]
  · simp [exWorld4]

example := C24_view_zeroes_caller (exObj_valid (b := 0) (by omega)) (args := []) (kw := ⟨some 1, none, some 1, .absent⟩) rfl
  (construct_same (exObj_valid (b := 0) (by omega)) (s := 1) (L := 1) (by simp [exObj]) rfl)
/-- Three numbers from `ell_min = 1` on: a new array is made. -/
example : ∃ h' o, newH exHeap ⟨1, [], 0, 3⟩ {} [] ⟨some 0, some 1, none, .absent⟩ = .ok (h', o) ∧ o.ref.buf ≠ 1 ∧ h'.load (exObj 1).ref = exHeap.load (exObj 1).ref := by
  have hr : ArrRef.Valid ⟨1, [], 0, 3⟩ exHeap := ⟨_, rfl, by simp⟩
  obtain ⟨f, hf, -⟩ := C23_construct (s := 0) (l0 := 1) (L := 1) (by norm_num) (by norm_num) .absent [] (exHeap.load ⟨1, [], 0, 3⟩)
    (by rw [load_length hr]; norm_num) ([], ⟨some 0, some 1, none, .absent⟩) (by simp [callsWithEllMax, callsWithout])
  have e := newH_eq hr {} [] ⟨some 0, some 1, none, .absent⟩
  rw [hf] at e
  obtain ⟨h1, h2⟩ := C24_copy hr (by decide) e
  exact ⟨_, _, e, h1, h2 _ (exObj_valid (by omega))⟩
example (junk junk' : ℕ → ℝ) := C25_closure _ _ (exWorld4_reachable junk junk') (o := exObj 1) (by simp [exWorld4])

example (junk junk' : ℕ → ℝ) := C39_unary (junk := junk) (junk' := junk') exWorld4_valid (i := 1) (f := exObj 1) rfl
example (junk junk' : ℕ → ℝ) := C39_modes_modes (junk := junk) (junk' := junk') exWorld4_valid (i := 0) (j := 1) (f := exObj 0) (g := exObj 1) rfl rfl
example (junk junk' : ℕ → ℝ) := C39_modes_array (junk := junk) (junk' := junk') (w := exWorld4) (i := 1) (f := exObj 1) rfl (num 3)
example (junk junk' : ℕ → ℝ) := C39_array_modes (junk := junk) (junk' := junk') (w := exWorld4) (i := 1) (f := exObj 1) rfl (num 3)
example (junk junk' : ℕ → ℝ) := C39_passed (junk := junk) (junk' := junk') (w := exWorld4) (u := .isnan) (by simp) (v := .equal) (by simp)
  (i := 0) (j := 1) (f := exObj 0) (g := exObj 1) rfl rfl (num 3) true
example (junk junk' : ℕ → ℝ) := C39_other (junk := junk) (junk' := junk') (w := exWorld4) "sin" 1 [.modes 1] .none false
  (by simp [firstModes, exWorld4])
example (junk junk' : ℕ → ℝ) := C39_kwargs (junk := junk) (junk' := junk') (w := exWorld4) (u := .add) (by simp) (args := [.modes 1, .arr (num 3)]) rfl
  (out := .none) (i := 1) rfl (by simp [exWorld4])

/-- `np.add(f, g, out=a)` for a third array `a`. -/
example (junk junk' : ℕ → ℝ) := C40_add_disjoint (junk := junk) (junk' := junk') (w := exWorld4) (i := 0) (j := 1) (f := exObj 0) (g := exObj 1)
  (out := .arr ⟨2, [], 0, 4⟩) (r := ⟨2, [], 0, 4⟩) false rfl rfl rfl (exObj4_wf (by omega)) (exObj4_wf (by omega)) (by simp [exObj]) (by simp [exObj])
  (exObj4_valid (by omega)) (exObj4_valid (by omega)) ⟨_, rfl, by simp⟩ rfl (.inl (by simp [exObj])) (.inl (by simp [exObj])) (lead := []) rfl rfl rfl
  (by simp [exObj])
/-- `f += g`. -/
example (junk junk' : ℕ → ℝ) := C40_iadd (junk := junk) (junk' := junk') (w := exWorld4) (i := 0) (j := 1) (f := exObj 0) (g := exObj 1) false rfl rfl rfl
  (exObj4_wf (by omega)) (exObj4_wf (by omega)) (by simp [exObj]) (by simp [exObj]) (exObj4_valid (by omega)) le_rfl (.inl (.inl (by simp [exObj]))) rfl rfl rfl
/-- `np.add(f, g, out=a)` for an array of nine numbers. -/
example (junk junk' : ℕ → ℝ) := C40_add_size (junk := junk) (junk' := junk') (w := exWorld4) (i := 0) (j := 1) (f := exObj 0) (g := exObj 1)
  (out := .arr ⟨3, [], 0, 9⟩) (r := ⟨3, [], 0, 9⟩) false rfl rfl ⟨_, rfl, by simp⟩ rfl (by simp [exObj])
/-- `np.multiply(f, g, out=a)` for an array of nine numbers. -/
example (junk junk' : ℕ → ℝ) := C40_mul_disjoint (junk := junk) (junk' := junk') (w := exWorld4) (i := 0) (j := 1) (f := exObj 0) (g := exObj 1)
  (out := .arr ⟨3, [], 0, 9⟩) (r := ⟨3, [], 0, 9⟩) rfl rfl (exObj4_wf (by omega)) (exObj4_wf (by omega)) (by simp [exObj]) (by simp [exObj])
  (by simp [exObj]) ⟨_, rfl, by simp⟩ rfl (.inl (by simp [exObj])) (.inl (by simp [exObj])) (lead := []) rfl rfl rfl
  (L := 2) ((C32_default_ell_max rfl rfl 2).2 rfl) (by simp)
/-- ... and for one of four. -/
example (junk junk' : ℕ → ℝ) := C40_mul_size (junk := junk) (junk' := junk') (w := exWorld4) (i := 0) (j := 1) (f := exObj 0) (g := exObj 1)
  (out := .arr ⟨2, [], 0, 4⟩) (r := ⟨2, [], 0, 4⟩) rfl rfl ⟨_, rfl, by simp⟩ rfl
  (by intro L hL; rw [(C32_default_ell_max rfl rfl L).1 hL]; simp [exObj, MObj.val])
example (junk junk' : ℕ → ℝ) := C40_imul_fails (junk := junk) (junk' := junk') (w := exWorld4) (i := 0) (j := 1) (f := exObj 0) (g := exObj 1) rfl rfl
  (exObj4_valid (by omega)) (exObj4_wf (by omega)) rfl rfl (by simp [exObj])
example (junk junk' : ℕ → ℝ) := C40_scalar_out_fails (junk := junk) (junk' := junk') (w := exWorld4) (i := 0) (f := exObj 0) .multiply (by simp) rfl (num 3) 1
example (junk junk' : ℕ → ℝ) := C40_negative_plain (junk := junk) (junk' := junk') (w := exWorld4) (i := 0) (f := exObj 0) rfl (exObj4_wf (by omega))
  (exObj4_valid (by omega)) rfl (num 3)

/-! ### C37, C41–C43 -/
example := C37_agree_NP exModes_WF
theorem exCall0 : (([], ⟨some 0, some 0, none, .absent⟩) : List ℤ × Kw) ∈ callsWithEllMax 0 0 0 .absent ++ callsWithout 0 0 .absent := by
  simp [callsWithEllMax, callsWithout]
theorem exCall1 : (([], ⟨some 0, some 1, none, .absent⟩) : List ℤ × Kw) ∈ callsWithEllMax 0 1 1 .absent ++ callsWithout 0 1 .absent := by
  simp [callsWithEllMax, callsWithout]
example := C41_constant_value exTable_spec (fun _ => (7, 7)) (by norm_num) (2 + Complex.I) .absent _ exCall0
example := C41_vector_value exTable_spec (fun _ => (7, 7)) (by norm_num) (2, Complex.I, -1) .absent _ exCall1
example := C41_every_rotor exTable_spec (fun _ => (7, 7)) (by norm_num) (2, Complex.I, -1) .absent _ exCall1
theorem exComplete : CompleteModes 2 3 [1, 2, 3, 4, Complex.I, 6, 7, 8, 9, 10, 11, 12] := ⟨by omega, by omega, by simp⟩
example := C42_ethbar_NP exComplete 1
example := C42_eth_GHP exComplete 1
example := C42_ethbar_GHP exComplete 1
example := C43_inverse_of_ethbar exComplete 1
example := C43_ethbar_of_inverse exComplete 1
example := C43_low_modes_kept exComplete 3

/-! ### C44, C45, C58 -/
example := C44_new [2] 5 6 (fun idx => idx.sum) none [] (some 2) 2 (.inr (.inl ⟨rfl, rfl⟩))
example := C44_new_WF ((C44_new [2] 5 6 (fun idx => idx.sum) none [2] none 2 (.inl rfl)).1 (by norm_num))
example := C44_spin_mismatch .subtract (exGrid 1) (exGrid 2) (by simp [exGrid]) none
example := C44_shape_mismatch .add (by simp) (exGrid 1) ⟨[2], 5, 6, 1, fun _ => 1⟩ (.inl rfl) (.inl (by simp [Grid.sameGrid, exGrid])) none
example := C44_unary .square (exGrid 1) (by simp [exGrid])
example := C44_unary_enough .conj (by simp) (exGrid 2) (exGrid_WF (by decide))
example := C44_methods (exGrid 2) (exGrid_WF (by decide))
example := C44_sqrt_power (exGrid 2) (exGrid_WF (by decide))
example := C44_scalar_sums (exGrid 2) (exGrid_WF (by decide)) (.num 3) trivial
example : ∃ r, callUfunc .negative [.grid (exGrid 2)] none = .ok (r, none) ∧ r.WF ∧
    ∃ r' o', callUfunc .negative [.grid (exGrid 2)] (some (.grid (exGrid 0))) = .ok (r', some (.grid o')) ∧ o'.s = 2 := by
  obtain ⟨r, h, h1, h2, h3, h4, h5, -⟩ := C44_unary .negative (exGrid 2) (by simp [exGrid])
  obtain ⟨r', o', h6, -, h7, -⟩ := C44_out h (exGrid 0) (by simp only [Grid.shape]; rw [h3, h4, h5]; rfl)
  exact ⟨r, h, C44_ufunc_WF h, r', o', h6, by rw [h7, h2]; rfl⟩
example := C44_unsupported [.num 3, .grid (exGrid 2)] none true (exGrid 2) rfl
example := C45_too_few_points [2] 4 5 (fun _ => 1) none 2 none (by norm_num)
example := C58_single_number (exGrid 2) (exGrid_WF (by decide)) 3
example := C58_misaligned ⟨[5], 6, 5, 2, fun idx => idx.sum⟩ (by unfold Grid.WF; simp only; norm_num) 5 (by norm_num) rfl rfl
  ⟨[5], fun idx => idx.sum⟩ rfl
example := C58_rejected (exGrid 2) 2 (by norm_num) rfl (by simp [exGrid]) (by simp [exGrid]) ⟨[2], fun idx => idx.sum⟩ rfl

end SF
