import Verif.Props.Index
import Verif.Props.Tables
import Verif.Props.WignerD
import Verif.Props.IndexRounding
import Verif.Props.Representation
import Verif.Props.SWSH
import Verif.Props.AllRotors
import Verif.Props.Modes
import Verif.Props.ModesArith
import Verif.Props.Multiplication
import Verif.Props.ModesOperators
import Verif.Props.Lie
/-
Concrete cases of the theorems for C01–C38 that have hypotheses and no example beside them. Every example applies the theorem to literal
arguments, so its hypotheses hold there; the type of the example is the conclusion for those arguments.
-/
set_option autoImplicit false
namespace SF
open Finset Quaternion

/-- The coefficient table the library builds for `ell_max = 32` (the one object all the examples below share). -/
noncomputable def exTable : List ℝ := (IsWignerTable.exists 32 (by norm_num)).choose

theorem exTable_spec : IsWignerTable 32 exTable := (IsWignerTable.exists 32 (by norm_num)).choose_spec

/-- Two unit quaternions with rational components. -/
noncomputable def exQ : ℍ[ℝ] := mkQ (3/5) (4/5) 0 0
noncomputable def exR : ℍ[ℝ] := mkQ (3/5) 0 (4/5) 0

theorem exQ_generic : GenericQ exQ := generic_example.1
theorem exR_generic : GenericQ exR := generic_example.2.1
theorem exQ_unit : normSq exQ = 1 := unitQ.mp exQ_generic.1
theorem exR_unit : normSq exR = 1 := unitQ.mp exR_generic.1

theorem exQs_generic : ∀ q ∈ [exQ, exR], GenericQ q := by
  simpa using ⟨exQ_generic, exR_generic⟩

theorem exQs_unit : ∀ q ∈ [exQ, exR], normSq q = 1 := by
  simpa using ⟨exQ_unit, exR_unit⟩

/-! ### C01–C07 -/
example := C01_LM_layout (fun _ => (7, 7)) 2 8 (by norm_num) (by norm_num)
example := C01_LM_index_bijOn 2 8 (by norm_num) (by norm_num)
example : ∃ rows, LM_range (fun _ => (7, 7)) 2 8 = .ok rows ∧ LM_deduce_ell_max rows.length 2 = .ok 8 := by
  obtain ⟨rows, h, -⟩ := C01_LM_layout (fun _ => (7, 7)) 2 8 (by norm_num) (by norm_num)
  exact ⟨rows, h, C02_deduce_round_trip _ 2 8 (by norm_num) (by norm_num) rows h⟩
example := C03_LMpM_layout (fun _ => (7, 7, 7)) 2 8 (by norm_num) (by norm_num)
example := C03_LMpM_index_bijOn 2 8 (by norm_num) (by norm_num)
example := C04_half_integer_layout (fun _ => (7, 7, 7)) 3 8 (by norm_num) (by norm_num)
example := C04_Wigner_index_row (fun _ => (7, 7, 7)) 8 5 (-3) 1 (by simp [Spec.IsTwoTriple])
example := C04_Wigner_index_bijOn 8 (by norm_num)
example := C06_factorial 170 (by norm_num)
example := C06_binomial (fun _ => 7) 32 (by norm_num)
example : ∃ table, gen_binomial (fun _ => 7) 32 = .ok table ∧ binomial_coefficient table 5 6 = .ok 1 := by
  obtain ⟨t, ht, -⟩ := C06_binomial (fun _ => 7) 32 (by norm_num)
  exact ⟨t, ht, C06_binomial_overrun _ 32 (by norm_num) t ht 5 (by norm_num)⟩
example := C06_ladder (fun _ => 7) 32 (by norm_num)
example := C07_Wigner_coefficient (fun _ => 7) 32 (by norm_num)

/-! ### C08–C16 -/
theorem exRot : RotationArgs [.rotor (comps exQ)] (partA exQ) (partB exQ) :=
  .rotor _ _ _ _
example := C08_index_check_single exTable_spec (fun _ => 7) _ _ _ exRot (by decide) exQ_generic.1 5 (-3) 1
example := C08_parity_not_checked (by norm_num) exTable_spec (fun _ => 7) (3/5) (4/5) 0 0 (by norm_num)
example := C08_rounding exTable 32 true (fun _ => 7) _ _ _ exRot (by decide) 2.2 0.75 (-1.3) 4 2 (-3)
  (.inl (by rw [abs_lt]; norm_num)) (.inr ⟨by norm_num, ⟨1, rfl⟩⟩) (.inl (by rw [abs_lt]; norm_num))
example := C08_rounding_list exTable 32 true (fun _ => 7) _ _ _ exRot [(2.2, 0.75, -1.3)] [(4, 2, -3)]
  (by simp only [List.forall₂_cons, List.forall₂_nil_left_iff, and_true]
      exact ⟨.inl (by rw [abs_lt]; norm_num), .inr ⟨by norm_num, ⟨1, rfl⟩⟩, .inl (by rw [abs_lt]; norm_num)⟩)
example := C09_single_ell_fails exTable 32 true (fun _ => 7) _ _ _ exRot (by decide) (.int 2)
example := C12_closed_form exQ exR 5 (-3) 1 (by simp [Spec.ValidD])
example := C13_identity exTable_spec (fun _ => 7) 5 (-3) 1 (by simp [Spec.ValidD]) (by norm_num)
example := C13_z_rotation exTable_spec (fun _ => 7) 0.3 5 (-3) 1 (by simp [Spec.ValidD]) (by norm_num)
example := C14_unitary exTable_spec (fun _ => 7) exQ exQ_generic 5 (-3) 1 (by simp [Spec.ValidD]) (by norm_num)
example := C14_every_rotor exTable_spec (fun _ => 7) exQ exQ_unit 5 (-3) 1 (by simp [Spec.ValidD]) (by norm_num)
example := C14_unitary_every_rotor exTable_spec (fun _ => 7) exQ exQ_unit 5 (-3) 1 (by simp [Spec.ValidD]) (by norm_num)
example := C15_euler exTable_spec (fun _ => 7) 5 (-3) 1 (by simp [Spec.ValidD]) (by norm_num)
example := C15_every_angle exTable_spec (fun _ => 7) 5 (-3) 1 (by simp [Spec.ValidD]) (by norm_num)
example := C16_non_integer_rejected exTable (fun _ => 7) (partA exQ) (partB exQ) 2 (9 / 4)
  (.inl (by rw [show pyRound (9 / 4) = 2 by decide +kernel]; norm_num [abs_of_neg]))

/-! ### C19–C22 -/
example := C19_SWSH_grid_empty exTable (fun _ => (7, 7)) (-2) 8 (by norm_num)
example := C21_spin exTable_spec (fun _ => 7) exQ 0.3 exQ_generic (-2) 5 3 (by norm_num)
example := C21_spin_every_rotor exTable_spec (fun _ => 7) exQ 0.3 exQ_unit (-2) 5 3 (by norm_num)
example := sYlm_rotate exQ exR (-2) 5 3 (by norm_num)
example := C21_rotation_every_rotor exTable_spec (fun _ => 7) exQ exR exQ_unit exR_unit (-2) 5 3 (by norm_num) (by norm_num)
example := sYlm_addition exQ_generic.1 (-2) 1 5 (by norm_num) (by norm_num)
example := C22_every_rotor exTable_spec (fun _ => 7) exQ exQ_unit (-2) 1 5 (by norm_num) (by norm_num) (by norm_num)

/-! ### C26–C34 -/
example := C26_index exModes exModes_WF 2 (-1)
example : ∃ i, exModes.index 2 (-1) = .ok i ∧ ∀ ell m, exModes.index ell m = .ok i → ell = 2 ∧ m = -1 :=
  ⟨5, by decide, fun ell m h => C26_index_injective exModes ell m 2 (-1) 5 h (by decide)⟩
example := C28_modes exModes exModes_WF true
example := C28_inplace exModes exModes_WF
example := C28_involution exModes exModes_WF true false
example := C29_decompose exModes0 exModes0_WF rfl (by decide) true false
example := C29_self_conjugate exModes0 exModes0_WF rfl true false
example := C29_inplace exModes0 exModes0_WF rfl
example := C29_reject exModes (by decide) true
example := C29_every_rotor exTable_spec (fun _ => (7, 7)) exModes0 exModes0_WF rfl (by decide) [exQ, exR] (by simp) exQs_unit true
example := C30_reject exModes exModes0 exModes_WF exModes0_WF (by decide) (by decide) (.inl (by decide)) true
example := C30_add_comm exModes exModes exModes_WF exModes_WF rfl (by decide) (by decide) rfl rfl
example := C31_add_scalar exModes exModes1 (num 3) ⟨[], by simp [ValidIdx, num], by simp [num]⟩ true
example := C34_homogeneous exModes exModes_WF (by decide) Complex.I
example := C34_triangle exModes exModes1 exModes_WF exModes1_WF rfl (by decide) (by decide) [2] (by decide) true
example := C34_conjugate exModes exModes_WF true
example : ∃ h : Modes, h.WF ∧ ∀ idx, |h.norm idx - exModes.norm idx|
    ≤ Real.sqrt (∑ ell ∈ Icc |exModes.s| exModes.ell_max, ∑ _m ∈ Icc (-ell) ell, rotErr exModes ell idx ^ 2) := by
  obtain ⟨h, h1, h2, h3, h4⟩ := rotated_exists exModes exModes_WF (partA exQ) (partB exQ)
  refine ⟨h, h1, (C34_every_rotor exTable_spec (fun _ => (7, 7)) exModes h exModes_WF h1 h2 h3 (by decide) exQ exQ_unit ?_).2⟩
  intro l m' idx k1 k2 k3
  refine ⟨fun m => Spec.wignerD (partA exQ) (partB exQ) (2 * l) (2 * m) (2 * m'), fun m hm =>
    apiD_eq exTable_spec _ exQ_generic (validD_int hm k2) (by have : exModes.ell_max = 2 := rfl; omega), ?_⟩
  rw [h4 l m' k1 k2 k3]

/-- The product of the two sample objects exists, in either order and for every truncation argument. -/
theorem exProduct (junk : ℕ → ℝ) (f g : Modes) (hf : f.WF) (hg : g.WF) (hf0 : 0 ≤ f.ell_max) (hg0 : 0 ≤ g.ell_max)
    (hq : f.ell_max + g.ell_max ≤ 151) (t : Option Trunc) (L : ℤ) (hL : ProductEllMax f g t L) (hL0 : -1 ≤ L) (lead : List ℕ)
    (hb : bcastShape f.lead g.lead = some lead) (hz : ¬ ProductZero f g) : ∃ h, f.multiplyM junk junk g t = .ok h := by
  rcases C32_product junk junk f g hf hg hf0 hg0 hq t L hL hL0 lead hb with ⟨h, e, -⟩ | ⟨-, h⟩
  · exact ⟨h, e⟩
  · exact absurd h hz

example : ∃ h h', exModes.multiplyM (fun _ => 7) (fun _ => 7) exModes1 none = .ok h ∧
    exModes1.multiplyM (fun _ => 7) (fun _ => 7) exModes none = .ok h' ∧ h.ell_max = h'.ell_max ∧
    ∀ idx, ValidIdx [2] idx → h.coef 2 1 idx = h'.coef 2 1 idx := by
  have hL : ProductEllMax exModes exModes1 none 3 := (C32_default_ell_max rfl rfl 3).2 rfl
  have hL' : ProductEllMax exModes1 exModes none 3 := (C32_default_ell_max rfl rfl 3).2 rfl
  obtain ⟨h, e⟩ := exProduct (fun _ => 7) exModes exModes1 exModes_WF exModes1_WF (by decide) (by decide) (by decide) none 3 hL (by decide) [2]
    (by decide) (C32_no_exception (Or.inl (by decide)))
  obtain ⟨h', e'⟩ := exProduct (fun _ => 7) exModes1 exModes exModes1_WF exModes_WF (by decide) (by decide) (by decide) none 3 hL' (by decide) [2]
    (by decide) (C32_no_exception (Or.inl (by decide)))
  have hs : h.s = -2 := by
    rcases C32_product (fun _ => 7) (fun _ => 7) exModes exModes1 exModes_WF exModes1_WF (by decide) (by decide) (by decide) none 3 hL (by decide) [2] (by decide) with
      ⟨k, e1, -, -, e4, -⟩ | ⟨e1, -⟩
    · rw [e] at e1; injection e1 with e1; rw [e1, e4]; rfl
    · rw [e] at e1; cases e1
  obtain ⟨-, -, h3, h4, -⟩ := C32_comm _ _ _ _ exModes exModes1 exModes_WF exModes1_WF (by decide) (by decide) (by decide) none none 3 hL hL' (by decide)
    [2] (by decide) (by decide) h h' e e'
  exact ⟨h, h', e, e', h3, h4 2 1 (by rw [hs]; decide) (by decide) (by decide)⟩

/-- `2i·f - 3·g` for two objects of the same kind, mode by mode. -/
noncomputable def exModesLin : Modes :=
  ⟨[2], -1, 2, .absent, exModes.dat.map fun v idx => 2 * Complex.I * v idx - 3 * v idx⟩

theorem exModesLin_coef (l m : ℤ) (idx : MIdx) :
    exModesLin.coef l m idx = 2 * Complex.I * exModes.coef l m idx + (-3) * exModes.coef l m idx := by
  unfold Modes.coef
  rw [show exModesLin.dat = exModes.dat.map fun v idx => 2 * Complex.I * v idx - 3 * v idx from rfl, List.getElem?_map]
  cases exModes.dat[mpos l m]? with
  | none => simp
  | some v => simp [sub_eq_add_neg]

theorem exModesLin_WF : exModesLin.WF := by
  refine ⟨by simp [exModesLin], by simp [exModesLin, exModes], ?_⟩
  intro ell m h1 h2 h3
  funext idx
  rw [exModesLin_coef, exModes_WF.low ell m h1 h2 h3]
  simp

example : ∃ p p1, exModesLin.multiplyM (fun _ => 7) (fun _ => 7) exModes1 none = .ok p ∧
    exModes.multiplyM (fun _ => 7) (fun _ => 7) exModes1 none = .ok p1 ∧
    ∀ idx, ValidIdx [2] idx → p.coef 2 1 idx = 2 * Complex.I * p1.coef 2 1 idx + (-3) * p1.coef 2 1 idx := by
  have hL : ProductEllMax exModes exModes1 none 3 := (C32_default_ell_max rfl rfl 3).2 rfl
  have hL' : ProductEllMax exModesLin exModes1 none 3 := (C32_default_ell_max rfl rfl 3).2 rfl
  obtain ⟨p1, e1⟩ := exProduct (fun _ => 7) exModes exModes1 exModes_WF exModes1_WF (by decide) (by decide) (by decide) none 3 hL (by decide) [2]
    (by decide) (C32_no_exception (Or.inl (by decide)))
  obtain ⟨p, e⟩ := exProduct (fun _ => 7) exModesLin exModes1 exModesLin_WF exModes1_WF (by decide) (by decide) (by decide) none 3 hL' (by decide) [2]
    (by decide) (C32_no_exception (Or.inl (by decide)))
  exact ⟨p, p1, e, e1, C32_linear _ _ exModesLin exModes exModes exModes1 exModesLin_WF exModes_WF exModes_WF exModes1_WF (by decide) (by decide) (by decide)
    (by decide) (by decide) (by decide) (by decide) rfl rfl rfl rfl [2] (by decide) (2 * Complex.I) (-3) (fun l m _ idx => exModesLin_coef l m idx) none none none
    3 3 3 hL' hL hL (by decide) (by decide) (by decide) p p1 p1 e e1 e1 2 1 (by decide) (by decide) (by decide) (by decide) (by decide)⟩

/-- Truncating to `ell ≤ 2` inside the product or afterwards. -/
example : ∃ h h', exModes.multiplyM (fun _ => 7) (fun _ => 7) exModes1 none = .ok h ∧
    exModes.multiplyM (fun _ => 7) (fun _ => 7) exModes1 (some fun a b => max a b) = .ok h' ∧ h.truncate_ell 2 = .ok h' := by
  have hL : ProductEllMax exModes exModes1 none 3 := (C32_default_ell_max rfl rfl 3).2 rfl
  have hL' : ProductEllMax exModes exModes1 (some fun a b => max a b) 2 := rfl
  obtain ⟨h, e⟩ := exProduct (fun _ => 7) exModes exModes1 exModes_WF exModes1_WF (by decide) (by decide) (by decide) none 3 hL (by decide) [2]
    (by decide) (C32_no_exception (Or.inl (by decide)))
  obtain ⟨h', e'⟩ := exProduct (fun _ => 7) exModes exModes1 exModes_WF exModes1_WF (by decide) (by decide) (by decide) _ 2 hL' (by decide) [2]
    (by decide) (C32_no_exception (Or.inl (by decide)))
  exact ⟨h, h', e, e', C32_truncation _ _ exModes exModes1 exModes_WF exModes1_WF (by decide) (by decide) (by decide) _ _ 3 2 hL hL' (by decide) (by decide)
    [2] (by decide) h h' e e'⟩

example : ∃ h, exModes.multiplyM (fun _ => 7) (fun _ => 7) exModes1 none = .ok h ∧
    ∃ c : ℍ[ℝ] → MIdx → ℂ, h.evaluate exTable (fun _ => (7, 7)) ([exQ, exR].map comps) = .ok ([exQ, exR].map c) := by
  have hL : ProductEllMax exModes exModes1 none 3 := (C32_default_ell_max rfl rfl 3).2 rfl
  obtain ⟨h, e⟩ := exProduct (fun _ => 7) exModes exModes1 exModes_WF exModes1_WF (by decide) (by decide) (by decide) none 3 hL (by decide) [2]
    (by decide) (C32_no_exception (Or.inl (by decide)))
  obtain ⟨-, -, c, -, -, hc, -⟩ := C33_every_rotor exTable_spec (fun _ => (7, 7)) _ _ exModes exModes1 exModes_WF exModes1_WF (by decide) (by decide) (by decide)
    [2] (by decide) none 3 hL (by decide) (by decide) [exQ, exR] (by simp) exQs_unit h e
  exact ⟨h, e, c, hc⟩

/-! ### C35–C38 -/
example := C35_Lz_Lplus exModes exModes_WF (by decide)
example := C35_Lz_Lminus exModes exModes_WF (by decide)
example := C35_Lplus_Lminus exModes exModes_WF (by decide)
example := C35_Lsquared exModes exModes_WF (by decide)
example := C36_Rz_Rplus exModes exModes_WF (by decide)
example := C36_Rz_Rminus exModes exModes_WF (by decide)
example := C36_Rplus_Rminus exModes exModes_WF (by decide)
example := C36_Rsquared exModes exModes_WF (by decide)
example := C37_commutator exModes exModes_WF (by decide)
example := C38_left_all_generators exModes_WF (x := 2/3) (y := -2/3) (z := 1/3) (by norm_num) exQ [1]
example := C38_right_all_generators exModes_WF (x := 2/3) (y := -2/3) (z := 1/3) (by norm_num) exQ [1]

end SF
