import Verif.Examples.More
import Verif.Props.Compare
import Verif.Props.Sphere
import Verif.Props.Coordinates
import Verif.Props.Threads
import Verif.Props.Sampling
import Verif.Props.ModesFloat
import Verif.Props.FloatIEEEY
import Verif.Props.ConvFloat
import Verif.Props.MultFloat
import Verif.Props.W3Float
import Verif.Props.TablesFloat
import Verif.Props.ExprFloat
import Verif.Props.HFloat
import Verif.Props.HColumns
/-
Concrete cases of the theorems for C81–C96 that have hypotheses and no example beside them.
-/
set_option autoImplicit false
namespace SF
open Finset Quaternion Spec

/-! C81 -/

example := C81_all_equal exModes exModes exModes_WF exModes_WF rfl rfl
example (u : CUfunc) := C81_array_grid u ⟨[3], 5, 7, -1, fun idx => (idx.headD 0 : ℂ)⟩ ⟨by norm_num, by norm_num⟩ 3 (by norm_num) rfl
  ⟨[3], fun i => (i.headD 0 : ℂ)⟩ rfl

/-! C82 -/

/-- The values of `exModes` in all directions, as `evaluate` returns them. -/
theorem exModes_computed : ∃ v : ℝ → ℝ → MIdx → ℂ, ∀ θ φ, exModes.evaluate exTable (fun _ => (0, 0)) [comps (dirQ θ φ)] = .ok [v θ φ] :=
  ⟨fun θ φ => _, fun θ φ => evaluate_any exTable_spec (fun _ => (0, 0)) exModes_WF (show (2 : ℤ) ≤ 32 by norm_num) [dirQ θ φ] (by simpa using dirQ_unit θ φ)⟩

/-- The values of a harmonic in all directions, as `SWSH` returns them. -/
theorem exY_computed (s l m : ℤ) (hs : |s| ≤ l) (hm : |m| ≤ l) (hl : l ≤ 32) :
    ∃ y : ℝ → ℝ → ℂ, ∀ θ φ, apiY exTable (fun _ => 0) (dirQ θ φ) s l m = .ok [y θ φ] :=
  ⟨fun θ φ => _, fun θ φ => apiY_any exTable_spec _ (dirQ_unit θ φ) hl⟩

example : ∃ y y' : ℝ → ℝ → ℂ, (∀ θ φ, apiY exTable (fun _ => 0) (dirQ θ φ) (-2) 5 3 = .ok [y θ φ]) ∧
    (∀ θ φ, apiY exTable (fun _ => 0) (dirQ θ φ) (-2) 4 3 = .ok [y' θ φ]) ∧ ‖sphInt fun θ φ => (starRingEnd ℂ) (y θ φ) * y' θ φ‖ ≤ 1 / 10 ^ 11 := by
  obtain ⟨y, hy⟩ := exY_computed (-2) 5 3 (by norm_num) (by norm_num) (by norm_num)
  obtain ⟨y', hy'⟩ := exY_computed (-2) 4 3 (by norm_num) (by norm_num) (by norm_num)
  have h := (C82_orthonormal exTable_spec (fun _ => 0) (-2) 5 3 4 3 (by norm_num) (by norm_num) (by norm_num) (by norm_num) (by norm_num) (by norm_num)
    y y' hy hy').2
  rw [if_neg (by norm_num), sub_zero] at h
  exact ⟨y, y', hy, hy', h.trans (C82_bound 5 4 (by norm_num) (by norm_num) (by norm_num) (by norm_num))⟩

example (v : ℝ → ℝ → MIdx → ℂ) (hv : ∀ θ φ, exModes.evaluate exTable (fun _ => (0, 0)) [comps (dirQ θ φ)] = .ok [v θ φ]) :=
  C82_inner exTable_spec (fun _ => (0, 0)) exModes exModes exModes_WF exModes_WF rfl (by decide) (by decide) v v hv hv [0] [1]
example (v : ℝ → ℝ → MIdx → ℂ) (hv : ∀ θ φ, exModes.evaluate exTable (fun _ => (0, 0)) [comps (dirQ θ φ)] = .ok [v θ φ]) :=
  C82_norm exTable_spec (fun _ => (0, 0)) exModes exModes_WF (by decide) v hv [1]
example (v : ℝ → ℝ → MIdx → ℂ) (hv : ∀ θ φ, exModes.evaluate exTable (fun _ => (0, 0)) [comps (dirQ θ φ)] = .ok [v θ φ])
    (y : ℝ → ℝ → ℂ) (hy : ∀ θ φ, apiY exTable (fun _ => 0) (dirQ θ φ) exModes.s 2 1 = .ok [y θ φ]) :=
  C82_projection exTable_spec (fun _ => (0, 0)) (fun _ => 0) exModes exModes_WF (by decide) v hv [1] 2 1 (by simp [exModes]) (by norm_num) (by decide) y hy

/-! C83 -/

theorem exOffAxis : OffAxis 1 := by
  have e : epsilon < 1 / 4 := by unfold epsilon; norm_num
  have c : 1 / 4 < Real.cos (1 / 2) := by
    have := Real.one_sub_sq_div_two_le_cos (x := 1 / 2)
    nlinarith
  have s : 1 / 4 < Real.sin (1 / 2) := by
    have := Real.sin_gt_sub_cube (x := 1 / 2) (by norm_num)
    nlinarith
  exact ⟨e.trans (c.trans_le (le_abs_self _)), e.trans (s.trans_le (le_abs_self _))⟩

/-- All the differential operators at one point, for `exModes`. -/
example : ∃ v, Computed exTable (fun _ => (0, 0)) exModes v ∧ DifferentiableAt ℝ (fun t => v t 2 [0]) 1 ∧
    (∃ g w, exModes.ethbar = .ok g ∧ Computed exTable (fun _ => (0, 0)) g w ∧ w 1 2 [0] = ethbarOp (-1) (fun θ φ => v θ φ [0]) 1 2) := by
  have hL : exModes.ell_max ≤ 32 := by decide
  obtain ⟨v, hv⟩ := C83_computed exTable_spec (fun _ => (0, 0)) exModes_WF hL
  obtain ⟨g, g1, g2⟩ := ethbar_ok exModes_WF
  obtain ⟨w, hw⟩ := C83_computed exTable_spec (fun _ => (0, 0)) g2.wf (by rw [g2.hL]; exact hL)
  exact ⟨v, hv, (C83_differentiable exTable_spec _ exModes_WF hL hv [0] exOffAxis 2).1, g, w, g1, hw,
    C83_ethbar exTable_spec _ exModes_WF hL hv [0] hw exOffAxis 2 g1⟩

example (v : ℝ → ℝ → Slice) (hv : Computed exTable (fun _ => (0, 0)) exModes v) (g : Modes) (hg : exModes.Lz = .ok g) (w : ℝ → ℝ → Slice)
    (hw : Computed exTable (fun _ => (0, 0)) g w) := C83_Lz exTable_spec _ exModes_WF (show (2 : ℤ) ≤ 32 by norm_num) hv [0] hw exOffAxis 2 hg
example (v : ℝ → ℝ → Slice) (hv : Computed exTable (fun _ => (0, 0)) exModes v) (g : Modes) (hg : exModes.Lplus = .ok g) (w : ℝ → ℝ → Slice)
    (hw : Computed exTable (fun _ => (0, 0)) g w) := C83_Lplus exTable_spec _ exModes_WF (show (2 : ℤ) ≤ 32 by norm_num) hv [0] hw exOffAxis 2 hg
example (v : ℝ → ℝ → Slice) (hv : Computed exTable (fun _ => (0, 0)) exModes v) (g : Modes) (hg : exModes.Lminus = .ok g) (w : ℝ → ℝ → Slice)
    (hw : Computed exTable (fun _ => (0, 0)) g w) := C83_Lminus exTable_spec _ exModes_WF (show (2 : ℤ) ≤ 32 by norm_num) hv [0] hw exOffAxis 2 hg
example (v : ℝ → ℝ → Slice) (hv : Computed exTable (fun _ => (0, 0)) exModes v) (g : Modes) (hg : exModes.Lsquared = .ok g) (w : ℝ → ℝ → Slice)
    (hw : Computed exTable (fun _ => (0, 0)) g w) := C83_Lsquared exTable_spec _ exModes_WF (show (2 : ℤ) ≤ 32 by norm_num) hv [0] hw exOffAxis 2 hg

/-! C84 -/

example := C84_shared_workspace (J := 2) (n := 3) (by norm_num) (fun _ => 7) ![0, 1] ![1, 2] (fun _ => List.replicate (hRows 3).toNat fun _ => 7)
  (by rw [List.length_replicate]; exact Int.self_le_toNat _)

/-! C85 -/

example := C85_aliasing 4 (by norm_num) exTable_spec (fun _ => (0, 0)) (by norm_num) 20 (by norm_num) (by norm_num)
example := C85_rings 4 (by norm_num) exTable_spec (fun _ => (0, 0)) (by norm_num) 20 (by norm_num) (by norm_num)

/-! C86 -/

example := C86_add (sloppyOps_std (u := 2 ^ (-53 : ℤ)) (by positivity)) exModes (exModes.at [1]) exModes_WF (C71_select exModes exModes_WF [] fun _ => [1]).1 rfl (by decide) (by decide)
  (lead := [2]) rfl true
example := C86_add_comm (sloppyOps_std (u := 2 ^ (-53 : ℤ)) (by positivity)) exModes { exModes with dat := exModes.dat.map fun v i => 3 * v i } exModes_WF
  ⟨exModes_WF.ell_max_ge, by simpa using exModes_WF.size, fun ell m h1 h2 => by
    have := exModes_WF.low ell m h1 h2
    simp only [Modes.coef, List.getElem?_map] at this ⊢
    intro h
    have := this h
    cases e : exModes.dat[mpos ell m]? with
    | none => simp
    | some v => rw [e] at this; simp only [Option.getD_some] at this; simp [this]⟩ rfl (by decide) (by decide) rfl rfl
example := C86_sub_self (sloppyOps_std (u := 2 ^ (-53 : ℤ)) (by positivity)) exModes exModes_WF (by decide)

/-! C87 -/

set_option exponentiation.threshold 2000 in
example (ovf : ℝ → ℝ) := C87_grid (F64Y_ieee ovf) (rangeY_double (by positivity) (by norm_num) (by norm_num) (by norm_num) (by norm_num) (by positivity)
  (by norm_num) maxDouble_ge le_rfl le_rfl) (table53 exTable_spec) (fun _ => (7, 7)) [exQ, 1, exR] (by simp)
  (by intro q hq
      have : normSq q = 1 := by
        simp only [List.mem_cons, List.not_mem_nil, or_false] at hq
        rcases hq with rfl | rfl | rfl
        · exact exQ_unit
        · simp
        · exact exR_unit
      rw [this]; norm_num) (-2) 8 (by norm_num) (by norm_num)

/-! C88, C89 -/

theorem exComplete8 : CompleteModes 1 2 [1, 2, 3, 4, 5, 6, 7, 8] := ⟨by norm_num, by norm_num, by norm_num⟩

example := C88_eth (sloppyConv_std (u := 2 ^ (-53 : ℤ)) (by positivity) (by norm_num)) exComplete8 (by norm_num) (-1)
example := C88_inverse (sloppyConv_std (u := 2 ^ (-53 : ℤ)) (by positivity) (by norm_num)) exComplete8 (by norm_num) (-1)
example := C89_product (sloppyConv_std (u := 2 ^ (-53 : ℤ)) (by positivity) (by norm_num)) exModes exModes exModes_WF exModes_WF (by decide) (by decide)
  (sloppy3j_approx (η := 2 ^ (-40 : ℤ)) (by positivity) _ _ _ _) (fun _ _ _ _ _ => by positivity) none _ ((C32_default_ell_max rfl rfl _).2 rfl) (by decide) exModes.lead (by decide)

/-! C91 -/

example := C91_safe W3Ops53 exCalc_WF (j2 := 2) (j3 := 1) (m2 := 1) (m3 := -1) (by norm_num [exCalc])
example := C91_history W3Ops53 exCalc_WF exCalc_WF rfl 2 1 1 (-1)
example := C91_Wigner3j_selection W3Ops53 (fun _ => 7) (j1 := 2) (j2 := 2) (j3 := 1) (m1 := 1) (m2 := 1) (m3 := 1) (by norm_num)
example := C91_normalised W3Ops53_std exCalc_WF (j2 := 2) (j3 := 2) (m2 := 1) (m3 := -1) (by norm_num [exCalc]) (by norm_num) (by norm_num)
  (W3Fits.of_le (by norm_num) (by norm_num) (by norm_num))
example : ∃ f c', exCalc.calculateF W3Ops53 2 2 0 0 = .ok (f, c') ∧ ∀ (i : ℕ) (hi : i < f.length),
    (2 * (i : ℝ) + 1) * f[i] ^ 2 ≤ 1 + gam (2 ^ (-53 : ℤ)) (rowLen 2 2 0 0 + 6) := by
  obtain ⟨f, c', h1, -⟩ := C91_zero_row W3Ops53_std (by norm_num) exCalc_WF (j2 := 2) (j3 := 2) (by norm_num) (by norm_num)
    (by norm_num [exCalc]) (W3Fits.of_le (by norm_num) (by norm_num) (by norm_num))
  exact ⟨f, c', h1, C91_bound W3Ops53_std exCalc_WF (by norm_num [exCalc]) (by norm_num) (by norm_num)
    (W3Fits.of_le (by norm_num) (by norm_num) (by norm_num)) h1⟩
example (junk : ℕ → ℝ) : ∃ v, Wigner3jF W3Ops53 junk 60 50 40 0 0 0 = .ok v ∧ (2 * ((60 : ℤ) : ℝ) + 1) * v ^ 2 ≤ 1 + gam (2 ^ (-53 : ℤ)) 158 := by
  obtain ⟨v, h, -⟩ := C91_Wigner3j_zero W3Ops53_std (by norm_num) (junk := junk) (j1 := 60) (j2 := 50) (j3 := 40) (by norm_num) (by norm_num) (by norm_num) (by norm_num)
  exact ⟨v, h, C91_Wigner3j_bound W3Ops53_std (by norm_num) h (.inl rfl)⟩
example (junk : ℕ → ℝ) (v : ℝ) (h : clebsch_gordanF W3Ops53 junk 3 1 2 (-1) 4 0 = .ok v) :=
  C91_clebsch_gordan_bound W3Ops53_std (by norm_num) (by norm_num) h

/-! C92 -/

example := C92_factorial exMp_std 100 (by norm_num)
example := C92_factorial_23 exMp_std
example := C92_binomial_57 exMp_std (fun _ => 7)
example := C92_Wigner_coefficient exMp_std (fun _ => 7) 8 (by norm_num)

/-! C94, C96 -/

example := C94_H_converges 8 (by norm_num) (1 / 10 ^ 6) (by norm_num)

/-- Two of three angles, in the opposite order. -/
theorem exPicked : PickedArgs ⟨[3], [1, 0, -1], some ([3], [0, 1, 0])⟩ ⟨[2], [0, 1], some ([2], [1, 0])⟩ ![1, 0] where
  nonempty := by simp
  co := by intro j; fin_cases j <;> rfl
  si := .inr ⟨_, _, rfl, rfl, by intro j; fin_cases j <;> rfl⟩

example (C : HCoef) (hC : HCoef.makeF W3Ops53 (fun _ => 0) 2 = .ok C) := C96_columns W3Ops53 _ _ 2 (by norm_num) C C hC hC _ _ _ exPicked
example (C : HCoef) (hC : HCoef.makeF W3Ops53 (fun _ => 0) 2 = .ok C) :=
  C96_memory_order W3Ops53 _ 2 (by norm_num) C hC ⟨2, 3, .cols, fun i j => (i + j) / 10⟩ (i := 1) (j := 2) (by norm_num) (by norm_num)

end SF
