import Verif.Examples.Later
import Verif.Props.ShippedDouble
/-
Concrete cases of the remaining theorems with hypotheses: each `example` applies the theorem named in it.
-/
set_option autoImplicit false
namespace SF
open Finset Quaternion Spec

/-! C38: the value called `w` in the theorems of C38 is the only one -/

example (table : List ℝ) (w' : Slice) (wx : Slice) (h : IsRightLie table (fun _ => 0) exModes qx exQ wx) (h' : IsRightLie table (fun _ => 0) exModes qx exQ w') :
    wx = w' := isRightLie_unique h h'
example (table : List ℝ) (w' : Slice) (wx : Slice) (h : IsLeftLie table (fun _ => 0) exModes qx exQ wx) (h' : IsLeftLie table (fun _ => 0) exModes qx exQ w') :
    wx = w' := isLeftLie_unique h h'

/-! C78 -/

set_option exponentiation.threshold 2000 in
example (ovf : ℝ → ℝ) := C78_double (F64_ieee ovf) (by norm_num) (by norm_num) (by norm_num) (by norm_num) (by norm_num) maxDouble_ge le_rfl
  (table53 exTable_spec) (1 - 2 ^ (-52 : ℤ)) (by norm_num) (partA exQ) (partB exQ) exQ_generic.1 [(32, 0, 2)] [7] rfl (by simp [Lookable, Spec.ValidD])

/-! C82, C85 -/

theorem exBand : ∀ θ : ℝ, 1 < θ → θ < 3 / 2 → epsilon < |Real.cos (θ / 2)| ∧ epsilon < |Real.sin (θ / 2)| := by
  intro θ h1 h2
  have e : epsilon < 1 / 4 := by unfold epsilon; norm_num
  have c : 1 / 4 < Real.cos (θ / 2) := by
    have := Real.one_sub_sq_div_two_le_cos (x := θ / 2)
    nlinarith
  have s : 1 / 4 < Real.sin (θ / 2) := by
    have := Real.sin_gt_sub_cube (x := θ / 2) (by linarith)
    nlinarith [sq_nonneg (θ / 2), mul_pos (show (0:ℝ) < θ/2 by linarith) (show (0:ℝ) < θ/2 by linarith)]
  exact ⟨e.trans (c.trans_le (le_abs_self _)), e.trans (s.trans_le (le_abs_self _))⟩

example (l m : ℤ) (hm : |m| ≤ l) : exModes.coef l m [1] = exModes.coef l m [1] := by
  obtain ⟨v, hv⟩ := exModes_computed
  exact C82_unique exTable_spec (fun _ => (0, 0)) exModes exModes exModes_WF exModes_WF rfl (by decide) (by decide) [1] [1] 1 (3 / 2) (by norm_num) exBand
    v v hv hv (fun _ _ _ _ => rfl) l m hm

example (F : Grid) (hF : exModes.grid sumSalm2map (some 7) (some 8) none = .ok F) (i j : MIdx) (hi : ValidIdx [2] i) (hj : ValidIdx [2] j)
    (heq : ∀ t < 7, ∀ k < 8, F.at i t k = F.at j t k) (l m : ℤ) (hm : |m| ≤ l) : exModes.coef l m i = exModes.coef l m j :=
  C85_grid isSalm2map_sum exModes exModes exModes_WF exModes_WF (by simp [exModes]) (by simp [exModes]) rfl 7 8 (by simp [exModes]) (by simp [exModes])
    (by simp [exModes]) (by simp [exModes]) F F hF hF i j hi hj heq l m hm
example (tp : List (List (ℝ × ℝ))) (htp : theta_phi 4 5 = .ok tp) (i j : MIdx)
    (heq : ∀ row ∈ tp, ∀ d ∈ row, ∃ v w, exModes.evaluate exTable (fun _ => (0, 0)) [from_euler_angles d.2 d.1 0] = .ok [v] ∧
      exModes.evaluate exTable (fun _ => (0, 0)) [from_euler_angles d.2 d.1 0] = .ok [w] ∧ v i = w j) (l m : ℤ) (hm : |m| ≤ l) :
    exModes.coef l m i = exModes.coef l m j :=
  C85_evaluate exTable_spec (fun _ => (0, 0)) exModes exModes exModes_WF exModes_WF rfl (by decide) (by decide) 4 5 (by norm_num) (by norm_num)
    (by norm_num) (by simp [exModes]) (by simp [exModes]) (by simp [exModes]) (by simp [exModes]) i j tp htp heq l m hm

/-! C84 -/

example (c' : W3Calc) (h : exCalc.runCalls ([⟨1, 1, 0, 0⟩] ++ [⟨1, 1, 1, -1⟩]) = .ok c') :=
  C84_wigner3j_shared exCalc_WF [⟨1, 1, 0, 0⟩] ⟨1, 1, 1, -1⟩ (by simp [exCalc]) (fun _ _ => W3Fits.of_le (by norm_num) (by norm_num) (by norm_num)) h

/-! C92 -/

example := C92_Wigner_D_element exMp_std (F53_std.mono (u' := 2 ^ (-52 : ℤ)) (by norm_num) (by norm_num)) (by norm_num) (by norm_num) (by norm_num) (fun _ => 7) 32 (by norm_num)

/-! C93 -/

example : fieldValue exExpr.ty.s exExpr.ty.ell_max (fun l m => exExpr.weight l m [1]) (partA exQ) (partB exQ) = exExpr.value (partA exQ) (partB exQ) [1] :=
  C93_value exQ_generic.1 (exExpr_Ok (ε := 0) le_rfl)
    ⟨trivial, Or.inr (Or.inr (Or.inl rfl)), trivial, ⟨Or.inr (Or.inl rfl), trivial⟩, by decide⟩ [1]

example {u : ℝ} (hu : 0 ≤ u) (γ : ℕ → ℝ) (ε : ℤ → ℤ → ℤ → ℤ → ℤ → ℝ) :
    (MExpr.div ⟨[], fun _ => 3⟩ (.op .ethbar (.scale ⟨[], fun _ => -2⟩ (.op .eth (.leaf exModesF))))).err u γ ε 1 0 [0]
      ≤ ((1 + u) ^ 10 - 1) * (MExpr.div ⟨[], fun _ => 3⟩ (.op .ethbar (.scale ⟨[], fun _ => -2⟩ (.op .eth (.leaf exModesF))))).size 1 0 [0] :=
  C93_linear hu (P := fun _ _ _ _ => True) (e := MExpr.div ⟨[], fun _ => 3⟩ (.op .ethbar (.scale ⟨[], fun _ => -2⟩ (.op .eth (.leaf exModesF)))))
    ⟨⟨⟨⟨⟨exModesF_WF, by decide⟩, by simp⟩, by decide, by decide⟩, by simp⟩, by decide, by decide, fun _ => by simp⟩ ⟨trivial, fun _ => by simp⟩ 1 0 [0] (by norm_num)

/-! C96 -/

example (junk : ℤ → ℝ) (c s : ℕ → ℕ → ℝ) (hc : ∀ i j, -1 ≤ c i j ∧ c i j ≤ 1) : ∃ C w H w' H1, HCoef.makeF W3Ops53 junk 2 = .ok C ∧
    HCalculator_callF W3Ops53 C (hArgs2 ⟨2, 3, .cols, c⟩ (some ⟨2, 3, .cols, s⟩)) none = .ok (w, H) ∧
    HCalculator_callF W3Ops53 C (oneAngle (c 0 1) (s 0 1)) none = .ok (w', H1) ∧ H1 = H.map fun row _ => row (2 : Fin 6) := by
  obtain ⟨C, hC, h1, -⟩ := C96_returns W3Ops53_std (by norm_num) junk 2 (by norm_num) (hArgs2 ⟨2, 3, .cols, c⟩ (some ⟨2, 3, .cols, s⟩))
    ⟨by simp [hArgs2, Arr2.ravelK], by
      intro z hz
      simp only [hArgs2, Arr2.ravelK, List.mem_map] at hz
      obtain ⟨k, -, rfl⟩ := hz
      exact hc _ _, rfl, by simp [hArgs2, Arr2.ravelK]⟩
  obtain ⟨w, H, e⟩ := h1 none (fun _ h => by cases h)
  obtain ⟨w', H1, e', e''⟩ := C96_same_layout W3Ops53 junk 2 (by norm_num) C hC ⟨2, 3, .cols, c⟩ ⟨2, 3, .cols, s⟩ rfl rfl rfl
    (i := 0) (j := 1) (by norm_num) (by norm_num) w H e
  exact ⟨C, w, H, w', H1, hC, e, e', e''⟩

end SF
