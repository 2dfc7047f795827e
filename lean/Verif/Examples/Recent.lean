import Verif.Examples.Last
import Verif.Props.ProductAlgebra
import Verif.Props.ShippedTables
/-
Concrete cases of theorems of C71, C97 and C100: each `example` applies the theorem named in it.
-/
set_option autoImplicit false
namespace SF
open Finset Quaternion Spec ComplexConjugate

/-! C97 -/

example : ∃ f : ℤ × ℤ × ℤ → ℂ, Wigner_D_element_kernelF F53 (1 / 10 ^ 15) shippedWigner (3 / 5) (4 / 5) [(4, 0, 2), (2, 4, 0)] [7, 7]
      = .ok [f (4, 0, 2), f (2, 4, 0)] ∧ ‖f (4, 0, 2) - Spec.wignerD (3 / 5) (4 / 5) 4 0 2‖ ≤ 1 / 10 ^ 10 := by
  have u1 : Spec.IsUnit' (3 / 5) (4 / 5) := by
    unfold Spec.IsUnit'
    rw [map_div₀, map_div₀]
    norm_num [Complex.normSq_apply]
  obtain ⟨f, f1, f2⟩ := C97_Wigner_D_element (F53_std.mono (u' := 2 ^ (-52 : ℤ)) (by norm_num) (by norm_num)) le_rfl (by norm_num)
    (by norm_num) (3 / 5) (4 / 5) u1 [(4, 0, 2), (2, 4, 0)] [7, 7] rfl (by simp [Lookable, Spec.ValidD])
  exact ⟨f, f1, f2 _ (by simp) (by norm_num) (by norm_num) (by norm_num)⟩

/-! C71: adding an array of two zeros to an array of two functions -/

example : ∃ h, exModes.addScalar ⟨[2], fun _ => 0⟩ true = .ok h ∧
    (exModes.at [1]).addScalar ((⟨[2], fun _ => 0⟩ : Scalars).at [1]) true = .ok (h.at [1]) := by
  have e : ∃ h, exModes.addScalar ⟨[2], fun _ => 0⟩ true = .ok h ∧ h.lead = [2] := by
    unfold Modes.addScalar Modes.ufuncAddScalar
    rw [if_neg (by simp [Scalars.any]), if_neg (by simp [Scalars.any])]
    exact ⟨_, rfl, rfl⟩
  obtain ⟨h, e, hl⟩ := e
  exact ⟨h, e, C71_add_numbers _ _ _ _ e [1] (by rw [hl]; unfold ValidIdx; simp)⟩

/-! C100: the scalar product of an array of two functions with its image under `L₊` -/

example : ∃ f' g h, exModes.conjugate false = .ok f' ∧ exModes.Lplus = .ok g ∧ Multiplied f' g h ∧ h.ell_max = 1 ∧
    (Real.sqrt (4 * Real.pi) : ℂ) * h.coef 0 0 [1]
      = ∑ l ∈ Icc |exModes.s| (min exModes.ell_max g.ell_max), ∑ m ∈ Icc (-l) l,
          conj (exModes.coef l m (bcIdx exModes.lead [1])) * g.coef l m (bcIdx g.lead [1]) := by
  have h2 : exModes.ell_max = 2 := rfl
  obtain ⟨f', f1, f2⟩ := conjugate_ok exModes_WF false
  obtain ⟨g, g1, k2⟩ := Lplus_ok exModes_WF
  have g2 : f'.ell_max = 2 := f2.hL.trans h2
  have g3 : g.ell_max = 2 := k2.hL.trans h2
  obtain ⟨h, e, e1, e2, e3⟩ := Multiplied.exists f2.wf k2.wf (by omega) (by omega) (by omega) (lead := [2])
    (by rw [f2.lead, k2.lead]; exact bcastShape_self [2]) 1 (by omega)
  exact ⟨f', g, h, f1, g1, e, e1, (C100_scalar_product _ g f' h exModes_WF k2.wf k2.hs.symm (by omega) (by omega) (by omega) [2]
    (by rw [k2.lead]; exact bcastShape_self [2]) false f1 e (by omega) [1] (by unfold ValidIdx; simp)).2⟩
end SF
