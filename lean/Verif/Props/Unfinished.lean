import Verif.Model.Unfinished
import Verif.Props.Pipeline
import Verif.Props.Modes

/-!
# Property C66: the unfinished functions

* `recursions.rotate` and the calculator of associated Legendre functions refer to names which their modules never define: no call of
  them returns a result, whatever the arguments.
* The formula in the documentation and in the unreachable part of `rotate`, `D_{n,m} = d_{n,m} zₚᵐ zₘⁿ`, is not true of the `zₚ`, `zₘ`
  returned by `quaternion_angles` (the right exponents are those of C67).
-/

set_option autoImplicit false

namespace SF

open ComplexConjugate Quaternion

/-- **C66.** With the names its module has, `recursions.rotate` raises `NameError` on every `Modes` object and every rotor or array of
rotors — also when the shape of the array is wrong. -/
theorem C66_rotate (modes : Modes) (R : RotorsArg) : recursions_rotate recursionsGlobals modes R = .error .nameError := rfl

/-- **C66.** Whatever names were defined in the module, `recursions.rotate` would never return a value. -/
theorem C66_rotate_never (globals : List String) (modes : Modes) (R : RotorsArg) (v : Modes) :
    recursions_rotate globals modes R ≠ .ok v := by
  unfold recursions_rotate lookupName
  by_cases h1 : "np" ∈ globals
  · by_cases h2 : "quaternion" ∈ globals
    · rw [if_pos h1, if_pos h2]
      cases R with
      | single _ => exact fun h => by cases h
      | array shape _ =>
        by_cases h : shape = modes.lead
        · simp only [ne_eq, h, not_true_eq_false, if_false]; exact fun h => by cases h
        · simp only [ne_eq, h, not_false_eq_true, if_true]; exact fun h => by cases h
    · rw [if_pos h1, if_neg h2]; exact fun h => by cases h
  · rw [if_neg h1]; exact fun h => by cases h

/-- **C66.** With `quaternion` imported, the shape of an array of rotors would be checked against the leading dimensions of the modes. -/
theorem C66_rotate_shape (globals : List String) (hn : "np" ∈ globals) (hq : "quaternion" ∈ globals) (modes : Modes) (shape : List ℕ)
    (Rs : List (ℝ × ℝ × ℝ × ℝ)) :
    recursions_rotate globals modes (.array shape Rs)
      = if shape = modes.lead then .error .notImplementedError else .error .valueError := by
  unfold recursions_rotate lookupName
  rw [if_pos hn, if_pos hq]
  by_cases h : shape = modes.lead
  · rw [if_pos h]; simp only [ne_eq, h, not_true_eq_false, if_false]; rfl
  · rw [if_neg h]; simp only [ne_eq, h, not_false_eq_true, if_true]; rfl

/-- **C66.** The calculator of associated Legendre functions cannot be made: a negative `n_max` is refused with `ValueError`, every other
one ends in `NameError`. -/
theorem C66_legendre (n_max : ℤ) (rest : Py Unit) :
    legendre_init legendreGlobals n_max rest = if n_max < 0 then .error .valueError else .error .nameError := by
  unfold legendre_init
  split <;> rfl

/-- The value of `D^1_{1,0}`. -/
theorem norm_wignerD_one (A B : ℂ) : ‖Spec.wignerD A B 2 2 0‖ = Real.sqrt 2 * ‖A‖ * ‖B‖ := by
  rw [wignerD_pq A B (p' := 2) (q' := 0) (p := 1) (q := 1) rfl (by norm_num) (by norm_num) (by norm_num)]
  unfold Spec.Dpq
  simp only [Finset.sum_range_succ, Finset.sum_range_zero]
  norm_num [Nat.choose, Nat.factorial]
  have h2 : Real.sqrt 2 * Real.sqrt 2 = 2 := Real.mul_self_sqrt (by norm_num)
  have h3 : Real.sqrt 2 ≠ 0 := by positivity
  rw [abs_of_pos (by positivity)]
  field_simp
  linear_combination (-(‖A‖ * ‖B‖)) * h2

/-- **C66.** The formula in the documentation of `recursions.rotate` is wrong for the angles that `quaternion_angles` returns: for every
unit rotor away from the poles with `zₚ ≠ 1`, already `D^1_{1,0}` differs from `eps(n) eps(-m) H zₚᵐ zₘⁿ` with `n = 1`, `m = 0`, where `H`
is the value of the calculator. -/
theorem C66_rotate_formula {L : ℤ} {table : List ℝ} (ht : IsWignerTable L table) (hL : 1 ≤ L) (junk : ℕ → ℂ) (junkH : ℤ → ℝ)
    (q : ℍ[ℝ]) (hq : AwayFromPoles q) :
    ∃ zb zp zm, quaternion_angles (q.re, q.imI, q.imJ, q.imK) = .ok (zb, zp, zm) ∧
    ∃ C ws' H, HCoef.make junkH 1 = .ok C ∧ HCalculator_call C ⟨[1], [zb.re], some ([1], [zb.im])⟩ none = .ok (ws', H) ∧
    ∃ row, H[(wedge_index (wedgeify_index 1 1 0).1 (wedgeify_index 1 1 0).2.1 (wedgeify_index 1 1 0).2.2).toNat]? = some row ∧
      (zp ≠ 1 → apiD table L junk q 2 2 0
        ≠ .ok (.scalar ((Spec.eps 1 * Spec.eps (-0) : ℤ) * (row ⟨0, Nat.one_pos⟩ : ℂ) * zp ^ (0 : ℤ) * zm ^ (1 : ℤ)))) := by
  obtain ⟨zs, e, C, ws', H, hC, hH, hv⟩ := C67_recursions_agree ht junk junkH 1 le_rfl hL [q] (by simp) (by simpa using hq)
  rw [List.mapM_cons, List.mapM_nil] at e
  rcases e1 : quaternion_angles (q.re, q.imI, q.imJ, q.imK) with err | ⟨zb, zp, zm⟩
  · rw [e1] at e; cases e
  rw [e1] at e
  obtain rfl : [(zb, zp, zm)] = zs := Except.ok.inj e
  refine ⟨zb, zp, zm, rfl, C, ws', H, hC, hH, ?_⟩
  obtain ⟨row, er, hr⟩ := hv 1 1 0 (by refine ⟨?_, ?_, ?_, ?_⟩ <;> norm_num)
  refine ⟨row, er, fun hz => ?_⟩
  have h := hr ⟨0, Nat.one_pos⟩ q zb zp zm rfl rfl
  obtain ⟨h1, h2, h3⟩ := hq
  have heps : (0 : ℝ) < epsilon := by unfold epsilon; positivity
  have hd := apiD_eq ht junk (q := q) ⟨unitQ.2 h1, Or.inr h2, Or.inr h3⟩ (n := 2 * 1) (mp := 2 * 1) (m := 2 * 0)
    (validD_int (by norm_num) (by norm_num)) (by omega)
  rw [hd] at h
  have h' := DRes.scalar.inj (Except.ok.inj h)
  have hne : Spec.wignerD (partA q) (partB q) (2 * 1) (2 * 1) (2 * 0) ≠ 0 := by
    intro h0
    have := norm_wignerD_one (partA q) (partB q)
    simp only [mul_one, mul_zero] at h0
    rw [h0, norm_zero] at this
    have h4 : 0 < Real.sqrt 2 * ‖partA q‖ * ‖partB q‖ := by
      have := heps.trans h2
      have := heps.trans h3
      positivity
    linarith
  simp only [mul_one, mul_zero] at hd hne h'
  rw [hd]
  intro hc
  have hc' := DRes.scalar.inj (Except.ok.inj hc)
  apply hz
  simp only [add_zero, sub_zero, zpow_one, zpow_zero, mul_one] at h' hc'
  rw [hc'] at h' hne
  have : ((Spec.eps 1 * Spec.eps (-0) : ℤ) * (row ⟨0, Nat.one_pos⟩ : ℂ) * zm) * (zp - 1) = 0 := by linear_combination -h'
  rcases mul_eq_zero.1 this with h5 | h5
  · exact absurd h5 hne
  · linear_combination h5

/-- Concrete instance: the rotor `(1 + i + j + k)/2` satisfies the hypotheses, and its `zₚ` is not 1. -/
example : AwayFromPoles (mkQ (1/2) (1/2) (1/2) (1/2)) ∧
    ∀ zb zp zm, quaternion_angles (1/2, 1/2, 1/2, 1/2) = .ok (zb, zp, zm) → zp ≠ 1 := by
  have hab : ∀ z : ℂ, z.re ^ 2 + z.im ^ 2 = 1 / 2 → epsilon < ‖z‖ := by
    intro z hz
    have h1 : ‖z‖ ^ 2 = 1 / 2 := by rw [← Complex.normSq_eq_norm_sq, Complex.normSq_apply]; linarith
    have h2 : epsilon < 1 / 2 := by unfold epsilon; norm_num
    nlinarith [norm_nonneg z]
  refine ⟨⟨?_, hab _ ?_, hab _ ?_⟩, ?_⟩
  · rw [normSq_def']; simp; norm_num
  · simp [partA]; norm_num
  · simp [partB]; norm_num
  · intro zb zp zm h hz
    obtain ⟨zb', zp', zm', e, -, -, -, -, ea, -⟩ := C55_quaternion_angles (1/2) (1/2) (1/2) (1/2) (by norm_num) (by norm_num) (by norm_num)
    rw [h] at e
    have e' := Except.ok.inj e
    simp only [Prod.mk.injEq] at e'
    rw [← e'.2.1, hz, mul_one] at ea
    have := congrArg Complex.im ea
    simp at this

/-- Concrete instances. -/
example (modes : Modes) : recursions_rotate recursionsGlobals modes (.array [2] []) = .error .nameError := C66_rotate _ _

example (modes : Modes) (h : modes.lead = [3]) : recursions_rotate ["np", "quaternion"] modes (.array [2] []) = .error .valueError := by
  rw [C66_rotate_shape _ (by simp) (by simp), h, if_neg (by decide)]

example : legendre_init legendreGlobals 8 (.ok ()) = .error .nameError := by rw [C66_legendre, if_neg (by norm_num)]

end SF
