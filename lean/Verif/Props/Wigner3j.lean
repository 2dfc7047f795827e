import Verif.Lemmas.Wigner3j
import Verif.Lemmas.W3Safe

/-!
# Properties of `Wigner3jCalculator`, `Wigner3j` and `clebsch_gordan` (C46–C50)

The specification is `Spec.threeJ` (the Racah formula, with the selection rules `Spec.Admissible`).
-/

set_option autoImplicit false

namespace SF

open Spec Finset

/-- A calculator whose workspace has the length its constructor gave it; the contents are arbitrary. -/
def W3Calc.WF (c : W3Calc) : Prop := 0 ≤ c.size ∧ c.workspace.length = 4 * c.size.toNat

/-- The calculator states that a program can reach: a new object, and what a call leaves behind (a call that raises an
exception leaves a workspace of unchanged length with arbitrary contents). -/
inductive W3Calc.Reachable (j2_max j3_max : ℤ) : W3Calc → Prop
  | new (junk : ℕ → ℝ) (c : W3Calc) (h : W3Calc.new junk j2_max j3_max = .ok c) : Reachable j2_max j3_max c
  | call (c c' : W3Calc) (f : List ℝ) (j2 j3 m2 m3 : ℤ) (h : Reachable j2_max j3_max c)
      (hj2 : j2 ≤ j2_max) (hj3 : j3 ≤ j3_max) (hc : c.calculate j2 j3 m2 m3 = .ok (f, c')) : Reachable j2_max j3_max c'
  | failed (c c' : W3Calc) (h : Reachable j2_max j3_max c) (hs : c'.size = c.size)
      (hl : c'.workspace.length = c.workspace.length) : Reachable j2_max j3_max c'

/-- The dangerous situation, for admissible `m2`, `m3`, on the row of symbols `(j j2 j3; -m2-m3 m2 m3)` with `a ≤ j ≤ b`: the
values keep their sign and do not decrease in magnitude up to some `n ≥ a + 2`; then, well below the middle of `n` and `b`, there
is a `k` at which the symbol vanishes exactly, while its neighbour above is at least as large as its neighbour below, and no value from
`n` to `k`, unless it vanishes, is smaller than the one two places before it. -/
def GrowingZero (j2 j3 m2 m3 : ℤ) : Prop :=
  let a := max |j2 - j3| |m2 + m3|
  let b := j2 + j3
  let w := fun j => threeJ j j2 j3 (-(m2 + m3)) m2 m3
  |m2| ≤ j2 ∧ |m3| ≤ j3 ∧
  ∃ n k, a + 2 ≤ n ∧ n + 2 ≤ k ∧ 2 * k + 5 ≤ n + b ∧ (∀ i, a < i → i ≤ n → 0 < w i * w (i + 1) ∧ |w i| ≤ |w (i + 1)|) ∧
    w k = 0 ∧ |w (k - 1)| ≤ |w (k + 1)| ∧ ∀ i, n ≤ i → i < k → |w (i - 1)| ≤ |w (i + 1)| ∨ w (i + 1) = 0

/-! ## The four slices of the workspace -/

theorem calc_slices {c : W3Calc} (hc : c.WF) :
    let ws := c.workspace.map fun _ => (0 : ℝ)
    let n := c.size.toNat
    ws.take n = List.replicate n 0 ∧ (ws.drop n).take n = List.replicate n 0 ∧
    (ws.drop (2 * n)).take n = List.replicate n 0 ∧ (ws.drop (3 * n)).take n = List.replicate n 0 := by
  have e : (c.workspace.map fun _ => (0 : ℝ)) = List.replicate (4 * c.size.toNat) 0 := by
    rw [List.map_const', hc.2]
  simp only [e, List.take_replicate, List.drop_replicate]
  refine ⟨?_, ?_, ?_, ?_⟩ <;> congr 1 <;> omega

/-- `calculate` is `w3run` on four zero arrays. -/
theorem calculate_eq {c : W3Calc} (hc : c.WF) (j2 j3 m2 m3 : ℤ) :
    c.calculate j2 j3 m2 m3 = do
      let w ← w3run ⟨List.replicate c.size.toNat 0, List.replicate c.size.toNat 0, List.replicate c.size.toNat 0,
        List.replicate c.size.toNat 0⟩ j2 j3 m2 m3
      return (w.f, { c with workspace := w.f ++ w.sf ++ w.F_minus ++ w.F_plus }) := by
  obtain ⟨h1, h2, h3, h4⟩ := calc_slices hc
  unfold W3Calc.calculate
  simp only
  rw [h1, h2, h3, h4]

theorem replicate_zero {n i : ℕ} (h : i < n) : (List.replicate n (0 : ℝ))[i]? = some 0 := by
  rw [List.getElem?_replicate, if_pos h]

/-! ## C47 -/

/-- The constructor gives a workspace of the documented size. -/
theorem C47_new {junk : ℕ → ℝ} {j2_max j3_max : ℤ} (h0 : 0 ≤ j2_max + j3_max + 1) (h : j2_max + j3_max + 1 < 2 ^ 31) :
    ∃ c, W3Calc.new junk j2_max j3_max = .ok c ∧ c.WF ∧ c.size = j2_max + j3_max + 1 := by
  refine ⟨⟨j2_max + j3_max + 1, (List.range (4 * (j2_max + j3_max + 1)).toNat).map junk⟩, ?_, ?_⟩
  · unfold W3Calc.new
    simp only [bind, Except.bind]
    rw [i32_id (abs_lt.2 (by omega)), npEmpty_ok (by omega)]
    rfl
  · refine ⟨⟨h0, ?_⟩, rfl⟩
    simp only [List.length_map, List.length_range]
    omega

/-- Memory safety for all arguments whatsoever (also where the 32-bit coefficients overflow): the call returns a well-formed
calculator and an array of the calculator's size whose entries outside the admissible range are zero, or it raises
`ZeroDivisionError` or `ValueError`; it never accesses memory outside its arrays. -/
theorem C47_memory_safe {c : W3Calc} (hc : c.WF) {j2 j3 m2 m3 : ℤ} (hj : j2 + j3 < c.size) :
    (∃ f c', c.calculate j2 j3 m2 m3 = .ok (f, c') ∧ c'.WF ∧ c'.size = c.size ∧ f.length = c.size.toNat ∧
      (∀ i : ℕ, i < f.length → ((i : ℤ) < max |j2 - j3| |m2 + m3| ∨ j2 + j3 < i ∨ |m2| > j2 ∨ |m3| > j3) → f[i]? = some 0)) ∨
    c.calculate j2 j3 m2 m3 = .error .zeroDivision ∨ c.calculate j2 j3 m2 m3 = .error .valueError := by
  rw [calculate_eq hc]
  have hl := List.length_replicate (n := c.size.toNat) (a := (0 : ℝ))
  rcases w3run_safe (j2 := j2) (j3 := j3) (m2 := m2) (m3 := m3) (n := c.size.toNat)
      (w := ⟨List.replicate c.size.toNat 0, List.replicate c.size.toNat 0, List.replicate c.size.toNat 0,
        List.replicate c.size.toNat 0⟩) (by have := hc.1; omega) hl hl hl hl with ⟨w, e, ⟨h1, h1'⟩, h1'', h2, h3, h4⟩ | e | e
  · left
    refine ⟨w.f, { c with workspace := w.f ++ w.sf ++ w.F_minus ++ w.F_plus }, by rw [e]; rfl, ⟨hc.1, ?_⟩, rfl, h1, ?_⟩
    · simp only [List.length_append, h1, h2, h3, h4]; omega
    · intro i hi hout
      by_cases hs : |m2| > j2 ∨ |m3| > j3
      · rw [h1'' hs]; exact replicate_zero (by omega)
      · rw [h1' i (by tauto)]; exact replicate_zero (by omega)
  · right; left; rw [e]; rfl
  · right; right; rw [e]; rfl

/-- Every reachable calculator is well formed. -/
theorem C47_reachable {j2_max j3_max : ℤ} (h0 : 0 ≤ j2_max + j3_max + 1) (h : j2_max + j3_max + 1 < 2 ^ 31) {c : W3Calc}
    (hr : W3Calc.Reachable j2_max j3_max c) : c.WF ∧ c.size = j2_max + j3_max + 1 := by
  induction hr with
  | new junk c hn =>
    obtain ⟨c', e, h1, h2⟩ := C47_new (junk := junk) h0 h
    rw [e] at hn; cases hn
    exact ⟨h1, h2⟩
  | call c c' f j2 j3 m2 m3 _ hj2 hj3 hcall ih =>
    obtain ⟨hwf, hs⟩ := ih
    rcases C47_memory_safe hwf (j2 := j2) (j3 := j3) (m2 := m2) (m3 := m3) (by omega) with ⟨f', c'', e, g1, g2, _⟩ | e | e
    · rw [e] at hcall; cases hcall
      exact ⟨g1, by rw [g2, hs]⟩
    · rw [e] at hcall; cases hcall
    · rw [e] at hcall; cases hcall
  | failed c c' _ hs hl ih =>
    exact ⟨⟨by rw [hs]; exact ih.1.1, by rw [hs, hl]; exact ih.1.2⟩, by rw [hs]; exact ih.2⟩

/-- History independence: two calculators of the same size give the same outcome (the same array and
the same workspace afterwards, or the same exception), whatever was computed with them before. -/
theorem C47_history {c c' : W3Calc} (hc : c.WF) (hc' : c'.WF) (hs : c.size = c'.size) (j2 j3 m2 m3 : ℤ) :
    c.calculate j2 j3 m2 m3 = c'.calculate j2 j3 m2 m3 := by
  rw [calculate_eq hc, calculate_eq hc', hs]

/-- The full outcome of a call when the integers fit: the array of 3-j symbols, or `ZeroDivisionError`, the latter only if
the row has a growing zero and not all `m` vanish. -/
theorem C47_outcome {c : W3Calc} (hc : c.WF) {j2 j3 m2 m3 : ℤ} (hj : j2 + j3 < c.size)
    (hfit : |m2| ≤ j2 → |m3| ≤ j3 → W3Fits j2 j3 m2 m3) :
    (∃ f c', c.calculate j2 j3 m2 m3 = .ok (f, c') ∧ f.length = c.size.toNat ∧
      ∀ i : ℕ, i < f.length → f[i]? = some (threeJ i j2 j3 (-(m2 + m3)) m2 m3)) ∨
    (c.calculate j2 j3 m2 m3 = .error .zeroDivision ∧ ¬ (m2 = 0 ∧ m3 = 0) ∧ GrowingZero j2 j3 m2 m3) := by
  by_cases hm23 : |m2| > j2 ∨ |m3| > j3
  · left
    rw [calculate_eq hc]
    unfold w3run
    simp only
    rw [if_pos hm23]
    refine ⟨_, _, rfl, List.length_replicate, fun i hi => ?_⟩
    rw [List.length_replicate] at hi
    rw [replicate_zero hi, threeJ_eq_zero]
    rintro ⟨_, _, h2, h3, _⟩
    omega
  rw [calculate_eq hc]
  have hl := List.length_replicate (n := c.size.toNat) (a := (0 : ℝ))
  rcases w3run_spec (j2 := j2) (j3 := j3) (m2 := m2) (m3 := m3) (n := c.size.toNat)
      (w := ⟨List.replicate c.size.toNat 0, List.replicate c.size.toNat 0, List.replicate c.size.toNat 0,
        List.replicate c.size.toNat 0⟩) (by have := hc.1; omega) hl hl hl (fun i hi => replicate_zero hi) hl
        (fun i hi => replicate_zero hi) hfit with ⟨w, e, _, _, _, h1, h2⟩ | ⟨e, hm, k, hk⟩
  · left
    exact ⟨w.f, { c with workspace := w.f ++ w.sf ++ w.F_minus ++ w.F_plus }, by rw [e]; rfl, h1,
      fun i hi => h2 i (by omega)⟩
  · right
    push Not at hm23
    exact ⟨by rw [e]; rfl, hm, hm23.1, hm23.2, k, hk⟩

/-- The only exception is `ZeroDivisionError`, raised only in the presence of a growing zero and never for `m2 = m3 = 0`. -/
theorem C47_exceptions {c : W3Calc} (hc : c.WF) {j2 j3 m2 m3 : ℤ} (hj : j2 + j3 < c.size) (hq : j2 + j3 ≤ 151) {e : PyErr}
    (he : c.calculate j2 j3 m2 m3 = .error e) : e = .zeroDivision ∧ ¬ (m2 = 0 ∧ m3 = 0) ∧ GrowingZero j2 j3 m2 m3 := by
  rcases C47_outcome hc hj (fun h2 h3 => W3Fits.of_le (m2 := m2) (m3 := m3) h2 h3 hq) with ⟨f, c', h, _⟩ | ⟨h, hm, hg⟩
  · rw [h] at he; cases he
  · rw [h] at he; cases he; exact ⟨rfl, hm, hg⟩

/-- A growing zero lies above the root mean square of the ends of the range. -/
theorem C47_growing_zero_location {j2 j3 m2 m3 : ℤ} (hg : GrowingZero j2 j3 m2 m3) :
    ∃ k, max |j2 - j3| |m2 + m3| + 4 ≤ k ∧ k + 7 ≤ j2 + j3 ∧ threeJ k j2 j3 (-(m2 + m3)) m2 m3 = 0 ∧
      max |j2 - j3| |m2 + m3| ^ 2 + (j2 + j3 + 1) ^ 2 < 2 * (k + 1) ^ 2 := by
  obtain ⟨h2, h3, n, k, n1, n2, n3, -, k3, k4, -⟩ := hg
  have k1 : max |j2 - j3| |m2 + m3| < k := by omega
  have k2 : k < j2 + j3 := by omega
  refine ⟨k, by omega, by omega, k3, ?_⟩
  by_contra hcon
  push Not at hcon
  -- the value below a zero does not vanish: otherwise the whole row would
  have hne : row3 j2 j3 m2 m3 (k - 1) ≠ 0 := by
    intro hz
    have hk0 : 0 ≤ max |j2 - j3| |m2 + m3| := (abs_nonneg _).trans (le_max_left _ _)
    have key : ∀ n : ℕ, k + n ≤ j2 + j3 → row3 j2 j3 m2 m3 (k + n - 1) = 0 ∧ row3 j2 j3 m2 m3 (k + n) = 0 := by
      intro n
      induction n with
      | zero => intro _; simp only [Nat.cast_zero, add_zero]; exact ⟨hz, k3⟩
      | succ n ih =>
        intro hb
        push_cast at hb ⊢
        obtain ⟨i1, i2⟩ := ih (by omega)
        have e := threeJ_recurrence (j2 := j2) (j3 := j3) (m1 := -(m2 + m3)) (m2 := m2) (m3 := m3) (j := k + n) (by ring)
          ((le_max_left _ _).trans (by omega : max |j2 - j3| |m2 + m3| ≤ k + n))
          (by rw [abs_neg]; exact (le_max_right _ _).trans (by omega : max |j2 - j3| |m2 + m3| ≤ k + n)) (by omega)
        change _ * row3 j2 j3 m2 m3 (k + n + 1) + _ * row3 j2 j3 m2 m3 (k + n) + _ * row3 j2 j3 m2 m3 (k + n - 1) = 0 at e
        rw [i1, i2, mul_zero, mul_zero, add_zero, add_zero] at e
        have hp := recA_pos (j2 := j2) (j3 := j3) (m := -(m2 + m3)) (x := k + n + 1) (by rw [abs_neg]; omega) (by omega)
        have hkn : ((k + n : ℤ) : ℝ) ≠ 0 := by exact_mod_cast (by omega : k + (n : ℤ) ≠ 0)
        have := (mul_eq_zero.1 e).resolve_left (mul_ne_zero hkn hp.ne')
        rw [← add_assoc]
        exact ⟨by rw [add_sub_cancel_right]; exact i2, this⟩
    have := (key (j2 + j3 - k).toNat (by omega)).2
    rw [show k + ((j2 + j3 - k).toNat : ℤ) = j2 + j3 by omega] at this
    exact row3_top_ne h2 h3 this
  exact absurd (row3_decr h2 h3 k1 k2 k3 hne hcon) (not_lt.2 k4)

/-- A call returns whenever the row has no growing zero, and always for `m2 = m3 = 0`. -/
theorem C47_returns {c : W3Calc} (hc : c.WF) {j2 j3 m2 m3 : ℤ} (hj : j2 + j3 < c.size) (hq : j2 + j3 ≤ 151)
    (h : ¬ GrowingZero j2 j3 m2 m3 ∨ (m2 = 0 ∧ m3 = 0)) : ∃ f c', c.calculate j2 j3 m2 m3 = .ok (f, c') := by
  rcases C47_outcome hc hj (fun h2 h3 => W3Fits.of_le (m2 := m2) (m3 := m3) h2 h3 hq) with ⟨f, c', h, _⟩ | ⟨_, hm, hg⟩
  · exact ⟨f, c', h⟩
  · tauto

/-- There are no growing zeros when `j2 + j3 ≤ 22` or when one of `j2`, `j3` is at most 6. -/
theorem C47_growing_zero_large {j2 j3 m2 m3 : ℤ} (hg : GrowingZero j2 j3 m2 m3) : 23 ≤ j2 + j3 ∧ 7 ≤ j2 ∧ 7 ≤ j3 := by
  have p2 : 0 ≤ j2 := (abs_nonneg _).trans hg.1
  have p3 : 0 ≤ j3 := (abs_nonneg _).trans hg.2.1
  obtain ⟨k, k1, k2, -, k4⟩ := C47_growing_zero_location hg
  set a := max |j2 - j3| |m2 + m3| with ha
  have ha0 : 0 ≤ a := (abs_nonneg _).trans (le_max_left _ _)
  have ha1 : |j2 - j3| ≤ a := le_max_left _ _
  have ha2 := abs_le.1 ha1
  have hk : (k + 1) ^ 2 ≤ (j2 + j3 - 6) ^ 2 := by nlinarith
  have hs : |j2 - j3| ^ 2 ≤ a ^ 2 := by have := abs_nonneg (j2 - j3); nlinarith
  rw [sq_abs] at hs
  refine ⟨?_, ?_, ?_⟩
  · by_contra hcon
    nlinarith
  · by_contra hcon
    have := mul_nonneg (show 0 ≤ 6 - j2 by omega) (show 0 ≤ j3 - 5 by omega)
    nlinarith
  · by_contra hcon
    have := mul_nonneg (show 0 ≤ 6 - j3 by omega) (show 0 ≤ j2 - 5 by omega)
    nlinarith

/-- So every call with `j2 + j3 ≤ 22`, or with `j2 ≤ 6` or `j3 ≤ 6`, returns. -/
theorem C47_returns_small {c : W3Calc} (hc : c.WF) {j2 j3 m2 m3 : ℤ} (hj : j2 + j3 < c.size) (hq : j2 + j3 ≤ 151)
    (h : j2 + j3 ≤ 22 ∨ j2 ≤ 6 ∨ j3 ≤ 6) : ∃ f c', c.calculate j2 j3 m2 m3 = .ok (f, c') :=
  C47_returns hc hj hq (Or.inl fun hg => by have := C47_growing_zero_large hg; omega)

/-- Rows with an extreme `m` have no zeros at all. -/
theorem C47_stretched {j2 j3 m2 m3 : ℤ} (hs : |m2| = j2 ∨ |m3| = j3) :
    ¬ GrowingZero j2 j3 m2 m3 := by
  rintro ⟨h2, h3, n, k, n1, n2, n3, -, k3, -⟩
  have k1 : max |j2 - j3| |m2 + m3| < k := by omega
  have k2 : k < j2 + j3 := by omega
  have key : ∀ m2 m3 : ℤ, |m2| ≤ j2 → |m3| ≤ j3 → (m2 = j2 ∨ m3 = -j3) → max |j2 - j3| |m2 + m3| < k → row3 j2 j3 m2 m3 k ≠ 0 := by
    intro m2 m3 h2 h3 hs k1
    rw [row3_eq]
    have := rS_stretched h2 h3 hs k1.le k2.le
    have := muF_pos j2 m2
    have := muF_pos j3 m3
    have := rowT_pos j2 j3 (-(m2 + m3)) k
    exact mul_ne_zero (zpow_ne_zero _ (by norm_num)) (by positivity)
  by_cases hpos : m2 = j2 ∨ m3 = -j3
  · exact key m2 m3 h2 h3 hpos k1 k3
  · have hneg : -m2 = j2 ∨ -m3 = -j3 := by
      rcases hs with h | h
      · rcases abs_choice m2 with q | q <;> rw [q] at h
        · exact absurd (Or.inl h) hpos
        · exact Or.inl h
      · rcases abs_choice m3 with q | q <;> rw [q] at h
        · right; omega
        · exact absurd (Or.inr (by omega)) hpos
    refine key (-m2) (-m3) (by rw [abs_neg]; exact h2) (by rw [abs_neg]; exact h3) hneg
      (by rw [← neg_add, abs_neg]; exact k1) ?_
    have e := threeJ_neg k j2 j3 (-(m2 + m3)) m2 m3
    simp only at k3
    rw [k3, mul_zero] at e
    unfold row3
    rw [← neg_add]
    exact e

/-! ## C48 -/

/-- Whenever a call returns, entry `j` of the result is the 3-j symbol `(j j2 j3; -m2-m3 m2 m3)`, for all `j2 + j3 ≤ 151`. -/
theorem C48_values {c : W3Calc} (hc : c.WF) {j2 j3 m2 m3 : ℤ} (hj : j2 + j3 < c.size) (hq : j2 + j3 ≤ 151)
    {f : List ℝ} {c' : W3Calc} (h : c.calculate j2 j3 m2 m3 = .ok (f, c')) :
    f.length = c.size.toNat ∧ ∀ j : ℕ, j < f.length → f[j]? = some (threeJ j j2 j3 (-(m2 + m3)) m2 m3) := by
  rcases C47_outcome hc hj (fun h2 h3 => W3Fits.of_le (m2 := m2) (m3 := m3) h2 h3 hq) with ⟨f', c'', e, h1, h2⟩ | ⟨e, _⟩
  · rw [e] at h; cases h; exact ⟨h1, h2⟩
  · rw [e] at h; cases h

/-- The same for any arguments for which the integer coefficients do not overflow. -/
theorem C48_values_of_fits {c : W3Calc} (hc : c.WF) {j2 j3 m2 m3 : ℤ} (hj : j2 + j3 < c.size) (hfit : W3Fits j2 j3 m2 m3)
    {f : List ℝ} {c' : W3Calc} (h : c.calculate j2 j3 m2 m3 = .ok (f, c')) :
    f.length = c.size.toNat ∧ ∀ j : ℕ, j < f.length → f[j]? = some (threeJ j j2 j3 (-(m2 + m3)) m2 m3) := by
  rcases C47_outcome hc hj (fun _ _ => hfit) with ⟨f', c'', e, h1, h2⟩ | ⟨e, _⟩
  · rw [e] at h; cases h; exact ⟨h1, h2⟩
  · rw [e] at h; cases h

/-- The part of `Wigner3j` after the permutation. -/
theorem wigner3j_core {junk : ℕ → ℝ} {j1 j2 j3 m2 m3 : ℤ} (h0 : 0 ≤ j1) (h2 : |m2| ≤ j2) (h3 : |m3| ≤ j3) (hq : j2 + j3 ≤ 151)
    (hj : j1 ≤ j2 + j3) {v : ℝ}
    (h : (do let c ← W3Calc.new junk j2 j3
             let (w3j, _) ← c.calculate j2 j3 m2 m3
             rd w3j j1 : Py ℝ) = .ok v) : v = threeJ j1 j2 j3 (-(m2 + m3)) m2 m3 := by
  have h2' := abs_le.1 h2
  have h3' := abs_le.1 h3
  obtain ⟨c, e, hc, hs⟩ := C47_new (junk := junk) (j2_max := j2) (j3_max := j3) (by omega) (by omega)
  simp only [bind, Except.bind] at h
  rw [e] at h
  simp only at h
  rcases C47_outcome hc (j2 := j2) (j3 := j3) (m2 := m2) (m3 := m3) (by omega) (fun h2 h3 => W3Fits.of_le h2 h3 hq) with
    ⟨f, c', e', hl, hf⟩ | ⟨e', _⟩
  · rw [e'] at h
    simp only at h
    rw [rd_ok h0 (hf j1.toNat (by omega))] at h
    cases h
    rw [show ((j1.toNat : ℕ) : ℤ) = j1 by omega]
  · rw [e'] at h; cases h

/-- `Wigner3j` returns the 3-j symbol (whenever it returns), if the two smaller `j` add up to at most 151. -/
theorem C48_Wigner3j {junk : ℕ → ℝ} {j1 j2 j3 m1 m2 m3 : ℤ} (hq : min (j1 + j2) (min (j1 + j3) (j2 + j3)) ≤ 151) {v : ℝ}
    (h : Wigner3j junk j1 j2 j3 m1 m2 m3 = .ok v) : v = threeJ j1 j2 j3 m1 m2 m3 := by
  unfold Wigner3j at h
  split at h
  · rename_i hm
    cases h
    rw [threeJ_eq_zero]; rintro ⟨a, _⟩; exact hm a
  split at h
  · rename_i hm
    cases h
    rw [threeJ_eq_zero]; rintro ⟨_, a1, a2, a3, _⟩; omega
  rename_i hsum hsel
  push Not at hsum hsel
  obtain ⟨s1, s2, s3⟩ := hsel
  have p1 : 0 ≤ j1 := (abs_nonneg _).trans s1
  have p2 : 0 ≤ j2 := (abs_nonneg _).trans s2
  have p3 : 0 ≤ j3 := (abs_nonneg _).trans s3
  by_cases c1 : j1 = max j1 (max j2 j3)
  · rw [if_pos c1] at h
    dsimp only at h
    split at h
    · rename_i ht
      cases h
      rw [threeJ_eq_zero]; rintro ⟨_, _, _, _, _, a5⟩; omega
    · rw [wigner3j_core p1 s2 s3 (by omega) (by omega) h, show -(m2 + m3) = m1 by omega]
  · rw [if_neg c1] at h
    by_cases c2 : j2 = max j1 (max j2 j3)
    · rw [if_pos c2] at h
      dsimp only at h
      rw [threeJ_cyclic]
      split at h
      · rename_i ht
        cases h
        rw [threeJ_eq_zero]; rintro ⟨_, _, _, _, _, a5⟩; omega
      · rw [wigner3j_core p2 s3 s1 (by omega) (by omega) h, show -(m3 + m1) = m2 by omega]
    · rw [if_neg c2] at h
      dsimp only at h
      rw [threeJ_cyclic, threeJ_cyclic]
      split at h
      · rename_i ht
        cases h
        rw [threeJ_eq_zero]; rintro ⟨_, _, _, _, _, a5⟩; omega
      · rw [wigner3j_core p3 s1 s2 (by omega) (by omega) h, show -(m1 + m2) = m3 by omega]

/-! ## C46 -/

/-- `Wigner3j` returns 0 for all arguments that violate a selection rule (no bound on the arguments). -/
theorem C46_Wigner3j_zero {junk : ℕ → ℝ} {j1 j2 j3 m1 m2 m3 : ℤ}
    (h : m1 + m2 + m3 ≠ 0 ∨ |m1| > j1 ∨ |m2| > j2 ∨ |m3| > j3 ∨ j1 > j2 + j3 ∨ j2 > j3 + j1 ∨ j3 > j1 + j2) :
    Wigner3j junk j1 j2 j3 m1 m2 m3 = .ok 0 := by
  unfold Wigner3j
  by_cases hs : m1 + m2 + m3 = 0
  swap
  · rw [if_pos hs]; rfl
  rw [if_neg (by simpa using hs)]
  by_cases hm : |m1| > j1 ∨ |m2| > j2 ∨ |m3| > j3
  · rw [if_pos hm]; rfl
  rw [if_neg hm]
  push Not at hm
  have p1 : 0 ≤ j1 := (abs_nonneg _).trans hm.1
  have p2 : 0 ≤ j2 := (abs_nonneg _).trans hm.2.1
  have p3 : 0 ≤ j3 := (abs_nonneg _).trans hm.2.2
  by_cases c1 : j1 = max j1 (max j2 j3)
  · rw [if_pos c1]
    dsimp only
    rw [if_pos (by omega)]; rfl
  · rw [if_neg c1]
    by_cases c2 : j2 = max j1 (max j2 j3)
    · rw [if_pos c2]
      dsimp only
      rw [if_pos (by omega)]; rfl
    · rw [if_neg c2]
      dsimp only
      rw [if_pos (by omega)]; rfl

/-- `calculate` returns zeros outside `max(|j2-j3|, |m2+m3|) .. j2+j3`, and everywhere if `|m2| > j2` or `|m3| > j3`
(no bound on the arguments). -/
theorem C46_calculate_zero {c : W3Calc} (hc : c.WF) {j2 j3 m2 m3 : ℤ} (hj : j2 + j3 < c.size) {f : List ℝ} {c' : W3Calc}
    (h : c.calculate j2 j3 m2 m3 = .ok (f, c')) {j : ℕ} (hjf : j < f.length)
    (hout : (j : ℤ) < max |j2 - j3| |m2 + m3| ∨ j2 + j3 < j ∨ |m2| > j2 ∨ |m3| > j3) : f[j]? = some 0 := by
  rcases C47_memory_safe hc (m2 := m2) (m3 := m3) hj with ⟨f', c'', e, _, _, _, hz⟩ | e | e
  · rw [e] at h; cases h; exact hz j hjf hout
  · rw [e] at h; cases h
  · rw [e] at h; cases h

/-! ## C49 -/

section symmetries
variable {junk junk' : ℕ → ℝ} {j1 j2 j3 m1 m2 m3 : ℤ} {v v' : ℝ}

/-- Even permutation of columns. -/
theorem C49_cyclic (hq : min (j1 + j2) (min (j1 + j3) (j2 + j3)) ≤ 151) (h : Wigner3j junk j1 j2 j3 m1 m2 m3 = .ok v)
    (h' : Wigner3j junk' j2 j3 j1 m2 m3 m1 = .ok v') : v' = v := by
  rw [C48_Wigner3j hq h, C48_Wigner3j (by omega) h', ← threeJ_cyclic]

/-- Odd permutation of columns. -/
theorem C49_swap (hq : min (j1 + j2) (min (j1 + j3) (j2 + j3)) ≤ 151) (h : Wigner3j junk j1 j2 j3 m1 m2 m3 = .ok v)
    (h' : Wigner3j junk' j2 j1 j3 m2 m1 m3 = .ok v') : v' = (-1 : ℝ) ^ (j1 + j2 + j3) * v := by
  rw [C48_Wigner3j hq h, C48_Wigner3j (by omega) h', ← threeJ_swap]

/-- Reversal of all `m`. -/
theorem C49_neg (hq : min (j1 + j2) (min (j1 + j3) (j2 + j3)) ≤ 151) (h : Wigner3j junk j1 j2 j3 m1 m2 m3 = .ok v)
    (h' : Wigner3j junk' j1 j2 j3 (-m1) (-m2) (-m3) = .ok v') : v' = (-1 : ℝ) ^ (j1 + j2 + j3) * v := by
  rw [C48_Wigner3j hq h, C48_Wigner3j hq h', ← threeJ_neg]

end symmetries

/-- Orthogonality: sum over `m2` (and `m3 = -m1 - m2`) for two values of `j1`. -/
theorem C49_orthogonality_m {junk : ℕ → ℝ} {j j' j2 j3 m1 : ℤ} (hq : j2 + j3 ≤ 151) (h1 : |j2 - j3| ≤ j) (h2 : j ≤ j2 + j3)
    (hm : |m1| ≤ j) (hm' : |m1| ≤ j') {v v' : ℤ → ℝ}
    (hv : ∀ m2, |m2| ≤ j2 → Wigner3j junk j j2 j3 m1 m2 (-m1 - m2) = .ok (v m2))
    (hv' : ∀ m2, |m2| ≤ j2 → Wigner3j junk j' j2 j3 m1 m2 (-m1 - m2) = .ok (v' m2)) :
    ∑ m2 ∈ Icc (-j2) j2, (2 * (j : ℝ) + 1) * (v m2 * v' m2) = if j = j' then 1 else 0 := by
  have e := threeJ_orth_m (j := j) (j' := j') (j2 := j2) (j3 := j3) (m1 := m1) h1 h2 hm hm'
  rw [← mul_sum]
  have : ∑ m2 ∈ Icc (-j2) j2, v m2 * v' m2
      = ∑ m2 ∈ Icc (-j2) j2, threeJ j j2 j3 m1 m2 (-m1 - m2) * threeJ j' j2 j3 m1 m2 (-m1 - m2) := by
    refine sum_congr rfl fun m2 hm2 => ?_
    rw [mem_Icc] at hm2
    rw [C48_Wigner3j (by omega) (hv m2 (abs_le.2 hm2)), C48_Wigner3j (by omega) (hv' m2 (abs_le.2 hm2))]
  rw [this, e]
  have hj0 : (0 : ℝ) ≤ j := by exact_mod_cast (abs_nonneg _).trans h1
  split
  · field_simp
  · rw [mul_zero]

/-- Orthogonality: sum over `j1` of the arrays returned by two calls of `calculate` (possibly on one calculator, if the first
array has been copied). -/
theorem C49_orthogonality_j {c d c' d' : W3Calc} (hc : c.WF) (hd : d.WF) {j2 j3 m2 m3 m2' m3' : ℤ} (hcs : j2 + j3 < c.size)
    (hds : j2 + j3 < d.size) (hq : j2 + j3 ≤ 151) (h2 : |m2| ≤ j2) (h3 : |m3| ≤ j3) (h2' : |m2'| ≤ j2) (h3' : |m3'| ≤ j3)
    (hm : m2 + m3 = m2' + m3') {f g : List ℝ} (hf : c.calculate j2 j3 m2 m3 = .ok (f, c'))
    (hg : d.calculate j2 j3 m2' m3' = .ok (g, d')) :
    ∑ j ∈ Icc (max |j2 - j3| |m2 + m3|) (j2 + j3), (2 * (j : ℝ) + 1) * (f.getD j.toNat 0 * g.getD j.toNat 0)
      = if m2 = m2' then 1 else 0 := by
  have e := threeJ_orth_j (j2 := j2) (j3 := j3) (m1 := -(m2 + m3)) (m2 := m2) (m2' := m2') h2
    (by rw [show - -(m2 + m3) - m2 = m3 by ring]; exact h3) h2' (by rw [show - -(m2 + m3) - m2' = m3' by omega]; exact h3')
  rw [abs_neg, show - -(m2 + m3) - m2 = m3 by ring, show - -(m2 + m3) - m2' = m3' by omega] at e
  rw [← e]
  obtain ⟨l1, v1⟩ := C48_values hc hcs hq hf
  obtain ⟨l2, v2⟩ := C48_values hd hds hq hg
  refine sum_congr rfl fun j hj => ?_
  rw [mem_Icc] at hj
  have hj0 : 0 ≤ j := (abs_nonneg _).trans ((le_max_left _ _).trans hj.1)
  rw [List.getD_eq_getElem?_getD, List.getD_eq_getElem?_getD, v1 j.toNat (by omega), v2 j.toNat (by omega),
    show ((j.toNat : ℕ) : ℤ) = j by omega, ← hm]
  rfl

/-- `clebsch_gordan` in terms of the 3-j symbol, whenever it returns. -/
theorem C49_clebsch_gordan {junk : ℕ → ℝ} {j1 m1 j2 m2 j3 m3 : ℤ} (hq : min (j1 + j2) (min (j1 + j3) (j2 + j3)) ≤ 151) {v : ℝ}
    (h : clebsch_gordan junk j1 m1 j2 m2 j3 m3 = .ok v) :
    v = (-1 : ℝ) ^ (j1 - j2 + m3) * Real.sqrt (2 * j3 + 1) * threeJ j1 j2 j3 m1 m2 (-m3) := by
  unfold clebsch_gordan at h
  cases hw : Wigner3j junk j1 j2 j3 m1 m2 (-m3) with
  | error e => rw [hw] at h; cases h
  | ok w =>
    rw [hw] at h
    cases h
    rw [C48_Wigner3j hq hw]

/-- Clebsch–Gordan coefficients are orthonormal: `Σ_{m1} ⟨j1 m1 j2 m-m1|j m⟩⟨j1 m1 j2 m-m1|j' m⟩ = δ_{jj'}`. -/
theorem C49_clebsch_gordan_orthonormal {junk : ℕ → ℝ} {j1 j2 j j' m : ℤ} (hq : j1 + j2 ≤ 151) (h1 : |j1 - j2| ≤ j) (h2 : j ≤ j1 + j2)
    (hm : |m| ≤ j) (hm' : |m| ≤ j') {v v' : ℤ → ℝ}
    (hv : ∀ m1, |m1| ≤ j1 → clebsch_gordan junk j1 m1 j2 (m - m1) j m = .ok (v m1))
    (hv' : ∀ m1, |m1| ≤ j1 → clebsch_gordan junk j1 m1 j2 (m - m1) j' m = .ok (v' m1)) :
    ∑ m1 ∈ Icc (-j1) j1, v m1 * v' m1 = if j = j' then 1 else 0 := by
  have e := threeJ_orth_m (j := j) (j' := j') (j2 := j1) (j3 := j2) (m1 := -m) h1 h2 (by rwa [abs_neg]) (by rwa [abs_neg])
  have hs : (-1 : ℝ) ^ (j1 - j2 + m) * (-1 : ℝ) ^ (j1 - j2 + m) = 1 := by
    rcases Int.even_or_odd (j1 - j2 + m) with h | h <;> rw [h.neg_one_zpow] <;> norm_num
  have : ∑ m1 ∈ Icc (-j1) j1, v m1 * v' m1
      = (Real.sqrt (2 * j + 1) * Real.sqrt (2 * j' + 1)) * ∑ m2 ∈ Icc (-j1) j1, threeJ j j1 j2 (-m) m2 (- -m - m2) * threeJ j' j1 j2 (-m) m2 (- -m - m2) := by
    rw [mul_sum]
    refine sum_congr rfl fun m1 hm1 => ?_
    rw [mem_Icc] at hm1
    rw [C49_clebsch_gordan (by omega) (hv m1 (abs_le.2 hm1)), C49_clebsch_gordan (by omega) (hv' m1 (abs_le.2 hm1)),
      threeJ_cyclic j, threeJ_cyclic j', neg_neg]
    linear_combination (Real.sqrt (2 * j + 1) * Real.sqrt (2 * j' + 1) * threeJ j1 j2 j m1 (m - m1) (-m)
      * threeJ j1 j2 j' m1 (m - m1) (-m)) * hs
  rw [this, e]
  have hj0 : (0 : ℝ) ≤ j := by exact_mod_cast (abs_nonneg _).trans h1
  split
  · rename_i hjj
    rw [← hjj, Real.mul_self_sqrt (by linarith)]
    field_simp
  · rw [mul_zero]

/-! ## C50 -/

/-- For `j2, j3 ≤ 64` (and all admissible `m2`, `m3`, `j`) the coefficient declared as a 32-bit integer is exact, and so is the
radicand computed in 64 bits. -/
theorem C50_no_overflow {j2 j3 m2 m3 j : ℤ} (hj2 : j2 ≤ 64) (hj3 : j3 ≤ 64) (h2 : |m2| ≤ j2) (h3 : |m3| ≤ j3)
    (h : max |j2 - j3| |m2 + m3| ≤ j) (h' : j ≤ j2 + j3) :
    w3B j j2 j3 m2 m3 = (2 * j + 1) * ((m2 + m3) * (j2 * (j2 + 1) - j3 * (j3 + 1)) - (m2 - m3) * j * (j + 1)) ∧
    w3A j j2 j3 (-(m2 + m3)) = Real.sqrt ((((j : ℝ) ^ 2 - (j2 - j3) ^ 2) * ((j2 + j3 + 1) ^ 2 - j ^ 2) * (j ^ 2 - (m2 + m3) ^ 2))) := by
  have hfit := W3Fits.of_le h2 h3 (show j2 + j3 ≤ 151 by omega)
  refine ⟨w3B_eq h2 h3 hfit h h', ?_⟩
  rw [w3A_eq h2 h3 hfit h (by omega)]
  unfold recA
  push_cast
  congr 1; ring

/-- The declared type is too small for larger arguments: in `calculate(100, 100, 100, -100)` the coefficient for `j = 200`
wraps around. -/
theorem C50_overflow : w3B 200 100 100 100 (-100) = 1070927296 ∧
    (2 * 200 + 1) * ((100 + -100) * (100 * (100 + 1) - 100 * (100 + 1)) - (100 - -100) * 200 * (200 + 1)) = (-3224040000 : ℤ) := by
  constructor
  · decide
  · norm_num

/-! ## The hypotheses are met -/

/-- A calculator that has been used before (its workspace is full of sevens). -/
noncomputable def exCalc : W3Calc := ⟨5, List.replicate 20 7⟩

theorem exCalc_WF : exCalc.WF := ⟨by norm_num [exCalc], by simp [exCalc]⟩

example : ∃ f c', exCalc.calculate 2 2 0 0 = .ok (f, c') ∧ f.length = 5 ∧
    ∀ j : ℕ, j < f.length → f[j]? = some (threeJ j 2 2 (-(0 + 0)) 0 0) := by
  obtain ⟨f, c', h⟩ := C47_returns exCalc_WF (j2 := 2) (j3 := 2) (m2 := 0) (m3 := 0) (by norm_num [exCalc]) (by norm_num)
    (Or.inr ⟨rfl, rfl⟩)
  have := C48_values exCalc_WF (by norm_num [exCalc]) (by norm_num) h
  exact ⟨f, c', h, this.1, this.2⟩

example : ∃ f c', exCalc.calculate 1 2 1 0 = .ok (f, c') :=
  C47_returns exCalc_WF (by norm_num [exCalc]) (by norm_num)
    (Or.inl (C47_stretched (Or.inl (by norm_num))))

example (junk : ℕ → ℝ) : ∃ c, W3Calc.new junk 2 2 = .ok c ∧ W3Calc.Reachable 2 2 c := by
  obtain ⟨c, h, _⟩ := C47_new (junk := junk) (j2_max := 2) (j3_max := 2) (by norm_num) (by norm_num)
  exact ⟨c, h, .new junk c h⟩

/-- `Wigner3j` returns on admissible arguments with an extreme `m`, so the hypotheses of C48 and C49 can be met. -/
theorem wigner3j_returns {junk : ℕ → ℝ} {j1 j2 j3 m1 m2 m3 : ℤ} (h1 : j2 ≤ j1) (h2 : j3 ≤ j1) (h3 : j1 ≤ j2 + j3)
    (hq : j2 + j3 ≤ 151) (hs : m1 + m2 + m3 = 0) (k1 : |m1| ≤ j1) (k2 : |m2| ≤ j2) (k3 : |m3| ≤ j3)
    (hg : ¬ GrowingZero j2 j3 m2 m3) : Wigner3j junk j1 j2 j3 m1 m2 m3 = .ok (threeJ j1 j2 j3 m1 m2 m3) := by
  have p1 : 0 ≤ j1 := (abs_nonneg _).trans k1
  have p2 := (abs_nonneg _).trans k2
  have p3 := (abs_nonneg _).trans k3
  obtain ⟨c, e, hc, hsz⟩ := C47_new (junk := junk) (j2_max := j2) (j3_max := j3) (by omega) (by omega)
  obtain ⟨f, c', e'⟩ := C47_returns hc (j2 := j2) (j3 := j3) (m2 := m2) (m3 := m3) (by omega) hq (Or.inl hg)
  obtain ⟨hl, hv⟩ := C48_values hc (by omega) hq e'
  unfold Wigner3j
  rw [if_neg (by simpa using hs), if_neg (by push Not; exact ⟨k1, k2, k3⟩), if_pos (by omega)]
  dsimp only
  rw [if_neg (by omega), e]
  simp only [bind, Except.bind]
  rw [e']
  simp only
  rw [rd_ok p1 (hv j1.toNat (by omega)), show ((j1.toNat : ℕ) : ℤ) = j1 by omega, show -(m2 + m3) = m1 by omega]

example (junk : ℕ → ℝ) : Wigner3j junk 2 2 1 1 (-2) 1 = .ok (threeJ 2 2 1 1 (-2) 1) :=
  wigner3j_returns (by norm_num) (by norm_num) (by norm_num) (by norm_num) (by norm_num) (by norm_num) (by norm_num)
    (by norm_num) (C47_stretched (Or.inl (by norm_num)))

end SF
