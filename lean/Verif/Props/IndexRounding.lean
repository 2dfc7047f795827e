import Verif.Props.WignerD

/-!
# C08: indices that are not half-integers

`Wigner_D_element` doubles and rounds its indices (WignerD/__init__.py:108,115), so that indices which are not half-integers are not
rejected but replaced by the nearest half-integers.
-/

set_option autoImplicit false

namespace SF

/-- `n` is the integer nearest to `x`, the even one of two equally near ones. -/
def NearestEven (x : ℝ) (n : ℤ) : Prop := |x - n| < 1 / 2 ∨ |x - n| = 1 / 2 ∧ Even n

/-- Every number has exactly one nearest integer in this sense. -/
theorem pyRoundR_spec (x : ℝ) (n : ℤ) : pyRoundR x = n ↔ NearestEven x n := by
  have h1 := Int.floor_le x
  have h2 := Int.lt_floor_add_one x
  have key : NearestEven x (pyRoundR x) := by
    unfold NearestEven pyRoundR
    simp only
    split_ifs with h3 h4 h5
    · left; rw [abs_lt]; constructor <;> linarith
    · left; push_cast; rw [abs_lt]; constructor <;> linarith
    · right
      have : x - ⌊x⌋ = 1 / 2 := by linarith
      exact ⟨by rw [this]; norm_num, Int.even_iff.mpr h5⟩
    · right
      have : x - ⌊x⌋ = 1 / 2 := by linarith
      refine ⟨by push_cast; rw [show x - (⌊x⌋ + 1 : ℝ) = -(1 / 2) by linarith]; norm_num, ?_⟩
      rw [Int.even_iff]
      omega
  constructor
  · rintro rfl; exact key
  · intro h
    set k := pyRoundR x
    have habs : |x - k| ≤ 1 / 2 ∧ |x - n| ≤ 1 / 2 := ⟨by rcases key with h | ⟨h, -⟩ <;> linarith, by rcases h with h | ⟨h, -⟩ <;> linarith⟩
    obtain ⟨a1, a2⟩ := abs_le.mp habs.1
    obtain ⟨b1, b2⟩ := abs_le.mp habs.2
    have d1 : (k : ℝ) - n ≤ 1 := by linarith
    have d2 : (n : ℝ) - k ≤ 1 := by linarith
    have d1' : k - n ≤ 1 := by exact_mod_cast d1
    have d2' : n - k ≤ 1 := by exact_mod_cast d2
    by_contra hne
    have hd : k = n + 1 ∨ n = k + 1 := by omega
    have hk2 : |x - k| = 1 / 2 ∧ |x - n| = 1 / 2 := by
      rcases hd with hd | hd
      · have hr : (k : ℝ) = n + 1 := by exact_mod_cast hd
        have : x - k = -(1 / 2) := by linarith
        have : x - n = 1 / 2 := by linarith
        constructor <;> simp_all
      · have hr : (n : ℝ) = k + 1 := by exact_mod_cast hd
        have : x - n = -(1 / 2) := by linarith
        have : x - k = 1 / 2 := by linarith
        constructor <;> simp_all
    have e1 : Even k := by
      rcases key with h | h
      · exact absurd hk2.1 (ne_of_lt h)
      · exact h.2
    have e2 : Even n := by
      rcases h with h | h
      · exact absurd hk2.2 (ne_of_lt h)
      · exact h.2
    rw [Int.even_iff] at e1 e2
    omega

/-- **C08 (rounding of indices).** Real indices `ell, m', m` give the same result, or the same exception, as the half-integers whose
doubles are nearest to `2 ell, 2 m', 2 m` (ties go to even doubles). -/
theorem C08_rounding (table : List ℝ) (L : ℤ) (flag : Bool) (junk : ℕ → ℂ) (rot : List DArg) (Ra Rb : ℂ)
    (hrot : RotationArgs rot Ra Rb) (hlen : rot.length ≠ 2) (ell mp m : ℝ) (a b c : ℤ) (ha : NearestEven (2 * ell) a)
    (hb : NearestEven (2 * mp) b) (hc : NearestEven (2 * m) c) :
    Wigner_D_element table L flag junk (rot ++ [.num (.flt ell), .num (.flt mp), .num (.flt m)]) =
      Wigner_D_element table L flag junk (rot ++ [.num (.flt (half a)), .num (.flt (half b)), .num (.flt (half c))]) := by
  rw [← pyRoundR_spec] at ha hb hc
  cases hrot with
  | rotor w x y z =>
    simp only [List.cons_append, List.nil_append, Wigner_D_element, find_rotation, bind_ok, List.drop_succ_cons, List.drop_zero, find_indices,
      PyNum.toReal, pyRoundR_half, ha, hb, hc]
  | parts => simp at hlen
  | euler α β γ =>
    simp only [List.cons_append, List.nil_append, Wigner_D_element, find_rotation, bind_ok, List.drop_succ_cons, List.drop_zero, find_indices,
      PyNum.toReal, pyRoundR_half, ha, hb, hc, pure_bind]

/-- **C08 (rounding of lists of indices).** The same for lists of triples. -/
theorem C08_rounding_list (table : List ℝ) (L : ℤ) (flag : Bool) (junk : ℕ → ℂ) (rot : List DArg) (Ra Rb : ℂ)
    (hrot : RotationArgs rot Ra Rb) (l : List (ℝ × ℝ × ℝ)) (l' : List (ℤ × ℤ × ℤ))
    (h : List.Forall₂ (fun t t' => NearestEven (2 * t.1) t'.1 ∧ NearestEven (2 * t.2.1) t'.2.1 ∧ NearestEven (2 * t.2.2) t'.2.2) l l') :
    Wigner_D_element table L flag junk (rot ++ [.triples l]) = Wigner_D_element table L flag junk (rot ++ [.triples (l'.map halfT)]) := by
  have e : l.map (fun t => (pyRoundR (2 * t.1), pyRoundR (2 * t.2.1), pyRoundR (2 * t.2.2))) = l' := by
    induction h with
    | nil => rfl
    | cons h1 _ ih =>
      rw [List.map_cons, ih, (pyRoundR_spec _ _).mpr h1.1, (pyRoundR_spec _ _).mpr h1.2.1, (pyRoundR_spec _ _).mpr h1.2.2]
  obtain ⟨off, h1, h2⟩ := find_rotation_ok hrot (.triples l) (by simp)
  obtain ⟨off', h1', h2'⟩ := find_rotation_ok hrot (.triples (l'.map halfT)) (by simp)
  rw [api_unfold hrot, api_unfold hrot, h1, h1']
  simp only [bind_ok]
  rw [h2, h2']
  unfold find_indices
  simp only [round_triples, e]

/-- Non-vacuity: `ell = 2.2` is read as 2, `m' = 0.75` as 1, `m = -1.3` as -3/2. -/
example : NearestEven (2 * 2.2) 4 ∧ NearestEven (2 * 0.75) 2 ∧ NearestEven (2 * (-1.3)) (-3) := by
  refine ⟨.inl ?_, .inr ⟨?_, ⟨1, rfl⟩⟩, .inl ?_⟩
  · rw [abs_lt]; norm_num
  · norm_num
  · rw [abs_lt]; norm_num

end SF
