import Verif.Model.RawInput
import Verif.Props.Modes
import Mathlib.NumberTheory.Real.Irrational

/-!
# C77: Modes objects made from arrays of other number types
-/

set_option autoImplicit false

namespace SF

section

variable {α : Type} {q : ℕ} {dec : List α → ℂ} {s l0 L : ℤ} {t : TruncKey} {lead : List ℕ} {c : List ℤ × Kw}

/-- The complex numbers read from the array. -/
def rawPairs (q : ℕ) (dec : List α → ℂ) (dat : List (MIdx → α)) : List Slice :=
  (List.range (dat.length / q)).map fun k idx => dec (((dat.drop (q * k)).take q).map fun v => v idx)

theorem rawPairs_length (dat : List (MIdx → α)) : (rawPairs q dec dat).length = dat.length / q := by
  unfold rawPairs
  rw [List.length_map, List.length_range]

theorem newRaw_eq (hc : c ∈ callsWithEllMax s l0 L t ++ callsWithout s l0 t) (dat : List (MIdx → α)) :
    Modes.newRaw q dec (.array lead dat) c.1 c.2 =
      if dat.length % q ≠ 0 then .error .valueError else Modes.new (.array lead (rawPairs q dec dat)) {} c.1 c.2 := by
  have h1 : ¬ (c.1.length = 2 ∨ c.1.length > 3) := by
    simp only [callsWithEllMax, callsWithout, List.mem_append, List.mem_cons, List.not_mem_nil, or_false] at hc
    rcases hc with (rfl | rfl | rfl) | (rfl | rfl) <;> simp
  unfold Modes.newRaw viewComplex
  rw [if_neg h1]
  simp only
  split <;> rfl

/-- **C77 (what is accepted).** `Modes(data, ...)` for `n` items per function, `q` of which take the place of one complex number, does not
convert the numbers: it succeeds exactly if `n = q ((L+1)² - ell_min²)` with the given `ell_max = L`, or with some `L` if `ell_max` is not
given, and otherwise raises ValueError.  Modes with `ell ≥ |s|` then consist of the bytes of `q` consecutive items. -/
theorem C77_accepts (hq : 0 < q) (h0 : 0 ≤ l0) (hL : -1 ≤ L) (dat : List (MIdx → α)) (hlen : (dat.length : ℤ) = q * ((L + 1) ^ 2 - l0 ^ 2))
    (hc : c ∈ callsWithEllMax s l0 L t ++ callsWithout s l0 t) :
    ∃ f, Modes.newRaw q dec (.array lead dat) c.1 c.2 = .ok f ∧ f.lead = lead ∧ f.s = s ∧ f.ell_max = L ∧
      ∀ ell m, |m| ≤ ell → ell ≤ L → |s| ≤ ell → l0 ≤ ell → ∀ idx,
        f.coef ell m idx = dec (((dat.drop (q * (LM_index ell m l0).toNat)).take q).map fun v => v idx) := by
  have hd0 : (q : ℤ) ∣ dat.length := ⟨_, hlen⟩
  have hd : q ∣ dat.length := by exact_mod_cast hd0
  have hdiv : ((dat.length / q : ℕ) : ℤ) = (L + 1) ^ 2 - l0 ^ 2 := by
    push_cast
    rw [hlen, Int.mul_ediv_cancel_left _ (by omega)]
  rw [newRaw_eq hc, if_neg (by rw [Nat.mod_eq_zero_of_dvd hd]; simp)]
  obtain ⟨f, e1, e2, e3, e4, -, -, e5, -⟩ := C23_construct h0 hL t lead (rawPairs q dec dat) (by rw [rawPairs_length]; exact hdiv) c hc
  refine ⟨f, e1, e2, e3, e4, fun ell m h1 h2 h3 h4 idx => ?_⟩
  obtain ⟨v, v1, v2⟩ := e5 ell m h1 h2 h3 h4
  rw [show f.coef ell m = v from coef_of_get v2]
  unfold rawPairs at v1
  rw [List.getElem?_map] at v1
  obtain ⟨k, hk, rfl⟩ := Option.map_eq_some_iff.mp v1
  rw [List.getElem?_eq_some_iff] at hk
  obtain ⟨hk1, hk2⟩ := hk
  rw [List.getElem_range] at hk2
  rw [hk2]

/-- **C77 (what is rejected).** -/
theorem C77_rejects (hq : 0 < q) (dat : List (MIdx → α)) (c : List ℤ × Kw) :
    (∀ L, c ∈ callsWithEllMax s l0 L t → (dat.length : ℤ) ≠ q * ((L + 1) ^ 2 - l0 ^ 2) →
      Modes.newRaw q dec (.array lead dat) c.1 c.2 = .error .valueError) ∧
    (c ∈ callsWithout s l0 t → (¬ ∃ L, -1 ≤ L ∧ (dat.length : ℤ) = q * ((L + 1) ^ 2 - l0 ^ 2)) →
      Modes.newRaw q dec (.array lead dat) c.1 c.2 = .error .valueError) := by
  have key : ∀ L, ¬ dat.length % q ≠ 0 → ((dat.length / q : ℕ) : ℤ) = (L + 1) ^ 2 - l0 ^ 2 →
      (dat.length : ℤ) = q * ((L + 1) ^ 2 - l0 ^ 2) := fun L hm hl => by
    rw [← hl, ← Nat.cast_mul, Nat.mul_div_cancel' (Nat.dvd_of_mod_eq_zero (by simpa using hm))]
  constructor
  · intro L hc hl
    rw [newRaw_eq (L := L) (List.mem_append_left _ hc)]
    split
    · rfl
    rename_i hm
    refine (C23_reject_length t lead _ c).1 L hc ?_
    rw [rawPairs_length]
    exact fun h => hl (key L hm h)
  · intro hc hl
    rw [newRaw_eq (L := 0) (List.mem_append_right _ hc)]
    split
    · rfl
    rename_i hm
    refine (C23_reject_length t lead _ c).2 hc ?_
    rw [rawPairs_length]
    rintro ⟨L, h1, h2⟩
    exact hl ⟨L, h1, key L hm h2⟩

/-- **C77 (0-d input).** A single number of another type: ValueError. -/
theorem C77_zero_dim (hq : q ≠ 1) (x : α) (args : List ℤ) (kw : Kw) : Modes.newRaw q dec (.scalar x) args kw = .error .valueError := by
  unfold Modes.newRaw viewComplex
  split
  · rfl
  · simp only [if_neg hq]
    rfl

/-- **C77 (complete data with `ell_max`).** A complete, non-empty set of modes in another number type, given with its `ell_max`, is always
rejected with ValueError. -/
theorem C77_with_ell_max (hq : 2 ≤ q) (h1 : 0 < (L + 1) ^ 2 - l0 ^ 2) (dat : List (MIdx → α)) (hlen : (dat.length : ℤ) = (L + 1) ^ 2 - l0 ^ 2)
    (hc : c ∈ callsWithEllMax s l0 L t) : Modes.newRaw q dec (.array lead dat) c.1 c.2 = .error .valueError := by
  refine (C77_rejects (s := s) (l0 := l0) (t := t) (by omega) dat c).1 L hc ?_
  rw [hlen]
  have hq' : (2 : ℤ) ≤ q := by exact_mod_cast hq
  nlinarith

theorem sq_eq_two_mul {x y : ℤ} (h : x ^ 2 = 2 * y ^ 2) : x = 0 := by
  by_contra hx
  have hy : y ≠ 0 := by rintro rfl; apply hx; simpa using h
  have hr : ((x : ℝ) / y) ^ 2 = 2 := by
    have : (x : ℝ) ^ 2 = 2 * (y : ℝ) ^ 2 := by exact_mod_cast h
    have hy' : (y : ℝ) ≠ 0 := by exact_mod_cast hy
    field_simp
    linarith
  have habs : |(x : ℝ) / y| = Real.sqrt 2 := by
    rw [← hr, Real.sqrt_sq_eq_abs]
  refine irrational_sqrt_two ⟨|(x : ℚ) / y|, ?_⟩
  rw [← habs]
  push_cast
  rfl

/-- **C77 (real data from `ell = 0`).** A complete set of modes `0 ≤ ell ≤ L` of float64, int64 or complex64 numbers is rejected with
ValueError, whether `ell_max` is given or not. -/
theorem C77_float64 (hL : 0 ≤ L) (dat : List (MIdx → α)) (hlen : (dat.length : ℤ) = (L + 1) ^ 2)
    (hc : c ∈ callsWithEllMax s 0 L t ++ callsWithout s 0 t) : Modes.newRaw 2 dec (.array lead dat) c.1 c.2 = .error .valueError := by
  rcases List.mem_append.mp hc with hc | hc
  · exact C77_with_ell_max (by norm_num) (by nlinarith) dat (by rw [hlen]; ring) hc
  · refine (C77_rejects (s := s) (l0 := 0) (t := t) (by norm_num) dat c).2 hc ?_
    rintro ⟨L', -, h⟩
    rw [hlen] at h
    have := sq_eq_two_mul (x := L + 1) (y := L' + 1) (by rw [h]; push_cast; ring)
    omega

/-- **C77 (float32 data).** A complete set of modes `0 ≤ ell ≤ 2 L' + 1` of float32 or int32 numbers is accepted without `ell_max`, as an
object with the modes `0 ≤ ell ≤ L'`. -/
theorem C77_float32 {L' : ℤ} (hL : 0 ≤ L') (dat : List (MIdx → α)) (hlen : (dat.length : ℤ) = (2 * L' + 1 + 1) ^ 2)
    (hc : c ∈ callsWithout s 0 t) :
    ∃ f, Modes.newRaw 4 dec (.array lead dat) c.1 c.2 = .ok f ∧ f.s = s ∧ f.ell_max = L' := by
  obtain ⟨f, e1, -, e3, e4, -⟩ := C77_accepts (dec := dec) (lead := lead) (q := 4) (by norm_num) (le_refl 0) (show -1 ≤ L' by omega) dat
    (by rw [hlen]; push_cast; ring) (List.mem_append_right (callsWithEllMax s 0 L' t) hc)
  exact ⟨f, e1, e3, e4⟩

/-- **C77 (real data from `ell_min > 0`).** For every `ell_min ≥ 1` there are infinitely many `L` such that a complete set of modes
`ell_min ≤ ell ≤ L` of float64 numbers is accepted without `ell_max`, as an object with a smaller `ell_max` whose modes have real and
imaginary parts taken from different modes. -/
theorem C77_misread (h0 : 1 ≤ l0) (B : ℤ) : ∃ L L' : ℤ, B ≤ L ∧ l0 ≤ L' ∧ L' < L ∧ ∀ (dat : List (MIdx → ℝ)),
    (dat.length : ℤ) = (L + 1) ^ 2 - l0 ^ 2 → ∀ (s : ℤ) (lead : List ℕ) (t : TruncKey), ∀ c ∈ callsWithout s l0 t,
      ∃ f, Modes.newRaw 2 decFloat64 (.array lead dat) c.1 c.2 = .ok f ∧ f.s = s ∧ f.ell_max = L' ∧
        ∀ ell m, |m| ≤ ell → ell ≤ L' → |s| ≤ ell → l0 ≤ ell → ∃ v w, dat[2 * (LM_index ell m l0).toNat]? = some v ∧
          dat[2 * (LM_index ell m l0).toNat + 1]? = some w ∧ ∀ idx, f.coef ell m idx = ⟨v idx, w idx⟩ := by
  have pell : ∀ n : ℕ, ∃ x y : ℤ, (n : ℤ) < x ∧ 1 < y ∧ y < x ∧ x ^ 2 + 1 = 2 * y ^ 2 := by
    intro n
    induction n with
    | zero => exact ⟨7, 5, by norm_num, by norm_num, by norm_num, by norm_num⟩
    | succ n ih =>
      obtain ⟨x, y, h1, h2, h3, h4⟩ := ih
      exact ⟨3 * x + 4 * y, 2 * x + 3 * y, by push_cast; linarith, by linarith, by linarith, by linarith [h4, sq_nonneg x, show (3 * x + 4 * y) ^ 2 + 1 - 2 * (2 * x + 3 * y) ^ 2 = x ^ 2 + 1 - 2 * y ^ 2 by ring]⟩
  obtain ⟨x, y, h1, h2, h3, h4⟩ := pell B.toNat
  have hB : B ≤ (B.toNat : ℤ) := Int.self_le_toNat B
  have hx : 1 ≤ x := by omega
  refine ⟨l0 * x - 1, l0 * y - 1, by nlinarith, by nlinarith, by nlinarith, fun dat hlen s lead t c hc => ?_⟩
  have hsz : (dat.length : ℤ) = (2 : ℕ) * ((l0 * y - 1 + 1) ^ 2 - l0 ^ 2) := by
    rw [hlen]
    push_cast
    linear_combination l0 ^ 2 * h4
  obtain ⟨f, e1, -, e3, e4, e5⟩ := C77_accepts (dec := decFloat64) (lead := lead) (q := 2) (by norm_num) (by omega) (show -1 ≤ l0 * y - 1 by nlinarith) dat
    hsz (List.mem_append_right (callsWithEllMax s l0 (l0 * y - 1) t) hc)
  refine ⟨f, e1, e3, e4, fun ell m k1 k2 k3 k4 => ?_⟩
  have e5' := e5 ell m k1 k2 k3 k4
  set k := (LM_index ell m l0).toNat with hk
  have hklt : 2 * k + 1 < dat.length := by
    have hix : LM_index ell m l0 = ell * (ell + 1) + m - l0 ^ 2 := by unfold LM_index; ring
    obtain ⟨a1, a2⟩ := abs_le.mp k1
    have b1 := sq_le_of (by omega) k4
    have b2 := sq_le_of (show 0 ≤ ell + 1 by omega) (show ell + 1 ≤ l0 * y - 1 + 1 by omega)
    have : 0 ≤ LM_index ell m l0 := by rw [hix]; nlinarith
    have hkz : (k : ℤ) = ell * (ell + 1) + m - l0 ^ 2 := by rw [hk, Int.toNat_of_nonneg this, hix]
    have : (k : ℤ) < (l0 * y - 1 + 1) ^ 2 - l0 ^ 2 := by rw [hkz]; nlinarith
    have : (2 * (k : ℤ) + 1) < dat.length := by rw [hsz]; push_cast; omega
    exact_mod_cast this
  refine ⟨dat[2 * k], dat[2 * k + 1], List.getElem?_eq_getElem _, List.getElem?_eq_getElem _, fun idx => ?_⟩
  rw [e5' idx, List.drop_eq_getElem_cons (by omega : 2 * k < dat.length), List.drop_eq_getElem_cons hklt]
  rfl

end

/-- Non-vacuity of C77: real data for `2 ≤ ell ≤ 13` (192 numbers) are read as complex data for `2 ≤ ell ≤ 9`. -/
example : ∃ f, Modes.newRaw 2 decFloat64 (.array [] ((List.range 192).map fun (k : ℕ) (_ : MIdx) => (k : ℝ))) [-2] { ell_min := some 2 } = .ok f ∧
    f.ell_max = 9 ∧ f.coef 2 (-1) [] = ⟨2, 3⟩ := by
  obtain ⟨f, e1, -, -, e4, e5⟩ := C77_accepts (dec := decFloat64) (lead := []) (q := 2) (s := -2) (l0 := 2) (L := 9) (t := .absent)
    (c := ([-2], { ell_min := some 2 })) (by norm_num) (by norm_num) (by norm_num) ((List.range 192).map fun (k : ℕ) (_ : MIdx) => (k : ℝ))
    (by rw [List.length_map, List.length_range]; norm_num) (by simp [callsWithEllMax, callsWithout])
  refine ⟨f, e1, e4, ?_⟩
  rw [e5 2 (-1) (by norm_num) (by norm_num) (by norm_num) (by norm_num), show 2 * (LM_index 2 (-1) 2).toNat = 2 by decide, List.drop_eq_getElem_cons (by
    rw [List.length_map, List.length_range]; norm_num), List.drop_eq_getElem_cons (by rw [List.length_map, List.length_range]; norm_num)]
  simp only [List.take_succ_cons, List.take_zero, List.map_cons, List.map_nil, List.getElem_map, List.getElem_range, decFloat64]
  norm_num

/-- Non-vacuity of C77: the four real numbers of a scalar function with `ell ≤ 1` are rejected. -/
example : Modes.newRaw 2 decFloat64 (.array [] [fun _ => 1, fun _ => 2, fun _ => 3, fun _ => 4]) [0] {} = .error .valueError := by
  have := C77_float64 (dec := decFloat64) (lead := []) (s := 0) (L := 1) (t := .absent) (c := ([0], { ell_min := some 0 })) (by norm_num)
    [fun _ => 1, fun _ => 2, fun _ => 3, fun _ => 4] (by norm_num) (by simp [callsWithEllMax, callsWithout])
  simpa [Modes.newRaw, Modes.new] using this

end SF
