import Verif.Lemmas.DSafety
import Verif.Lemmas.DNear
import Mathlib.Algebra.Quaternion

/-!
# Properties C08–C17: the Wigner D functions

`IsWignerTable L table` says that `table` is what the table generator produces for the limit `L` (32 in the shipped package).
`Generic Ra Rb` says that the rotor is a unit and each of `Ra`, `Rb` is zero or larger than the cut-off `epsilon`.
Index triples are given by their doubles; `half n` is `n/2` as a float.
-/

set_option autoImplicit false

namespace SF

open Finset ComplexConjugate

/-! ## Helper lemmas -/

/-- The half-integer with double `n`. -/
noncomputable def half (n : ℤ) : ℝ := (n : ℝ) / 2

theorem pyRoundR_int (n : ℤ) : pyRoundR (n : ℝ) = n := by
  unfold pyRoundR
  simp

@[simp] theorem pyRoundR_half (n : ℤ) : pyRoundR (2 * half n) = n := by
  unfold half
  rw [mul_div_cancel₀ _ (by norm_num : (2 : ℝ) ≠ 0), pyRoundR_int]

/-- A triple as the user writes it. -/
noncomputable def halfT (t : ℤ × ℤ × ℤ) : ℝ × ℝ × ℝ := (half t.1, half t.2.1, half t.2.2)

theorem round_triples (l : List (ℤ × ℤ × ℤ)) :
    (l.map halfT).map (fun t => (pyRoundR (2 * t.1), pyRoundR (2 * t.2.1), pyRoundR (2 * t.2.2))) = l := by
  rw [List.map_map]
  conv_rhs => rw [← List.map_id l]
  apply List.map_congr_left
  intro t _
  simp [halfT]

theorem npEmpty_len {α : Type} (junk : ℕ → α) (n : ℕ) :
    ∃ b, npEmpty junk (n : ℤ) = .ok b ∧ b.length = n := by
  refine ⟨_, npEmpty_ok (by omega), by simp⟩

/-- The documented ways of passing a rotation, with the complex parts `Ra`, `Rb` they stand for. -/
inductive RotationArgs : List DArg → ℂ → ℂ → Prop
  | rotor (w x y z : ℝ) : RotationArgs [.rotor (w, x, y, z)] ⟨w, z⟩ ⟨y, x⟩
  | parts (Ra Rb : ℂ) : RotationArgs [.num (.cpx Ra), .num (.cpx Rb)] Ra Rb
  | euler (α β γ : ℝ) : RotationArgs [.num (.flt α), .num (.flt β), .num (.flt γ)]
      (Real.cos (β / 2) * Complex.exp (Complex.I * ((α + γ) / 2)))
      (Real.sin (β / 2) * Complex.exp (Complex.I * ((γ - α) / 2)))

theorem euler_a (α β γ : ℝ) : quat_a (from_euler_angles α β γ)
    = Real.cos (β / 2) * Complex.exp (Complex.I * ((α + γ) / 2)) := by
  have : Complex.I * (((α : ℂ) + γ) / 2) = (((α + γ) / 2 : ℝ) : ℂ) * Complex.I := by push_cast; ring
  rw [this]
  apply Complex.ext
  · rw [Complex.re_ofReal_mul, Complex.exp_ofReal_mul_I_re]; rfl
  · rw [Complex.im_ofReal_mul, Complex.exp_ofReal_mul_I_im]; rfl

theorem euler_b (α β γ : ℝ) : quat_b (from_euler_angles α β γ)
    = Real.sin (β / 2) * Complex.exp (Complex.I * ((γ - α) / 2)) := by
  have : Complex.I * (((γ : ℂ) - α) / 2) = ((-((α - γ) / 2) : ℝ) : ℂ) * Complex.I := by push_cast; ring
  rw [this]
  apply Complex.ext
  · rw [Complex.re_ofReal_mul, Complex.exp_ofReal_mul_I_re, Real.cos_neg]; rfl
  · rw [Complex.im_ofReal_mul, Complex.exp_ofReal_mul_I_im, Real.sin_neg]
    simp [quat_b, from_euler_angles]

/-- With one further argument that is not a number, the rotation is found. -/
theorem find_rotation_ok {rot : List DArg} {Ra Rb : ℂ} (h : RotationArgs rot Ra Rb) (x : DArg)
    (hx : ∀ n, x ≠ .num n) :
    ∃ off, find_rotation (rot ++ [x]) = .ok (Ra, Rb, off) ∧ (rot ++ [x]).drop off = [x] := by
  cases h with
  | rotor w x' y z => exact ⟨1, rfl, rfl⟩
  | parts =>
    refine ⟨2, ?_, rfl⟩
    cases x with
    | num n => exact absurd rfl (hx n)
    | rotors => rfl
    | rotor => rfl
    | ells => rfl
    | triples => rfl
  | euler α β γ =>
    refine ⟨3, ?_, rfl⟩
    rw [← euler_a, ← euler_b]; rfl

theorem api_unfold {rot : List DArg} {Ra Rb : ℂ} (h : RotationArgs rot Ra Rb) (table : List ℝ) (L : ℤ) (flag : Bool)
    (junk : ℕ → ℂ) (rest : List DArg) :
    Wigner_D_element table L flag junk (rot ++ rest) = (do
      let (Ra, Rb, mode_offset) ← find_rotation (rot ++ rest)
      let (indices, return_scalar) ← find_indices L flag ((rot ++ rest).drop mode_offset)
      let elements ← npEmpty junk indices.length
      let elements ← Wigner_D_element_kernel table Ra Rb indices elements
      if return_scalar then return .scalar (← rd elements 0)
      else return .array elements) := by
  cases h <;> rfl

/-- Processing of a list of triples. -/
theorem api_triples {rot : List DArg} {Ra Rb : ℂ} (h : RotationArgs rot Ra Rb) (table : List ℝ) (L : ℤ) (flag : Bool)
    (junk : ℕ → ℂ) (l : List (ℤ × ℤ × ℤ)) :
    ∃ buf : List ℂ, buf.length = l.length ∧
      Wigner_D_element table L flag junk (rot ++ [.triples (l.map halfT)]) =
        if flag && l.any (fun t => !(check_valid_indices L t.1 t.2.1 t.2.2)) then .error .valueError
        else (Wigner_D_element_kernel table Ra Rb l buf).map .array := by
  obtain ⟨buf, hb1, hb2⟩ := npEmpty_len junk l.length
  refine ⟨buf, hb2, ?_⟩
  obtain ⟨off, h1, h2⟩ := find_rotation_ok h (.triples (l.map halfT)) (by simp)
  rw [api_unfold h, h1]
  simp only [bind_ok]
  rw [h2]
  unfold find_indices
  simp only [round_triples]
  split_ifs with hc
  · rfl
  · simp only [bind_ok, hb1]
    cases Wigner_D_element_kernel table Ra Rb l buf <;> rfl

/-- The index triple is within the range tested by the package: `ell ≤ ell_max`, `|m'| ≤ ell`, `|m| ≤ ell` (doubled). -/
def InRange (L : ℤ) (t : ℤ × ℤ × ℤ) : Prop := t.1 ≤ 2 * L ∧ |t.2.1| ≤ t.1 ∧ |t.2.2| ≤ t.1

theorem check_iff (L a b c : ℤ) : check_valid_indices L a b c = true ↔ InRange L (a, b, c) := by
  unfold check_valid_indices InRange
  simp only
  split_ifs with h
  · simp only [false_iff]
    rintro ⟨h1, h2, h3⟩
    rcases h with h | h | h <;> omega
  · simp only [true_iff]
    rw [not_or, not_or, not_lt, not_lt, not_lt] at h
    exact h

theorem any_check (L : ℤ) (l : List (ℤ × ℤ × ℤ)) :
    (l.any (fun t => !(check_valid_indices L t.1 t.2.1 t.2.2))) = true ↔ ∃ t ∈ l, ¬ InRange L t := by
  rw [List.any_eq_true]
  constructor
  · rintro ⟨t, h1, h2⟩
    refine ⟨t, h1, fun h => ?_⟩
    rw [← check_iff L t.1 t.2.1 t.2.2] at h
    simp [h] at h2
  · rintro ⟨t, h1, h2⟩
    refine ⟨t, h1, ?_⟩
    rw [← check_iff L t.1 t.2.1 t.2.2] at h2
    simp [h2]

/-- Processing of an explicit triple (rotor or Euler angles). -/
theorem api_single {rot : List DArg} {Ra Rb : ℂ} (h : RotationArgs rot Ra Rb) (hlen : rot.length ≠ 2)
    (table : List ℝ) (L : ℤ) (flag : Bool) (junk : ℕ → ℂ) (a b c : ℤ) :
    ∃ buf : List ℂ, buf.length = 1 ∧
      Wigner_D_element table L flag junk
          (rot ++ [.num (.flt (half a)), .num (.flt (half b)), .num (.flt (half c))]) =
        if flag && !(check_valid_indices L a b c) then .error .valueError
        else (do
          let e ← Wigner_D_element_kernel table Ra Rb [(a, b, c)] buf
          return .scalar (← rd e 0)) := by
  obtain ⟨buf, hb1, hb2⟩ := npEmpty_len junk 1
  refine ⟨buf, hb2, ?_⟩
  rw [api_unfold h]
  have key : ∃ off, find_rotation (rot ++ [.num (.flt (half a)), .num (.flt (half b)), .num (.flt (half c))])
      = .ok (Ra, Rb, off) ∧
      (rot ++ [DArg.num (.flt (half a)), .num (.flt (half b)), .num (.flt (half c))]).drop off
        = [.num (.flt (half a)), .num (.flt (half b)), .num (.flt (half c))] := by
    cases h with
    | rotor w x y z => exact ⟨1, rfl, rfl⟩
    | parts => simp at hlen
    | euler α β γ =>
      refine ⟨3, ?_, rfl⟩
      rw [← euler_a, ← euler_b]; rfl
  obtain ⟨off, h1, h2⟩ := key
  rw [h1]
  simp only [bind_ok]
  rw [h2]
  unfold find_indices
  simp only [PyNum.toReal, bind_ok, pyRoundR_half]
  split_ifs with hc
  · rfl
  · change (do
      let elements ← npEmpty junk ((1 : ℕ) : ℤ)
      let elements ← Wigner_D_element_kernel table Ra Rb [(a, b, c)] elements
      return DRes.scalar (← rd elements 0)) = _
    rw [hb1]
    rfl

/-! ## C08 -/

/-- **C08.** For a list of triples: ValueError iff some triple has `ell > ell_max`, `|m'| > ell` or `|m| > ell`; otherwise a
value is returned for every triple (in particular no table access is out of range and nothing is divided by zero).
Any unit rotor, any parity of the indices. -/
theorem C08_index_check {L : ℤ} {table : List ℝ} (ht : IsWignerTable L table) (junk : ℕ → ℂ) (rot : List DArg)
    (Ra Rb : ℂ) (hrot : RotationArgs rot Ra Rb) (hu : Spec.IsUnit' Ra Rb) (l : List (ℤ × ℤ × ℤ)) :
    ((∃ t ∈ l, t.1 > 2 * L ∨ |t.2.1| > t.1 ∨ |t.2.2| > t.1) →
      Wigner_D_element table L true junk (rot ++ [.triples (l.map halfT)]) = .error .valueError) ∧
    ((∀ t ∈ l, t.1 ≤ 2 * L ∧ |t.2.1| ≤ t.1 ∧ |t.2.2| ≤ t.1) →
      ∃ out, Wigner_D_element table L true junk (rot ++ [.triples (l.map halfT)]) = .ok (.array out) ∧
        out.length = l.length) := by
  obtain ⟨buf, hb, e⟩ := api_triples hrot table L true junk l
  rw [e]
  constructor
  · rintro ⟨t, h1, h2⟩
    rw [if_pos]
    rw [Bool.true_and, any_check]
    refine ⟨t, h1, ?_⟩
    rintro ⟨h3, h4, h5⟩
    rcases h2 with h | h | h <;> omega
  · intro hall
    rw [if_neg]
    · obtain ⟨out, h1, h2⟩ := kernel_total ht hu l (fun t htm _ _ => (hall t htm).1) buf hb
      exact ⟨out, by rw [h1]; rfl, h2⟩
    · rw [Bool.true_and, any_check]
      rintro ⟨t, h1, h2⟩
      exact h2 (hall t h1)

/-- **C08.** The same for an explicit `(ell, m', m)`. -/
theorem C08_index_check_single {L : ℤ} {table : List ℝ} (ht : IsWignerTable L table) (junk : ℕ → ℂ)
    (rot : List DArg) (Ra Rb : ℂ) (hrot : RotationArgs rot Ra Rb) (hlen : rot.length ≠ 2)
    (hu : Spec.IsUnit' Ra Rb) (a b c : ℤ) :
    ((a > 2 * L ∨ |b| > a ∨ |c| > a) →
      Wigner_D_element table L true junk
        (rot ++ [.num (.flt (half a)), .num (.flt (half b)), .num (.flt (half c))]) = .error .valueError) ∧
    ((a ≤ 2 * L ∧ |b| ≤ a ∧ |c| ≤ a) →
      ∃ v, Wigner_D_element table L true junk
        (rot ++ [.num (.flt (half a)), .num (.flt (half b)), .num (.flt (half c))]) = .ok (.scalar v)) := by
  obtain ⟨buf, hb, e⟩ := api_single hrot hlen table L true junk a b c
  rw [e]
  constructor
  · intro h
    rw [if_pos]
    have : ¬ (check_valid_indices L a b c = true) := by
      rw [check_iff]
      rintro ⟨h3, h4, h5⟩
      simp only at h3 h4 h5
      rcases h with h | h | h <;> omega
    simpa using this
  · intro hall
    rw [if_neg]
    · obtain ⟨out, h1, h2⟩ := kernel_total ht hu [(a, b, c)] (fun t htm _ _ => by
        simp only [List.mem_singleton] at htm; subst htm; exact hall.1) buf hb
      rw [h1, bind_ok]
      match out, h2 with
      | [v], _ => exact ⟨v, rfl⟩
    · have : check_valid_indices L a b c = true := by rw [check_iff]; exact hall
      simp [this]

/-- **C08.** The check ignores parity: `(1, 1/2, 0)` is not a valid index of a D matrix, but is accepted. -/
theorem C08_parity_not_checked {L : ℤ} (hL : 1 ≤ L) {table : List ℝ} (ht : IsWignerTable L table) (junk : ℕ → ℂ)
    (w x y z : ℝ) (hu : w ^ 2 + x ^ 2 + y ^ 2 + z ^ 2 = 1) :
    ¬ Spec.ValidD 2 1 0 ∧
      ∃ v, Wigner_D_element table L true junk
        [.rotor (w, x, y, z), .num (.flt (half 2)), .num (.flt (half 1)), .num (.flt (half 0))] = .ok (.scalar v) := by
  refine ⟨by unfold Spec.ValidD; norm_num, ?_⟩
  have := (C08_index_check_single ht junk _ _ _ (RotationArgs.rotor w x y z) (by simp) (by
    unfold Spec.IsUnit'
    simp only [Complex.normSq_apply]
    nlinarith) 2 1 0).2 ⟨by omega, by norm_num, by norm_num⟩
  exact this

/-- Non-vacuity of C08: the package's table limit, an identity rotor, and a list with a bad triple. -/
example : ∃ table, IsWignerTable 32 table ∧
    Wigner_D_element table 32 true (fun _ => 0) ([.rotor (1, 0, 0, 0)] ++ [.triples ([(4, 2, 0), (2, 4, 0)].map halfT)])
      = .error .valueError := by
  obtain ⟨t, ht⟩ := IsWignerTable.exists 32 (by norm_num)
  refine ⟨t, ht, (C08_index_check ht _ _ _ _ (RotationArgs.rotor 1 0 0 0) (by simp [Spec.IsUnit', Complex.normSq_apply]) _).1
    ⟨(2, 4, 0), by simp, ?_⟩⟩
  right; left; norm_num

/-! ## C09, C10 -/

/-- The value of the D function for a doubled triple. -/
noncomputable def Dof (Ra Rb : ℂ) (t : ℤ × ℤ × ℤ) : ℂ := Spec.wignerD Ra Rb t.1 t.2.1 t.2.2

theorem kernel_valid {L : ℤ} {table : List ℝ} (ht : IsWignerTable L table) {Ra Rb : ℂ} (hg : Generic Ra Rb)
    (l : List (ℤ × ℤ × ℤ)) (hl : ∀ t ∈ l, Spec.ValidD t.1 t.2.1 t.2.2 ∧ t.1 ≤ 2 * L) (buf : List ℂ)
    (hb : buf.length = l.length) : Wigner_D_element_kernel table Ra Rb l buf = .ok (l.map (Dof Ra Rb)) := by
  rw [element_kernel_eq ht hg l buf hb (fun t htm _ => hl t htm)]
  congr 1
  apply List.map_congr_left
  intro t htm
  unfold Dvalue
  rw [if_pos ⟨(hl t htm).1.1, (hl t htm).1.2.1⟩]
  rfl

/-- **C09/C10.** Rotation passed in any documented way, list of triples `[[ell,m',m],...]`: the values are those of the
D function, in the same order. -/
theorem C09_triples {L : ℤ} {table : List ℝ} (ht : IsWignerTable L table) (flag : Bool) (junk : ℕ → ℂ)
    (rot : List DArg) (Ra Rb : ℂ) (hrot : RotationArgs rot Ra Rb) (hg : Generic Ra Rb) (l : List (ℤ × ℤ × ℤ))
    (hl : ∀ t ∈ l, Spec.ValidD t.1 t.2.1 t.2.2 ∧ t.1 ≤ 2 * L) :
    Wigner_D_element table L flag junk (rot ++ [.triples (l.map halfT)])
      = .ok (.array (l.map fun t => Spec.wignerD Ra Rb t.1 t.2.1 t.2.2)) := by
  obtain ⟨buf, hb, e⟩ := api_triples hrot table L flag junk l
  rw [e, if_neg, kernel_valid ht hg l hl buf hb]
  · rfl
  · rw [Bool.and_eq_true, any_check]
    rintro ⟨-, t, h1, h2⟩
    exact h2 ⟨(hl t h1).2, (hl t h1).1.1, (hl t h1).1.2.1⟩

theorem ell_triples_eq (n : ℤ) : ell_triples n = TwoList n n := by
  unfold ell_triples TwoList TwoBlock
  rw [pyRange_succ le_rfl, pyRange_empty le_rfl]
  simp

/-- **C09.** Rotation passed in any documented way, list of `ell` values: for each `ell` in turn, all `(m', m)` in
lexicographic order. -/
theorem C09_ells {L : ℤ} {table : List ℝ} (ht : IsWignerTable L table) (flag : Bool) (junk : ℕ → ℂ)
    (rot : List DArg) (Ra Rb : ℂ) (hrot : RotationArgs rot Ra Rb) (hg : Generic Ra Rb) (ns : List ℤ)
    (hne : ns ≠ []) (hn : ∀ n ∈ ns, 0 ≤ n ∧ n ≤ 2 * L) :
    ∃ rows : ℤ → List (ℤ × ℤ × ℤ), (∀ n, 0 ≤ n → Spec.ListsTwoTriples n n (rows n)) ∧
      Wigner_D_element table L flag junk (rot ++ [.ells (ns.map half)])
        = .ok (.array ((ns.flatMap rows).map fun t => Spec.wignerD Ra Rb t.1 t.2.1 t.2.2)) := by
  refine ⟨ell_triples, fun n h => by rw [ell_triples_eq]; exact TwoList_spec n h, ?_⟩
  obtain ⟨off, h1, h2⟩ := find_rotation_ok hrot (.ells (ns.map half)) (by simp)
  rw [api_unfold hrot, h1]
  simp only [bind_ok]
  rw [h2]
  have hr : (ns.map half).map (fun ell => pyRoundR (2 * ell)) = ns := by
    rw [List.map_map]
    conv_rhs => rw [← List.map_id ns]
    exact List.map_congr_left (fun n _ => by simp)
  have hne2 : ns.flatMap ell_triples ≠ [] := by
    obtain ⟨n, ns', rfl⟩ := List.exists_cons_of_ne_nil hne
    have h0 := (hn n (by simp)).1
    have : (n, -n, -n) ∈ ell_triples n := by
      rw [ell_triples_eq]
      refine ((TwoList_spec n h0).2 _).mpr ⟨le_rfl, le_rfl, ?_, ?_, ?_, ?_⟩ <;>
        simp only [abs_neg, abs_of_nonneg h0, le_refl] <;> omega
    intro h
    have hm : (n, -n, -n) ∈ (n :: ns').flatMap ell_triples := List.mem_flatMap.mpr ⟨n, by simp, this⟩
    rw [h] at hm
    simp at hm
  have hmap : ns.map half ≠ [] := by simpa using hne
  unfold find_indices
  simp only [hr, hmap, hne2, if_false, bind_ok]
  obtain ⟨buf, hb1, hb2⟩ := npEmpty_len junk (ns.flatMap ell_triples).length
  rw [hb1]
  simp only [bind_ok]
  rw [kernel_valid ht hg _ _ buf hb2]
  · rfl
  · intro t htm
    rw [List.mem_flatMap] at htm
    obtain ⟨n, hnm, htn⟩ := htm
    rw [ell_triples_eq] at htn
    obtain ⟨g1, g2, g3, g4, g5, g6⟩ := ((TwoList_spec n (hn n hnm).1).2 _).mp htn
    exact ⟨⟨g3, g4, g5, g6⟩, le_trans g2 (hn n hnm).2⟩

/-- **C09/C10.** Rotor or Euler angles with an explicit `(ell, m', m)`: a scalar is returned, the value of the D function. -/
theorem C10_Wigner_D_element {L : ℤ} {table : List ℝ} (ht : IsWignerTable L table) (flag : Bool) (junk : ℕ → ℂ)
    (rot : List DArg) (Ra Rb : ℂ) (hrot : RotationArgs rot Ra Rb) (hlen : rot.length ≠ 2) (hg : Generic Ra Rb)
    (twoell twomp twom : ℤ) (hv : Spec.ValidD twoell twomp twom) (hle : twoell ≤ 2 * L) :
    Wigner_D_element table L flag junk
        (rot ++ [.num (.flt (half twoell)), .num (.flt (half twomp)), .num (.flt (half twom))])
      = .ok (.scalar (Spec.wignerD Ra Rb twoell twomp twom)) := by
  obtain ⟨buf, hb, e⟩ := api_single hrot hlen table L flag junk twoell twomp twom
  rw [e, if_neg, kernel_valid ht hg [(twoell, twomp, twom)] (by simpa using ⟨hv, hle⟩) buf hb]
  · rfl
  · have : check_valid_indices L twoell twomp twom = true := by
      rw [check_iff]; exact ⟨hle, hv.1, hv.2.1⟩
    simp [this]

/-- A generic rotor, `3/5 + 4/5 i` (`R.a = 3/5`, `R.b = 4/5 i`). -/
theorem generic_parts : Generic ⟨3/5, 0⟩ ⟨0, 4/5⟩ := by
  have key : ∀ z : ℂ, 1 / 100 ≤ Complex.normSq z → epsilon < ‖z‖ := by
    intro z hz
    rw [Complex.normSq_eq_norm_sq] at hz
    have : 1 / 10 ≤ ‖z‖ := by nlinarith [norm_nonneg z]
    unfold epsilon
    norm_num at this ⊢
    linarith
  refine ⟨?_, Or.inr (key _ ?_), Or.inr (key _ ?_)⟩ <;> simp [Spec.IsUnit', Complex.normSq_apply] <;> norm_num

/-- Non-vacuity of C09 and C10: a rotor, the package's table limit, half-integer and integer triples, a list of `ell`, and a
single triple `(32, 1, -32)`. -/
example : ∃ table v w, IsWignerTable 32 table ∧
    Wigner_D_element table 32 true (fun _ => 0) ([.rotor (3/5, 4/5, 0, 0)] ++ [.triples ([(1, 1, -1), (4, 2, 0)].map halfT)])
      = .ok (.array v) ∧ v.length = 2 ∧
    Wigner_D_element table 32 true (fun _ => 0) ([.rotor (3/5, 4/5, 0, 0)] ++ [.ells ([2, 3].map half)]) = .ok w ∧
    Wigner_D_element table 32 true (fun _ => 0)
        ([.rotor (3/5, 4/5, 0, 0)] ++ [.num (.flt (half 64)), .num (.flt (half 2)), .num (.flt (half (-64)))])
      = .ok (.scalar (Spec.wignerD ⟨3/5, 0⟩ ⟨0, 4/5⟩ 64 2 (-64))) := by
  obtain ⟨t, ht⟩ := IsWignerTable.exists 32 (by norm_num)
  obtain ⟨rows, -, h2⟩ := C09_ells ht true (fun _ => 0) _ _ _ (RotationArgs.rotor (3/5) (4/5) 0 0) generic_parts [2, 3]
    (by simp) (by simp)
  refine ⟨t, _, _, ht, C09_triples ht true (fun _ => 0) _ _ _ (RotationArgs.rotor (3/5) (4/5) 0 0) generic_parts
    [(1, 1, -1), (4, 2, 0)] ?_, by simp, h2,
    C10_Wigner_D_element ht true (fun _ => 0) _ _ _ (RotationArgs.rotor (3/5) (4/5) 0 0) (by simp) generic_parts 64 2 (-64)
      ?_ (by norm_num)⟩
  · simp [Spec.ValidD]
  · simp [Spec.ValidD]

/-- **C09.** The documented form `Wigner_D_element(R, ell)` (or Euler angles and `ell`) raises IndexError. -/
theorem C09_single_ell_fails (table : List ℝ) (L : ℤ) (flag : Bool) (junk : ℕ → ℂ) (rot : List DArg) (Ra Rb : ℂ)
    (hrot : RotationArgs rot Ra Rb) (hlen : rot.length ≠ 2) (ell : PyNum) :
    Wigner_D_element table L flag junk (rot ++ [.num ell]) = .error .indexError := by
  cases hrot with
  | rotor => rfl
  | parts => simp at hlen
  | euler => rfl

/-- **C09.** The documented forms `Wigner_D_element(Ra, Rb, ell)` and `Wigner_D_element(Ra, Rb, ell, mp, m)`, with numbers, never
return a value: they are taken for Euler angles. -/
theorem C09_parts_with_numbers_fail (table : List ℝ) (L : ℤ) (flag : Bool) (junk : ℕ → ℂ) (Ra Rb ell mp m : PyNum) :
    (∀ v, Wigner_D_element table L flag junk [.num Ra, .num Rb, .num ell] ≠ .ok v) ∧
    (∀ v, Wigner_D_element table L flag junk [.num Ra, .num Rb, .num ell, .num mp, .num m] ≠ .ok v) := by
  constructor <;> intro v <;> cases Ra <;> cases Rb <;> cases ell <;> (intro h; cases h)

/-- The switch documented in the docstring has no effect: after `sf.error_on_bad_indices = False`, a bad triple still raises
ValueError. -/
theorem C57_error_switch_ineffective (table : List ℝ) (L : ℤ) (junk : ℕ → ℂ) (R : ℝ × ℝ × ℝ × ℝ) (b : Bool)
    (t : ℤ × ℤ × ℤ) (h : t.1 > 2 * L ∨ |t.2.1| > t.1 ∨ |t.2.2| > t.1) :
    call_Wigner_D_element (ModuleFlags.imported.assign b) table L junk
      [.rotor R, .num (.flt (half t.1)), .num (.flt (half t.2.1)), .num (.flt (half t.2.2))] = .error .valueError := by
  obtain ⟨w, x, y, z⟩ := R
  obtain ⟨buf, -, e⟩ := api_single (RotationArgs.rotor w x y z) (by simp) table L true junk t.1 t.2.1 t.2.2
  refine e.trans ?_
  rw [if_pos]
  have : ¬ (check_valid_indices L t.1 t.2.1 t.2.2 = true) := by
    rw [check_iff]
    rintro ⟨h3, h4, h5⟩
    simp only at h3 h4 h5
    rcases h with h | h | h <;> omega
  simpa using this

/-- **C57.** What the switch was meant to do: if the function's own flag is off, out-of-range triples give zero. -/
theorem C57_flag_off_gives_zero {L : ℤ} {table : List ℝ} (ht : IsWignerTable L table) (junk : ℕ → ℂ)
    (rot : List DArg) (Ra Rb : ℂ) (hrot : RotationArgs rot Ra Rb) (hlen : rot.length ≠ 2) (hg : Generic Ra Rb)
    (a b c : ℤ) (h : |b| > a ∨ |c| > a) :
    Wigner_D_element table L false junk
        (rot ++ [.num (.flt (half a)), .num (.flt (half b)), .num (.flt (half c))]) = .ok (.scalar 0) := by
  obtain ⟨buf, hb, e⟩ := api_single hrot hlen table L false junk a b c
  have hn : ¬ (|b| ≤ a ∧ |c| ≤ a) := by
    rintro ⟨h1, h2⟩; rcases h with h | h <;> omega
  rw [e, if_neg (by simp), element_kernel_eq ht hg [(a, b, c)] buf hb
    (fun t htm hc => by simp only [List.mem_singleton] at htm; subst htm; exact absurd hc hn)]
  unfold Dvalue
  simp only [List.map_cons, List.map_nil, hn, if_false]
  rfl

/-- Non-vacuity of C57. -/
example : ∃ table, IsWignerTable 32 table ∧
    Wigner_D_element table 32 false (fun _ => 0)
        ([.rotor (3/5, 4/5, 0, 0)] ++ [.num (.flt (half 4)), .num (.flt (half 6)), .num (.flt (half 0))]) = .ok (.scalar 0) := by
  obtain ⟨t, ht⟩ := IsWignerTable.exists 32 (by norm_num)
  exact ⟨t, ht, C57_flag_off_gives_zero ht (fun _ => 0) _ _ _ (RotationArgs.rotor (3/5) (4/5) 0 0) (by simp) generic_parts
    4 6 0 (by norm_num)⟩

/-! ## C11 -/

/-- **C11.** For *every* unit rotor, including those with `0 < |Ra| ≤ epsilon` or `0 < |Rb| ≤ epsilon`, the value returned
differs from the D function by at most `(2 ell + 2) epsilon + ((1 - epsilon²)^(-2 ell) - 1)`; for `ell ≤ 5·10^13` this is at most
`(2 ell + 3) 1e-15`. -/
theorem C11_shortcut_error {L : ℤ} {table : List ℝ} (ht : IsWignerTable L table) (flag : Bool) (junk : ℕ → ℂ)
    (rot : List DArg) (Ra Rb : ℂ) (hrot : RotationArgs rot Ra Rb) (hlen : rot.length ≠ 2)
    (hu : Spec.IsUnit' Ra Rb) (n : ℕ) (twomp twom : ℤ) (hv : Spec.ValidD n twomp twom) (hle : (n : ℤ) ≤ 2 * L) :
    ∃ v, Wigner_D_element table L flag junk
        (rot ++ [.num (.flt (half n)), .num (.flt (half twomp)), .num (.flt (half twom))]) = .ok (.scalar v) ∧
      ‖v - Spec.wignerD Ra Rb n twomp twom‖ ≤ (n + 2) * epsilon + (((1 - epsilon ^ 2) ^ n)⁻¹ - 1) ∧
      (n ≤ 10 ^ 14 → ‖v - Spec.wignerD Ra Rb n twomp twom‖ ≤ (n + 3) / 10 ^ 15) := by
  have key : ∃ v, elemAny table Ra Rb (n, twomp, twom) = .ok v ∧
      ‖v - Spec.wignerD Ra Rb n twomp twom‖ ≤ errH n := by
    obtain ⟨p', q', p, q, hsum, hap, hb, hc⟩ := valid_pq hv
    have hn : n = p + q := by omega
    have h0 := errH_nonneg n
    rw [wignerD_pq Ra Rb hsum hap hb hc]
    unfold elemAny
    have hv2 := hv.1
    have hv3 := hv.2.1
    split_ifs with h1 h2 h3
    · refine ⟨_, ?_, le_trans (Dpq_eps_ra hu h1 hsum) (by rw [hn])⟩
      · simp only
        unfold elem_ra_small
        rw [cpowInt_ok (unit_ra_small hu h1)]
        have hcz : twom = (p : ℤ) - q := hc
        by_cases hpq : p' = q
        · rw [if_neg (by rintro (h | h | h) <;> omega), if_pos hpq, ← hcz]
          by_cases h4 : ((n : ℤ) - twom) % 4 = 0
          · rw [if_pos h4, neg_one_pow_iffC, if_pos (by omega), one_mul]
          · rw [if_neg h4, neg_one_pow_iffC, if_neg (by omega), neg_one_mul]; rfl
        · rw [if_pos (by left; omega), if_neg hpq]
    · refine ⟨_, ?_, le_trans (Dpq_eps_rb hu h2 hsum) (by rw [hn])⟩
      · simp only
        unfold elem_rb_small
        rw [cpowInt_ok (unit_rb_small hu h2)]
        have hcz : twom = (p : ℤ) - q := hc
        by_cases hpq : q' = q
        · rw [if_neg (by rintro (h | h | h) <;> omega), if_pos hpq, ← hcz]
        · rw [if_pos (by left; omega), if_neg hpq]
    · refine ⟨_, elem_ra_lt_rb_eq ht (pos_of_eps h2) hv hle, ?_⟩
      rw [wignerD_pq Ra Rb hsum hap hb hc, sub_self, norm_zero]
      exact h0
    · refine ⟨_, elem_ra_ge_rb_eq ht (pos_of_eps h1) hv hle, ?_⟩
      rw [wignerD_pq Ra Rb hsum hap hb hc, sub_self, norm_zero]
      exact h0
  obtain ⟨v, hv1, hv2⟩ := key
  refine ⟨v, ?_, hv2, fun h => hv2.trans ((errH_le h).trans (by unfold epsilon; rw [mul_one_div]))⟩
  obtain ⟨buf, hb, e⟩ := api_single hrot hlen table L flag junk n twomp twom
  rw [e, if_neg, kernel_eq_map [((n : ℤ), twomp, twom)] buf hb (fun _ => v) (by simpa using hv1)]
  · rfl
  · have : check_valid_indices L n twomp twom = true := by
      rw [check_iff]; exact ⟨hle, hv.1, hv.2.1⟩
    simp [this]

/-- Non-vacuity of C11: a unit rotor with `0 < |R.a| = epsilon`, the element `(1/2, 1/2, 1/2)`. -/
example : ∃ table v, IsWignerTable 32 table ∧ Spec.IsUnit' (⟨epsilon, 0⟩ : ℂ) ⟨0, Real.sqrt (1 - epsilon ^ 2)⟩ ∧
    0 < ‖(⟨epsilon, 0⟩ : ℂ)‖ ∧ ‖(⟨epsilon, 0⟩ : ℂ)‖ ≤ epsilon ∧
    Wigner_D_element table 32 true (fun _ => 0) ([.rotor (epsilon, Real.sqrt (1 - epsilon ^ 2), 0, 0)]
      ++ [.num (.flt (half 1)), .num (.flt (half 1)), .num (.flt (half 1))]) = .ok (.scalar v) := by
  have e0 := epsilon_pos
  have e1 : epsilon < 1 := by unfold epsilon; norm_num
  have hu : Spec.IsUnit' (⟨epsilon, 0⟩ : ℂ) ⟨0, Real.sqrt (1 - epsilon ^ 2)⟩ := by
    simp only [Spec.IsUnit', Complex.normSq_apply]
    rw [← pow_two, ← pow_two (Real.sqrt _), Real.sq_sqrt (by nlinarith)]
    ring
  have hn : ‖(⟨epsilon, 0⟩ : ℂ)‖ = epsilon := by
    have : (⟨epsilon, 0⟩ : ℂ) = ((epsilon : ℝ) : ℂ) := rfl
    rw [this, Complex.norm_real, Real.norm_of_nonneg e0.le]
  obtain ⟨t, ht⟩ := IsWignerTable.exists 32 (by norm_num)
  obtain ⟨v, hv, -⟩ := C11_shortcut_error ht true (fun _ => 0) _ _ _ (RotationArgs.rotor epsilon (Real.sqrt (1 - epsilon ^ 2)) 0 0)
    (by simp) hu 1 1 1 (by simp [Spec.ValidD]) (by norm_num)
  exact ⟨t, v, ht, hu, by rw [hn]; exact e0, hn.le, by exact_mod_cast hv⟩

end SF
