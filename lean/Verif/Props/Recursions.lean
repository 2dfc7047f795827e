import Verif.Model.Recursions
import Verif.Lemmas.Index
import Verif.Lemmas.WignerD
import Verif.Props.Index
import Mathlib.Analysis.Real.Sqrt
import Mathlib.Analysis.SpecialFunctions.Complex.Arg

/-!
# Properties C51–C53, C55, C56: helpers of the recursions, `theta_phi`
-/

set_option autoImplicit false

namespace SF

open Complex

/-! ## C51: complex_powers -/

/-- The `while` loop ends after at most three rotations, in the closed first quadrant. -/
theorem quadLoop_ok (fuel : ℕ) (hf : 4 ≤ fuel) (z : ℂ) :
    ∃ z' th, quadLoop fuel z 1 = .ok (z', th) ∧ 0 ≤ z'.re ∧ 0 ≤ z'.im ∧ z' * th = z ∧ ‖z'‖ = ‖z‖ := by
  obtain ⟨n, rfl⟩ : ∃ n, fuel = n + 4 := ⟨fuel - 4, by omega⟩
  have hre : ∀ w : ℂ, (w / I).re = w.im := fun w => by rw [Complex.div_I]; simp
  have him : ∀ w : ℂ, (w / I).im = -w.re := fun w => by rw [Complex.div_I]; simp
  have hn : ∀ w : ℂ, ‖w / I‖ = ‖w‖ := fun w => by rw [norm_div, Complex.norm_I, div_one]
  have hI := Complex.I_ne_zero
  by_cases h0 : z.re < 0 ∨ z.im < 0
  · by_cases h1 : (z / I).re < 0 ∨ (z / I).im < 0
    · by_cases h2 : (z / I / I).re < 0 ∨ (z / I / I).im < 0
      · have h3 : ¬ ((z / I / I / I).re < 0 ∨ (z / I / I / I).im < 0) := by
          simp only [hre, him] at h0 h1 h2 ⊢
          push Not
          constructor <;> rcases h0 with h0 | h0 <;> rcases h1 with h1 | h1 <;>
            rcases h2 with h2 | h2 <;> linarith
        refine ⟨z / I / I / I, 1 * I * I * I, ?_, not_lt.1 fun h => h3 (.inl h),
          not_lt.1 fun h => h3 (.inr h), by field_simp, by simp only [hn]⟩
        simp only [quadLoop, if_pos h0, if_pos h1, if_pos h2, if_neg h3]
      · refine ⟨z / I / I, 1 * I * I, ?_, not_lt.1 fun h => h2 (.inl h),
          not_lt.1 fun h => h2 (.inr h), by field_simp, by simp only [hn]⟩
        simp only [quadLoop, if_pos h0, if_pos h1, if_neg h2]
    · refine ⟨z / I, 1 * I, ?_, not_lt.1 fun h => h1 (.inl h),
        not_lt.1 fun h => h1 (.inr h), by field_simp, by simp only [hn]⟩
      simp only [quadLoop, if_pos h0, if_neg h1]
  · refine ⟨z, 1, ?_, not_lt.1 fun h => h0 (.inl h), not_lt.1 fun h => h0 (.inr h), by simp, rfl⟩
    simp only [quadLoop, if_neg h0]

theorem npSqrtC_im_sq {z : ℂ} (h : ‖z‖ = 1) : -2 * (npSqrtC z).im ^ 2 = z.re - 1 := by
  have hw : (npSqrtC z) ^ 2 = z := by
    unfold npSqrtC
    have := Complex.cpow_nat_inv_pow z (n := 2) (by norm_num)
    rw [one_div]; exact_mod_cast this
  have h1 : ‖npSqrtC z‖ ^ 2 = 1 := by rw [← norm_pow, hw, h]
  rw [← Complex.normSq_eq_norm_sq, Complex.normSq_apply] at h1
  have h2 : z.re = (npSqrtC z).re ^ 2 - (npSqrtC z).im ^ 2 := by
    conv_lhs => rw [← hw]
    simp [pow_two]
  nlinarith

/-- One row: all the powers. -/
theorem powersRow_ok (fuel : ℕ) (hf : 4 ≤ fuel) {z : ℂ} (hz : ‖z‖ = 1) {M : ℤ} (hM : 1 ≤ M) (row : List ℂ)
    (hrow : (row.length : ℤ) = M + 1) :
    powersRow fuel z M row = .ok ((List.range (M + 1).toNat).map fun k => z ^ k) := by
  obtain ⟨w, th, hq, hre, him, hwz, hn⟩ := quadLoop_ok fuel hf z
  rw [hz] at hn
  have hc : w.re ^ 2 + w.im ^ 2 = 1 := by
    have : ‖w‖ ^ 2 = 1 := by rw [hn]; norm_num
    rw [← Complex.normSq_eq_norm_sq, Complex.normSq_apply] at this
    nlinarith
  unfold powersRow
  rw [hq, bind_ok]
  simp only
  rw [wr_ok (by omega) (by omega), bind_ok, wr_ok (by omega) (by simp; omega), bind_ok,
    npSqrtC_im_sq hn]
  rw [rd_ok (i := 1) (v := w) (by omega) (by
    rw [List.getElem?_set_self (by simp; omega)]), bind_ok]
  have hs : Real.sqrt (-(w.re - 1) * (2 + (w.re - 1))) = w.im := by
    rw [show -(w.re - 1) * (2 + (w.re - 1)) = w.im ^ 2 by nlinarith]
    exact Real.sqrt_sq him
  rw [hs]
  have hdz : ((w.re - 1 : ℝ) : ℂ) * (1 + 2 * w) + I * (w.im : ℂ) = w ^ 2 - w := by
    apply Complex.ext <;> simp [pow_two] <;> nlinarith
  rw [hdz]
  have ht : ((2 * (w.re - 1) : ℝ) : ℂ) * w = w ^ 2 + 1 - 2 * w := by
    apply Complex.ext <;> simp [pow_two] <;> nlinarith
  set row0 := (row.set (Int.toNat 0) 1).set (Int.toNat 1) w with hrow0
  have hlen0 : row0.length = row.length := by simp [hrow0]
  obtain ⟨st, h1, h2⟩ := forR_inv 2 (M + 1) (by omega)
    (fun m (st : List ℂ × ℂ × ℂ) => (st.1.length : ℤ) = M + 1 ∧
      (∀ k : ℕ, (k : ℤ) < m - 1 → st.1[k]? = some (z ^ k)) ∧
      st.1[(m - 1).toNat]? = some (w ^ (m - 1).toNat) ∧
      st.2.1 = w ^ m.toNat - w ^ (m - 1).toNat ∧ st.2.2 = th ^ (m - 1).toNat)
    (row0, w ^ 2 - w, th) (powerStep (2 * (w.re - 1)) th)
    (by
      refine ⟨by simp [hlen0, hrow], ?_, ?_, by
        rw [show Int.toNat 2 = 2 from rfl, show Int.toNat (2 - 1) = 1 from rfl]; simp, by
        rw [show Int.toNat (2 - 1) = 1 from rfl]; simp⟩
      · intro k hk
        obtain rfl : k = 0 := by omega
        rw [hrow0, List.getElem?_set_ne (by norm_num)]
        rw [show Int.toNat 0 = 0 from rfl, List.getElem?_set_self (by omega)]; simp
      · norm_num
        rw [hrow0, show Int.toNat 1 = 1 from rfl, List.getElem?_set_self (by simp; omega)])
    (by
      rintro m ⟨r, dz, cl⟩ hm1 hm2 ⟨g1, g2, g3, g4, g5⟩
      simp only at g1 g2 g3 g4 g5 ⊢
      subst g4 g5
      obtain ⟨n, rfl⟩ : ∃ n : ℕ, m = n + 1 := ⟨(m - 1).toNat, by omega⟩
      have hn1 : 1 ≤ n := by omega
      have e1 : ((n : ℤ) + 1).toNat = n + 1 := by omega
      have e2 : ((n : ℤ) + 1 - 1).toNat = n := by omega
      have e3 : ((n : ℤ) + 1 + 1 - 1).toNat = n + 1 := by omega
      have e4 : ((n : ℤ) + 1 + 1).toNat = n + 2 := by omega
      simp only [e1, e2, e3, e4] at g2 g3 ⊢
      unfold powerStep
      simp only
      rw [rd_ok (i := (n : ℤ) + 1 - 1) (v := w ^ n) (by omega) (by rw [e2]; exact g3), bind_ok,
        wr_ok (by omega) (by omega), bind_ok,
        rd_ok (i := (n : ℤ) + 1) (v := w ^ n + (w ^ (n + 1) - w ^ n)) (by omega) (by
          rw [e1, List.getElem?_set_self (by omega)]), bind_ok,
        upd_ok (by omega) (by simp; omega), bind_ok, e1, e2]
      refine ⟨_, rfl, by simp; omega, ?_, ?_, ?_, ?_⟩
      · intro k hk
        simp only [List.getElem?_modify, List.getElem?_set]
        by_cases hkn : n = k
        · subst hkn
          rw [if_neg (by omega), g3]
          simp [← mul_pow, hwz]
        · rw [if_neg (by omega), g2 k (by omega)]
          simp [hkn]
      · simp only [List.getElem?_modify, List.getElem?_set]
        rw [if_pos trivial, if_pos (by omega)]
        simp
      · simp only
        rw [show w ^ n + (w ^ (n + 1) - w ^ n) = w ^ n * w by ring]
        rw [mul_comm (w ^ n) w, ← mul_assoc, ht]
        ring
      · simp only; ring)
  obtain ⟨r, dz, cl⟩ := st
  obtain ⟨g1, g2, g3, g4, g5⟩ := h2
  simp only at g1 g2 g3 g4 g5
  have e2 : (M + 1 - 1).toNat = M.toNat := by omega
  rw [e2] at g3 g5
  rw [h1, bind_ok]
  simp only
  rw [upd_ok (by omega) (by omega), g5]
  congr 1
  apply List.ext_getElem?
  intro k
  simp only [List.getElem?_modify, List.getElem?_map]
  by_cases hk : (k : ℤ) < M + 1
  · rw [List.getElem?_range (by omega)]
    by_cases hkM : M.toNat = k
    · subst hkM
      rw [g3]; simp [← mul_pow, hwz]
    · rw [g2 k (by omega)]; simp [hkM]
  · rw [List.getElem?_eq_none (by omega), List.getElem?_eq_none (by simp; omega)]; rfl

theorem _complex_powers_ok (fuel : ℕ) (hf : 4 ≤ fuel) {zs : List ℂ} (hz : ∀ z ∈ zs, ‖z‖ = 1) {M : ℤ} (hM : 1 ≤ M)
    (buf : List (List ℂ)) (hbuf : buf.length = zs.length) (hrow : ∀ r ∈ buf, (r.length : ℤ) = M + 1) :
    _complex_powers fuel zs M buf = .ok (zs.map fun z => (List.range (M + 1).toNat).map fun k => z ^ k) := by
  unfold _complex_powers
  obtain ⟨st, h1, h2⟩ := forR_inv 0 (zs.length : ℤ) (by omega)
    (fun i (st : List (List ℂ)) => st.length = zs.length ∧ (∀ r ∈ st, (r.length : ℤ) = M + 1) ∧
      ∀ k : ℕ, (k : ℤ) < i → st[k]? = (zs[k]?).map fun z => (List.range (M + 1).toNat).map fun k => z ^ k)
    buf (fun i zp => do
      let z ← rd zs i
      let row ← rd zp i
      let row ← powersRow fuel z M row
      wr zp i row) ⟨hbuf, hrow, fun k hk => absurd hk (by omega)⟩
    (by
      rintro i st hi1 hi2 ⟨g1, g2, g3⟩
      have hi3 : i.toNat < zs.length := by omega
      have hi4 : i.toNat < st.length := by omega
      rw [rd_ok (v := zs[i.toNat]) hi1 (List.getElem?_eq_getElem hi3), bind_ok,
        rd_ok (v := st[i.toNat]) hi1 (List.getElem?_eq_getElem hi4), bind_ok,
        powersRow_ok fuel hf (hz _ (List.getElem_mem hi3)) hM _ (g2 _ (List.getElem_mem hi4)), bind_ok,
        wr_ok hi1 (by omega)]
      refine ⟨_, rfl, by simpa using g1, ?_, ?_⟩
      · intro r hr
        rcases List.mem_or_eq_of_mem_set hr with hr | rfl
        · exact g2 r hr
        · simp; omega
      · intro k hk
        rw [List.getElem?_set]
        by_cases hk2 : i.toNat = k
        · subst hk2
          rw [if_pos rfl, if_pos hi4, List.getElem?_eq_getElem hi3]; rfl
        · rw [if_neg hk2, g3 k (by omega)])
  rw [h1]
  congr 1
  apply List.ext_getElem?
  intro k
  rw [List.getElem?_map]
  by_cases hk : k < zs.length
  · exact h2.2.2 k (by omega)
  · rw [List.getElem?_eq_none (by rw [h2.1]; omega), List.getElem?_eq_none (by omega)]; rfl

theorem flatten_map_getElem? {α β : Type} (f : α → List β) (c : ℕ) (l : List α) (hf : ∀ x, (f x).length = c)
    {i m : ℕ} {x : α} (hi : l[i]? = some x) (hm : m < c) : (l.map f).flatten[i * c + m]? = (f x)[m]? := by
  induction l generalizing i with
  | nil => simp at hi
  | cons y l ih =>
    rw [List.map_cons, List.flatten_cons]
    cases i with
    | zero =>
      rw [List.getElem?_append_left (by rw [hf]; omega)]
      simp at hi
      subst hi; simp
    | succ i =>
      rw [List.getElem?_append_right (by rw [hf, Nat.add_mul]; omega), hf,
        show (i + 1) * c + m - c = i * c + m by rw [Nat.add_mul, one_mul]; omega]
      exact ih (by simpa using hi)

/-- A buffer that `complex_powers` can fill: none supplied, or a two-dimensional array of the right shape. -/
def GoodBuffer (n : ℕ) (M : ℤ) : Option OutArr → Prop
  | none => True
  | some out => out.ndim = 2 ∧ out.rows.length = n ∧ ∀ r ∈ out.rows, (r.length : ℤ) = M + 1

/-- **C51.** For every array of unit complex numbers and every `M ≥ 1`, `complex_powers` terminates without error; the result has shape
`z.shape + (M+1,)` and its entry `[i, m]` is `z_i ^ m` — whatever the buffer contained before. -/
theorem C51_complex_powers (fuel : ℕ) (hf : 4 ≤ fuel) (junk : ℕ → ℕ → ℂ) (shape : List ℕ) (zs : List ℂ)
    (hshape : shape.prod = zs.length) (hz : ∀ z ∈ zs, ‖z‖ = 1) (M : ℕ) (hM : 1 ≤ M) (out : Option OutArr)
    (hout : GoodBuffer zs.length M out) :
    ∃ vals, complex_powers fuel junk shape zs M out = .ok (shape ++ [M + 1], vals) ∧
      vals.length = zs.length * (M + 1) ∧
      ∀ (i m : ℕ) (z : ℂ), zs[i]? = some z → m ≤ M → vals[i * (M + 1) + m]? = some (z ^ m) := by
  have key : ∀ l : List ℂ, (l.map fun z => (List.range (M + 1)).map fun k => z ^ k).flatten.length
      = l.length * (M + 1) := by
    intro l
    induction l with
    | nil => simp
    | cons x l ih => rw [List.map_cons, List.flatten_cons, List.length_append, ih]; simp; ring
  have hMt : ((M : ℤ) + 1).toNat = M + 1 := by omega
  refine ⟨(zs.map fun z => (List.range (M + 1)).map fun k => z ^ k).flatten, ?_, key zs, ?_⟩
  · have hbuf : ∀ buf : List (List ℂ), buf.length = zs.length → (∀ r ∈ buf, (r.length : ℤ) = M + 1) →
        (do
          let o ← _complex_powers fuel zs M buf
          if (o.flatten.length : ℤ) = (shape.prod : ℤ) * ((M : ℤ) + 1) then
            return (shape ++ [((M : ℤ) + 1).toNat], o.flatten)
          else throw PyErr.valueError : Py _) = .ok (shape ++ [M + 1],
            (zs.map fun z => (List.range (M + 1)).map fun k => z ^ k).flatten) := by
      intro buf h1 h2
      rw [_complex_powers_ok fuel hf hz (by omega) buf h1 h2, bind_ok, hMt, if_pos]
      · rfl
      · rw [key, hshape]; push_cast; ring
    unfold complex_powers
    cases out with
    | none =>
      simp only [if_neg (show ¬ ((M : ℤ) + 1 < 0) by omega)]
      refine hbuf _ (by simp) ?_
      intro r hr
      simp only [List.mem_map] at hr
      obtain ⟨i, _, rfl⟩ := hr
      simp
    | some o =>
      obtain ⟨g1, g2, g3⟩ := hout
      simp only [if_pos g1]
      exact hbuf _ g2 g3
  · intro i m z hi hm
    rw [flatten_map_getElem? _ (M + 1) zs (by simp) hi (by omega), List.getElem?_map,
      List.getElem?_range (by omega)]
    rfl

/-- **C51 (limit).** With `M = 0` the element `zpowers[i, 1]` is written, outside the row: every call with a non-empty `z`
goes out of bounds. -/
theorem C51_M_zero_out_of_bounds (fuel : ℕ) (hf : 4 ≤ fuel) (junk : ℕ → ℕ → ℂ) (shape : List ℕ) (zs : List ℂ)
    (hne : zs ≠ []) : complex_powers fuel junk shape zs 0 none = .error .outOfBounds := by
  obtain ⟨z, l, rfl⟩ := List.exists_cons_of_ne_nil hne
  obtain ⟨w, th, hq, -⟩ := quadLoop_ok fuel hf z
  have hrow : ∀ x : ℂ, powersRow fuel z 0 [x] = .error .outOfBounds := by
    intro x
    unfold powersRow
    rw [hq, bind_ok]
    rfl
  unfold complex_powers
  simp only [if_neg (show ¬ ((0 : ℤ) + 1 < 0) by norm_num)]
  have : _complex_powers fuel (z :: l) 0 ((List.range (z :: l).length).map fun i =>
      (List.range ((0 : ℤ) + 1).toNat).map (junk i)) = .error .outOfBounds := by
    unfold _complex_powers
    rw [pyRange_cons (by simp), forL_cons, rd_ok (v := z) le_rfl (by rfl), bind_ok,
      rd_ok (v := [junk 0 0]) le_rfl (by simp), bind_ok, hrow]
    rfl
  show (do
    let out ← _complex_powers fuel (z :: l) 0 ((List.range (z :: l).length).map fun i =>
      (List.range ((0 : ℤ) + 1).toNat).map (junk i))
    _ : Py _) = _
  rw [this]
  rfl

/-- **C51 (limit).** A supplied `zpowers` of the documented shape `z.shape + (M+1,)` is rejected unless `z` is one-dimensional. -/
theorem C51_documented_buffer_rejected (fuel : ℕ) (junk : ℕ → ℕ → ℂ) (shape : List ℕ) (zs : List ℂ) (M : ℤ)
    (out : OutArr) (hdoc : out.ndim = shape.length + 1) (h1 : shape.length ≠ 1) :
    complex_powers fuel junk shape zs M (some out) = .error .typeError := by
  unfold complex_powers
  simp only [if_neg (show ¬ out.ndim = 2 by omega)]
  rfl

/-- Non-vacuity: `z = [i, -1]`, `M = 3`, buffer of the right shape. -/
example : (4 : ℕ) ≤ 10 ∧ ([2] : List ℕ).prod = ([I, -1] : List ℂ).length ∧ (∀ z ∈ ([I, -1] : List ℂ), ‖z‖ = 1) ∧
    GoodBuffer 2 (3 : ℕ) (some ⟨2, [[0, 0, 0, 0], [7, 7, 7, 7]]⟩) ∧ GoodBuffer 2 (3 : ℕ) none := by
  refine ⟨by norm_num, rfl, ?_, ⟨rfl, rfl, ?_⟩, trivial⟩
  · intro z hz
    simp at hz
    rcases hz with rfl | rfl <;> simp
  · intro r hr
    simp at hr
    rcases hr with rfl | rfl <;> simp

/-! ## C55: quaternion_angles -/

theorem divC_ok {x : ℂ} {y : ℝ} (h : y ≠ 0) : divC x y = .ok (x / y) := by
  unfold divC; rw [if_neg h]

/-- **C55.** For every unit rotor with `R_a, R_b ≠ 0` the three results are unit complex numbers, `zβ` lies in the upper
half plane, and they reproduce the rotor: `R[0] + i R[3] = sqrt((1 + Re zβ)/2) zp` and `R[2] - i R[1] = sqrt((1 - Re zβ)/2) zm`. -/
theorem C55_quaternion_angles (w x y z : ℝ) (hu : w ^ 2 + x ^ 2 + y ^ 2 + z ^ 2 = 1)
    (ha : w ^ 2 + z ^ 2 ≠ 0) (hb : x ^ 2 + y ^ 2 ≠ 0) :
    ∃ zb zp zm, quaternion_angles (w, x, y, z) = .ok (zb, zp, zm) ∧
      ‖zb‖ = 1 ∧ ‖zp‖ = 1 ∧ ‖zm‖ = 1 ∧ 0 ≤ zb.im ∧
      (w : ℂ) + I * z = Real.sqrt ((1 + zb.re) / 2) * zp ∧
      (y : ℂ) - I * x = Real.sqrt ((1 - zb.re) / 2) * zm := by
  have hab : w ^ 2 + z ^ 2 + (x ^ 2 + y ^ 2) = 1 := by linarith
  have ha0 : 0 < w ^ 2 + z ^ 2 := lt_of_le_of_ne (by positivity) (Ne.symm ha)
  have hb0 : 0 < x ^ 2 + y ^ 2 := lt_of_le_of_ne (by positivity) (Ne.symm hb)
  have hsa := Real.sq_sqrt ha0.le
  have hsb := Real.sq_sqrt hb0.le
  have hsa0 := Real.sqrt_pos.2 ha0
  have hsb0 := Real.sqrt_pos.2 hb0
  unfold quaternion_angles
  simp only
  rw [hab, divC_ok one_ne_zero, bind_ok, divC_ok hsa0.ne', bind_ok, divC_ok hsb0.ne', bind_ok]
  generalize hA : w ^ 2 + z ^ 2 = a at *
  generalize hB : x ^ 2 + y ^ 2 = b at *
  generalize hSA : Real.sqrt a = sa at *
  generalize hSB : Real.sqrt b = sb at *
  have hre : ((((a - b : ℝ) : ℂ) + 2 * I * sa * sb) / ((1 : ℝ) : ℂ)).re = a - b := by simp
  have him : ((((a - b : ℝ) : ℂ) + 2 * I * sa * sb) / ((1 : ℝ) : ℂ)).im = 2 * sa * sb := by simp
  refine ⟨_, _, _, rfl, ?_, ?_, ?_, ?_, ?_, ?_⟩
  · rw [← sq_eq_sq₀ (norm_nonneg _) zero_le_one, ← Complex.normSq_eq_norm_sq, Complex.normSq_apply, hre, him]
    nlinarith
  · rw [norm_div, div_eq_one_iff_eq (by simpa using hsa0.ne'), Complex.norm_real, Real.norm_of_nonneg hsa0.le,
      ← sq_eq_sq₀ (norm_nonneg _) hsa0.le, ← Complex.normSq_eq_norm_sq, Complex.normSq_apply]
    simp
    nlinarith
  · rw [norm_div, div_eq_one_iff_eq (by simpa using hsb0.ne'), Complex.norm_real, Real.norm_of_nonneg hsb0.le,
      ← sq_eq_sq₀ (norm_nonneg _) hsb0.le, ← Complex.normSq_eq_norm_sq, Complex.normSq_apply]
    simp
    nlinarith
  · rw [him]; positivity
  · rw [hre, show (1 + (a - b)) / 2 = a by linarith, hSA, mul_div_cancel₀]
    exact_mod_cast hsa0.ne'
  · rw [hre, show (1 - (a - b)) / 2 = b by linarith, hSB, mul_div_cancel₀]
    exact_mod_cast hsb0.ne'

/-- **C55.** In terms of Euler angles with `0 < β < π`: the results are `exp(iβ)`, `exp(i(α+γ)/2)`, `exp(i(α-γ)/2)`. -/
theorem C55_euler (α β γ : ℝ) (h0 : 0 < β) (h1 : β < Real.pi) :
    quaternion_angles (from_euler_angles α β γ) =
      .ok (exp (I * β), exp (I * ((α + γ) / 2)), exp (I * ((α - γ) / 2))) := by
  have hc : 0 < Real.cos (β / 2) := Real.cos_pos_of_mem_Ioo ⟨by linarith, by linarith⟩
  have hs : 0 < Real.sin (β / 2) := Real.sin_pos_of_pos_of_lt_pi (by linarith) (by linarith)
  have e1 : (Real.cos (β / 2) * Real.cos ((α + γ) / 2)) ^ 2 + (Real.cos (β / 2) * Real.sin ((α + γ) / 2)) ^ 2
      = Real.cos (β / 2) ^ 2 := by
    have := Real.sin_sq_add_cos_sq ((α + γ) / 2)
    linear_combination (Real.cos (β / 2)) ^ 2 * this
  have e2 : (-Real.sin (β / 2) * Real.sin ((α - γ) / 2)) ^ 2 + (Real.sin (β / 2) * Real.cos ((α - γ) / 2)) ^ 2
      = Real.sin (β / 2) ^ 2 := by
    have := Real.sin_sq_add_cos_sq ((α - γ) / 2)
    linear_combination (Real.sin (β / 2)) ^ 2 * this
  unfold quaternion_angles from_euler_angles
  simp only
  rw [e1, e2, Real.sqrt_sq hc.le, Real.sqrt_sq hs.le, Real.cos_sq_add_sin_sq, divC_ok one_ne_zero, bind_ok,
    divC_ok hc.ne', bind_ok, divC_ok hs.ne', bind_ok]
  have hcos : Real.cos (β / 2) ^ 2 - Real.sin (β / 2) ^ 2 = Real.cos β := by
    rw [← Real.cos_two_mul']; congr 1; ring
  have hsin : 2 * Real.cos (β / 2) * Real.sin (β / 2) = Real.sin β := by
    have := Real.sin_two_mul (β / 2)
    rw [show 2 * (β / 2) = β by ring] at this
    linarith
  have hexp : ∀ t : ℝ, exp (I * t) = ⟨Real.cos t, Real.sin t⟩ := by
    intro t
    rw [mul_comm, Complex.exp_mul_I]
    apply Complex.ext <;> simp [← Complex.ofReal_cos, ← Complex.ofReal_sin]
  have hcC : (Real.cos (β / 2) : ℂ) ≠ 0 := by exact_mod_cast hc.ne'
  have hsC : (Real.sin (β / 2) : ℂ) ≠ 0 := by exact_mod_cast hs.ne'
  show Except.ok _ = _
  have hp := hexp ((α + γ) / 2)
  have hm := hexp ((α - γ) / 2)
  push_cast at hp hm
  rw [hexp β, hp, hm]
  refine congrArg _ (Prod.ext ?_ (Prod.ext ?_ ?_))
  · rw [← hcos, ← hsin]
    generalize Real.cos (β / 2) = c
    generalize Real.sin (β / 2) = s
    apply Complex.ext
    · simp [pow_two]
    · simp [pow_two]
  · rw [div_eq_iff hcC]
    generalize Real.cos (β / 2) = c
    generalize Real.cos ((α + γ) / 2) = u
    generalize Real.sin ((α + γ) / 2) = v
    apply Complex.ext
    · simp; ring
    · simp; ring
  · rw [div_eq_iff hsC]
    generalize Real.sin (β / 2) = c
    generalize Real.cos ((α - γ) / 2) = u
    generalize Real.sin ((α - γ) / 2) = v
    apply Complex.ext
    · simp; ring
    · simp; ring

/-- **C55 (limit).** At the poles — rotations about z, or rotations by `π` about an axis in the xy plane — the function raises
ZeroDivisionError instead of choosing a phase. -/
theorem C55_singular (w x y z : ℝ) (h : w ^ 2 + z ^ 2 = 0 ∨ x ^ 2 + y ^ 2 = 0) :
    quaternion_angles (w, x, y, z) = .error .zeroDivision := by
  unfold quaternion_angles
  simp only
  have hz : ∀ u : ℂ, divC u 0 = .error .zeroDivision := fun u => by unfold divC; rw [if_pos rfl]
  by_cases hs : w ^ 2 + z ^ 2 + (x ^ 2 + y ^ 2) = 0
  · rw [hs, hz]; rfl
  · rw [divC_ok hs, bind_ok]
    by_cases ha : w ^ 2 + z ^ 2 = 0
    · rw [ha, Real.sqrt_zero, hz]; rfl
    · have hb : x ^ 2 + y ^ 2 = 0 := h.resolve_left ha
      have : 0 < w ^ 2 + z ^ 2 := lt_of_le_of_ne (by positivity) (Ne.symm ha)
      rw [divC_ok (Real.sqrt_pos.2 this).ne', bind_ok, hb, Real.sqrt_zero, hz]; rfl

/-- Non-vacuity: the rotor `(1,1,1,1)/2`; the identity rotor is singular. -/
example : ((1 / 2 : ℝ)) ^ 2 + (1 / 2) ^ 2 + (1 / 2) ^ 2 + (1 / 2) ^ 2 = 1 ∧ ((1 / 2 : ℝ)) ^ 2 + (1 / 2) ^ 2 ≠ 0 ∧
    quaternion_angles (1, 0, 0, 0) = .error .zeroDivision :=
  ⟨by norm_num, by norm_num, C55_singular _ _ _ _ (by norm_num)⟩

/-! ## C56: theta_phi -/

/-- **C56.** For `n_theta ≥ 2` and `n_phi ≥ 1`, `theta_phi` returns `n_theta` rows of `n_phi` pairs and entry `[j][k]` is
`(j π/(n_theta-1), 2π k/n_phi)`; the first row is the north pole, the last one the south pole. -/
theorem C56_theta_phi (n_theta n_phi : ℕ) (h1 : 2 ≤ n_theta) (h2 : 1 ≤ n_phi) :
    ∃ g, theta_phi n_theta n_phi = .ok g ∧ g.length = n_theta ∧ (∀ row ∈ g, row.length = n_phi) ∧
      (∀ j k : ℕ, j < n_theta → k < n_phi → (g[j]?.bind fun row => row[k]?) =
        some (j * Real.pi / (n_theta - 1), 2 * Real.pi * k / n_phi)) ∧
      (∀ k : ℕ, k < n_phi → (g[0]?.bind fun row => row[k]?) = some (0, 2 * Real.pi * k / n_phi) ∧
        (g[n_theta - 1]?.bind fun row => row[k]?) = some (Real.pi, 2 * Real.pi * k / n_phi)) := by
  have hlp : npLinspace 0 (2 * Real.pi) n_phi false
      = .ok ((List.range n_phi).map fun k : ℕ => 2 * Real.pi * k / n_phi) := by
    unfold npLinspace
    rw [if_neg (by omega)]
    simp only [Bool.false_eq_true, if_false, false_and, Int.toNat_natCast,
      if_pos (show (0 : ℤ) < n_phi by omega)]
    congr 1
    apply List.map_congr_left
    intro k _
    push_cast; ring
  have hnt : (n_theta : ℝ) - 1 ≠ 0 := by
    have : (2 : ℝ) ≤ n_theta := by exact_mod_cast h1
    linarith
  have hlt : npLinspace 0 Real.pi n_theta true
      = .ok ((List.range n_theta).map fun j : ℕ => j * Real.pi / ((n_theta : ℝ) - 1)) := by
    unfold npLinspace
    rw [if_neg (by omega)]
    simp only [if_true, true_and, Int.toNat_natCast]
    simp only [if_pos (show (0 : ℤ) < (n_theta : ℤ) - 1 by omega), if_pos (show (1 : ℤ) < n_theta by omega)]
    congr 1
    apply List.ext_getElem?
    intro j
    rw [List.getElem?_set, List.getElem?_map, List.getElem?_map]
    by_cases hj : j < n_theta
    · rw [List.getElem?_range hj]
      split
      · rename_i hj2
        rw [if_pos (by simp; omega)]
        have : (j : ℝ) = n_theta - 1 := by
          have : j + 1 = n_theta := by omega
          rw [← this]; push_cast; ring
        simp only [Option.map_some]
        rw [this, mul_div_cancel_left₀ _ hnt]
      · simp only [Option.map_some]
        push_cast
        congr 1; ring
    · rw [if_neg (by omega), List.getElem?_eq_none (by simpa using hj)]
      rfl
  have hmap : ∀ l : List ℝ, l.mapM (fun theta => (do
      let phis ← npLinspace 0 (2 * Real.pi) (n_phi : ℤ) false
      return phis.map fun phi => (theta, phi) : Py _)) =
      .ok (l.map fun theta => ((List.range n_phi).map fun k : ℕ => (theta, 2 * Real.pi * k / n_phi))) := by
    intro l
    induction l with
    | nil => rfl
    | cons x l ih =>
      rw [List.mapM_cons, ih, hlp]
      simp only [List.map_cons, bind_ok, List.map_map]
      rfl
  have hval : ∀ j k : ℕ, j < n_theta → k < n_phi →
      (((List.range n_theta).map fun j : ℕ => (List.range n_phi).map fun k : ℕ =>
        ((j * Real.pi / ((n_theta : ℝ) - 1) : ℝ), (2 * Real.pi * k / n_phi : ℝ)))[j]?.bind fun row => row[k]?) =
        some (j * Real.pi / (n_theta - 1), 2 * Real.pi * k / n_phi) := by
    intro j k hj hk
    rw [List.getElem?_map, List.getElem?_range hj]
    simp only [Option.map_some, Option.bind_some]
    rw [List.getElem?_map, List.getElem?_range hk]
    rfl
  refine ⟨(List.range n_theta).map fun j : ℕ => (List.range n_phi).map fun k : ℕ =>
      (j * Real.pi / ((n_theta : ℝ) - 1), 2 * Real.pi * k / n_phi), ?_, by simp, ?_, hval, ?_⟩
  · unfold theta_phi
    rw [hlt, bind_ok, hmap, List.map_map]
    rfl
  · intro row hrow
    simp only [List.mem_map] at hrow
    obtain ⟨j, _, rfl⟩ := hrow
    simp
  · intro k hk
    refine ⟨?_, ?_⟩
    · rw [hval 0 k (by omega) hk]; simp
    · rw [hval (n_theta - 1) k (by omega) hk, Nat.cast_sub (by omega), Nat.cast_one, mul_div_cancel_left₀ _ hnt]

/-- **C56 (limits).** One point in theta gives the north pole only; a negative `n_theta` is a ValueError. -/
theorem C56_limits (n_phi : ℤ) : (∀ n : ℤ, n < 0 → theta_phi n n_phi = .error .valueError) ∧
    npLinspace 0 Real.pi 1 true = .ok [0] := by
  refine ⟨fun n hn => ?_, ?_⟩
  · unfold theta_phi npLinspace
    rw [if_pos hn]; rfl
  · unfold npLinspace
    norm_num

/-- Non-vacuity. -/
example : (2 : ℕ) ≤ 5 ∧ (1 : ℕ) ≤ 4 := by norm_num

/-! ## C52, C53: index functions of the H recursion -/

namespace Spec

/-- `(n, m', m)` lies in the wedge up to `n_max`: `0 ≤ n ≤ n_max`, `|m'| ≤ m ≤ n`. -/
def IsWedge (n_max : ℤ) (p : ℤ × ℤ × ℤ) : Prop := 0 ≤ p.1 ∧ p.1 ≤ n_max ∧ |p.2.1| ≤ p.2.2 ∧ p.2.2 ≤ p.1

/-- `(n, m)` with `0 ≤ m ≤ n ≤ n_max`. -/
def IsNabsm (n_max : ℤ) (p : ℤ × ℤ) : Prop := p.1 ≤ n_max ∧ 0 ≤ p.2 ∧ p.2 ≤ p.1

/-- The four index pairs at which the H function takes the same value. -/
def SameH (p q : ℤ × ℤ) : Prop :=
  q = p ∨ q = (p.2, p.1) ∨ q = (-p.1, -p.2) ∨ q = (-p.2, -p.1)

end Spec

open Spec

/-- The docstring's list comprehension, one `n`. -/
def wedgeBlock (n : ℤ) : List (ℤ × ℤ × ℤ) :=
  (pyRange (-n) (n + 1)).flatMap fun mp => (pyRange |mp| (n + 1)).map fun m => (n, mp, m)

def wedgeList (b : ℤ) : List (ℤ × ℤ × ℤ) := (pyRange 0 (b + 1)).flatMap wedgeBlock

/-- Length of the part of a block before `mp`. -/
theorem wedge_prefix {n : ℤ} (hn : 0 ≤ n) (k : ℕ) (hk : (k : ℤ) ≤ 2 * n + 1) :
    2 * ((((pyRange (-n) (-n + k)).flatMap fun mp => (pyRange |mp| (n + 1)).map fun m => (n, mp, m)) :
      List (ℤ × ℤ × ℤ)).length : ℤ) =
      if (k : ℤ) ≤ n then (k : ℤ) * (k + 1) else 2 * (n + 1) ^ 2 - (2 * n + 1 - k) * (2 * n + 2 - k) := by
  induction k with
  | zero => rw [pyRange_empty (by simp)]; simp [hn]
  | succ k ih =>
    rw [show -n + ((k + 1 : ℕ) : ℤ) = (-n + k) + 1 by push_cast; ring, pyRange_succ (by omega), List.flatMap_append,
      List.length_append]
    push_cast at hk ⊢
    rw [mul_add, ih (by omega)]
    simp only [List.flatMap_cons, List.flatMap_nil, List.append_nil, List.length_map, length_pyRange]
    by_cases h1 : (k : ℤ) + 1 ≤ n
    · rw [if_pos (by omega), if_pos h1, abs_of_nonpos (by omega), Int.toNat_of_nonneg (by omega)]
      ring
    · rw [if_neg h1]
      by_cases h2 : (k : ℤ) ≤ n
      · have : (k : ℤ) = n := by omega
        rw [if_pos h2, this, abs_of_nonneg (by omega), Int.toNat_of_nonneg (by omega)]
        ring
      · rw [if_neg h2, abs_of_nonneg (by omega), Int.toNat_of_nonneg (by omega)]
        ring

theorem wedgeBlock_length {n : ℤ} (hn : 0 ≤ n) : ((wedgeBlock n).length : ℤ) = (n + 1) ^ 2 := by
  have := wedge_prefix hn (2 * n + 1).toNat (by omega)
  rw [Int.toNat_of_nonneg (by omega), if_neg (by omega), show -n + (2 * n + 1) = n + 1 by ring] at this
  unfold wedgeBlock
  linarith

theorem wedgeList_length6 {b : ℤ} (hb : -1 ≤ b) :
    6 * ((wedgeList b).length : ℤ) = (b + 1) * (b + 2) * (2 * b + 3) := by
  obtain ⟨n, hn⟩ : ∃ n : ℕ, b + 1 = n := ⟨(b + 1).toNat, by omega⟩
  obtain rfl : b = n - 1 := by omega
  clear hn hb
  induction n with
  | zero => unfold wedgeList; rw [pyRange_empty (by simp)]; simp
  | succ n ih =>
    unfold wedgeList at *
    rw [show ((n + 1 : ℕ) : ℤ) - 1 + 1 = ((n : ℤ) - 1 + 1) + 1 by push_cast; ring, pyRange_succ (by omega),
      List.flatMap_append, List.length_append]
    push_cast
    rw [mul_add, ih]
    simp only [List.flatMap_cons, List.flatMap_nil, List.append_nil]
    rw [wedgeBlock_length (by omega)]
    ring

theorem wedgeList_length {b : ℤ} (hb : -1 ≤ b) : ((wedgeList b).length : ℤ) = wedge_size b := by
  have := wedgeList_length6 hb
  unfold wedge_size
  omega

theorem wedgeList_pairwise (b : ℤ) : (wedgeList b).Pairwise ltLMpM := by
  unfold wedgeList wedgeBlock
  rw [List.pairwise_flatMap]
  constructor
  · intro ell _
    rw [List.pairwise_flatMap]
    constructor
    · intro mp _
      rw [List.pairwise_map]
      exact (pairwise_pyRange _ _).imp (fun h => Or.inr ⟨rfl, Or.inr ⟨rfl, h⟩⟩)
    · refine (pairwise_pyRange _ _).imp ?_
      intro x y hxy p hp q hq
      simp only [List.mem_map] at hp hq
      obtain ⟨m, _, rfl⟩ := hp
      obtain ⟨m', _, rfl⟩ := hq
      exact Or.inr ⟨rfl, Or.inl hxy⟩
  · refine (pairwise_pyRange _ _).imp ?_
    intro x y hxy p hp q hq
    simp only [List.mem_flatMap, List.mem_map] at hp hq
    obtain ⟨_, _, m, _, rfl⟩ := hp
    obtain ⟨_, _, m', _, rfl⟩ := hq
    exact Or.inl hxy

theorem mem_wedgeList (b : ℤ) (p : ℤ × ℤ × ℤ) : p ∈ wedgeList b ↔ IsWedge b p := by
  obtain ⟨l, mp, m⟩ := p
  simp only [wedgeList, wedgeBlock, List.mem_flatMap, List.mem_map, mem_pyRange, IsWedge, Prod.mk.injEq]
  constructor
  · rintro ⟨l', h1, mp', h2, m', h3, rfl, rfl, rfl⟩; omega
  · intro h
    have := abs_le.1 h.2.2.1
    exact ⟨l, by omega, mp, by omega, m, by omega, rfl, rfl, rfl⟩

theorem wedge_index_row {b n mp m : ℤ} (h : IsWedge b (n, mp, m)) :
    0 ≤ wedge_index n mp m ∧ (wedgeList b)[(wedge_index n mp m).toNat]? = some (n, mp, m) := by
  obtain ⟨h0, h1, h2, h3⟩ := h
  simp only at h0 h1 h2 h3
  have hab := abs_le.1 h2
  have hpre := wedge_prefix h0 (n + mp).toNat (by omega)
  rw [Int.toNat_of_nonneg (by omega), show -n + (n + mp) = mp by ring] at hpre
  have hlen6 := wedgeList_length6 (b := n - 1) (by omega)
  have hk : (m - |mp|).toNat < (((pyRange |mp| (n + 1)).map fun m => (n, mp, m)) : List _).length := by
    simp; omega
  have hg := flatMap_pyRange_getElem? (fun mp => (pyRange |mp| (n + 1)).map fun m => (n, mp, m))
    (show -n ≤ mp by omega) (show mp < n + 1 by omega) hk
  set P := (((pyRange (-n) mp).flatMap fun mp => (pyRange |mp| (n + 1)).map fun m => (n, mp, m)) :
      List (ℤ × ℤ × ℤ)).length with hP
  have hblk : P + (m - |mp|).toNat < (wedgeBlock n).length := by
    unfold wedgeBlock
    by_contra hc
    rw [List.getElem?_eq_none (by omega)] at hg
    rw [List.getElem?_eq_getElem hk] at hg
    cases hg
  have hg2 := flatMap_pyRange_getElem? wedgeBlock h0 (show n < b + 1 by omega) hblk
  have e : wedge_index n mp m = ((wedgeList (n - 1)).length : ℤ) + (P + (m - |mp|)) := by
    unfold wedge_index
    by_cases hmp : 0 ≤ mp
    · rw [if_pos hmp]
      rw [abs_of_nonneg hmp]
      have hp2 : 2 * (P : ℤ) = 2 * (n + 1) ^ 2 - (2 * n + 1 - (n + mp)) * (2 * n + 2 - (n + mp)) := by
        rw [hpre]
        split
        · have : mp = 0 := by omega
          subst this; ring
        · rfl
      have : 2 * n * (n + 1) * (n + 2) + 3 * mp * (2 * n - mp + 1) + 6 * m
          = 6 * (((wedgeList (n - 1)).length : ℤ) + (P + (m - mp))) := by
        linear_combination -hlen6 - 3 * hp2
      rw [this]; omega
    · rw [if_neg hmp, abs_of_neg (by omega)]
      rw [if_pos (by omega)] at hpre
      have : 2 * n * (n + 1) * (n + 2) + 3 * mp * (2 * n + mp + 3) + 6 * m
          = 6 * (((wedgeList (n - 1)).length : ℤ) + (P + (m - -mp))) := by
        linear_combination -hlen6 - 3 * hpre
      rw [this]; omega
  refine ⟨by omega, ?_⟩
  have e2 : (wedge_index n mp m).toNat = (wedgeList (n - 1)).length + (P + (m - |mp|).toNat) := by omega
  rw [e2]
  unfold wedgeList at *
  rw [show n - 1 + 1 = n by ring, hg2]
  show (wedgeBlock n)[_]? = _
  unfold wedgeBlock
  rw [hg, List.getElem?_map, pyRange_getElem? (by omega)]
  simp only [Option.map_some, Option.some.injEq, Prod.mk.injEq, true_and]
  omega

/-- **C52.** `wedge_index` is a bijection from the wedge onto `0 .. wedge_size - 1`, and it respects the lexicographic order
on `(n, m', m)`: the wedge is enumerated in the documented order without gaps. -/
theorem C52_wedge_index_bijOn (n_max : ℤ) (h : -1 ≤ n_max) :
    Set.BijOn (fun p : ℤ × ℤ × ℤ => wedge_index p.1 p.2.1 p.2.2) {p | IsWedge n_max p}
      (Set.Ico 0 (wedge_size n_max)) ∧
    ∀ p q, IsWedge n_max p → IsWedge n_max q → ltLMpM p q →
      wedge_index p.1 p.2.1 p.2.2 < wedge_index q.1 q.2.1 q.2.2 := by
  have hirr : ∀ p : ℤ × ℤ × ℤ, ¬ ltLMpM p p := by
    rintro p (h | h)
    · exact lt_irrefl _ h
    · rcases h.2 with h | h
      · exact lt_irrefl _ h
      · exact lt_irrefl _ h.2
  have hasymm : ∀ p q : ℤ × ℤ × ℤ, ltLMpM p q → ¬ ltLMpM q p := by
    intro p q h1 h2
    unfold ltLMpM at h1 h2
    omega
  refine ⟨bijOn_of_layout (mem_wedgeList n_max) _ _ (wedgeList_length h)
    ((wedgeList_pairwise n_max).imp ?_) ?_, ?_⟩
  · rintro p q h rfl; exact hirr p h
  · rintro ⟨n, mp, m⟩ hp; exact wedge_index_row hp
  · rintro ⟨n, mp, m⟩ ⟨n', mp', m'⟩ hp hq hlt
    obtain ⟨p0, p1⟩ := wedge_index_row hp
    obtain ⟨q0, q1⟩ := wedge_index_row hq
    by_contra hc
    push Not at hc
    simp only at hc
    rcases lt_or_eq_of_le hc with hc | hc
    · have hl1 : (wedge_index n mp m).toNat < (wedgeList n_max).length := by
        by_contra hx
        rw [List.getElem?_eq_none (by omega)] at p1; cases p1
      have hl2 : (wedge_index n' mp' m').toNat < (wedgeList n_max).length := by omega
      have := List.pairwise_iff_getElem.1 (wedgeList_pairwise n_max) _ _ hl2 hl1 (by omega)
      rw [List.getElem?_eq_getElem hl1] at p1
      rw [List.getElem?_eq_getElem hl2] at q1
      rw [Option.some.inj p1, Option.some.inj q1] at this
      exact hasymm _ _ hlt this
    · rw [hc, p1] at q1
      rw [Option.some.inj q1] at hlt
      exact hirr _ hlt

/-- **C52.** `wedgeify_index` sends every `(ell, m', m)` to one of its four symmetric partners, which lies in the wedge. -/
theorem C52_wedgeify (n_max ell mp m : ℤ) (h : IsTriple 0 n_max (ell, mp, m)) :
    ∃ mp' m', wedgeify_index ell mp m = (ell, mp', m') ∧ IsWedge n_max (ell, mp', m') ∧
      SameH (mp, m) (mp', m') := by
  obtain ⟨h0, h1, h2, h3⟩ := h
  simp only at h0 h1 h2 h3
  have h2 := abs_le.1 h2
  have h3 := abs_le.1 h3
  unfold wedgeify_index
  by_cases c1 : m < -mp
  · by_cases c2 : m < mp
    · rw [if_pos c1, if_pos c2]
      exact ⟨_, _, rfl, ⟨h0, h1, abs_le.2 ⟨by simp only; omega, by simp only; omega⟩, by simp only; omega⟩,
        .inr (.inr (.inl rfl))⟩
    · rw [if_pos c1, if_neg c2]
      exact ⟨_, _, rfl, ⟨h0, h1, abs_le.2 ⟨by simp only; omega, by simp only; omega⟩, by simp only; omega⟩,
        .inr (.inr (.inr rfl))⟩
  · by_cases c2 : m < mp
    · rw [if_neg c1, if_pos c2]
      exact ⟨_, _, rfl, ⟨h0, h1, abs_le.2 ⟨by simp only; omega, by simp only; omega⟩, by simp only; omega⟩,
        .inr (.inl rfl)⟩
    · rw [if_neg c1, if_neg c2]
      exact ⟨_, _, rfl, ⟨h0, h1, abs_le.2 ⟨by simp only; omega, by simp only; omega⟩, by simp only; omega⟩,
        .inl rfl⟩

/-- Non-vacuity and a sample: `n_max = 3`, `(3,-2,3)` is entry 18 of 30; `(3, 2, -1)` is stored at `(3, -1, 2)`. -/
example : IsWedge 3 (3, -2, 3) ∧ wedge_index 3 (-2) 3 = 16 ∧ wedge_size 3 = 30 ∧
    wedgeify_index 3 2 (-1) = (3, -1, 2) ∧ IsTriple 0 3 (3, 2, -1) := by
  refine ⟨?_, by decide, by decide, by decide, ?_⟩
  · unfold IsWedge; decide
  · unfold IsTriple; decide

def nabsmList (b : ℤ) : List (ℤ × ℤ) := (pyRange 0 (b + 1)).flatMap fun n => (pyRange 0 (n + 1)).map fun m => (n, m)

theorem nabsmList_length2 {b : ℤ} (hb : -1 ≤ b) : 2 * ((nabsmList b).length : ℤ) = (b + 1) * (b + 2) := by
  obtain ⟨n, hn⟩ : ∃ n : ℕ, b + 1 = n := ⟨(b + 1).toNat, by omega⟩
  obtain rfl : b = n - 1 := by omega
  clear hn hb
  induction n with
  | zero => unfold nabsmList; rw [pyRange_empty (by simp)]; simp
  | succ n ih =>
    unfold nabsmList at *
    rw [show ((n + 1 : ℕ) : ℤ) - 1 + 1 = ((n : ℤ) - 1 + 1) + 1 by push_cast; ring, pyRange_succ (by omega),
      List.flatMap_append, List.length_append]
    push_cast
    rw [mul_add, ih]
    simp only [List.flatMap_cons, List.flatMap_nil, List.append_nil, List.length_map, length_pyRange]
    rw [Int.toNat_of_nonneg (by omega)]
    ring

/-- **C53.** `nabsm_index` is a bijection from `{(n,m) : 0 ≤ m ≤ n ≤ n_max}` onto the first `(n_max+1)(n_max+2)/2` naturals, with
rows in lexicographic order. -/
theorem C53_nabsm_index (n_max : ℤ) (h : -1 ≤ n_max) :
    Set.BijOn (fun p : ℤ × ℤ => nabsm_index p.1 p.2) {p | IsNabsm n_max p}
      (Set.Ico 0 ((n_max + 1) * (n_max + 2) / 2)) ∧
    ∀ p q, IsNabsm n_max p → IsNabsm n_max q → ltLM p q → nabsm_index p.1 p.2 < nabsm_index q.1 q.2 := by
  have hlen : ∀ b : ℤ, -1 ≤ b → ((nabsmList b).length : ℤ) = (b + 1) * (b + 2) / 2 := by
    intro b hb
    have := nabsmList_length2 hb
    omega
  have hpw : (nabsmList n_max).Pairwise ltLM := by
    unfold nabsmList
    rw [List.pairwise_flatMap]
    constructor
    · intro ell _
      rw [List.pairwise_map]
      exact (pairwise_pyRange _ _).imp (fun h => Or.inr ⟨rfl, h⟩)
    · refine (pairwise_pyRange _ _).imp ?_
      intro x y hxy p hp q hq
      simp only [List.mem_map] at hp hq
      obtain ⟨m, _, rfl⟩ := hp
      obtain ⟨m', _, rfl⟩ := hq
      exact Or.inl hxy
  refine ⟨bijOn_of_layout (rows := nabsmList n_max) ?_ _ _ (hlen _ h) (hpw.imp ?_) ?_, ?_⟩
  · rintro ⟨l, m⟩
    simp only [nabsmList, List.mem_flatMap, List.mem_map, mem_pyRange, IsNabsm, Prod.mk.injEq]
    constructor
    · rintro ⟨l', h1, m', h2, rfl, rfl⟩; omega
    · intro h; exact ⟨l, by omega, m, by omega, rfl, rfl⟩
  · rintro p q (h | h) rfl
    · exact lt_irrefl _ h
    · exact lt_irrefl _ h.2
  · rintro ⟨l, m⟩ ⟨h1, h2, h3⟩
    simp only at h1 h2 h3 ⊢
    have hp := nabsmList_length2 (b := l - 1) (by omega)
    have hk : m.toNat < (((pyRange 0 (l + 1)).map fun m => (l, m)) : List (ℤ × ℤ)).length := by
      simp; omega
    have hg := flatMap_pyRange_getElem? (fun n => (pyRange 0 (n + 1)).map fun m => (n, m))
      (show 0 ≤ l by omega) (show l < n_max + 1 by omega) hk
    have e : nabsm_index l m = ((nabsmList (l - 1)).length : ℤ) + m := by
      unfold nabsm_index
      rw [show l * (l + 1) = 2 * ((nabsmList (l - 1)).length : ℤ) by linear_combination -hp]
      omega
    refine ⟨by omega, ?_⟩
    have e2 : (nabsm_index l m).toNat = (nabsmList (l - 1)).length + m.toNat := by omega
    rw [e2]
    unfold nabsmList at *
    rw [show l - 1 + 1 = l by ring, hg, List.getElem?_map, pyRange_getElem? (by omega)]
    simp only [Option.map_some, Option.some.injEq, Prod.mk.injEq, true_and]
    omega
  · rintro ⟨n, m⟩ ⟨n', m'⟩ ⟨h1, h2, h3⟩ ⟨h4, h5, h6⟩ hlt
    simp only at *
    have e1 : 2 * (n * (n + 1) / 2) = n * (n + 1) :=
      Int.mul_ediv_cancel' (Int.even_mul_succ_self n).two_dvd
    have e2 : 2 * (n' * (n' + 1) / 2) = n' * (n' + 1) :=
      Int.mul_ediv_cancel' (Int.even_mul_succ_self n').two_dvd
    unfold nabsm_index
    rcases hlt with hlt | ⟨hn, hm⟩
    · simp only at hlt
      have : n + 1 ≤ n' := hlt
      have h7 : n * (n + 1) + 2 * (n + 1) ≤ n' * (n' + 1) := by nlinarith
      linarith
    · simp only at hn hm
      subst hn
      linarith

/-- **C53.** `nm_index` is a bijection from the pairs `(n,m)`, `|m| ≤ n ≤ n_max`, onto `0 .. (n_max+1)²-1`, and `nmpm_index` one from
the triples onto the first `Σ (2n+1)²` naturals; they are the same layouts as `LM_index` and `LMpM_index` with `ell_min = 0`. -/
theorem C53_nm_nmpm_index (n_max : ℤ) (h : -1 ≤ n_max) :
    Set.BijOn (fun p : ℤ × ℤ => nm_index p.1 p.2) {p | IsMode 0 n_max p} (Set.Ico 0 ((n_max + 1) ^ 2)) ∧
    Set.BijOn (fun p : ℤ × ℤ × ℤ => nmpm_index p.1 p.2.1 p.2.2) {p | IsTriple 0 n_max p}
      (Set.Ico 0 (LMpM_total_size 0 n_max)) ∧
    (∀ n m, nm_index n m = LM_index n m 0) ∧ (∀ n mp m, nmpm_index n mp m = LMpM_index n mp m 0) := by
  have e1 : ∀ n m, nm_index n m = LM_index n m 0 := fun n m => by unfold nm_index LM_index; ring
  have e2 : ∀ n mp m, nmpm_index n mp m = LMpM_index n mp m 0 := fun n mp m => by
    unfold nmpm_index LMpM_index
    congr 1; ring
  refine ⟨?_, ?_, e1, e2⟩
  · have := C01_LM_index_bijOn 0 n_max le_rfl (by omega)
    simp only [← e1] at this
    rwa [show LM_total_size 0 n_max = (n_max + 1) ^ 2 by unfold LM_total_size; ring] at this
  · have := C03_LMpM_index_bijOn 0 n_max le_rfl (by omega)
    simp only [← e2] at this
    exact this

/-- Non-vacuity. -/
example : IsNabsm 4 (3, 2) ∧ nabsm_index 3 2 = 8 ∧ nm_index 3 (-2) = 10 ∧ nmpm_index 1 (-1) 0 = 2 := by
  refine ⟨by unfold IsNabsm; decide, by decide, by decide, by decide⟩

end SF
