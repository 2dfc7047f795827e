import Verif.Lemmas.PowersErr
import Verif.Props.Recursions
import Verif.Props.FloatError

/-!
# Property C80: accuracy of `complex_powers` in floating-point arithmetic
-/

set_option autoImplicit false

namespace SF

open Complex

/-- One row: the powers of the point in the first quadrant, rotated back. -/
theorem powersRowF_ok (F : PowOps) (fuel : ℕ) {z w th : ℂ} (hq : quadLoop fuel z 1 = .ok (w, th)) {M : ℤ} (hM : 1 ≤ M)
    (row : List ℂ) (hrow : (row.length : ℤ) = M + 1) :
    powersRowF F fuel z M row = .ok ((List.range (M + 1).toNat).map fun k => powerSeq F w k * th ^ k) := by
  unfold powersRowF
  rw [hq, bind_ok]
  simp only
  rw [wr_ok (by omega) (by omega), bind_ok, wr_ok (by omega) (by simp; omega), bind_ok]
  rw [rd_ok (i := 1) (v := w) (by omega) (by
    rw [List.getElem?_set_self (by simp; omega)]), bind_ok]
  change (forL (pyRange 2 (M + 1)) ((row.set (Int.toNat 0) 1).set (Int.toNat 1) w, dzF F (dcF F w) w, th)
    (powerStepF F (F.mul 2 (dcF F w)) th) >>= fun x => upd x.1 M fun y => y * x.2.2) = _
  set row0 := (row.set (Int.toNat 0) 1).set (Int.toNat 1) w with hrow0
  have hlen0 : row0.length = row.length := by simp [hrow0]
  set t := F.mul 2 (dcF F w) with ht
  set p0 : ℂ × ℂ := (w, dzF F (dcF F w) w) with hp0
  have hseq : ∀ k, powerSeq F w (k + 1) = ((pstep F t)^[k] p0).1 := fun k => rfl
  obtain ⟨st, h1, h2⟩ := forR_inv 2 (M + 1) (by omega)
    (fun m (st : List ℂ × ℂ × ℂ) => (st.1.length : ℤ) = M + 1 ∧
      (∀ k : ℕ, (k : ℤ) < m - 1 → st.1[k]? = some (powerSeq F w k * th ^ k)) ∧
      st.1[(m - 1).toNat]? = some (powerSeq F w (m - 1).toNat) ∧
      st.2.1 = ((pstep F t)^[(m - 2).toNat] p0).2 ∧ st.2.2 = th ^ (m - 1).toNat)
    (row0, dzF F (dcF F w) w, th) (powerStepF F t th)
    (by
      refine ⟨by simp [hlen0, hrow], ?_, ?_, rfl, by
        rw [show Int.toNat (2 - 1) = 1 from rfl]; simp⟩
      · intro k hk
        obtain rfl : k = 0 := by omega
        rw [hrow0, List.getElem?_set_ne (by norm_num)]
        rw [show Int.toNat 0 = 0 from rfl, List.getElem?_set_self (by omega)]; simp [powerSeq]
      · norm_num
        rw [hrow0, show Int.toNat 1 = 1 from rfl, List.getElem?_set_self (by simp; omega)]; rfl)
    (by
      rintro m ⟨r, dz, cl⟩ hm1 hm2 ⟨g1, g2, g3, g4, g5⟩
      simp only at g1 g2 g3 g4 g5 ⊢
      subst g4 g5
      obtain ⟨n, rfl⟩ : ∃ n : ℕ, m = n + 2 := ⟨(m - 2).toNat, by omega⟩
      have e0 : ((n : ℤ) + 2 - 2).toNat = n := by omega
      have e1 : ((n : ℤ) + 2).toNat = n + 2 := by omega
      have e2 : ((n : ℤ) + 2 - 1).toNat = n + 1 := by omega
      have e3 : ((n : ℤ) + 2 + 1 - 1).toNat = n + 2 := by omega
      have e4 : ((n : ℤ) + 2 + 1 - 2).toNat = n + 1 := by omega
      simp only [e0, e1, e2, e3, e4] at g2 g3 ⊢
      have hnext : ((pstep F t)^[n + 1] p0) = pstep F t ((pstep F t)^[n] p0) := Function.iterate_succ_apply' _ _ _
      set P := (pstep F t)^[n] p0 with hP
      have hs1 : powerSeq F w (n + 1) = P.1 := hseq n
      have hs2 : powerSeq F w (n + 2) = caddP F P.1 P.2 := by rw [hseq (n + 1), hnext]; rfl
      unfold powerStepF
      simp only
      rw [rd_ok (i := (n : ℤ) + 2 - 1) (v := powerSeq F w (n + 1)) (by omega) (by rw [e2]; exact g3), bind_ok,
        wr_ok (by omega) (by omega), bind_ok,
        rd_ok (i := (n : ℤ) + 2) (v := caddP F (powerSeq F w (n + 1)) P.2) (by omega) (by
          rw [e1, List.getElem?_set_self (by omega)]), bind_ok,
        upd_ok (by omega) (by simp; omega), bind_ok, e1, e2]
      refine ⟨_, rfl, by simp; omega, ?_, ?_, ?_, ?_⟩
      · intro k hk
        simp only [List.getElem?_modify, List.getElem?_set]
        by_cases hkn : n + 1 = k
        · subst hkn
          rw [if_neg (by omega), g3]
          simp
        · rw [if_neg (by omega), g2 k (by omega)]
          simp [hkn]
      · simp only [List.getElem?_modify, List.getElem?_set]
        rw [if_pos trivial, if_pos (by omega), hs1, hs2]
        simp
      · simp only
        rw [hnext, hs1]; rfl
      · simp only; ring)
  obtain ⟨r, dz, cl⟩ := st
  obtain ⟨g1, g2, g3, g4, g5⟩ := h2
  simp only at g1 g2 g3 g4 g5
  have e2 : (M + 1 - 1).toNat = M.toNat := by omega
  rw [e2] at g3 g5
  rw [h1, bind_ok]
  simp only
  rw [upd_ok (by omega) (by omega), g5]
  congr 1
  apply List.ext_getElem?
  intro k
  simp only [List.getElem?_modify, List.getElem?_map]
  by_cases hk : (k : ℤ) < M + 1
  · rw [List.getElem?_range (by omega)]
    by_cases hkM : M.toNat = k
    · subst hkM
      rw [g3]; simp
    · rw [g2 k (by omega)]; simp [hkM]
  · rw [List.getElem?_eq_none (by omega), List.getElem?_eq_none (by simp; omega)]; rfl

/-- The point in the first quadrant and the power of `i` that the `while` loop finds. -/
noncomputable def quadOf (fuel : ℕ) (z : ℂ) : ℂ × ℂ := match quadLoop fuel z 1 with
  | .ok p => p
  | .error _ => (0, 0)

/-- The row computed for `z`. -/
noncomputable def rowOf (F : PowOps) (fuel : ℕ) (M : ℤ) (z : ℂ) : List ℂ :=
  (List.range (M + 1).toNat).map fun k => powerSeq F (quadOf fuel z).1 k * (quadOf fuel z).2 ^ k

theorem _complex_powersF_ok (F : PowOps) (fuel : ℕ) (hf : 4 ≤ fuel) {zs : List ℂ} {M : ℤ} (hM : 1 ≤ M)
    (buf : List (List ℂ)) (hbuf : buf.length = zs.length) (hrow : ∀ r ∈ buf, (r.length : ℤ) = M + 1) :
    _complex_powersF F fuel zs M buf = .ok (zs.map (rowOf F fuel M)) := by
  have hz : ∀ z row, ((row : List ℂ).length : ℤ) = M + 1 → powersRowF F fuel z M row = .ok (rowOf F fuel M z) := by
    intro z row hr
    obtain ⟨w, th, hq, -⟩ := quadLoop_ok fuel hf z
    rw [powersRowF_ok F fuel hq hM row hr]
    unfold rowOf quadOf
    rw [hq]
  unfold _complex_powersF
  obtain ⟨st, h1, h2⟩ := forR_inv 0 (zs.length : ℤ) (by omega)
    (fun i (st : List (List ℂ)) => st.length = zs.length ∧ (∀ r ∈ st, (r.length : ℤ) = M + 1) ∧
      ∀ k : ℕ, (k : ℤ) < i → st[k]? = (zs[k]?).map (rowOf F fuel M))
    buf (fun i zp => do
      let z ← rd zs i
      let row ← rd zp i
      let row ← powersRowF F fuel z M row
      wr zp i row) ⟨hbuf, hrow, fun k hk => absurd hk (by omega)⟩
    (by
      rintro i st hi1 hi2 ⟨g1, g2, g3⟩
      have hi3 : i.toNat < zs.length := by omega
      have hi4 : i.toNat < st.length := by omega
      rw [rd_ok (v := zs[i.toNat]) hi1 (List.getElem?_eq_getElem hi3), bind_ok,
        rd_ok (v := st[i.toNat]) hi1 (List.getElem?_eq_getElem hi4), bind_ok,
        hz _ _ (g2 _ (List.getElem_mem hi4)), bind_ok,
        wr_ok hi1 (by omega)]
      refine ⟨_, rfl, by simpa using g1, ?_, ?_⟩
      · intro r hr
        rcases List.mem_or_eq_of_mem_set hr with hr | rfl
        · exact g2 r hr
        · simp [rowOf]; omega
      · intro k hk
        rw [List.getElem?_set]
        by_cases hk2 : i.toNat = k
        · subst hk2
          rw [if_pos rfl, if_pos hi4, List.getElem?_eq_getElem hi3]; rfl
        · rw [if_neg hk2, g3 k (by omega)])
  rw [h1]
  congr 1
  apply List.ext_getElem?
  intro k
  rw [List.getElem?_map]
  by_cases hk : k < zs.length
  · exact h2.2.2 k (by omega)
  · rw [List.getElem?_eq_none (by rw [h2.1]; omega), List.getElem?_eq_none (by omega)]; rfl

theorem powerSeq_quad_err {u : ℝ} {F : PowOps} (hF : F.Std u) (fuel : ℕ) (hf : 4 ≤ fuel) {τ : ℝ} {z : ℂ} (hτ : |‖z‖ - 1| ≤ τ) (m : ℕ)
    (hm : 100 * (m + 1) * (u + τ) ≤ 1) :
    ‖powerSeq F (quadOf fuel z).1 m * (quadOf fuel z).2 ^ m - (z / ‖z‖) ^ m‖ ≤ 60 * (m + 3) * (u + τ) := by
  obtain ⟨w, th, hq, hre, him, hwz, hn⟩ := quadLoop_ok fuel hf z
  have hqo : quadOf fuel z = (w, th) := by unfold quadOf; rw [hq]
  rw [hqo]
  simp only
  have hu0 := hF.u_nonneg
  have hτ0 : 0 ≤ τ := (abs_nonneg _).trans hτ
  have hτ1 : τ ≤ 1 / 100 := by
    have : 0 ≤ (m : ℝ) * (u + τ) := by positivity
    linarith
  have hz0 : 0 < ‖z‖ := by linarith [(abs_le.mp hτ).1]
  have hth : ‖th‖ = 1 := by
    have : ‖w‖ * ‖th‖ = ‖z‖ := by rw [← norm_mul, hwz]
    rw [hn] at this
    exact mul_left_cancel₀ hz0.ne' (by rw [this, mul_one])
  have e : (z / ‖z‖ : ℂ) ^ m = (w / ‖w‖) ^ m * th ^ m := by
    rw [← mul_pow, hn]
    congr 1
    rw [← hwz]; ring
  rw [e, ← sub_mul, norm_mul, norm_pow, hth, one_pow, mul_one]
  exact powerSeq_err hF hre him (by rw [hn]; exact hτ) m hm

/-- **C80.** Let every operation be carried out with relative error at most `u`, and let the numbers in `z` have absolute value
`1` up to `τ`.  Then for every array `z` and every `M` with `100 (M+1)(u+τ) ≤ 1`, `complex_powers` returns an array of the same shape
as without rounding, and its entry `[i, m]` differs from the `m`-th power of the direction of `z_i` by at most `60 (m+3)(u+τ)`: the error
grows linearly in `m`, without amplification near the real and imaginary axes — whatever the buffer contained before. -/
theorem C80_complex_powers {u : ℝ} {F : PowOps} (hF : F.Std u) (fuel : ℕ) (hf : 4 ≤ fuel) (junk : ℕ → ℕ → ℂ) (shape : List ℕ)
    (zs : List ℂ) (hshape : shape.prod = zs.length) {τ : ℝ} (hz : ∀ z ∈ zs, |‖z‖ - 1| ≤ τ) (M : ℕ) (hM : 1 ≤ M)
    (hsmall : 100 * (M + 1) * (u + τ) ≤ 1) (out : Option OutArr) (hout : GoodBuffer zs.length M out) :
    ∃ vals, complex_powersF F fuel junk shape zs M out = .ok (shape ++ [M + 1], vals) ∧
      vals.length = zs.length * (M + 1) ∧
      ∀ (i m : ℕ) (z : ℂ), zs[i]? = some z → m ≤ M →
        ∃ v, vals[i * (M + 1) + m]? = some v ∧ ‖v - (z / ‖z‖) ^ m‖ ≤ 60 * (m + 3) * (u + τ) := by
  have hrl : ∀ z, (rowOf F fuel M z).length = M + 1 := by intro z; simp [rowOf]
  have key : ∀ l : List ℂ, (l.map (rowOf F fuel M)).flatten.length = l.length * (M + 1) := by
    intro l
    induction l with
    | nil => simp
    | cons x l ih => rw [List.map_cons, List.flatten_cons, List.length_append, ih, hrl]; simp; ring
  have hMt : ((M : ℤ) + 1).toNat = M + 1 := by omega
  refine ⟨(zs.map (rowOf F fuel M)).flatten, ?_, key zs, ?_⟩
  · have hbuf : ∀ buf : List (List ℂ), buf.length = zs.length → (∀ r ∈ buf, (r.length : ℤ) = M + 1) →
        (do
          let o ← _complex_powersF F fuel zs M buf
          if (o.flatten.length : ℤ) = (shape.prod : ℤ) * ((M : ℤ) + 1) then
            return (shape ++ [((M : ℤ) + 1).toNat], o.flatten)
          else throw PyErr.valueError : Py _) = .ok (shape ++ [M + 1], (zs.map (rowOf F fuel M)).flatten) := by
      intro buf h1 h2
      rw [_complex_powersF_ok F fuel hf (by omega) buf h1 h2, bind_ok, hMt, if_pos]
      · rfl
      · rw [key, hshape]; push_cast; ring
    unfold complex_powersF
    cases out with
    | none =>
      simp only [if_neg (show ¬ ((M : ℤ) + 1 < 0) by omega)]
      refine hbuf _ (by simp) ?_
      intro r hr
      simp only [List.mem_map] at hr
      obtain ⟨i, _, rfl⟩ := hr
      simp
    | some o =>
      obtain ⟨g1, g2, g3⟩ := hout
      simp only [if_pos g1]
      exact hbuf _ g2 g3
  · intro i m z hi hm
    have hzm := hz z (List.mem_of_getElem? hi)
    refine ⟨powerSeq F (quadOf fuel z).1 m * (quadOf fuel z).2 ^ m, ?_, ?_⟩
    · rw [flatten_map_getElem? _ (M + 1) zs hrl hi (by omega)]
      unfold rowOf
      rw [List.getElem?_map, List.getElem?_range (by omega)]
      rfl
    · apply powerSeq_quad_err hF fuel hf hzm
      have hτ0 : 0 ≤ τ := (abs_nonneg _).trans hzm
      have hu0 := hF.u_nonneg
      have : (m : ℝ) ≤ M := by exact_mod_cast hm
      refine le_trans ?_ hsmall
      gcongr

/-- **C80 (double precision).** With operations accurate to `2⁻⁵²`, for unit numbers, each of the first million powers is accurate to `10⁻⁷`,
each of the first hundred to `10⁻¹¹`. -/
theorem C80_double {F : PowOps} (hF : F.Std (2 ^ (-52 : ℤ))) (fuel : ℕ) (hf : 4 ≤ fuel) (junk : ℕ → ℕ → ℂ) (shape : List ℕ)
    (zs : List ℂ) (hshape : shape.prod = zs.length) (hz : ∀ z ∈ zs, |‖z‖ - 1| ≤ 2 ^ (-52 : ℤ)) (M : ℕ) (hM : 1 ≤ M) (hM2 : M ≤ 10 ^ 6)
    (out : Option OutArr) (hout : GoodBuffer zs.length M out) :
    ∃ vals, complex_powersF F fuel junk shape zs M out = .ok (shape ++ [M + 1], vals) ∧
      ∀ (i m : ℕ) (z : ℂ), zs[i]? = some z → m ≤ M → ∃ v, vals[i * (M + 1) + m]? = some v ∧
        ‖v - (z / ‖z‖) ^ m‖ ≤ 1 / 10 ^ 7 ∧ (m ≤ 100 → ‖v - (z / ‖z‖) ^ m‖ ≤ 1 / 10 ^ 11) := by
  have hMr : (M : ℝ) ≤ 10 ^ 6 := by exact_mod_cast hM2
  have hu : (2 : ℝ) ^ (-52 : ℤ) + 2 ^ (-52 : ℤ) ≤ 4.5 / 10 ^ 16 := by norm_num
  have hu0 : (0 : ℝ) ≤ 2 ^ (-52 : ℤ) + 2 ^ (-52 : ℤ) := by positivity
  obtain ⟨vals, h1, -, h2⟩ := C80_complex_powers hF fuel hf junk shape zs hshape hz M hM (by
    calc 100 * ((M : ℝ) + 1) * (2 ^ (-52 : ℤ) + 2 ^ (-52 : ℤ)) ≤ 100 * (10 ^ 6 + 1) * (4.5 / 10 ^ 16) := by gcongr
      _ ≤ 1 := by norm_num) out hout
  refine ⟨vals, h1, fun i m z hi hm => ?_⟩
  obtain ⟨v, v1, v2⟩ := h2 i m z hi hm
  refine ⟨v, v1, v2.trans ?_, fun h100 => v2.trans ?_⟩
  · have hm' : (m : ℝ) ≤ 10 ^ 6 := le_trans (by exact_mod_cast hm) hMr
    calc 60 * ((m : ℝ) + 3) * (2 ^ (-52 : ℤ) + 2 ^ (-52 : ℤ)) ≤ 60 * (10 ^ 6 + 3) * (4.5 / 10 ^ 16) := by gcongr
      _ ≤ _ := by norm_num
  · have hm' : (m : ℝ) ≤ 100 := by exact_mod_cast h100
    calc 60 * ((m : ℝ) + 3) * (2 ^ (-52 : ℤ) + 2 ^ (-52 : ℤ)) ≤ 60 * (100 + 3) * (4.5 / 10 ^ 16) := by gcongr
      _ ≤ _ := by norm_num

/-! ### A case that meets the hypotheses -/

/-- Rounding to 53 bits after every operation except doubling, which is exact for floating-point operands. -/
noncomputable def F53P : PowOps where
  add x y := fl53 (x + y)
  mul x y := if x = 2 ∨ x = -2 then x * y else fl53 (x * y)
  sqrt x := fl53 (Real.sqrt x)
  sqrtIm z := fl53 (npSqrtC z).im

theorem F53P_std : F53P.Std (2 ^ (-52 : ℤ)) := by
  have mono : ∀ x' x : ℝ, RelErr (2 ^ (-53 : ℤ)) x' x → RelErr (2 ^ (-52 : ℤ)) x' x := by
    intro x' x h
    unfold RelErr at h ⊢
    refine h.trans (mul_le_mul_of_nonneg_right ?_ (abs_nonneg _))
    norm_num
  refine ⟨by positivity, fun x y => mono _ _ (fl53_err _), fun x y => ?_, fun x => ?_, fun x _ => mono _ _ (fl53_err _), fun z _ _ => mono _ _ (fl53_err _)⟩
  · change RelErr _ (if x = 2 ∨ x = -2 then x * y else fl53 (x * y)) _
    by_cases h : x = 2 ∨ x = -2
    · rw [if_pos h]; unfold RelErr; simp only [sub_self, abs_zero]; positivity
    · rw [if_neg h]; exact mono _ _ (fl53_err _)
  · constructor
    · change (if (2 : ℝ) = 2 ∨ (2 : ℝ) = -2 then (2 : ℝ) * x else fl53 (2 * x)) = _
      rw [if_pos (.inl rfl)]
    · change (if (-2 : ℝ) = 2 ∨ (-2 : ℝ) = -2 then (-2 : ℝ) * x else fl53 (-2 * x)) = _
      rw [if_pos (.inr rfl)]

/-- A thousand powers of three numbers: near `1`, near `-i`, and `(-3+4i)/5`. -/
example (junk : ℕ → ℕ → ℂ) : ∃ vals, complex_powersF F53P 4 junk [3]
      [⟨Real.cos (1 / 1000), Real.sin (1 / 1000)⟩, ⟨-Real.sin (1 / 1000), -Real.cos (1 / 1000)⟩, ⟨-3 / 5, 4 / 5⟩] 1000 none = .ok ([3] ++ [1001], vals) ∧
      ∃ v, vals[2 * 1001 + 100]? = some v ∧ ‖v - ((-3 + 4 * I) / 5) ^ 100‖ ≤ 1 / 10 ^ 11 := by
  have norm1 : ∀ a b : ℝ, a ^ 2 + b ^ 2 = 1 → ‖(⟨a, b⟩ : ℂ)‖ = 1 := by
    intro a b h
    have : ‖(⟨a, b⟩ : ℂ)‖ ^ 2 = 1 := by
      rw [← Complex.normSq_eq_norm_sq, Complex.normSq_apply]; simp only; nlinarith
    exact (pow_eq_one_iff_of_nonneg (norm_nonneg _) (by norm_num)).mp this
  have n3 := norm1 (-3 / 5) (4 / 5) (by norm_num)
  obtain ⟨vals, h1, h2⟩ := C80_double F53P_std 4 (by norm_num) junk [3]
    [⟨Real.cos (1 / 1000), Real.sin (1 / 1000)⟩, ⟨-Real.sin (1 / 1000), -Real.cos (1 / 1000)⟩, ⟨-3 / 5, 4 / 5⟩] rfl
    (by
      intro z hz
      have : ‖z‖ = 1 := by
        simp only [List.mem_cons, List.not_mem_nil, or_false] at hz
        rcases hz with rfl | rfl | rfl
        · exact norm1 _ _ (Real.cos_sq_add_sin_sq _)
        · exact norm1 _ _ (by rw [neg_sq, neg_sq]; exact Real.sin_sq_add_cos_sq _)
        · exact n3
      rw [this, sub_self, abs_zero]; positivity) 1000 (by norm_num) (by norm_num) none trivial
  refine ⟨vals, h1, ?_⟩
  obtain ⟨v, v1, -, v2⟩ := h2 2 100 ⟨-3 / 5, 4 / 5⟩ rfl (by norm_num)
  refine ⟨v, v1, ?_⟩
  have := v2 le_rfl
  rw [n3] at this
  have e : ((⟨-3 / 5, 4 / 5⟩ : ℂ) / (1 : ℝ)) = (-3 + 4 * I) / 5 := by
    apply Complex.ext <;> simp
  rwa [e] at this

end SF
