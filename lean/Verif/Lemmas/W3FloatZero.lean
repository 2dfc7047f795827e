import Verif.Lemmas.W3FloatFinish

/-!
# Rows of 3-j symbols with vanishing magnetic numbers, in floating-point arithmetic

The middle coefficient of the recurrence is exactly zero, so every entry is computed by multiplications and divisions only.
-/

set_option autoImplicit false

namespace SF

open Spec Finset

/-- What the computed coefficients of a row with vanishing magnetic numbers satisfy; `w` is the exact row. -/
structure ZRow (u : ℝ) (XF Y ZF X Z w : ℤ → ℝ) (a b : ℤ) : Prop where
  a_nonneg : 0 ≤ a
  lt : a + 2 ≤ b
  xn : ∀ j, a ≤ j → j ≤ b → Near u 3 (XF j) (X j)
  zn : ∀ j, a ≤ j → j ≤ b → Near u 3 (ZF j) (Z j)
  y0 : ∀ j, Y j = 0
  xne : ∀ j, a < j → j < b → X j ≠ 0
  zne : ∀ j, a < j → j ≤ b → Z j ≠ 0
  eqn : ∀ j, a ≤ j → j ≤ b → X j * w (j + 1) + Z j * w (j - 1) = 0
  wa : w a ≠ 0
  wb : w b ≠ 0
  wa1 : w (a + 1) = 0
  wb1 : w (b - 1) = 0
  ratio : a + 4 ≤ b → (Z (a + 1) / X (a + 1)) ^ 2 ≤ 2 / 3

/-- The entries at `lo..b` are multiples of the exact row, up to `K` roundings. -/
def RowNear (u : ℝ) (K : ℕ) (F : List ℝ) (w : ℤ → ℝ) (lo b : ℤ) : Prop :=
  ∃ c : ℝ, c ≠ 0 ∧ ∀ i, lo ≤ i → i ≤ b → Near u K (F.getD i.toNat 0) (c * w i)

theorem getD_set_self {F : List ℝ} {i : ℕ} {v : ℝ} (h : i < F.length) : (F.set i v).getD i 0 = v := by
  rw [List.getD_eq_getElem?_getD, List.getElem?_set_self h]; rfl

theorem getD_set_ne {F : List ℝ} {i k : ℕ} {v : ℝ} (h : i ≠ k) : (F.set i v).getD k 0 = F.getD k 0 := by
  rw [List.getD_eq_getElem?_getD, List.getElem?_set_ne h, ← List.getD_eq_getElem?_getD]

section
variable {G : W3Ops} {u : ℝ} (hG : G.Std u) {XF Y ZF X Z w : ℤ → ℝ} {a b : ℤ} {n : ℕ} (hr : ZRow u XF Y ZF X Z w a b)
include hG hr

theorem downStepF_zero (hn : b < n) {F : List ℝ} (hF : F.length = n) {j : ℤ} (h1 : a < j) (h2 : j < b) {K : ℕ} (h : RowNear u K F w j b) :
    ∃ F', downStepF G XF Y ZF b j F = .ok F' ∧ F'.length = n ∧ RowNear u (K + 10) F' w (j - 1) b := by
  have hu0 := hG.u_nonneg
  have hu1 := hG.u_lt_one
  have ha := hr.a_nonneg
  obtain ⟨c, hc, h⟩ := h
  have hZ : Near u 3 (ZF j) (Z j) := hr.zn j h1.le h2.le
  have hZ0 : ZF j ≠ 0 := hZ.ne_zero hu0 hu1 (hr.zne j h1 h2.le)
  set v := G.div (-G.add (G.mul (XF j) (F.getD (j + 1).toNat 0)) (G.mul (Y j) (F.getD j.toNat 0))) (ZF j) with hv
  have hvn : Near u (K + 9) v (c * w (j - 1)) := by
    have e1 := hG.near_mul (hr.xn j h1.le h2.le) (h (j + 1) (by omega) (by omega))
    have e2 := hG.near_add (y := G.mul (Y j) (F.getD j.toNat 0)) (x := G.mul (XF j) (F.getD (j + 1).toNat 0))
      (by rw [hr.y0, hG.zero_mul, add_zero]; exact e1)
    have e3 := hG.near_div (e2.neg hu0 hu1) hZ hZ0
    have e4 : -(X j * (c * w (j + 1))) / Z j = c * w (j - 1) := by
      rw [div_eq_iff (hr.zne j h1 h2.le)]
      linear_combination (-c) * hr.eqn j h1.le h2.le
    rw [e4] at e3
    exact e3.mono hu0 hu1 (by omega)
  have hl : (F.set (j - 1).toNat v).length = n := by simp [hF]
  have hval : ∀ i, j - 1 ≤ i → i ≤ b → Near u (K + 9) ((F.set (j - 1).toNat v).getD i.toNat 0) (c * w i) := by
    intro i k1 k2
    by_cases e : i = j - 1
    · subst e; rw [getD_set_self (by omega)]; exact hvn
    · rw [getD_set_ne (by omega)]; exact (h i (by omega) k2).mono hu0 hu1 (by omega)
  have hstep : downStepF G XF Y ZF b j F = .ok (if |(F.set (j - 1).toNat v).getD (j - 1).toNat 0| > 1 then
      mapSlice (F.set (j - 1).toNat v) (j - 1) (b + 1) (fun v => G.div v 1000) else F.set (j - 1).toNat v) := by
    unfold downStepF
    rw [rd_val hF (by omega) (by omega), rd_val hF (by omega) (by omega)]
    simp only [bind, Except.bind, fDiv]
    rw [if_neg hZ0]
    simp only
    rw [wr_ok (by omega) (by omega)]
    simp only
    rw [rd_val hl (by omega) (by omega)]
    rfl
  refine ⟨_, hstep, ?_, ?_⟩
  · split
    · rw [mapSlice_length, hl]
    · exact hl
  · split
    · refine ⟨c / 1000, div_ne_zero hc (by norm_num), fun i k1 k2 => ?_⟩
      rw [getD_mapSlice (by omega), if_pos (by omega)]
      have := hG.near_div (hval i k1 k2) (near_refl (u := u) 1000) (by norm_num)
      rw [show c / 1000 * w i = c * w i / 1000 by ring]
      exact this
    · exact ⟨c, hc, fun i k1 k2 => (hval i k1 k2).mono hu0 hu1 (by omega)⟩

theorem downLoop_zero (hn : b < n) {mid : ℤ} (hmid : a ≤ mid) : ∀ (N : ℕ) (j : ℤ) (F : List ℝ), (j - mid).toNat = N → mid ≤ j → j < b →
    F.length = n → RowNear u (10 * (b - 1 - j).toNat) F w j b →
    ∃ F', forL (pyRangeDown j mid) F (downStepF G XF Y ZF b) = .ok F' ∧ F'.length = n ∧ RowNear u (10 * (b - 1 - mid).toNat) F' w mid b := by
  intro N
  induction N with
  | zero =>
    intro j F hN h1 h2 hl h
    have : j = mid := by omega
    subst this
    rw [pyRangeDown_nil (le_refl _)]
    exact ⟨F, rfl, hl, h⟩
  | succ N ih =>
    intro j F hN h1 h2 hl h
    rw [pyRangeDown_cons (by omega), forL_cons]
    obtain ⟨F1, e, hl1, h'⟩ := downStepF_zero hG hr hn hl (by omega : a < j) h2 h
    rw [e]
    refine ih (j - 1) F1 (by omega) (by omega) (by omega) hl1 ?_
    rw [show 10 * (b - 1 - (j - 1)).toNat = 10 * (b - 1 - j).toNat + 10 by omega]
    exact h'

theorem meetPhaseF_zero (hu : u ≤ 1 / 100) (hn : b < n) {f Fm Fp : List ℝ} (hf : f.length = n) (hm : Fm.length = n) (hp : Fp.length = n)
    (hm0 : Fm.getD a.toNat 0 = 1) (hm1 : Fm.getD (a + 1).toNat 0 = 0) (hp0 : Fp.getD b.toNat 0 = 1) (hp1 : Fp.getD (b - 1).toNat 0 = 0) :
    ∃ r, meetPhaseF G XF Y ZF a b (a + 1) (b - 1) f Fm Fp = .ok r ∧ r.1.length = n ∧ RowNear u (10 * (b - 1 - a).toNat) r.1 w a b := by
  have hu0 := hG.u_nonneg
  have hu1 := hG.u_lt_one
  have ha := hr.a_nonneg
  have hab := hr.lt
  have hstart : RowNear u (10 * (b - 1 - (b - 1)).toNat) Fp w (b - 1) b := by
    refine ⟨(w b)⁻¹, inv_ne_zero hr.wb, fun i k1 k2 => ?_⟩
    by_cases e : i = b
    · subst e; rw [hp0, inv_mul_cancel₀ hr.wb]
      exact (near_refl (u := u) 1).mono hu0 hu1 (by omega)
    · have : i = b - 1 := by omega
      subst this
      rw [hp1, hr.wb1, mul_zero]
      exact near_zero hu0 hu1 _
  by_cases h4 : b ≤ a + 3
  · -- the two solutions meet at the bottom
    have hmid : (a + 1 + (b - 1)) / 2 = a + 1 := by omega
    obtain ⟨F', e, hl', h'⟩ := downLoop_zero hG hr hn (le_refl a) _ (b - 1) Fp rfl (by omega) (by omega) hp hstart
    refine ⟨(copySlice f F' a (b + 1) id, Fm, F'), ?_, by simp [copySlice_length, hf], ?_⟩
    · unfold meetPhaseF
      dsimp only
      rw [hmid, pyRange_empty (le_refl _)]
      simp only [midLoopF, bind, Except.bind, pure, Except.pure]
      rw [rd_val hm (by omega) (by omega)]
      simp only
      rw [rd_val hm (by omega) (by omega)]
      simp only
      rw [show a + 1 - 1 = a by ring, hm0, hm1, if_pos one_ne_zero]
      unfold fDiv
      rw [if_neg one_ne_zero]
      simp only
      rw [hG.zero_div one_ne_zero, abs_zero, decide_eq_true (by norm_num : (0 : ℝ) < 1 / 1000000), if_pos rfl]
      rw [rd_val hm (by omega) (by omega)]
      simp only
      rw [e]
      simp only
      rw [rd_val hl' (by omega) (by omega)]
      simp only
      rw [if_neg (by omega)]
      simp only [if_true]
    · obtain ⟨c, hc, h⟩ := h'
      refine ⟨c, hc, fun i k1 k2 => ?_⟩
      dsimp only
      rw [getD_copySlice (by omega), if_pos (by omega)]
      exact h i k1 k2
  · -- they meet two positions above the bottom
    have hb4 : a + 4 ≤ b := by omega
    have hX := hr.xn (a + 1) (by omega) (by omega)
    have hXne := hr.xne (a + 1) (by omega) (by omega)
    have hX0 : XF (a + 1) ≠ 0 := hX.ne_zero hu0 hu1 hXne
    have hZ := hr.zn (a + 1) (by omega) (by omega)
    have hZne := hr.zne (a + 1) (by omega) (by omega)
    set v := G.div (-G.add (G.mul (Y (a + 1)) 0) (G.mul (ZF (a + 1)) 1)) (XF (a + 1)) with hv
    have hvn : Near u 9 v (-(Z (a + 1) / X (a + 1))) := by
      have e1 := hG.near_mul hZ (near_refl (u := u) 1)
      have e2 := hG.near_add (x := G.mul (Y (a + 1)) 0) (y := G.mul (ZF (a + 1)) 1) (by rw [hG.mul_zero, zero_add]; exact e1)
      have e3 := hG.near_div (e2.neg hu0 hu1) hX hX0
      rw [mul_one, neg_div] at e3
      exact e3.mono hu0 hu1 (by omega)
    have hv0 : v ≠ 0 := hvn.ne_zero hu0 hu1 (neg_ne_zero.2 (div_ne_zero hZne hXne))
    have hsmall : ∀ x, Near u 10 x (-(Z (a + 1) / X (a + 1))) → |x| < 1 := by
      intro x hx
      obtain ⟨θ, e, f1, f2⟩ := hx
      have hρ := hr.ratio hb4
      have hlow : (0.9 : ℝ) ≤ (1 - u) ^ 10 := by
        calc (0.9 : ℝ) ≤ (1 - 1 / 100) ^ 10 := by norm_num
          _ ≤ (1 - u) ^ 10 := pow_le_pow_left₀ (by norm_num) (by linarith) 10
      have hθ0 : 0 ≤ θ := by linarith
      have hθ : θ ≤ 10 / 9 := by
        by_contra hlt
        have : 1 < θ * (1 - u) ^ 10 := by nlinarith
        linarith
      rw [← sq_lt_one_iff_abs_lt_one, e, mul_pow, neg_sq]
      have hθ2 : θ ^ 2 ≤ 100 / 81 := by nlinarith
      nlinarith [sq_nonneg θ, sq_nonneg (Z (a + 1) / X (a + 1))]
    have hq : |G.div v 1| < 1 := by
      apply hsmall
      have := hG.near_div hvn (near_refl (u := u) 1) one_ne_zero
      rwa [div_one] at this
    have hv1 : |v| < 1 := hsmall v (hvn.mono hu0 hu1 (by omega))
    set F1 := Fm.set (a + 1 + 1).toNat v with hF1
    have hl1 : F1.length = n := by rw [hF1]; simp [hm]
    have g2 : F1.getD (a + 1 + 1).toNat 0 = v := getD_set_self (by omega)
    have g1 : F1.getD (a + 1).toNat 0 = 0 := by rw [hF1, getD_set_ne (by omega), hm1]
    have g0 : F1.getD a.toNat 0 = 1 := by rw [hF1, getD_set_ne (by omega), hm0]
    have emid : midLoopF G XF Y ZF a (pyRange (a + 1) ((a + 1 + (b - 1)) / 2)) Fm ((a + 1 + (b - 1)) / 2) = .ok (F1, a + 1 + 1) := by
      rw [pyRange_cons (by omega)]
      unfold midLoopF
      rw [rd_val hm (by omega) (by omega), rd_val hm (by omega) (by omega)]
      simp only [bind, Except.bind, fDiv]
      rw [if_neg hX0]
      simp only
      rw [show a + 1 - 1 = a by ring, hm0, hm1, ← hv, wr_ok (by omega) (by omega)]
      simp only
      rw [← hF1, rd_val hl1 (by omega) (by omega)]
      simp only
      rw [g2, if_neg (by linarith), rd_val hl1 (by omega) (by omega)]
      simp only
      rw [rd_val hl1 (by omega) (by omega)]
      simp only
      rw [g0, if_neg one_ne_zero, g2]
      simp only
      rw [if_pos ⟨hq, hv0⟩]
      rfl
    obtain ⟨F', e, hl', c, hc, h'⟩ := downLoop_zero hG hr hn (show a ≤ a + 1 + 1 by omega) _ (b - 1) Fp rfl (by omega) (by omega) hp hstart
    refine ⟨(copySlice (copySlice f F1 a (a + 1 + 1 + 1) (fun x => G.div (G.mul x (F'.getD (a + 1 + 1).toNat 0)) v)) F' (a + 1 + 1 + 1) (b + 1) id, F1, F'),
      ?_, by simp [copySlice_length, hf], ?_⟩
    · unfold meetPhaseF
      dsimp only
      rw [emid]
      simp only [bind, Except.bind, pure, Except.pure]
      rw [rd_val hl1 (by omega) (by omega)]
      simp only
      rw [rd_val hl1 (by omega) (by omega)]
      simp only
      rw [show a + 1 + 1 - 1 = a + 1 by ring, g1, if_neg (by simp)]
      simp only [Bool.false_eq_true, if_false]
      rw [rd_val hl1 (by omega) (by omega)]
      simp only
      rw [e]
      simp only
      rw [rd_val hl' (by omega) (by omega)]
      simp only
      rw [if_neg (by omega), if_neg (by omega), g2]
      unfold arrayDivisor
      rw [if_neg hv0]
    · refine ⟨c, hc, fun i k1 k2 => ?_⟩
      dsimp only
      rw [getD_copySlice (by rw [copySlice_length]; omega)]
      split
      · exact (h' i (by omega) k2).mono hu0 hu1 (by omega)
      · rw [getD_copySlice (by omega), if_pos (by omega)]
        have hp2 := h' (a + 1 + 1) (by omega) (by omega)
        have : i = a ∨ i = a + 1 ∨ i = a + 1 + 1 := by omega
        rcases this with rfl | rfl | rfl
        · rw [g0]
          have e1 := hG.near_div (hG.near_mul (near_refl (u := u) 1) hp2) hvn hv0
          have e2 : 1 * (c * w (i + 1 + 1)) / -(Z (i + 1) / X (i + 1)) = c * w i := by
            have := hr.eqn (i + 1) (by omega) (by omega)
            rw [show i + 1 - 1 = i by ring] at this
            rw [div_eq_iff (neg_ne_zero.2 (div_ne_zero hZne hXne))]
            have hXZ : X (i + 1) * (Z (i + 1) / X (i + 1)) = Z (i + 1) := mul_div_cancel₀ _ hXne
            apply mul_left_cancel₀ hXne
            linear_combination c * this + c * w i * hXZ
          rw [e2] at e1
          exact e1.mono hu0 hu1 (by omega)
        · rw [g1, hG.zero_mul, hG.zero_div hv0, hr.wa1, mul_zero]
          exact near_zero hu0 hu1 _
        · rw [g2]
          have e1 := hG.near_div (hG.near_mul (near_refl (u := u) v) hp2) (near_refl (u := u) v) hv0
          rw [mul_div_cancel_left₀ _ hv0] at e1
          exact e1.mono hu0 hu1 (by omega)

end

/-- The coefficients of the code satisfy the hypotheses, when `m2 = m3 = 0`. -/
theorem zrow {G : W3Ops} {u : ℝ} (hG : G.Std u) {j2 j3 : ℤ} (h2 : 0 ≤ j2) (h3 : 0 ≤ j3) (hfit : W3Fits j2 j3 0 0) (hab : |j2 - j3| < j2 + j3) :
    ZRow u (fun j => w3XF G j j2 j3 (-(0 + 0))) (fun j => ((w3B j j2 j3 0 0 : ℤ) : ℝ)) (fun j => w3ZF G j j2 j3 (-(0 + 0)))
      (fun j => w3X j j2 j3 (-(0 + 0))) (fun j => w3Z j j2 j3 (-(0 + 0))) (row3 j2 j3 0 0) |j2 - j3| (j2 + j3) := by
  have k2 : |(0 : ℤ)| ≤ j2 := by rw [abs_zero]; exact h2
  have k3 : |(0 : ℤ)| ≤ j3 := by rw [abs_zero]; exact h3
  have hmax : max |j2 - j3| |(0 : ℤ) + 0| = |j2 - j3| := by simp
  have hpar : |j2 - j3| = j2 - j3 ∨ |j2 - j3| = -(j2 - j3) := abs_choice _
  have T := tri_row k2 k3 hfit (by rw [hmax]; exact hab)
  rw [hmax] at T
  have hY : ∀ j, w3B j j2 j3 0 0 = 0 := by
    intro j
    unfold w3B
    simp [i32]
  have ha0 : 0 ≤ |j2 - j3| := abs_nonneg _
  refine ⟨ha0, by omega, fun j a b => w3XF_near hG k2 k3 hfit (by rw [hmax]; exact a) b,
    fun j a b => w3ZF_near hG k2 k3 hfit (by rw [hmax]; exact a) b, fun j => by simp [hY],
    fun j a b => (T.Xpos j a.le (by omega) b).ne', fun j a b => (T.Zpos j a b).ne', fun j a b => ?_, T.wa, T.wb,
    row3_odd (by omega), row3_odd (by omega), fun hb4 => ?_⟩
  · have := T.eqn j a b
    simp only [hY, Int.cast_zero, zero_mul, add_zero] at this ⊢
    exact this
  · have hs := hfit.size
    have ex : w3X (|j2 - j3| + 1) j2 j3 (-(0 + 0)) = ((|j2 - j3| + 1 : ℤ) : ℝ) * recA j2 j3 (-(0 + 0)) (|j2 - j3| + 1 + 1) := by
      unfold w3X
      rw [i32_id (abs_lt.2 (by omega) : |(|j2 - j3| + 1)| < 2 ^ 31), w3A_eq k2 k3 hfit (by rw [hmax]; omega) (by omega)]
    have ez : w3Z (|j2 - j3| + 1) j2 j3 (-(0 + 0)) = ((|j2 - j3| + 1 + 1 : ℤ) : ℝ) * recA j2 j3 (-(0 + 0)) (|j2 - j3| + 1) := by
      unfold w3Z
      rw [i32_id (abs_lt.2 (by omega) : |(|j2 - j3| + 1)| < 2 ^ 31), w3A_eq k2 k3 hfit (by rw [hmax]; omega) (by omega)]
    rw [ex, ez]
    have hsq : (j2 - j3) ^ 2 = |j2 - j3| ^ 2 := (sq_abs _).symm
    unfold recA
    rw [hsq]
    generalize |j2 - j3| = a at *
    generalize j2 + j3 = b at *
    have A0 : (0 : ℝ) ≤ a := by exact_mod_cast ha0
    have B0 : (a : ℝ) + 4 ≤ b := by exact_mod_cast hb4
    rw [div_pow, mul_pow, mul_pow, Real.sq_sqrt, Real.sq_sqrt]
    · push_cast
      have hD : 6 * (a : ℝ) + 21 ≤ ((b : ℝ) + 1) ^ 2 - (a + 1 + 1) ^ 2 := by nlinarith
      have hkey : 3 * ((2 * (a : ℝ) + 1) * (((b : ℝ) + 1) ^ 2 - (a + 1) ^ 2)) ≤ 2 * ((4 * a + 4) * (((b : ℝ) + 1) ^ 2 - (a + 1 + 1) ^ 2)) := by
        nlinarith [mul_le_mul_of_nonneg_left hD (show (0 : ℝ) ≤ 2 * a + 5 by positivity)]
      rw [div_le_iff₀]
      · have hxy : (0 : ℝ) ≤ (a + 1) ^ 2 * (a + 1 + 1) ^ 2 := by positivity
        nlinarith [mul_le_mul_of_nonneg_left hkey hxy]
      · have d0 : (0 : ℝ) < ((b : ℝ) + 1) ^ 2 - (a + 1 + 1) ^ 2 := by linarith
        have d1 : (0 : ℝ) < (a + 1 + 1) ^ 2 - (a : ℝ) ^ 2 := by nlinarith
        have d2 : (0 : ℝ) < (a + 1 + 1) ^ 2 - 0 := by nlinarith
        exact mul_pos (by positivity) (mul_pos (mul_pos d1 d0) d2)
    · have d0 : (0 : ℤ) ≤ (b + 1) ^ 2 - (a + 1 + 1) ^ 2 := by nlinarith
      have d1 : (0 : ℤ) ≤ (a + 1 + 1) ^ 2 - a ^ 2 := by nlinarith
      have d2 : (0 : ℤ) ≤ (a + 1 + 1) ^ 2 - (-(0 + 0)) ^ 2 := by nlinarith
      exact_mod_cast mul_nonneg (mul_nonneg d1 d0) d2
    · have d0 : (0 : ℤ) ≤ (b + 1) ^ 2 - (a + 1) ^ 2 := by nlinarith
      have d1 : (0 : ℤ) ≤ (a + 1) ^ 2 - a ^ 2 := by nlinarith
      have d2 : (0 : ℤ) ≤ (a + 1) ^ 2 - (-(0 + 0)) ^ 2 := by nlinarith
      exact_mod_cast mul_nonneg (mul_nonneg d1 d0) d2

/-- Rows with a single entry: two roundings. -/
theorem w3runF_single {G : W3Ops} {u : ℝ} (hG : G.Std u) {j2 j3 m2 m3 : ℤ} {w : W3Work} {n : ℕ} (hn : j2 + j3 < n) (hf : w.f.length = n)
    (h2 : |m2| ≤ j2) (h3 : |m3| ≤ j3) (hab : j2 + j3 = max |j2 - j3| |m2 + m3|) :
    ∃ w', w3runF G w j2 j3 m2 m3 = .ok w' ∧ w'.f.length = n ∧ Near u 2 (w'.f.getD (j2 + j3).toNat 0) (row3 j2 j3 m2 m3 (j2 + j3)) := by
  have hu0 := hG.u_nonneg
  have hu1 := hG.u_lt_one
  have ha0 : 0 ≤ max |j2 - j3| |m2 + m3| := (abs_nonneg _).trans (le_max_left _ _)
  have hnorm := row3_norm h2 h3
  obtain ⟨t, ht, htop⟩ := row3_top_sign h2 h3
  unfold w3runF
  dsimp only
  rw [if_neg (by omega), if_neg (by omega), if_pos hab]
  generalize max |j2 - j3| |m2 + m3| = a at *
  have hp : (0 : ℝ) < ((2 * a + 1 : ℤ) : ℝ) := by exact_mod_cast (by omega : 0 < 2 * a + 1)
  have hs := hG.near_sqrt (near_refl (u := u) ((2 * a + 1 : ℤ) : ℝ)) hp.le
  have hsp := hs.pos hu0 hu1 (Real.sqrt_pos.2 hp)
  have hv := hG.near_div (near_refl (u := u) 1) hs hsp.ne'
  have hvp := hv.pos hu0 hu1 (by positivity)
  have htv : 1 / Real.sqrt ((2 * a + 1 : ℤ) : ℝ) = t := by
    rw [hab, Icc_self, sum_singleton, ← hab, htop, mul_pow] at hnorm
    have e : ((-1 : ℝ) ^ (j2 - j3 + m2 + m3)) ^ 2 = 1 := by
      rcases negOnePow_cases (j2 - j3 + m2 + m3) with h | h <;> rw [h.2] <;> norm_num
    rw [e, one_mul, hab] at hnorm
    rw [div_eq_iff (Real.sqrt_pos.2 hp).ne']
    have : (t * Real.sqrt ((2 * a + 1 : ℤ) : ℝ)) ^ 2 = 1 := by
      rw [mul_pow, Real.sq_sqrt hp.le]; push_cast; linarith
    have hpos : 0 < t * Real.sqrt ((2 * a + 1 : ℤ) : ℝ) := mul_pos ht (Real.sqrt_pos.2 hp)
    nlinarith
  rw [htv] at hv
  unfold fDiv
  rw [if_neg hsp.ne']
  simp only [bind, Except.bind]
  rw [wr_ok ha0 (by omega)]
  simp only
  rw [rd_val (n := n) (by simp [hf]) ha0 (by omega), getD_set_self (by omega)]
  simp only
  generalize hvd : G.div 1 (G.sqrt ((2 * a + 1 : ℤ) : ℝ)) = v at *
  rcases negOnePow_cases (j2 - j3 + m2 + m3) with h | h
  · rw [if_neg (by rw [h.1]; rintro (⟨h, _⟩ | ⟨_, h⟩); exacts [by linarith, by norm_num at h])]
    refine ⟨_, rfl, by simp [hf], ?_⟩
    dsimp only
    rw [htop, h.2, one_mul, hab, getD_set_self (by omega)]
    exact hv.mono hu0 hu1 (by omega)
  · rw [if_pos (Or.inr ⟨hvp, by rw [h.1]; norm_num⟩)]
    rw [wr_ok ha0 (by simp; omega)]
    refine ⟨_, rfl, by simp [hf], ?_⟩
    dsimp only
    rw [htop, h.2, hab, getD_set_self (by simp; omega), mul_neg, mul_one, neg_mul, one_mul]
    exact (hv.neg hu0 hu1).mono hu0 hu1 (by omega)

/-- Rows with `m2 = m3 = 0`: every entry is within a number of roundings, linear in the length of the row, of the 3-j symbol. -/
theorem w3runF_zero {G : W3Ops} {u : ℝ} (hG : G.Std u) (hu : u ≤ 1 / 100) {j2 j3 : ℤ} {w : W3Work} {n : ℕ} (hn : j2 + j3 < n) (hf : w.f.length = n)
    (hFm : w.F_minus.length = n) (hFp : w.F_plus.length = n) (h2 : 0 ≤ j2) (h3 : 0 ≤ j3)
    (hfit : W3Fits j2 j3 0 0) : ∃ w', w3runF G w j2 j3 0 0 = .ok w' ∧ w'.f.length = n ∧
      ∀ i, |j2 - j3| ≤ i → i ≤ j2 + j3 → Near u (31 * (j2 + j3 - |j2 - j3|).toNat + 2) (w'.f.getD i.toNat 0) (row3 j2 j3 0 0 i) := by
  have hu0 := hG.u_nonneg
  have hu1 := hG.u_lt_one
  have k2 : |(0 : ℤ)| ≤ j2 := by rw [abs_zero]; exact h2
  have k3 : |(0 : ℤ)| ≤ j3 := by rw [abs_zero]; exact h3
  have hmax : max |j2 - j3| |(0 : ℤ) + 0| = |j2 - j3| := by simp
  have ha0 : 0 ≤ |j2 - j3| := abs_nonneg _
  have hab0 : |j2 - j3| ≤ j2 + j3 := abs_le.2 (by omega)
  have hnorm := row3_norm k2 k3
  obtain ⟨t, ht, htop⟩ := row3_top_sign k2 k3
  rw [hmax] at hnorm
  have hZ := fun h => zrow hG h2 h3 hfit h
  rcases eq_or_lt_of_le hab0 with hab | hab
  · obtain ⟨w', e, e1, e2⟩ := w3runF_single hG hn hf k2 k3 (by rw [hmax]; exact hab.symm)
    refine ⟨w', e, e1, fun i l1 l2 => ?_⟩
    have : i = j2 + j3 := by omega
    subst this
    exact e2.mono hu0 hu1 (by omega)
  have hr := hZ hab
  unfold w3runF
  dsimp only
  rw [hmax, if_neg (by omega), if_neg (by omega), if_neg (by omega)]
  generalize |j2 - j3| = a at *
  have hlt := hr.lt
  have l1 : ((w.F_minus.set a.toNat 1).set (a + 1).toNat 0).length = n := by simp [hFm]
  have l2 : ((w.F_plus.set (j2 + j3).toNat 1).set (j2 + j3 - 1).toNat 0).length = n := by simp [hFp]
  obtain ⟨r, er, hrl, c, hc, hrn⟩ := meetPhaseF_zero hG hr hu hn hf l1 l2
    (by rw [getD_set_ne (by omega), getD_set_self (by omega)]) (by rw [getD_set_self (by simp; omega)])
    (by rw [getD_set_ne (by omega), getD_set_self (by omega)]) (by rw [getD_set_self (by simp; omega)])
  have hnz : NZ r.1 (j2 + j3) := (hrn (j2 + j3) hab.le (le_refl _)).ne_zero hu0 hu1 (mul_ne_zero hc hr.wb)
  obtain ⟨g, eg, hgl, ⟨σ, hσ, hgn⟩, _, hgs⟩ := finishF_spec hG ha0 hn hrl j2 j3 0 0 hab.le (le_refl _) hnz
  have hfwd : fwdPhaseF G (fun j => w3XF G j j2 j3 (-(0 + 0))) (fun j => ((w3B j j2 j3 0 0 : ℤ) : ℝ)) (fun j => w3ZF G j j2 j3 (-(0 + 0)))
      (-(0 + 0)) 0 0 a (j2 + j3) w.sf w.F_minus = .ok (w.sf, (w.F_minus.set a.toNat 1).set (a + 1).toNat 0, a + 1, false) := by
    unfold fwdPhaseF
    rw [if_pos (by norm_num), wr_ok ha0 (by omega)]
    simp only [bind, Except.bind]
    rw [wr_ok (by omega) (by simp; omega)]
    rfl
  have hrev : revPhaseF G (fun j => w3XF G j j2 j3 (-(0 + 0))) (fun j => ((w3B j j2 j3 0 0 : ℤ) : ℝ)) (fun j => w3ZF G j j2 j3 (-(0 + 0)))
      (-(0 + 0)) 0 0 a (j2 + j3) (a + 1) w.sf w.F_plus
        = .ok (w.sf, (w.F_plus.set (j2 + j3).toNat 1).set (j2 + j3 - 1).toNat 0, j2 + j3 - 1, false) := by
    unfold revPhaseF
    rw [if_pos (by norm_num), wr_ok (by omega) (by omega)]
    simp only [bind, Except.bind]
    rw [wr_ok (by omega) (by simp; omega)]
    rfl
  rw [hfwd]
  simp only [bind, Except.bind]
  rw [if_neg (by omega), hrev]
  simp only [Bool.false_eq_true, and_false, if_false, not_false_eq_true, and_self, if_true]
  rw [er]
  simp only
  simp only [bind, Except.bind] at eg
  obtain ⟨g1, eg1⟩ : ∃ g1, w3normalizeF G r.1 a (j2 + j3) = .ok g1 := by
    cases h : w3normalizeF G r.1 a (j2 + j3) with
    | error _ => rw [h] at eg; cases eg
    | ok g1 => exact ⟨g1, rfl⟩
  rw [eg1] at eg ⊢
  simp only at eg ⊢
  rw [eg]
  refine ⟨_, rfl, hgl, ?_⟩
  dsimp only
  have hS : Near u (2 * (10 * (j2 + j3 - 1 - a).toNat)) (rowNorm r.1 a (j2 + j3)) (c ^ 2) := by
    have e : c ^ 2 = ∑ j ∈ Icc a (j2 + j3), (2 * (j : ℝ) + 1) * (c * row3 j2 j3 0 0 j) ^ 2 := by
      calc c ^ 2 = c ^ 2 * ∑ j ∈ Icc a (j2 + j3), (2 * (j : ℝ) + 1) * row3 j2 j3 0 0 j ^ 2 := by rw [hnorm, mul_one]
        _ = _ := by rw [mul_sum]; exact sum_congr rfl fun j _ => by ring
    rw [e]
    refine Near.sum hu0 hu1 _ (fun j hj => ?_) (fun j hj => ?_)
    · rw [mem_Icc] at hj
      have := Near.mul hu0 hu1 (near_refl (u := u) (2 * (j : ℝ) + 1)) ((hrn j hj.1 hj.2).pow hu0 hu1 2)
      rwa [zero_add] at this
    · have : (0 : ℝ) ≤ j := by exact_mod_cast (by rw [mem_Icc] at hj; omega : 0 ≤ j)
      positivity
  have hsq := Near.sqrt hu0 hu1 hS
  rw [Real.sqrt_sq_eq_abs] at hsq
  have hall : ∀ i, a ≤ i → i ≤ j2 + j3 → Near u (31 * (j2 + j3 - a).toNat + 2) (g.getD i.toNat 0) (σ * (c / |c|) * row3 j2 j3 0 0 i) := by
    intro i q1 q2
    have e1 := Near.mul hu0 hu1 (near_refl (u := u) σ) (Near.div hu0 hu1 (hrn i q1 q2) hsq)
    have e2 := Near.trans hu0 hu1 (hgn i q1 q2) e1
    rw [show σ * (c / |c|) * row3 j2 j3 0 0 i = σ * (c * row3 j2 j3 0 0 i / |c|) by ring]
    exact e2.mono hu0 hu1 (by omega)
  have hε : σ * (c / |c|) = 1 ∨ σ * (c / |c|) = -1 := by
    have hcc : c / |c| = 1 ∨ c / |c| = -1 := by
      rcases lt_or_gt_of_ne hc with h | h
      · right; rw [abs_of_neg h, div_neg, div_self hc]
      · left; rw [abs_of_pos h, div_self hc]
    rcases hσ with h | h <;> rcases hcc with h' | h' <;> rw [h, h'] <;> norm_num
  have hε1 : σ * (c / |c|) = 1 := by
    refine hε.resolve_right fun h => ?_
    obtain ⟨θ, e, hθ⟩ := hall (j2 + j3) hab.le (le_refl _)
    have hθp : 0 < θ := lt_of_lt_of_le (pow_pos (by linarith) _) hθ.1
    rw [h, htop] at e
    rw [e] at hgs
    have : 0 < t * θ := mul_pos ht hθp
    rcases negOnePow_cases (j2 - j3 + 0 + 0) with q | q <;> rw [q.1, q.2] at hgs <;> push_cast at hgs <;> nlinarith
  intro i q1 q2
  have := hall i q1 q2
  rwa [hε1, one_mul] at this

end SF
