import Verif.Model.Wigner3j
import Verif.Lemmas.ThreeJEnds

/-!
# `Wigner3jCalculator.calculate` computes the Racah formula
-/

set_option autoImplicit false

namespace SF

open Spec Finset

/-! ### Normalisation and signs -/

theorem sum_Icc_step (a k : ℤ) (h : a ≤ k) (g : ℤ → ℝ) :
    ∑ j ∈ Icc a k, g j = ∑ j ∈ Icc a (k - 1), g j + g k := by
  have : Icc a k = insert k (Icc a (k - 1)) := by ext x; simp only [mem_Icc, mem_insert]; omega
  rw [this, sum_insert (by simp), add_comm]

theorem w3normalize_spec {f : List ℝ} {a b : ℤ} {v : ℤ → ℝ} (h0 : 0 ≤ a) (hab : a ≤ b) (h : Has f a b v) :
    w3normalize f a b = .ok (mapSlice f a (b + 1) fun x => x / Real.sqrt (∑ j ∈ Icc a b, (2 * (j : ℝ) + 1) * v j ^ 2)) := by
  obtain ⟨s, h1, h2⟩ := forR_inv a (b + 1) (by omega) (fun k s => s = ∑ j ∈ Icc a (k - 1), (2 * (j : ℝ) + 1) * v j ^ 2) (0 : ℝ)
    (fun j norm => do
      let v ← rd f j
      return norm + (2 * j + 1) * v ^ 2) (by simp)
    (fun i s i1 i2 hs => by
      refine ⟨s + (2 * i + 1) * v i ^ 2, ?_, ?_⟩
      · rw [h.rd (by omega) i1 (by omega)]; rfl
      · rw [add_sub_cancel_right, sum_Icc_step a i i1, hs])
  unfold w3normalize
  rw [h1, h2, add_sub_cancel_right]; rfl

theorem negOnePow_eq (n : ℤ) : ((negOnePow n : ℤ) : ℝ) = (-1 : ℝ) ^ n := by
  unfold negOnePow
  rcases Int.even_or_odd n with h | h
  · rw [h.neg_one_zpow, if_pos (Int.even_iff.1 h)]; simp
  · rw [h.neg_one_zpow, if_neg (by rw [Int.odd_iff.1 h]; norm_num)]; simp

theorem negOnePow_cases (n : ℤ) : (negOnePow n = 1 ∧ (-1 : ℝ) ^ n = 1) ∨ (negOnePow n = -1 ∧ (-1 : ℝ) ^ n = -1) := by
  have := negOnePow_eq n
  have h2 : negOnePow n = 1 ∨ negOnePow n = -1 := by unfold negOnePow; split <;> simp
  rcases h2 with h | h <;> rw [h] at this <;> simp at this
  · exact Or.inl ⟨h, this.symm⟩
  · exact Or.inr ⟨h, this.symm⟩

/-- Normalisation followed by the choice of signs recovers the row from any multiple of it. -/
theorem finish_spec {f : List ℝ} {a b j2 j3 m2 m3 : ℤ} {w : ℤ → ℝ} {μ : ℝ} (h0 : 0 ≤ a) (hab : a ≤ b) (hμ : μ ≠ 0)
    (h : Has f a b (fun i => μ * w i)) (hn : ∑ j ∈ Icc a b, (2 * (j : ℝ) + 1) * w j ^ 2 = 1)
    (hs : ∃ t, 0 < t ∧ w b = (-1 : ℝ) ^ (j2 - j3 + m2 + m3) * t) :
    ∃ f', (do let f ← w3normalize f a b; w3signs f a b j2 j3 m2 m3) = .ok f' ∧ f'.length = f.length ∧ Has f' a b w ∧
      ∀ i : ℕ, (i : ℤ) < a ∨ b < i → f'[i]? = f[i]? := by
  have hnorm : ∑ j ∈ Icc a b, (2 * (j : ℝ) + 1) * (μ * w j) ^ 2 = μ ^ 2 := by
    calc _ = ∑ j ∈ Icc a b, μ ^ 2 * ((2 * (j : ℝ) + 1) * w j ^ 2) := sum_congr rfl fun _ _ => by ring
      _ = _ := by rw [← mul_sum, hn, mul_one]
  simp only [bind, Except.bind]
  rw [w3normalize_spec h0 hab h, hnorm, Real.sqrt_sq_eq_abs]
  have hη : Has (mapSlice f a (b + 1) fun x => x / |μ|) a b (fun i => μ * w i / |μ|) := h.mapSlice (g := fun x => x / |μ|) h0 (le_refl _) (by omega)
  have hoth : ∀ (f : List ℝ) (g : ℝ → ℝ) (i : ℕ), (i : ℤ) < a ∨ b < i → (mapSlice f a (b + 1) g)[i]? = f[i]? := by
    intro f g i hi
    rw [mapSlice_getElem?]
    cases f[i]? with
    | none => rfl
    | some x => simp only [Option.map_some]; rw [if_neg (by omega)]
  simp only [w3signs, bind, Except.bind]
  rw [hη.rd (by omega) hab (le_refl _)]
  simp only
  obtain ⟨t, ht, hwb⟩ := hs
  have hμa : 0 < |μ| := abs_pos.2 hμ
  rcases lt_or_gt_of_ne hμ with hneg | hpos
  · -- sign −1
    have e : ∀ x : ℝ, μ * x / |μ| = -x := by intro x; rw [abs_of_neg hneg]; field_simp
    simp only [e] at hη ⊢
    rw [if_pos]
    · refine ⟨_, rfl, by rw [mapSlice_length, mapSlice_length], ?_, ?_⟩
      · exact (hη.mapSlice (g := fun v => v * -1) h0 (le_refl _) (by omega)).congr fun i _ _ => by ring
      · intro i hi
        rw [hoth _ _ i hi, hoth _ _ i hi]
    · rcases negOnePow_cases (j2 - j3 + m2 + m3) with ⟨q1, q2⟩ | ⟨q1, q2⟩
      · left; rw [q1, hwb, q2]; exact ⟨by linarith, by norm_num⟩
      · right; rw [q1, hwb, q2]; exact ⟨by linarith, by norm_num⟩
  · have e : ∀ x : ℝ, μ * x / |μ| = x := by intro x; rw [abs_of_pos hpos]; field_simp
    simp only [e] at hη ⊢
    rw [if_neg]
    · exact ⟨_, rfl, by rw [mapSlice_length], hη, fun i hi => hoth _ _ i hi⟩
    · rcases negOnePow_cases (j2 - j3 + m2 + m3) with ⟨q1, q2⟩ | ⟨q1, q2⟩
      · rw [q1, hwb, q2]
        rintro (⟨h, _⟩ | ⟨_, h⟩)
        · linarith
        · norm_num at h
      · rw [q1, hwb, q2]
        rintro (⟨_, h⟩ | ⟨h, _⟩)
        · norm_num at h
        · linarith

/-! ### Range of the integers -/

/-- The integers that occur in the recurrence coefficients fit their types (the coefficient of the middle term is declared
as a 32-bit integer, the radicand is computed in 64 bits). -/
structure W3Fits (j2 j3 m2 m3 : ℤ) : Prop where
  size : j2 + j3 + 1 < 2 ^ 31
  mid : ∀ j, max |j2 - j3| |m2 + m3| ≤ j → j ≤ j2 + j3 →
    |(2 * j + 1) * ((m2 + m3) * (j2 * (j2 + 1) - j3 * (j3 + 1)) - (m2 - m3) * j * (j + 1))| < 2 ^ 31
  rad : ∀ j, max |j2 - j3| |m2 + m3| ≤ j → j ≤ j2 + j3 + 1 →
    (j ^ 2 - (j2 - j3) ^ 2) * ((j2 + j3 + 1) ^ 2 - j ^ 2) * (j ^ 2 - (m2 + m3) ^ 2) < 2 ^ 63

theorem i32_id {x : ℤ} (h : |x| < 2 ^ 31) : i32 x = x := by
  rw [abs_lt] at h; unfold i32; omega

theorem i64_id {x : ℤ} (h0 : 0 ≤ x) (h : x < 2 ^ 63) : i64 x = x := by
  unfold i64; omega

/-- Up to `j2 + j3 = 151` everything fits. -/
theorem W3Fits.of_le {j2 j3 m2 m3 : ℤ} (h2 : |m2| ≤ j2) (h3 : |m3| ≤ j3) (h : j2 + j3 ≤ 151) : W3Fits j2 j3 m2 m3 := by
  have h2' := abs_le.1 h2
  have h3' := abs_le.1 h3
  have p2 : 0 ≤ j2 := by omega
  have p3 : 0 ≤ j3 := by omega
  have hq0 : 0 ≤ j2 + j3 := by omega
  refine ⟨by omega, ?_, ?_⟩
  · intro j hj hj'
    have hj0 : 0 ≤ j := (abs_nonneg _).trans ((le_max_left _ _).trans hj)
    have hm : |m2 + m3| ≤ j := (le_max_right _ _).trans hj
    have hp : |j2 - j3| ≤ j := (le_max_left _ _).trans hj
    have e : j2 * (j2 + 1) - j3 * (j3 + 1) = (j2 - j3) * (j2 + j3 + 1) := by ring
    rw [e]
    have a1 : |(m2 + m3) * ((j2 - j3) * (j2 + j3 + 1))| ≤ j * (j * (j2 + j3 + 1)) := by
      rw [abs_mul, abs_mul, abs_of_nonneg (show 0 ≤ j2 + j3 + 1 by omega)]
      exact mul_le_mul hm (mul_le_mul_of_nonneg_right hp (by omega)) (by positivity) hj0
    have hd : |m2 - m3| ≤ j2 + j3 := abs_le.2 (by omega)
    have a2 : |(m2 - m3) * j * (j + 1)| ≤ (j2 + j3) * j * (j + 1) := by
      rw [abs_mul, abs_mul, abs_of_nonneg hj0, abs_of_nonneg (show 0 ≤ j + 1 by omega)]
      exact mul_le_mul_of_nonneg_right (mul_le_mul_of_nonneg_right hd hj0) (by omega)
    have a3 : |(m2 + m3) * ((j2 - j3) * (j2 + j3 + 1)) - (m2 - m3) * j * (j + 1)|
        ≤ j * (j * (j2 + j3 + 1)) + (j2 + j3) * j * (j + 1) := (abs_sub _ _).trans (add_le_add a1 a2)
    rw [abs_mul, abs_of_nonneg (show 0 ≤ 2 * j + 1 by omega)]
    have b1 : j * (j * (j2 + j3 + 1)) ≤ 151 * (151 * 152) :=
      mul_le_mul (by omega) (mul_le_mul (by omega) (by omega) (by omega) (by norm_num)) (mul_nonneg hj0 (by omega)) (by norm_num)
    have b2 : (j2 + j3) * j * (j + 1) ≤ 151 * 151 * 152 :=
      mul_le_mul (mul_le_mul h (by omega) hj0 (by norm_num)) (by omega) (by omega) (by norm_num)
    calc (2 * j + 1) * |(m2 + m3) * ((j2 - j3) * (j2 + j3 + 1)) - (m2 - m3) * j * (j + 1)|
        ≤ 303 * (151 * (151 * 152) + 151 * 151 * 152) :=
          mul_le_mul (by omega) (a3.trans (add_le_add b1 b2)) (abs_nonneg _) (by norm_num)
      _ < 2 ^ 31 := by norm_num
  · intro j hj hj'
    have hj0 : 0 ≤ j := (abs_nonneg _).trans ((le_max_left _ _).trans hj)
    have hm : |m2 + m3| ≤ j := (le_max_right _ _).trans hj
    have hp : |j2 - j3| ≤ j := (le_max_left _ _).trans hj
    have c1 : 0 ≤ j ^ 2 - (j2 - j3) ^ 2 := by
      rw [sub_nonneg]; exact sq_le_sq' (by rw [abs_le] at hp; omega) ((le_abs_self _).trans hp)
    have c2 : 0 ≤ j ^ 2 - (m2 + m3) ^ 2 := by
      rw [sub_nonneg]; exact sq_le_sq' (by rw [abs_le] at hm; omega) ((le_abs_self _).trans hm)
    have c3 : 0 ≤ (j2 + j3 + 1) ^ 2 - j ^ 2 := by rw [sub_nonneg]; exact pow_le_pow_left₀ hj0 hj' 2
    have hjs : j ^ 2 ≤ 152 ^ 2 := pow_le_pow_left₀ hj0 (by omega) 2
    have hqs : (j2 + j3 + 1) ^ 2 ≤ 152 ^ 2 := pow_le_pow_left₀ (by omega) (by omega) 2
    have d1 : j ^ 2 - (j2 - j3) ^ 2 ≤ 152 ^ 2 := by nlinarith [sq_nonneg (j2 - j3)]
    have d2 : j ^ 2 - (m2 + m3) ^ 2 ≤ 152 ^ 2 := by nlinarith [sq_nonneg (m2 + m3)]
    have d3 : (j2 + j3 + 1) ^ 2 - j ^ 2 ≤ 152 ^ 2 := by nlinarith [sq_nonneg j]
    calc _ ≤ (152 ^ 2 : ℤ) * 152 ^ 2 * 152 ^ 2 :=
          mul_le_mul (mul_le_mul d1 d3 c3 (by norm_num)) d2 c2 (by norm_num)
      _ < 2 ^ 63 := by norm_num

/-! ### The coefficients -/

section coeff
variable {j2 j3 m2 m3 : ℤ}

theorem w3A_eq (h2 : |m2| ≤ j2) (h3 : |m3| ≤ j3) (hfit : W3Fits j2 j3 m2 m3) {j : ℤ}
    (hj : max |j2 - j3| |m2 + m3| ≤ j) (hj' : j ≤ j2 + j3 + 1) :
    w3A j j2 j3 (-(m2 + m3)) = recA j2 j3 (-(m2 + m3)) j := by
  have h2' := abs_le.1 h2
  have h3' := abs_le.1 h3
  have hs := hfit.size
  have hj0 : 0 ≤ j := (abs_nonneg _).trans ((le_max_left _ _).trans hj)
  have hm : |m2 + m3| ≤ j := (le_max_right _ _).trans hj
  have hp : |j2 - j3| ≤ j := (le_max_left _ _).trans hj
  unfold w3A recA
  simp only
  rw [i32_id (abs_lt.2 (by omega) : |j| < 2 ^ 31), i32_id (abs_lt.2 (by omega) : |j2| < 2 ^ 31),
    i32_id (abs_lt.2 (by omega) : |j3| < 2 ^ 31), i32_id (abs_lt.2 (by omega) : |-(m2 + m3)| < 2 ^ 31), i64_id]
  · have c1 : 0 ≤ j ^ 2 - (j2 - j3) ^ 2 := by
      rw [sub_nonneg]; exact sq_le_sq' (by rw [abs_le] at hp; omega) ((le_abs_self _).trans hp)
    have c2 : 0 ≤ j ^ 2 - (-(m2 + m3)) ^ 2 := by
      rw [neg_sq, sub_nonneg]; exact sq_le_sq' (by rw [abs_le] at hm; omega) ((le_abs_self _).trans hm)
    have c3 : 0 ≤ (j2 + j3 + 1) ^ 2 - j ^ 2 := by rw [sub_nonneg]; exact pow_le_pow_left₀ hj0 hj' 2
    exact mul_nonneg (mul_nonneg c1 c3) c2
  · have := hfit.rad j hj hj'
    rwa [neg_sq]

theorem w3B_eq (h2 : |m2| ≤ j2) (h3 : |m3| ≤ j3) (hfit : W3Fits j2 j3 m2 m3) {j : ℤ}
    (hj : max |j2 - j3| |m2 + m3| ≤ j) (hj' : j ≤ j2 + j3) :
    w3B j j2 j3 m2 m3 = (2 * j + 1) * ((m2 + m3) * (j2 * (j2 + 1) - j3 * (j3 + 1)) - (m2 - m3) * j * (j + 1)) := by
  have h2' := abs_le.1 h2
  have h3' := abs_le.1 h3
  have hs := hfit.size
  have hj0 : 0 ≤ j := (abs_nonneg _).trans ((le_max_left _ _).trans hj)
  unfold w3B
  simp only
  rw [i32_id (abs_lt.2 (by omega) : |j| < 2 ^ 31), i32_id (abs_lt.2 (by omega) : |j2| < 2 ^ 31),
    i32_id (abs_lt.2 (by omega) : |j3| < 2 ^ 31), i32_id (abs_lt.2 (by omega) : |m2| < 2 ^ 31),
    i32_id (abs_lt.2 (by omega) : |m3| < 2 ^ 31), i32_id (hfit.mid j hj hj')]

/-- The coefficients of the code satisfy the hypotheses of the abstract analysis. -/
theorem tri_row (h2 : |m2| ≤ j2) (h3 : |m3| ≤ j3) (hfit : W3Fits j2 j3 m2 m3) (hab : max |j2 - j3| |m2 + m3| < j2 + j3) :
    Tri (fun j => w3X j j2 j3 (-(m2 + m3))) (fun j => ((w3B j j2 j3 m2 m3 : ℤ) : ℝ)) (fun j => w3Z j j2 j3 (-(m2 + m3)))
      (row3 j2 j3 m2 m3) (max |j2 - j3| |m2 + m3|) (j2 + j3) := by
  have hs := hfit.size
  have ha0 : 0 ≤ max |j2 - j3| |m2 + m3| := (abs_nonneg _).trans (le_max_left _ _)
  have hX : ∀ j, max |j2 - j3| |m2 + m3| ≤ j → j ≤ j2 + j3 → w3X j j2 j3 (-(m2 + m3)) = (j : ℝ) * recA j2 j3 (-(m2 + m3)) (j + 1) := by
    intro j a b
    unfold w3X
    rw [i32_id (abs_lt.2 (by omega) : |j| < 2 ^ 31), w3A_eq h2 h3 hfit (by omega) (by omega)]
  have hZ : ∀ j, max |j2 - j3| |m2 + m3| ≤ j → j ≤ j2 + j3 → w3Z j j2 j3 (-(m2 + m3)) = ((j : ℝ) + 1) * recA j2 j3 (-(m2 + m3)) j := by
    intro j a b
    unfold w3Z
    rw [i32_id (abs_lt.2 (by omega) : |j| < 2 ^ 31), w3A_eq h2 h3 hfit a (by omega)]
    push_cast; ring
  have heqn : ∀ j, max |j2 - j3| |m2 + m3| ≤ j → j ≤ j2 + j3 →
      w3X j j2 j3 (-(m2 + m3)) * row3 j2 j3 m2 m3 (j + 1) + ((w3B j j2 j3 m2 m3 : ℤ) : ℝ) * row3 j2 j3 m2 m3 j
        + w3Z j j2 j3 (-(m2 + m3)) * row3 j2 j3 m2 m3 (j - 1) = 0 := by
    intro j a b
    rw [hX j a b, hZ j a b, w3B_eq h2 h3 hfit a b]
    exact threeJ_recurrence (by ring) ((le_max_left _ _).trans a) (by rw [abs_neg]; exact (le_max_right _ _).trans a) b
  have hXpos : ∀ j, max |j2 - j3| |m2 + m3| ≤ j → 0 < j → j < j2 + j3 → 0 < w3X j j2 j3 (-(m2 + m3)) := by
    intro j a p b
    rw [hX j a b.le]
    exact mul_pos (by exact_mod_cast p) (recA_pos (by rw [abs_neg]; omega) (by omega))
  have hwb := row3_top_ne h2 h3
  have hZa : w3Z (max |j2 - j3| |m2 + m3|) j2 j3 (-(m2 + m3)) = 0 := by
    rw [hZ _ (le_refl _) hab.le]
    have := recA_bot j2 j3 (-(m2 + m3))
    rw [abs_neg] at this
    rw [this, mul_zero]
  refine ⟨ha0, hab, heqn, hXpos, ?_, ?_, ?_, hZa, ?_, hwb⟩
  · intro j a b
    rw [hZ j a.le b]
    exact mul_pos (by exact_mod_cast (by omega : 0 < j + 1)) (recA_pos (by rw [abs_neg]; exact a) b)
  · intro h
    rw [hX _ (le_refl _) hab.le, h]; simp
  · rw [hX _ hab.le (le_refl _), recA_top, mul_zero]
  · by_cases h0 : max |j2 - j3| |m2 + m3| = 0
    · rw [h0]
      have e1 : |j2 - j3| = 0 := le_antisymm (h0 ▸ le_max_left _ _) (abs_nonneg _)
      have e2 : |m2 + m3| = 0 := le_antisymm (h0 ▸ le_max_right _ _) (abs_nonneg _)
      rw [abs_eq_zero] at e1 e2
      obtain rfl : j3 = j2 := by omega
      obtain rfl : m3 = -m2 := by omega
      exact row3_zero_ne h2
    · intro hz
      obtain ⟨a, ha⟩ : ∃ a, a = max |j2 - j3| |m2 + m3| := ⟨_, rfl⟩
      simp only [← ha] at heqn hXpos hab hZa hz h0 ha0
      have key : ∀ n : ℕ, a + n + 1 ≤ j2 + j3 → row3 j2 j3 m2 m3 (a + n) = 0 ∧ row3 j2 j3 m2 m3 (a + n + 1) = 0 := by
        intro n
        induction n with
        | zero =>
          intro hb
          have e := heqn a (le_refl _) hab.le
          rw [hz, hZa] at e
          simp only [mul_zero, zero_mul, add_zero] at e
          have := (mul_eq_zero.1 e).resolve_left (hXpos a (le_refl _) (by omega) hab).ne'
          simp [hz, this]
        | succ n ih =>
          intro hb
          push_cast at hb ⊢
          obtain ⟨i1, i2⟩ := ih (by omega)
          have e := heqn (a + n + 1) (by omega) (by omega)
          rw [i2, show a + (n : ℤ) + 1 - 1 = a + n by ring, i1] at e
          simp only [mul_zero, add_zero] at e
          have := (mul_eq_zero.1 e).resolve_left (hXpos (a + n + 1) (by omega) (by omega) (by omega)).ne'
          exact ⟨by rw [← add_assoc]; exact i2, by rw [← add_assoc]; exact this⟩
      have := (key (j2 + j3 - 1 - a).toNat (by omega)).2
      rw [show a + ((j2 + j3 - 1 - a).toNat : ℤ) + 1 = j2 + j3 by omega] at this
      exact hwb this


/-- Below the radius `sqrt((jmin² + (jmax+1)²)/2)` the values next to a zero decrease. -/
theorem row3_decr (h2 : |m2| ≤ j2) (h3 : |m3| ≤ j3) {k : ℤ} (ha : max |j2 - j3| |m2 + m3| < k)
    (hb : k < j2 + j3) (hz : row3 j2 j3 m2 m3 k = 0) (hne : row3 j2 j3 m2 m3 (k - 1) ≠ 0)
    (hk : 2 * (k + 1) ^ 2 ≤ max |j2 - j3| |m2 + m3| ^ 2 + (j2 + j3 + 1) ^ 2) :
    |row3 j2 j3 m2 m3 (k + 1)| < |row3 j2 j3 m2 m3 (k - 1)| := by
  have hk0 : 0 < k := lt_of_le_of_lt ((abs_nonneg _).trans (le_max_left _ _)) ha
  have e := threeJ_recurrence (j2 := j2) (j3 := j3) (m1 := -(m2 + m3)) (m2 := m2) (m3 := m3) (j := k) (by ring)
    ((le_max_left _ _).trans ha.le) (by rw [abs_neg]; exact (le_max_right _ _).trans ha.le) hb.le
  change _ * row3 j2 j3 m2 m3 (k + 1) + _ * row3 j2 j3 m2 m3 k + _ * row3 j2 j3 m2 m3 (k - 1) = 0 at e
  rw [hz, mul_zero, add_zero] at e
  have p1 := recA_pos (j2 := j2) (j3 := j3) (m := -(m2 + m3)) (x := k) (by rw [abs_neg]; exact ha) hb.le
  have p2 := recA_pos (j2 := j2) (j3 := j3) (m := -(m2 + m3)) (x := k + 1) (by rw [abs_neg]; omega) (by omega)
  have hkR : (0 : ℝ) < k := by exact_mod_cast hk0
  -- the integer inequality between the squares of the coefficients
  have hint : (k + 1) ^ 2 * ((k ^ 2 - (j2 - j3) ^ 2) * ((j2 + j3 + 1) ^ 2 - k ^ 2) * (k ^ 2 - (-(m2 + m3)) ^ 2))
      < k ^ 2 * (((k + 1) ^ 2 - (j2 - j3) ^ 2) * ((j2 + j3 + 1) ^ 2 - (k + 1) ^ 2) * ((k + 1) ^ 2 - (-(m2 + m3)) ^ 2)) := by
    have gen : ∀ P M x y Q : ℤ, 0 ≤ M → M < x → P < x → x < y → y ≤ Q → 2 * y ≤ P + Q →
        y * ((x - P) * (Q - x) * (x - M)) < x * ((y - P) * (Q - y) * (y - M)) := by
      intro P M x y Q h0 h1 h2 h3 h4 h5
      have a1 : (x - P) * (Q - x) < (y - P) * (Q - y) := by nlinarith
      have a2 : y * (x - M) ≤ x * (y - M) := by nlinarith
      have a3 : 0 < (x - P) * (Q - x) := mul_pos (by omega) (by omega)
      have a4 : 0 < y * (x - M) := mul_pos (by omega) (by omega)
      calc y * ((x - P) * (Q - x) * (x - M)) = ((x - P) * (Q - x)) * (y * (x - M)) := by ring
        _ < ((y - P) * (Q - y)) * (y * (x - M)) := mul_lt_mul_of_pos_right a1 a4
        _ ≤ ((y - P) * (Q - y)) * (x * (y - M)) := mul_le_mul_of_nonneg_left a2 (a3.trans a1).le
        _ = _ := by ring
    have q1 : |j2 - j3| < k := lt_of_le_of_lt (le_max_left _ _) ha
    have q2 : |m2 + m3| < k := lt_of_le_of_lt (le_max_right _ _) ha
    have s1 : (j2 - j3) ^ 2 < k ^ 2 := sq_lt_sq' (by rw [abs_lt] at q1; omega) (lt_of_le_of_lt (le_abs_self _) q1)
    have s2 : (m2 + m3) ^ 2 < k ^ 2 := sq_lt_sq' (by rw [abs_lt] at q2; omega) (lt_of_le_of_lt (le_abs_self _) q2)
    have s3 : k ^ 2 < (k + 1) ^ 2 := by nlinarith
    have s4 : (k + 1) ^ 2 ≤ (j2 + j3 + 1) ^ 2 := pow_le_pow_left₀ (by omega) (by omega) 2
    rw [neg_sq]
    rcases max_choice |j2 - j3| |m2 + m3| with h | h <;> rw [h, sq_abs] at hk
    · exact gen _ _ _ _ _ (sq_nonneg _) s2 s1 s3 s4 hk
    · have := gen _ _ _ _ _ (sq_nonneg _) s1 s2 s3 s4 hk
      calc _ = (k + 1) ^ 2 * ((k ^ 2 - (m2 + m3) ^ 2) * ((j2 + j3 + 1) ^ 2 - k ^ 2) * (k ^ 2 - (j2 - j3) ^ 2)) := by ring
        _ < _ := this
        _ = _ := by ring
  have hlt : ((k : ℝ) + 1) * recA j2 j3 (-(m2 + m3)) k < k * recA j2 j3 (-(m2 + m3)) (k + 1) := by
    apply lt_of_pow_lt_pow_left₀ 2 (by positivity)
    have n1 : 0 ≤ (((k ^ 2 - (j2 - j3) ^ 2) * ((j2 + j3 + 1) ^ 2 - k ^ 2) * (k ^ 2 - (-(m2 + m3)) ^ 2) : ℤ) : ℝ) :=
      (Real.sqrt_pos.1 p1).le
    have n2 : 0 ≤ ((((k + 1) ^ 2 - (j2 - j3) ^ 2) * ((j2 + j3 + 1) ^ 2 - (k + 1) ^ 2) * ((k + 1) ^ 2 - (-(m2 + m3)) ^ 2) : ℤ) : ℝ) :=
      (Real.sqrt_pos.1 p2).le
    rw [mul_pow, mul_pow]
    unfold recA
    rw [Real.sq_sqrt n1, Real.sq_sqrt n2]
    exact_mod_cast hint
  have e' : (k * recA j2 j3 (-(m2 + m3)) (k + 1)) * |row3 j2 j3 m2 m3 (k + 1)|
      = (((k : ℝ) + 1) * recA j2 j3 (-(m2 + m3)) k) * |row3 j2 j3 m2 m3 (k - 1)| := by
    rw [← abs_of_pos (show 0 < k * recA j2 j3 (-(m2 + m3)) (k + 1) by positivity), ← abs_mul,
      ← abs_of_pos (show 0 < ((k : ℝ) + 1) * recA j2 j3 (-(m2 + m3)) k by positivity), ← abs_mul,
      show (k : ℝ) * recA j2 j3 (-(m2 + m3)) (k + 1) * row3 j2 j3 m2 m3 (k + 1)
        = -(((k : ℝ) + 1) * recA j2 j3 (-(m2 + m3)) k * row3 j2 j3 m2 m3 (k - 1)) by linarith, abs_neg]
  have hpos := abs_pos.2 hne
  by_contra hcon
  push Not at hcon
  have : (((k : ℝ) + 1) * recA j2 j3 (-(m2 + m3)) k) * |row3 j2 j3 m2 m3 (k - 1)|
      < (k * recA j2 j3 (-(m2 + m3)) (k + 1)) * |row3 j2 j3 m2 m3 (k + 1)| :=
    lt_of_lt_of_le (mul_lt_mul_of_pos_right hlt hpos) (mul_le_mul_of_nonneg_left hcon (by positivity))
  linarith

theorem row3_norm (h2 : |m2| ≤ j2) (h3 : |m3| ≤ j3) :
    ∑ j ∈ Icc (max |j2 - j3| |m2 + m3|) (j2 + j3), (2 * (j : ℝ) + 1) * row3 j2 j3 m2 m3 j ^ 2 = 1 := by
  have := threeJ_orth_j (j2 := j2) (j3 := j3) (m1 := -(m2 + m3)) (m2 := m2) (m2' := m2) h2
    (by rw [show - -(m2 + m3) - m2 = m3 by ring]; exact h3) h2 (by rw [show - -(m2 + m3) - m2 = m3 by ring]; exact h3)
  rw [if_pos rfl, abs_neg, show - -(m2 + m3) - m2 = m3 by ring] at this
  refine Eq.trans (sum_congr rfl fun j _ => ?_) this
  rw [row3, sq]

theorem row3_top_sign (h2 : |m2| ≤ j2) (h3 : |m3| ≤ j3) :
    ∃ t, 0 < t ∧ row3 j2 j3 m2 m3 (j2 + j3) = (-1 : ℝ) ^ (j2 - j3 + m2 + m3) * t := by
  refine ⟨_, ?_, row3_eq j2 j3 m2 m3 (j2 + j3)⟩
  have := row3_top h2 h3
  have := muF_pos j2 m2
  have := muF_pos j3 m3
  have := rowT_pos j2 j3 (-(m2 + m3)) (j2 + j3)
  positivity

theorem row3_outside {i : ℤ} (h : i < max |j2 - j3| |m2 + m3| ∨ j2 + j3 < i) : row3 j2 j3 m2 m3 i = 0 := by
  apply threeJ_eq_zero
  rintro ⟨_, a1, _, _, a4, a5⟩
  rw [abs_neg] at a1
  rcases h with h | h
  · have := max_le a4 a1; omega
  · omega

/-- An array of length `n` that holds the values of `v`. -/
def Holds (f : List ℝ) (n : ℕ) (v : ℤ → ℝ) : Prop := f.length = n ∧ ∀ i : ℕ, i < n → f[i]? = some (v i)

theorem holds_row {f f0 : List ℝ} {n : ℕ} (h0 : ∀ i : ℕ, i < n → f0[i]? = some 0) (hl : f.length = n)
    (hh : Has f (max |j2 - j3| |m2 + m3|) (j2 + j3) (row3 j2 j3 m2 m3))
    (ho : ∀ i : ℕ, (i : ℤ) < max |j2 - j3| |m2 + m3| ∨ j2 + j3 < i → f[i]? = f0[i]?) : Holds f n (row3 j2 j3 m2 m3) := by
  refine ⟨hl, fun i hi => ?_⟩
  by_cases h : (i : ℤ) < max |j2 - j3| |m2 + m3| ∨ j2 + j3 < i
  · rw [ho i h, h0 i hi, row3_outside h]
  · have := hh i (by omega) (by omega)
    simpa using this

/-- What has to happen on a row with range `[a, b]` for the upward recursion to divide by zero: up to some `jm` the values keep
their sign and do not decrease; after that, and well below the middle of `jm` and `b`, there is a zero `k` whose neighbour above
is at least as large as its neighbour below. -/
def RiskyZero (w : ℤ → ℝ) (a b : ℤ) : Prop :=
  ∃ jm k, a + 2 ≤ jm ∧ jm + 2 ≤ k ∧ 2 * k + 5 ≤ jm + b ∧ (∀ i, a < i → i ≤ jm → 0 < w i * w (i + 1) ∧ |w i| ≤ |w (i + 1)|) ∧
    w k = 0 ∧ |w (k - 1)| ≤ |w (k + 1)| ∧ ∀ i, jm ≤ i → i < k → |w (i - 1)| ≤ |w (i + 1)| ∨ w (i + 1) = 0

set_option maxHeartbeats 800000 in
/-- The computation on the four slices. -/
theorem w3run_spec {w : W3Work} {n : ℕ} (hn : j2 + j3 < n) (hsf : w.sf.length = n) (hFm : w.F_minus.length = n)
    (hFp : w.F_plus.length = n) (hf0 : ∀ i : ℕ, i < n → w.f[i]? = some 0) (hfl : w.f.length = n)
    (hFm0 : ∀ i : ℕ, i < n → w.F_minus[i]? = some 0)
    (hfit : |m2| ≤ j2 → |m3| ≤ j3 → W3Fits j2 j3 m2 m3) :
    (∃ w', w3run w j2 j3 m2 m3 = .ok w' ∧ w'.sf.length = n ∧ w'.F_minus.length = n ∧ w'.F_plus.length = n ∧
      Holds w'.f n (row3 j2 j3 m2 m3)) ∨
    (w3run w j2 j3 m2 m3 = .error .zeroDivision ∧ ¬ (m2 = 0 ∧ m3 = 0) ∧
      RiskyZero (row3 j2 j3 m2 m3) (max |j2 - j3| |m2 + m3|) (j2 + j3)) := by
  by_cases hsel : |m2| > j2 ∨ |m3| > j3
  · left
    refine ⟨w, by simp only [w3run]; rw [if_pos hsel]; rfl, hsf, hFm, hFp, hfl, fun i hi => ?_⟩
    rw [hf0 i hi, row3, threeJ_eq_zero]
    rintro ⟨_, _, a2, a3, _⟩
    omega
  have h2 : |m2| ≤ j2 := by push Not at hsel; exact hsel.1
  have h3 : |m3| ≤ j3 := by push Not at hsel; exact hsel.2
  have hfit := hfit h2 h3
  have h2' := abs_le.1 h2
  have h3' := abs_le.1 h3
  have hle : max |j2 - j3| |m2 + m3| ≤ j2 + j3 := max_le (abs_le.2 (by omega)) (abs_le.2 (by omega))
  have ha0 : 0 ≤ max |j2 - j3| |m2 + m3| := (abs_nonneg _).trans (le_max_left _ _)
  have hnorm := row3_norm h2 h3
  have hsign := row3_top_sign h2 h3
  by_cases heq : j2 + j3 = max |j2 - j3| |m2 + m3|
  · -- one value
    left
    rw [← heq] at hnorm
    simp only [Icc_self, sum_singleton] at hnorm
    have hq0 : (0 : ℝ) < 2 * ((j2 + j3 : ℤ) : ℝ) + 1 := by
      have : (0 : ℝ) ≤ ((j2 + j3 : ℤ) : ℝ) := by exact_mod_cast (by omega : 0 ≤ j2 + j3)
      linarith
    have hr0 := Real.sqrt_pos.2 hq0
    obtain ⟨t, ht, hw⟩ := hsign
    have htv : t = 1 / Real.sqrt (2 * ((j2 + j3 : ℤ) : ℝ) + 1) := by
      have hs1 : ((-1 : ℝ) ^ (j2 - j3 + m2 + m3)) ^ 2 = 1 := by
        rcases negOnePow_cases (j2 - j3 + m2 + m3) with ⟨_, q⟩ | ⟨_, q⟩ <;> rw [q] <;> norm_num
      rw [hw, mul_pow, hs1, one_mul] at hnorm
      have : t ^ 2 = (1 / Real.sqrt (2 * ((j2 + j3 : ℤ) : ℝ) + 1)) ^ 2 := by
        rw [div_pow, Real.sq_sqrt hq0.le, one_pow]; field_simp; linarith
      exact (pow_left_inj₀ ht.le (by positivity) (by norm_num)).1 this
    have hset : ∀ v : ℝ, v = row3 j2 j3 m2 m3 (j2 + j3) → Holds (w.f.set (j2 + j3).toNat v) n (row3 j2 j3 m2 m3) := by
      intro v hv
      refine ⟨by simp [hfl], fun i hi => ?_⟩
      by_cases hij : i = (j2 + j3).toNat
      · rw [hij, List.getElem?_set_self (by omega), hv]
        rw [show (((j2 + j3).toNat : ℕ) : ℤ) = j2 + j3 by omega]
      · rw [List.getElem?_set_ne (by omega), hf0 i hi, row3_outside]
        omega
    have hrd : ∀ v, rd (w.f.set (j2 + j3).toNat v) (j2 + j3) = .ok v :=
      fun v => rd_ok (by omega) (List.getElem?_set_self (by omega))
    simp only [w3run, bind, Except.bind]
    rw [if_neg hsel, ← heq, if_neg (lt_irrefl _), if_pos rfl, pyDiv_ok hr0.ne']
    simp only
    rw [wr_ok (by omega) (by omega)]
    simp only
    rw [hrd]
    simp only
    rw [← htv]
    rcases negOnePow_cases (j2 - j3 + m2 + m3) with ⟨q1, q2⟩ | ⟨q1, q2⟩
    · rw [if_neg (by rw [q1]; rintro (⟨h, _⟩ | ⟨_, h⟩); · linarith
                     · norm_num at h)]
      exact ⟨_, rfl, hsf, hFm, hFp, hset t (by rw [hw, q2, one_mul])⟩
    · rw [if_pos (by rw [q1]; exact Or.inr ⟨ht, by norm_num⟩), wr_ok (by omega) (by simp; omega), List.set_set]
      exact ⟨_, rfl, hsf, hFm, hFp, hset (t * -1) (by rw [hw, q2]; ring)⟩
  have hab : max |j2 - j3| |m2 + m3| < j2 + j3 := by omega
  have H := tri_row h2 h3 hfit hab
  have hm1 : ∀ {P : Prop}, ((-(m2 + m3) = 0 ∧ m2 = 0 ∧ m3 = 0) → P) ↔ ((m2 = 0 ∧ m3 = 0) → P) := by
    intro P; constructor
    · rintro h ⟨a, b⟩; exact h ⟨by omega, a, b⟩
    · rintro h ⟨_, a, b⟩; exact h ⟨a, b⟩
  have hodd_lo : -(m2 + m3) = 0 ∧ m2 = 0 ∧ m3 = 0 → row3 j2 j3 m2 m3 (max |j2 - j3| |m2 + m3| + 1) = 0 := by
    rintro ⟨_, rfl, rfl⟩
    apply row3_odd
    rw [add_zero, abs_zero, max_eq_left (abs_nonneg _)]
    rcases abs_choice (j2 - j3) with h | h <;> rw [h] <;> omega
  have hodd_hi : -(m2 + m3) = 0 ∧ m2 = 0 ∧ m3 = 0 → row3 j2 j3 m2 m3 (j2 + j3 - 1) = 0 := by
    rintro ⟨_, rfl, rfl⟩
    apply row3_odd; omega
  have hY0 : max |j2 - j3| |m2 + m3| = 0 → ((w3B (max |j2 - j3| |m2 + m3|) j2 j3 m2 m3 : ℤ) : ℝ) = 0 := by
    intro h
    rw [w3B_eq h2 h3 hfit (le_refl _) hle, h]
    have : |m2 + m3| = 0 := le_antisymm (h ▸ le_max_right _ _) (abs_nonneg _)
    rw [abs_eq_zero] at this
    rw [this]; simp
  obtain ⟨sf', Fm', jm, um, hfwd, hsf', hFm', hcase⟩ := fwdPhase_spec H (m1 := -(m2 + m3)) (m2 := m2) (m3 := m3) hn hsf hFm
    (fun i hi => hFm0 i (by omega)) hodd_lo hY0
  simp only [w3run, bind, Except.bind]
  rw [if_neg hsel, if_neg (by omega), if_neg heq, hfwd]
  simp only
  have hjmb : um = true → jm ≠ j2 + j3 := by
    intro h
    rcases hcase with ⟨_, q, _⟩ | ⟨q, _⟩
    · omega
    · rw [h] at q; cases q
  -- the last two steps
  have fin : ∀ (f : List ℝ) (μ : ℝ), μ ≠ 0 → f.length = n →
      Has f (max |j2 - j3| |m2 + m3|) (j2 + j3) (fun i => μ * row3 j2 j3 m2 m3 i) →
      (∀ i : ℕ, (i : ℤ) < max |j2 - j3| |m2 + m3| ∨ j2 + j3 < i → f[i]? = w.f[i]?) →
      ∃ v f', w3normalize f (max |j2 - j3| |m2 + m3|) (j2 + j3) = .ok v ∧
        w3signs v (max |j2 - j3| |m2 + m3|) (j2 + j3) j2 j3 m2 m3 = .ok f' ∧ Holds f' n (row3 j2 j3 m2 m3) := by
    intro f μ hμ hl hh ho
    obtain ⟨f', e1, e2, e3, e4⟩ := finish_spec (j2 := j2) (j3 := j3) (m2 := m2) (m3 := m3) ha0 hle hμ hh hnorm hsign
    simp only [bind, Except.bind] at e1
    rcases hv : w3normalize f (max |j2 - j3| |m2 + m3|) (j2 + j3) with e | v
    · rw [hv] at e1; cases e1
    · rw [hv] at e1
      exact ⟨v, f', rfl, e1, holds_row hf0 (by rw [e2, hl]) e3 (fun i hi => by rw [e4 i hi, ho i hi])⟩
  by_cases hend : jm = j2 + j3
  · left
    rw [if_pos hend]
    rcases hcase with ⟨q, _, _⟩ | ⟨_, _, _, _, _, ⟨l, hl, hh⟩, _⟩
    · exact absurd hend (hjmb q)
    · rw [hend] at hh
      obtain ⟨v, f', g1, g2, g3⟩ := fin _ l hl (by rw [copySlice_length, hfl]) (copy_has ha0 hfl hn hh)
        (fun i hi => copy_other (by omega))
      rw [g1]
      simp only
      rw [g2]
      exact ⟨_, rfl, hsf', hFm', hFp, g3⟩
  rw [if_neg hend]
  have hjm1 : max |j2 - j3| |m2 + m3| ≤ jm ∧ jm ≤ j2 + j3 - 1 := by
    rcases hcase with ⟨_, q, _⟩ | ⟨_, _, q1, q2, _⟩ <;> omega
  have hno : max |j2 - j3| |m2 + m3| + 2 ≤ jm → ¬ ∃ rf, RevGood (row3 j2 j3 m2 m3) rf jm (j2 + j3) := by
    rintro hj ⟨rf, hrf⟩
    rcases hcase with ⟨_, q, _⟩ | ⟨_, _, q1, q2, _, _, _, hg⟩
    · omega
    · obtain ⟨g1, g2⟩ := hg hj (by omega)
      exact no_double_good h2 h3 hj g1 g2 hrf
  obtain ⟨rf', Fp', jp, hrev, hrf', hFp', p1, p2, p3, p4, l', hl', hhp⟩ := revPhase_spec H (m1 := -(m2 + m3)) (m2 := m2) (m3 := m3)
    hn hsf' hFp hjm1.1 hjm1.2 hodd_hi hno
  rw [hrev]
  simp only
  rcases hcase with ⟨rfl, q1, q2⟩ | ⟨rfl, q0, q1, q2, hzb, ⟨l, hl, hhm⟩, hwne, hgood⟩
  · -- downwards only
    left
    obtain ⟨F', l'', e1, e2, e3, e4⟩ := downLoop_spec H hn (mid := max |j2 - j3| |m2 + m3|) (le_refl _)
      (jp - max |j2 - j3| |m2 + m3|).toNat jp Fp' l' rfl p1 p2 hFp' hl' hhp
    simp only [Bool.false_eq_true, and_false, if_false, not_true_eq_false, not_false_eq_true, and_true]
    rw [e1]
    simp only [pure, Except.pure]
    obtain ⟨v, f', g1, g2, g3⟩ := fin _ l'' e3 (by rw [copySlice_length, hfl]) (copy_has ha0 hfl hn e4)
      (fun i hi => copy_other (by omega))
    rw [g1]
    simp only
    rw [g2]
    exact ⟨_, rfl, hrf', hFm', e2, g3⟩
  · simp only [Bool.false_eq_true, and_false, if_false, not_false_eq_true, and_self, if_true]
    have p3' : jm ≤ jp ∨ (jp = max |j2 - j3| |m2 + m3| ∧ jm ≤ max |j2 - j3| |m2 + m3| + 1 ∧ max |j2 - j3| |m2 + m3| ≠ 0) := by
      rcases p3 with h | ⟨h, h'⟩
      · exact Or.inl h
      · by_cases hz : max |j2 - j3| |m2 + m3| = 0
        · have := p4 (q0 hz); left; omega
        · exact Or.inr ⟨h, h', hz⟩
    rcases meetPhase_spec H hn q1 p1 p2 p3' hfl hFm' hFp' hzb hl hl' hhm hhp hwne with
      ⟨f', Fm'', Fp'', μ, e1, e2, e3, e4, e5, e6, e7⟩ | ⟨e1, k, k1, k2, k3, k4⟩
    · left
      obtain ⟨v, fx, g1, g2, g3⟩ := fin _ μ e5 e2 e6 e7
      rw [e1]
      simp only
      rw [g1]
      simp only
      rw [g2]
      exact ⟨_, rfl, hrf', e3, e4, g3⟩
    · right
      rw [e1]
      have hwk1 : row3 j2 j3 m2 m3 (k + 1) ≠ 0 := fun h0 => H.no_two_zeros (by omega) (by omega) k3 h0
      have hgrow := (k4 k k1 (le_refl _)).resolve_right hwk1
      refine ⟨rfl, ?_, ?_⟩
      swap
      · have hjm2 : max |j2 - j3| |m2 + m3| + 2 ≤ jm := by
          by_contra hcon
          have hwk0 : row3 j2 j3 m2 m3 (k - 1) ≠ 0 := by
            rcases eq_or_lt_of_le k1 with h | h
            · rw [← h]; exact hwne
            · exact fun h0 => H.no_two_zeros (j := k - 1) (by omega) (by omega) h0 (by rw [sub_add_cancel]; exact k3)
          refine absurd (row3_decr h2 h3 (by omega) (by omega) k3 hwk0 ?_) (not_lt.2 hgrow)
          have : 2 * k + 4 ≤ max |j2 - j3| |m2 + m3| + (j2 + j3) := by omega
          nlinarith
        obtain ⟨_, hg⟩ := hgood hjm2 (by omega)
        have hne := fun i h1 h2 => hg.ne H.wa (i := i) h1 h2
        have hk2 : jm + 2 ≤ k := by
          by_contra hcon
          exact hne k (by omega) (by omega) k3
        refine ⟨jm, k, hjm2, hk2, by omega, fun i i1 i2 => ?_, k3, hgrow, fun i i1 i2 => k4 i i1 i2.le⟩
        obtain ⟨s, _, s0, s1, es⟩ := hg i (by omega) i2
        have hn1 := hne (i + 1) (by omega) (by omega)
        rw [es]
        refine ⟨by have := mul_self_pos.2 hn1; nlinarith, ?_⟩
        rw [abs_mul, abs_of_pos s0]
        exact mul_le_of_le_one_left (abs_nonneg _) (s1 i1)
      intro hm
      have hm' : -(m2 + m3) = 0 ∧ m2 = 0 ∧ m3 = 0 := ⟨by omega, hm⟩
      have hlo := hodd_lo hm'
      have hjm : jm = max |j2 - j3| |m2 + m3| + 1 := by
        by_contra hcon
        obtain ⟨_, hg⟩ := hgood (by omega) (by omega)
        obtain ⟨s, _, _, _, es⟩ := hg (max |j2 - j3| |m2 + m3|) (le_refl _) (by omega)
        rw [hlo, mul_zero] at es
        exact H.wa es
      have hd := row3_decr h2 h3 (k := jm) (by omega) (by omega) (by rw [hjm]; exact hlo)
        (by rw [hjm, add_sub_cancel_right]; exact H.wa) (by
          have : jp = j2 + j3 - 1 := p4 hm'
          have hb6 : max |j2 - j3| |m2 + m3| + 6 ≤ j2 + j3 := by omega
          rw [hjm]
          nlinarith)
      have hw2 : row3 j2 j3 m2 m3 (jm + 1) ≠ 0 :=
        fun h0 => H.no_two_zeros (j := jm) (by omega) (by omega) (by rw [hjm]; exact hlo) h0
      have := (k4 jm (le_refl _) k1).resolve_right hw2
      linarith

end coeff

end SF
