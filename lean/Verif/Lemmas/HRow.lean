import Verif.Lemmas.HRel
import Mathlib.Analysis.SpecialFunctions.Trigonometric.Basic
import Mathlib.Analysis.SpecialFunctions.Trigonometric.Deriv
import Mathlib.Topology.Algebra.Module.Cardinality

/-!
# The row `m' = 0` by the modified forward row method

`hatI n co si i` is the unnormalized value at `m = n - i`; multiplied with `si^m / sqrt(4n+2)` it is `H^{0,m}_n`.
-/

set_option autoImplicit false

namespace SF

/-- The coefficients `g^m_n` (`m < n`). -/
noncomputable def gco (n m : ℤ) : ℝ := ((2 * (m + 1) : ℤ) : ℝ) / Real.sqrt (((n - m) * (n + m + 1) : ℤ) : ℝ)

/-- The coefficients `h^m_n` (`m < n`). -/
noncomputable def hco (n m : ℤ) : ℝ :=
  Real.sqrt ((((n + m + 2) * (n - m - 1) : ℤ) : ℝ) / (((n - m) * (n + m + 1) : ℤ) : ℝ))

/-- Unnormalized value at `m = n`. -/
noncomputable def hatTop : ℕ → ℝ
  | 0 => Real.sqrt 2
  | 1 => Real.sqrt 3
  | n + 2 => Real.sqrt (1 + 0.5 / ((n + 2 : ℕ) : ℝ)) * hatTop (n + 1)

/-- Unnormalized value at `m = n - i`. -/
noncomputable def hatI (n : ℕ) (co si : ℝ) : ℕ → ℝ
  | 0 => hatTop n
  | 1 => gco n (n - 1) * co * hatTop n
  | i + 2 => gco n (n - ((i + 2 : ℕ) : ℤ)) * co * hatI n co si (i + 1) - hco n (n - ((i + 2 : ℕ) : ℤ)) * si ^ 2 * hatI n co si i

theorem hatTop_succ (n : ℕ) : hatTop (n + 1) = Real.sqrt (1 + 0.5 / ((n + 1 : ℕ) : ℝ)) * hatTop n := by
  cases n with
  | zero =>
    show Real.sqrt 3 = Real.sqrt (1 + 0.5 / ((0 + 1 : ℕ) : ℝ)) * Real.sqrt 2
    rw [← Real.sqrt_mul (by norm_num)]; norm_num
  | succ n => rfl

theorem hatTop_eq (n : ℕ) : hatTop n = Real.sqrt (4 * n + 2) * (Real.sqrt ((2 * n).factorial) / (n.factorial * 2 ^ n)) := by
  induction n with
  | zero => show Real.sqrt 2 = _; norm_num
  | succ n ih =>
    rw [hatTop_succ, ih]
    have hf : (((2 * (n + 1)).factorial : ℕ) : ℝ) = (2 * n + 2) * (2 * n + 1) * ((2 * n).factorial : ℝ) := by
      rw [show 2 * (n + 1) = 2 * n + 1 + 1 by ring, Nat.factorial_succ, Nat.factorial_succ]; push_cast; ring
    rw [hf, Nat.factorial_succ, pow_succ]
    have h1 : Real.sqrt (1 + 0.5 / ((n + 1 : ℕ) : ℝ)) * Real.sqrt (4 * n + 2) * (n + 1) * 2
        = Real.sqrt (4 * ((n + 1 : ℕ) : ℝ) + 2) * Real.sqrt ((2 * n + 2) * (2 * n + 1)) := by
      have : ((n : ℝ) + 1) * 2 = Real.sqrt (((n + 1) * 2) ^ 2) := by rw [Real.sqrt_sq (by positivity)]
      rw [mul_assoc, this, ← Real.sqrt_mul (by positivity), ← Real.sqrt_mul (by positivity), ← Real.sqrt_mul (by positivity)]
      congr 1
      push_cast
      field_simp
      ring
    rw [Real.sqrt_mul (by positivity) ((2 * n).factorial : ℝ)]
    have hn : (n.factorial : ℝ) ≠ 0 := by exact_mod_cast Nat.factorial_ne_zero n
    push_cast at *
    generalize Real.sqrt (1 + 0.5 / ((n : ℝ) + 1)) = x at *
    generalize Real.sqrt (4 * (n : ℝ) + 2) = y at *
    generalize Real.sqrt (4 * ((n : ℝ) + 1) + 2) = z at *
    generalize Real.sqrt ((2 * (n : ℝ) + 2) * (2 * n + 1)) = w at *
    field_simp
    linear_combination h1

/-- `H^{0,n}_n = si^n hat / sqrt(4n+2)`. -/
theorem Hf_hatTop (c s : ℝ) (n : ℕ) : (2 * s * c) ^ n * hatTop n = Real.sqrt (4 * n + 2) * Hf c s n 0 n := by
  rw [Hf_top, hatTop_eq, show 2 * s * c = 2 * (s * c) by ring, mul_pow]
  have hn : (n.factorial : ℝ) ≠ 0 := by exact_mod_cast Nat.factorial_ne_zero n
  field_simp

theorem Hf_hat_ne (c s : ℝ) (hs : 2 * s * c ≠ 0) (n : ℕ) : ∀ i : ℕ, i ≤ n →
    (2 * s * c) ^ (n - i) * hatI n (c ^ 2 - s ^ 2) (2 * s * c) i = Real.sqrt (4 * n + 2) * Hf c s n 0 (n - i) := by
  set si := 2 * s * c with hsi
  set co := c ^ 2 - s ^ 2 with hco'
  have step : ∀ m : ℤ, 0 ≤ m → m < n → si * Hf c s n 0 m = gco n m * co * Hf c s n 0 (m + 1) - hco n m * si * Hf c s n 0 (m + 2) := by
    intro m h0 h1
    have h := Hf_row0 c s (n := n) h0 h1
    rw [← hsi, ← hco'] at h
    unfold gco hco
    have hp : (0 : ℤ) < ((n : ℤ) - m) * (n + m + 1) := mul_pos (by omega) (by omega)
    have hp' : (0 : ℝ) < ((((n : ℤ) - m) * (n + m + 1) : ℤ) : ℝ) := by exact_mod_cast hp
    have hq := Real.sqrt_pos.2 hp'
    rw [Real.sqrt_div' _ hp'.le]
    set r := Real.sqrt (((((n : ℤ) - m) * (n + m + 1) : ℤ) : ℝ))
    set t := Real.sqrt (((((n : ℤ) + m + 2) * (n - m - 1) : ℤ) : ℝ))
    field_simp
    push_cast
    linear_combination h
  have hco0 : hco n (n - 1) = 0 := by unfold hco; simp
  intro i
  induction i using Nat.strong_induction_on with
  | _ i ih =>
  intro hi
  match i with
  | 0 => simpa [hatI] using Hf_hatTop c s n
  | 1 =>
    have h0 := Hf_hatTop c s n
    have h1 := step (n - 1) (by omega) (by omega)
    rw [hco0, show (n : ℤ) - 1 + 1 = n by ring] at h1
    apply mul_left_cancel₀ hs
    show si * (si ^ (n - 1) * (gco n (n - 1) * co * hatTop n)) = si * (Real.sqrt (4 * n + 2) * Hf c s n 0 (n - ((1 : ℕ) : ℤ)))
    rw [show (n : ℤ) - ((1 : ℕ) : ℤ) = n - 1 by simp]
    have hpow : si * si ^ (n - 1) = si ^ n := by rw [← pow_succ']; congr 1; omega
    linear_combination (gco n (n - 1) * co * hatTop n) * hpow + (gco n (n - 1) * co) * h0 - Real.sqrt (4 * n + 2) * h1
  | k + 2 =>
    have h0 := ih k (by omega) (by omega)
    have h1 := ih (k + 1) (by omega) (by omega)
    have h2 := step (n - ((k + 2 : ℕ) : ℤ)) (by omega) (by omega)
    rw [show (n : ℤ) - ((k + 2 : ℕ) : ℤ) + 1 = n - ((k + 1 : ℕ) : ℤ) by push_cast; ring,
      show (n : ℤ) - ((k + 2 : ℕ) : ℤ) + 2 = n - (k : ℤ) by push_cast; ring] at h2
    apply mul_left_cancel₀ hs
    show si * (si ^ (n - (k + 2)) * (gco n (n - ((k + 2 : ℕ) : ℤ)) * co * hatI n co si (k + 1)
      - hco n (n - ((k + 2 : ℕ) : ℤ)) * si ^ 2 * hatI n co si k)) = _
    have e1 : si * si ^ (n - (k + 2)) = si ^ (n - (k + 1)) := by rw [← pow_succ']; congr 1; omega
    have e2 : si ^ 2 * si ^ (n - (k + 2)) = si ^ (n - k) := by rw [← pow_add]; congr 1; omega
    linear_combination (gco n (n - ((k + 2 : ℕ) : ℤ)) * co * hatI n co si (k + 1)) * e1
      - (si * hco n (n - ((k + 2 : ℕ) : ℤ)) * hatI n co si k) * e2
      + (gco n (n - ((k + 2 : ℕ) : ℤ)) * co) * h1 - (si * hco n (n - ((k + 2 : ℕ) : ℤ))) * h0
      - Real.sqrt (4 * n + 2) * h2

theorem hatI_continuous (n i : ℕ) : Continuous fun β : ℝ => hatI n (Real.cos β) (Real.sin β) i := by
  induction i using Nat.strong_induction_on with
  | _ i ih =>
  match i with
  | 0 => exact continuous_const
  | 1 => exact (continuous_const.mul Real.continuous_cos).mul continuous_const
  | k + 2 =>
    exact ((continuous_const.mul Real.continuous_cos).mul (ih (k + 1) (by omega))).sub
      ((continuous_const.mul (Real.continuous_sin.pow 2)).mul (ih k (by omega)))

theorem Mr_continuous (p' q' q : ℕ) : Continuous fun β : ℝ => Mr (Real.cos (β / 2)) (Real.sin (β / 2)) p' q' q := by
  have h : ∀ β : ℝ, Mr (Real.cos (β / 2)) (Real.sin (β / 2)) p' q' q
      = (Msum (Real.cos (β / 2) : ℂ) (Real.sin (β / 2) : ℂ) p' q' q).re := by
    intro β; rw [Msum_real]; simp
  simp_rw [h]
  refine Complex.continuous_re.comp ?_
  unfold Msum Dterm
  have hc : Continuous fun β : ℝ => ((Real.cos (β / 2) : ℝ) : ℂ) :=
    Complex.continuous_ofReal.comp (Real.continuous_cos.comp (continuous_id.div_const 2))
  have hs : Continuous fun β : ℝ => ((Real.sin (β / 2) : ℝ) : ℂ) :=
    Complex.continuous_ofReal.comp (Real.continuous_sin.comp (continuous_id.div_const 2))
  have hc' := Complex.continuous_conj.comp hc
  have hs' := Complex.continuous_conj.comp hs
  refine continuous_finsetSum _ fun ρ _ => ?_
  exact ((((continuous_const.mul (hc.pow _)).mul (hc'.pow _)).mul (hs.pow _)).mul (hs'.pow _))

theorem Hf_continuous (n mp m : ℤ) : Continuous fun β : ℝ => Hf (Real.cos (β / 2)) (Real.sin (β / 2)) n mp m := by
  unfold Hf Dr
  exact continuous_const.mul (continuous_const.mul (Mr_continuous _ _ _))

theorem cos_half (β : ℝ) : Real.cos (β / 2) ^ 2 - Real.sin (β / 2) ^ 2 = Real.cos β := by
  rw [← Real.cos_two_mul']; congr 1; ring

theorem sin_half (β : ℝ) : 2 * Real.sin (β / 2) * Real.cos (β / 2) = Real.sin β := by
  rw [← Real.sin_two_mul]; congr 1; ring

theorem dense_sin_ne : Dense {β : ℝ | Real.sin β ≠ 0} := by
  have hc : (Set.range fun k : ℤ => (k : ℝ) * Real.pi).Countable := Set.countable_range _
  refine (hc.dense_compl ℝ).mono ?_
  intro β hβ h0
  obtain ⟨k, hk⟩ := Real.sin_eq_zero_iff.1 h0
  exact hβ ⟨k, hk⟩

/-- The row `m' = 0`, for every angle. -/
theorem Hf_hat (β : ℝ) (n i : ℕ) (hi : i ≤ n) :
    Real.sin β ^ (n - i) * hatI n (Real.cos β) (Real.sin β) i
      = Real.sqrt (4 * n + 2) * Hf (Real.cos (β / 2)) (Real.sin (β / 2)) n 0 (n - i) := by
  have h1 : Continuous fun β : ℝ => Real.sin β ^ (n - i) * hatI n (Real.cos β) (Real.sin β) i :=
    (Real.continuous_sin.pow _).mul (hatI_continuous n i)
  have h2 : Continuous fun β : ℝ => Real.sqrt (4 * n + 2) * Hf (Real.cos (β / 2)) (Real.sin (β / 2)) n 0 (n - i) :=
    continuous_const.mul (Hf_continuous _ _ _)
  have := Continuous.ext_on dense_sin_ne h1 h2 (fun β hβ => by
    have h := Hf_hat_ne (Real.cos (β / 2)) (Real.sin (β / 2)) (by rw [sin_half]; exact hβ) n i hi
    rw [sin_half, cos_half] at h
    exact h)
  exact congrFun this β

end SF
