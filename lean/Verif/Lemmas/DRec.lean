import Verif.Lemmas.Rep
import Mathlib.Algebra.Polynomial.Derivative

/-!
# Relations between the entries of D matrices of real rotors `(c, s)`

The rows are coefficients of `(c - s X)^p' (s + c X)^q'`; the relations come from differential operators.
-/

set_option autoImplicit false

namespace SF

open Polynomial

/-- `(c - s X)^p' (s + c X)^q'`. -/
noncomputable def Gp (c s : ℝ) (p' q' : ℕ) : ℝ[X] := (C c - C s * X) ^ p' * (C s + C c * X) ^ q'

noncomputable def Mr (c s : ℝ) (p' q' q : ℕ) : ℝ := (Gp c s p' q').coeff q

theorem Gp_natDegree (c s : ℝ) (p' q' : ℕ) : (Gp c s p' q').natDegree ≤ p' + q' := by
  unfold Gp
  refine (natDegree_mul_le).trans (Nat.add_le_add ?_ ?_)
  · refine natDegree_pow_le.trans ?_
    have : (C c - C s * X : ℝ[X]).natDegree ≤ 1 := by compute_degree
    nlinarith
  · refine natDegree_pow_le.trans ?_
    have : (C s + C c * X : ℝ[X]).natDegree ≤ 1 := by compute_degree
    nlinarith

theorem Mr_zero (c s : ℝ) {p' q' q : ℕ} (h : p' + q' < q) : Mr c s p' q' q = 0 :=
  coeff_eq_zero_of_natDegree_lt ((Gp_natDegree c s p' q').trans_lt h)

theorem Msum_zero (za zb : ℂ) {p' q' q : ℕ} (h : p' + q' < q) : Msum za zb p' q' q = 0 := by
  unfold Msum
  refine Finset.sum_eq_zero fun ρ hρ => ?_
  unfold Dterm
  by_cases h1 : p' < ρ
  · rw [Nat.choose_eq_zero_of_lt h1]; simp
  · rw [Nat.choose_eq_zero_of_lt (show q' < q - ρ by omega)]; simp

theorem Msum_real (c s : ℝ) (p' q' q : ℕ) : Msum (c : ℂ) (s : ℂ) p' q' q = (Mr c s p' q' q : ℂ) := by
  by_cases hq : p' + q' < q
  · rw [Mr_zero c s hq, Msum_zero _ _ hq]; simp
  · refine coeffs_unique (n := p' + q') (c := fun q => Msum (c : ℂ) (s : ℂ) p' q' q)
      (d := fun q => (Mr c s p' q' q : ℂ)) (fun y => ?_) (by omega)
    have h1 := gen_row (c : ℂ) (s : ℂ) 1 y p' q'
    simp only [one_pow, mul_one, Complex.conj_ofReal] at h1
    rw [← h1]
    have h2 := eval₂_eq_sum_range' (Complex.ofRealHom) (Nat.lt_succ_of_le (Gp_natDegree c s p' q')) y
    simp only [Nat.succ_eq_add_one] at h2
    unfold Mr
    rw [show (∑ q ∈ Finset.range (p' + q' + 1), ((Gp c s p' q').coeff q : ℂ) * y ^ q)
      = ∑ q ∈ Finset.range (p' + q' + 1), Complex.ofRealHom ((Gp c s p' q').coeff q) * y ^ q from rfl, ← h2]
    unfold Gp
    simp [eval₂_mul, eval₂_pow, eval₂_add, eval₂_sub]

/-- `x ∂_y G = G'`, `y ∂_x G = X (N G - X G')`. -/
theorem Gp_deriv (c s : ℝ) (p' q' : ℕ) : derivative (Gp c s p' q') =
    C (q' * c) * ((C c - C s * X) ^ p' * (C s + C c * X) ^ (q' - 1))
      - C (p' * s) * ((C c - C s * X) ^ (p' - 1) * (C s + C c * X) ^ q') := by
  unfold Gp
  rw [derivative_mul, derivative_pow, derivative_pow]
  simp only [derivative_sub, derivative_add, derivative_C, derivative_mul, derivative_X, C_mul, map_natCast]
  ring

theorem pow_pred_mul {R : Type} [CommRing R] (x : R) (p : ℕ) : (p : R) * x ^ (p - 1) * x = p * x ^ p := by
  cases p with
  | zero => simp
  | succ p => rw [Nat.add_sub_cancel, pow_succ]; ring

/-- `G' - X (N G - X G')`: the generator of rotations about `y` acts on both sides alike. -/
theorem Gp_rot (c s : ℝ) (p' q' : ℕ) :
    derivative (Gp c s p' q') - X * (C ((p' + q' : ℕ) : ℝ) * Gp c s p' q' - X * derivative (Gp c s p' q'))
      = C (q' : ℝ) * Gp c s (p' + 1) (q' - 1) - C (p' : ℝ) * Gp c s (p' - 1) (q' + 1) := by
  rw [Gp_deriv]
  unfold Gp
  have h1 := pow_pred_mul (C c - C s * X : ℝ[X]) p'
  have h2 := pow_pred_mul (C s + C c * X : ℝ[X]) q'
  push_cast
  simp only [map_add, map_mul, map_natCast] at *
  rw [pow_succ _ p', pow_succ _ q']
  linear_combination (X * (C s + C c * X) ^ q') * h1 + (X * (C c - C s * X) ^ p') * h2

/-- Relation (50) of arXiv:1403.7698, without normalization. -/
theorem Mr_rot (c s : ℝ) (p' q' q : ℕ) :
    ((q + 1 : ℕ) : ℝ) * Mr c s p' q' (q + 1)
      - (if q = 0 then 0 else ((p' + q' : ℕ) - (q : ℝ) + 1) * Mr c s p' q' (q - 1))
      = q' * Mr c s (p' + 1) (q' - 1) q - p' * Mr c s (p' - 1) (q' + 1) q := by
  have h := congrArg (fun P : ℝ[X] => P.coeff q) (Gp_rot c s p' q')
  unfold Mr
  cases q with
  | zero =>
    simp only [coeff_sub, coeff_derivative, coeff_C_mul, coeff_X_mul_zero] at h
    rw [if_pos rfl]
    push_cast at *
    linarith
  | succ q =>
    rw [if_neg (by omega), Nat.add_sub_cancel]
    simp only [coeff_sub, coeff_derivative, coeff_C_mul, coeff_X_mul] at h
    cases q with
    | zero =>
      simp only [coeff_X_mul_zero] at h
      push_cast at *
      linarith
    | succ q =>
      simp only [coeff_X_mul, coeff_derivative] at h
      push_cast at *
      linarith

/-- `sin β (x ∂_y + y ∂_x) G = cos β (x ∂_x - y ∂_y) G` for `p' = q'`. -/
theorem Gp_row (c s : ℝ) (n : ℕ) :
    C (2 * s * c) * (derivative (Gp c s n n) + X * (C ((2 * n : ℕ) : ℝ) * Gp c s n n - X * derivative (Gp c s n n)))
      = C (c ^ 2 - s ^ 2) * (C ((2 * n : ℕ) : ℝ) * Gp c s n n - 2 * X * derivative (Gp c s n n)) := by
  rw [Gp_deriv]
  unfold Gp
  have h1 := pow_pred_mul (C c - C s * X : ℝ[X]) n
  have h2 := pow_pred_mul (C s + C c * X : ℝ[X]) n
  cases n with
  | zero => simp
  | succ n =>
    push_cast
    simp only [map_add, map_mul, map_natCast, Nat.add_sub_cancel, pow_succ _ n, map_sub, map_pow, map_ofNat, map_one]
    ring

theorem Mr_row (c s : ℝ) (n q : ℕ) :
    (2 * s * c) * (((q + 1 : ℕ) : ℝ) * Mr c s n n (q + 1)
      + (if q = 0 then 0 else ((2 * n : ℕ) - (q : ℝ) + 1) * Mr c s n n (q - 1)))
      = (c ^ 2 - s ^ 2) * ((2 * n - 2 * q) * Mr c s n n q) := by
  have h := congrArg (fun P : ℝ[X] => P.coeff q) (Gp_row c s n)
  unfold Mr
  have h2 : ∀ P : ℝ[X], 2 * X * P = C 2 * (X * P) := fun P => by
    rw [mul_assoc, show (C 2 : ℝ[X]) = 2 from map_ofNat C 2]
  simp only [h2] at h
  cases q with
  | zero =>
    simp only [coeff_sub, coeff_add, coeff_derivative, coeff_C_mul, coeff_X_mul_zero] at h
    rw [if_pos rfl]
    push_cast at *
    linarith
  | succ q =>
    rw [if_neg (by omega), Nat.add_sub_cancel]
    simp only [coeff_sub, coeff_add, coeff_derivative, coeff_C_mul, coeff_X_mul] at h
    cases q with
    | zero =>
      simp only [coeff_X_mul_zero] at h
      push_cast at *
      linarith
    | succ q =>
      simp only [coeff_X_mul, coeff_derivative] at h
      push_cast at *
      linarith

/-- `(s ∂_x + c ∂_y) G = q' U^p' V^(q'-1)` for `c² + s² = 1`. -/
theorem Gp_low (c s : ℝ) (hu : c ^ 2 + s ^ 2 = 1) (p' q' : ℕ) :
    C s * (C ((p' + q' : ℕ) : ℝ) * Gp c s p' q' - X * derivative (Gp c s p' q')) + C c * derivative (Gp c s p' q')
      = C (q' : ℝ) * Gp c s p' (q' - 1) := by
  rw [Gp_deriv]
  unfold Gp
  have h1 := pow_pred_mul (C c - C s * X : ℝ[X]) p'
  have h2 := pow_pred_mul (C s + C c * X : ℝ[X]) q'
  have hu' : (C c ^ 2 + C s ^ 2 : ℝ[X]) = 1 := by rw [← map_pow, ← map_pow, ← map_add, hu, map_one]
  push_cast
  simp only [map_add, map_mul, map_natCast] at *
  linear_combination (-C s * (C s + C c * X) ^ q') * h1 - C s * (C c - C s * X) ^ p' * h2
    + (q' * (C c - C s * X) ^ p' * (C s + C c * X) ^ (q' - 1)) * hu'

theorem Mr_low (c s : ℝ) (hu : c ^ 2 + s ^ 2 = 1) (p' q' q : ℕ) :
    s * (((p' + q' : ℕ) - (q : ℝ)) * Mr c s p' q' q) + c * (((q + 1 : ℕ) : ℝ) * Mr c s p' q' (q + 1))
      = q' * Mr c s p' (q' - 1) q := by
  have h := congrArg (fun P : ℝ[X] => P.coeff q) (Gp_low c s hu p' q')
  unfold Mr
  cases q with
  | zero =>
    simp only [coeff_sub, coeff_add, coeff_derivative, coeff_C_mul, coeff_X_mul_zero] at h
    push_cast at *
    linarith
  | succ q =>
    simp only [coeff_sub, coeff_add, coeff_derivative, coeff_C_mul, coeff_X_mul] at h
    push_cast at *
    linarith

/-- Relation (41) of arXiv:1403.7698, without normalization (any `p'`, `q' = k + 2`). -/
theorem Mr_low2 (c s : ℝ) (hu : c ^ 2 + s ^ 2 = 1) (p' k q : ℕ) :
    s ^ 2 * (((p' + k + 2 : ℕ) - (q : ℝ)) * ((p' + k + 1 : ℕ) - (q : ℝ)) * Mr c s p' (k + 2) q)
      + 2 * s * c * (((q + 1 : ℕ) : ℝ) * ((p' + k + 1 : ℕ) - (q : ℝ)) * Mr c s p' (k + 2) (q + 1))
      + c ^ 2 * (((q + 2 : ℕ) : ℝ) * ((q + 1 : ℕ) : ℝ) * Mr c s p' (k + 2) (q + 2))
      = ((k + 2 : ℕ) : ℝ) * ((k + 1 : ℕ) : ℝ) * Mr c s p' k q := by
  have h1 := Mr_low c s hu p' (k + 2) q
  have h2 := Mr_low c s hu p' (k + 2) (q + 1)
  have h3 := Mr_low c s hu p' (k + 1) q
  simp only [Nat.add_sub_cancel, show k + 2 - 1 = k + 1 by omega] at h1 h2 h3
  push_cast at *
  linear_combination (s * ((p' : ℝ) + k + 1 - q)) * h1 + (c * ((q : ℝ) + 1)) * h2 + ((k : ℝ) + 2) * h3

end SF
