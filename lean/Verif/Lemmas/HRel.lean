import Verif.Lemmas.DRec
import Verif.Spec.WignerH
import Mathlib.Topology.MetricSpace.Basic

/-!
# The H functions: symmetries and the relations used by the recursion of arXiv:1403.7698
-/

set_option autoImplicit false

namespace SF

open Polynomial

/-! ## Normalized entries -/

/-- `D_{m',m}` of the rotor `(c, s)`. -/
noncomputable def Dr (c s : ℝ) (p' q' p q : ℕ) : ℝ :=
  Real.sqrt ((p.factorial * q.factorial : ℝ) / (p'.factorial * q'.factorial)) * Mr c s p' q' q

theorem Dpq_eq_Dr (c s : ℝ) (p' q' p q : ℕ) : Spec.Dpq (c : ℂ) (s : ℂ) p' q' p q = (Dr c s p' q' p q : ℂ) := by
  rw [Dpq_eq_Msum, Msum_real]; unfold Dr; push_cast; ring

/-- `H^{m',m}_n` for `c = cos(β/2)`, `s = sin(β/2)`. -/
noncomputable def Hf (c s : ℝ) (n mp m : ℤ) : ℝ :=
  (Spec.eps mp * Spec.eps (-m) : ℤ) * Dr c s (n + mp).toNat (n - mp).toNat (n + m).toNat (n - m).toNat

theorem eps_sq (k : ℤ) : Spec.eps k * Spec.eps k = 1 := by
  unfold Spec.eps
  split
  · rfl
  · rw [← pow_add, ← two_mul, pow_mul]; simp

theorem eps_zero : Spec.eps 0 = 1 := rfl

theorem eps_nonpos {k : ℤ} (h : k ≤ 0) : Spec.eps k = 1 := if_pos h

/-- Changing `k` by one. -/
theorem eps_succ_pos {k : ℤ} (h : 0 ≤ k) : Spec.eps (k + 1) = -Spec.eps k := by
  unfold Spec.eps
  rw [if_neg (by omega), show (k + 1).toNat = k.toNat + 1 by omega, pow_succ]
  split
  · rw [show k.toNat = 0 by omega]; simp
  · ring

theorem eps_neg (k : ℤ) : Spec.eps (-k) = (-1) ^ k.natAbs * Spec.eps k := by
  unfold Spec.eps
  rcases lt_trichotomy k 0 with h | h | h
  · rw [if_neg (by omega), if_pos (by omega), show (-k).toNat = k.natAbs by omega]; ring
  · subst h; simp
  · rw [if_pos (by omega), if_neg (by omega), show k.toNat = k.natAbs by omega, ← pow_add, ← two_mul, pow_mul]; simp

theorem Hf_isH (β : ℝ) (n mp m : ℤ) : Spec.IsH β n mp m (Hf (Real.cos (β / 2)) (Real.sin (β / 2)) n mp m) := by
  unfold Spec.IsH Spec.wignerd Spec.wignerD Hf
  rw [Dpq_eq_Dr]
  have e : ∀ a b : ℤ, (2 * a + 2 * b) / 2 = a + b := by intros; omega
  have e' : ∀ a b : ℤ, (2 * a - 2 * b) / 2 = a - b := by intros; omega
  rw [e, e', e, e']
  have h1 : ((Spec.eps mp * Spec.eps (-m) : ℤ) : ℂ) * ((Spec.eps mp * Spec.eps (-m) : ℤ) : ℂ) = 1 := by
    rw [← Int.cast_mul, show (Spec.eps mp * Spec.eps (-m)) * (Spec.eps mp * Spec.eps (-m))
      = (Spec.eps mp * Spec.eps mp) * (Spec.eps (-m) * Spec.eps (-m)) by ring, eps_sq, eps_sq]
    simp
  push_cast at *
  linear_combination (-(Dr (Real.cos (β / 2)) (Real.sin (β / 2)) (n + mp).toNat (n - mp).toNat (n + m).toNat
    (n - m).toNat : ℂ)) * h1

theorem isH_unique {β : ℝ} {n mp m : ℤ} {x y : ℝ} (hx : Spec.IsH β n mp m x) (hy : Spec.IsH β n mp m y) : x = y := by
  unfold Spec.IsH at hx hy
  rw [hx] at hy
  have h0 : ((Spec.eps mp * Spec.eps (-m) : ℤ) : ℂ) ≠ 0 := by
    intro h
    have h : Spec.eps mp * Spec.eps (-m) = 0 := by exact_mod_cast h
    have h1 := eps_sq mp
    have h2 := eps_sq (-m)
    rcases mul_eq_zero.1 h with h | h
    · rw [h] at h1; simp at h1
    · rw [h] at h2; simp at h2
  exact_mod_cast mul_left_cancel₀ h0 hy

/-! ## Symmetries -/

theorem Dr_neg (c s : ℝ) {p' q' p q : ℕ} (hsum : p' + q' = p + q) :
    Dr c s q' p' q p = (-1) ^ (p' + p) * Dr c s p' q' p q := by
  have h := Dpq_conj (c : ℂ) (s : ℂ) hsum
  rw [Dpq_eq_Dr, Dpq_eq_Dr, Complex.conj_ofReal] at h
  have h : Dr c s p' q' p q = (-1) ^ (p' + p) * Dr c s q' p' q p := by exact_mod_cast h
  rw [h, ← mul_assoc, ← pow_add, ← two_mul, pow_mul]; simp

theorem Mr_flip (c s : ℝ) (p' q' q : ℕ) : Mr c (-s) p' q' q = (-1) ^ (q' + q) * Mr c s p' q' q := by
  have h : Gp c (-s) p' q' = C ((-1 : ℝ) ^ q') * (Gp c s p' q').comp (-X) := by
    unfold Gp
    rw [mul_comp, pow_comp, pow_comp]
    simp only [sub_comp, add_comp, mul_comp, C_comp, X_comp, map_neg, map_pow, map_one]
    rw [show (-C s + C c * X : ℝ[X]) = (-1) * (C s + C c * -X) by ring, mul_pow]
    ring
  unfold Mr
  rw [h, coeff_C_mul, show (-X : ℝ[X]) = C (-1) * X by simp, comp_C_mul_X_coeff, pow_add]
  ring

theorem Dr_transpose (c s : ℝ) {p' q' p q : ℕ} (hsum : p' + q' = p + q) :
    Dr c s p q p' q' = (-1) ^ (q' + q) * Dr c s p' q' p q := by
  have h := Dpq_inv (c : ℂ) (s : ℂ) hsum
  have e : (starRingEnd ℂ) (c : ℂ) = (c : ℂ) := Complex.conj_ofReal c
  rw [e, show -(s : ℂ) = ((-s : ℝ) : ℂ) by push_cast; rfl, Dpq_eq_Dr, Dpq_eq_Dr, Complex.conj_ofReal] at h
  have h : Dr c (-s) p' q' p q = Dr c s p q p' q' := by exact_mod_cast h
  rw [← h]
  unfold Dr
  rw [Mr_flip]; ring

theorem Hf_neg (c s : ℝ) {n mp m : ℤ} (h1 : |mp| ≤ n) (h2 : |m| ≤ n) : Hf c s n (-mp) (-m) = Hf c s n mp m := by
  rw [abs_le] at h1 h2
  unfold Hf
  rw [neg_neg, eps_neg mp, show Spec.eps m = (-1) ^ m.natAbs * Spec.eps (-m) by
      rw [eps_neg, ← mul_assoc, ← pow_add, ← two_mul, pow_mul]; simp,
    show n + -mp = n - mp by ring, show n - -mp = n + mp by ring, show n + -m = n - m by ring,
    show n - -m = n + m by ring, Dr_neg c s (show (n + mp).toNat + (n - mp).toNat = (n + m).toNat + (n - m).toNat by omega)]
  have h3 : ((-1 : ℝ)) ^ (mp.natAbs) * (-1) ^ m.natAbs * (-1) ^ ((n + mp).toNat + (n + m).toNat) = 1 := by
    rw [← pow_add, ← pow_add]
    exact Even.neg_one_pow (by rw [Nat.even_iff]; omega)
  push_cast
  linear_combination ((Spec.eps mp : ℝ) * Spec.eps (-m) * Dr c s (n + mp).toNat (n - mp).toNat (n + m).toNat (n - m).toNat) * h3

theorem Hf_symm (c s : ℝ) {n mp m : ℤ} (h1 : |mp| ≤ n) (h2 : |m| ≤ n) : Hf c s n m mp = Hf c s n mp m := by
  rw [abs_le] at h1 h2
  unfold Hf
  rw [eps_neg mp, show Spec.eps m = (-1) ^ m.natAbs * Spec.eps (-m) by
      rw [eps_neg, ← mul_assoc, ← pow_add, ← two_mul, pow_mul]; simp,
    Dr_transpose c s (show (n + mp).toNat + (n - mp).toNat = (n + m).toNat + (n - m).toNat by omega)]
  have h3 : ((-1 : ℝ)) ^ (mp.natAbs) * (-1) ^ m.natAbs * (-1) ^ ((n - mp).toNat + (n - m).toNat) = 1 := by
    rw [← pow_add, ← pow_add]
    exact Even.neg_one_pow (by rw [Nat.even_iff]; omega)
  push_cast
  linear_combination ((Spec.eps mp : ℝ) * Spec.eps (-m) * Dr c s (n + mp).toNat (n - mp).toNat (n + m).toNat (n - m).toNat) * h3

/-! ## Relation (50) -/

theorem sqrt_shift1 (a b p q : ℕ) : Real.sqrt ((b + 1 : ℝ) * (a + 1)) *
    Real.sqrt ((p.factorial * q.factorial : ℝ) / (a.factorial * (b + 1).factorial))
      = (a + 1) * Real.sqrt ((p.factorial * q.factorial : ℝ) / ((a + 1).factorial * b.factorial)) := by
  rw [← Real.sqrt_mul (by positivity)]
  have h : (a + 1 : ℝ) = Real.sqrt ((a + 1) ^ 2) := by rw [Real.sqrt_sq (by positivity)]
  conv_rhs => rw [h, ← Real.sqrt_mul (by positivity)]
  congr 1
  rw [Nat.factorial_succ, Nat.factorial_succ]
  have := Nat.factorial_ne_zero a
  have := Nat.factorial_ne_zero b
  push_cast
  field_simp

theorem sqrt_shift2 (a b p q : ℕ) : Real.sqrt ((b + 1 : ℝ) * (a + 1)) *
    Real.sqrt ((a.factorial * (b + 1).factorial : ℝ) / (p.factorial * q.factorial))
      = (b + 1) * Real.sqrt (((a + 1).factorial * b.factorial : ℝ) / (p.factorial * q.factorial)) := by
  rw [← Real.sqrt_mul (by positivity)]
  have h : (b + 1 : ℝ) = Real.sqrt ((b + 1) ^ 2) := by rw [Real.sqrt_sq (by positivity)]
  conv_rhs => rw [h, ← Real.sqrt_mul (by positivity)]
  congr 1
  rw [Nat.factorial_succ, Nat.factorial_succ]
  push_cast
  field_simp

/-- (50) for the D functions. -/
theorem Dr_rot (c s : ℝ) (p' q' p q : ℕ) (hsum : p' + q' = p + q) :
    Real.sqrt ((q' : ℝ) * (p' + 1)) * Dr c s (p' + 1) (q' - 1) p q
      - Real.sqrt ((p' : ℝ) * (q' + 1)) * Dr c s (p' - 1) (q' + 1) p q
      = Real.sqrt ((p : ℝ) * (q + 1)) * Dr c s p' q' (p - 1) (q + 1)
        - Real.sqrt ((q : ℝ) * (p + 1)) * Dr c s p' q' (p + 1) (q - 1) := by
  set K := Real.sqrt ((p.factorial * q.factorial : ℝ) / (p'.factorial * q'.factorial)) with hK
  have e1 : Real.sqrt ((q' : ℝ) * (p' + 1)) * Dr c s (p' + 1) (q' - 1) p q = K * (q' * Mr c s (p' + 1) (q' - 1) q) := by
    cases q' with
    | zero => simp
    | succ b =>
      unfold Dr
      have := sqrt_shift1 b p' p q
      rw [Nat.add_sub_cancel, hK, ← mul_assoc, mul_comm (((b + 1 : ℕ) : ℝ)) _, mul_comm (((p' + 1).factorial : ℕ) : ℝ)]
      push_cast at this ⊢
      rw [this, mul_comm (((b + 1).factorial : ℕ) : ℝ)]; ring
  have e2 : Real.sqrt ((p' : ℝ) * (q' + 1)) * Dr c s (p' - 1) (q' + 1) p q = K * (p' * Mr c s (p' - 1) (q' + 1) q) := by
    cases p' with
    | zero => simp
    | succ b =>
      unfold Dr
      have := sqrt_shift1 b q' p q
      rw [Nat.add_sub_cancel, hK, ← mul_assoc, mul_comm (((b + 1 : ℕ) : ℝ)) _]
      push_cast at this ⊢
      rw [this]; ring
  have e3 : Real.sqrt ((p : ℝ) * (q + 1)) * Dr c s p' q' (p - 1) (q + 1) = K * ((q + 1 : ℕ) * Mr c s p' q' (q + 1)) := by
    cases p with
    | zero =>
      rw [Mr_zero c s (show p' + q' < q + 1 by omega)]; simp
    | succ b =>
      unfold Dr
      have := sqrt_shift2 b q p' q'
      rw [Nat.add_sub_cancel, hK, ← mul_assoc, mul_comm (((b + 1 : ℕ) : ℝ)) _]
      push_cast at this ⊢
      rw [this]; ring
  have e4 : Real.sqrt ((q : ℝ) * (p + 1)) * Dr c s p' q' (p + 1) (q - 1)
      = K * (if q = 0 then 0 else ((p' + q' : ℕ) - (q : ℝ) + 1) * Mr c s p' q' (q - 1)) := by
    cases q with
    | zero => simp
    | succ b =>
      rw [if_neg (by omega)]
      unfold Dr
      have := sqrt_shift2 b p p' q'
      rw [Nat.add_sub_cancel, hK, ← mul_assoc, mul_comm (((b + 1 : ℕ) : ℝ)) _, mul_comm ((p + 1).factorial : ℝ),
        mul_comm (p.factorial : ℝ), hsum]
      push_cast at this ⊢
      rw [this]; ring
  rw [e1, e2, e3, e4, ← mul_sub, ← mul_sub, Mr_rot]

/-- The coefficients `d^m_n`. -/
noncomputable def dco (n m : ℤ) : ℝ :=
  (if m < 0 then -1 else 1) * (1 / 2 * Real.sqrt ((((n - m) * (n + m + 1) : ℤ) : ℝ)))

theorem eps_dn (k : ℤ) : (if k - 1 < 0 then (-1 : ℤ) else 1) * Spec.eps (k - 1) = -Spec.eps k := by
  split
  · rw [eps_nonpos (by omega), eps_nonpos (by omega)]; rfl
  · have := eps_succ_pos (k := k - 1) (by omega)
    rw [show k - 1 + 1 = k by ring] at this; rw [this]; ring

theorem eps_up (k : ℤ) : (if k < 0 then (-1 : ℤ) else 1) * Spec.eps (k + 1) = -Spec.eps k := by
  split
  · rw [eps_nonpos (by omega), eps_nonpos (by omega)]; rfl
  · rw [eps_succ_pos (by omega)]; ring

theorem eps_dn' (m : ℤ) : (if m - 1 < 0 then (-1 : ℤ) else 1) * Spec.eps (-(m - 1)) = Spec.eps (-m) := by
  split
  · have := eps_succ_pos (k := -m) (by omega)
    rw [show -(m - 1) = -m + 1 by ring, this]; ring
  · rw [eps_nonpos (by omega), eps_nonpos (by omega)]; rfl

theorem eps_up' (m : ℤ) : (if m < 0 then (-1 : ℤ) else 1) * Spec.eps (-(m + 1)) = Spec.eps (-m) := by
  split
  · have := eps_succ_pos (k := -(m + 1)) (by omega)
    rw [show -(m + 1) + 1 = -m by ring] at this; rw [this]; ring
  · rw [eps_nonpos (by omega), eps_nonpos (by omega)]; rfl

/-- Relation (50): `d^{m'-1} H^{m'-1,m} - d^{m'} H^{m'+1,m} = d^{m-1} H^{m',m-1} - d^m H^{m',m+1}`. -/
theorem Hf_rot (c s : ℝ) {n mp m : ℤ} (h1 : |mp| ≤ n) (h2 : |m| ≤ n) :
    dco n (mp - 1) * Hf c s n (mp - 1) m - dco n mp * Hf c s n (mp + 1) m
      = dco n (m - 1) * Hf c s n mp (m - 1) - dco n m * Hf c s n mp (m + 1) := by
  obtain ⟨p', q', p, q, hsum, e1, e2, e3, e4⟩ := int_pq h1 h2
  have key := Dr_rot c s p' q' p q hsum
  unfold Hf dco
  have t1 : (n + (mp - 1)).toNat = p' - 1 := by omega
  have t2 : (n - (mp - 1)).toNat = q' + 1 := by omega
  have t3 : (n + (mp + 1)).toNat = p' + 1 := by omega
  have t4 : (n - (mp + 1)).toNat = q' - 1 := by omega
  have t5 : (n + mp).toNat = p' := by omega
  have t6 : (n - mp).toNat = q' := by omega
  have t7 : (n + (m - 1)).toNat = p - 1 := by omega
  have t8 : (n - (m - 1)).toNat = q + 1 := by omega
  have t9 : (n + (m + 1)).toNat = p + 1 := by omega
  have t10 : (n - (m + 1)).toNat = q - 1 := by omega
  have t11 : (n + m).toNat = p := by omega
  have t12 : (n - m).toNat = q := by omega
  rw [t1, t2, t3, t4, t5, t6, t7, t8, t9, t10, t11, t12]
  have r1 : (((n - (mp - 1)) * (n + (mp - 1) + 1) : ℤ) : ℝ) = (p' : ℝ) * (q' + 1) := by
    rw [show (n - (mp - 1)) * (n + (mp - 1) + 1) = (p' : ℤ) * (q' + 1) by rw [← e1, ← e2]; ring]; push_cast; ring
  have r2 : (((n - mp) * (n + mp + 1) : ℤ) : ℝ) = (q' : ℝ) * (p' + 1) := by
    rw [show (n - mp) * (n + mp + 1) = (q' : ℤ) * (p' + 1) by rw [← e1, ← e2]]; push_cast; ring
  have r3 : (((n - (m - 1)) * (n + (m - 1) + 1) : ℤ) : ℝ) = (p : ℝ) * (q + 1) := by
    rw [show (n - (m - 1)) * (n + (m - 1) + 1) = (p : ℤ) * (q + 1) by rw [← e3, ← e4]; ring]; push_cast; ring
  have r4 : (((n - m) * (n + m + 1) : ℤ) : ℝ) = (q : ℝ) * (p + 1) := by
    rw [show (n - m) * (n + m + 1) = (q : ℤ) * (p + 1) by rw [← e3, ← e4]]; push_cast; ring
  rw [r1, r2, r3, r4]
  have s1 := congrArg (fun z : ℤ => (z : ℝ)) (eps_dn mp)
  have s2 := congrArg (fun z : ℤ => (z : ℝ)) (eps_up mp)
  have s3 := congrArg (fun z : ℤ => (z : ℝ)) (eps_dn' m)
  have s4 := congrArg (fun z : ℤ => (z : ℝ)) (eps_up' m)
  push_cast at s1 s2 s3 s4 ⊢
  linear_combination (1 / 2 * Real.sqrt ((p' : ℝ) * (q' + 1)) * Spec.eps (-m) * Dr c s (p' - 1) (q' + 1) p q) * s1
    - (1 / 2 * Real.sqrt ((q' : ℝ) * (p' + 1)) * Spec.eps (-m) * Dr c s (p' + 1) (q' - 1) p q) * s2
    - (1 / 2 * Real.sqrt ((p : ℝ) * (q + 1)) * Spec.eps mp * Dr c s p' q' (p - 1) (q + 1)) * s3
    + (1 / 2 * Real.sqrt ((q : ℝ) * (p + 1)) * Spec.eps mp * Dr c s p' q' (p + 1) (q - 1)) * s4
    + (1 / 2 * Spec.eps mp * Spec.eps (-m)) * key

/-! ## Rows `m' = 0` and `m' = 1` -/

theorem eps_one : Spec.eps 1 = -1 := by decide

theorem Hf_zero_row (c s : ℝ) {n p q : ℕ} {m : ℤ} (h0 : 0 ≤ m) (hp : (p : ℤ) = n + m) (hq : (q : ℤ) = n - m) :
    Hf c s n 0 m = Dr c s n n p q := by
  unfold Hf
  rw [eps_zero, eps_nonpos (by omega), show ((n : ℤ) + 0).toNat = n by omega, show ((n : ℤ) - 0).toNat = n by omega,
    show ((n : ℤ) + m).toNat = p by omega, show ((n : ℤ) - m).toNat = q by omega]
  simp

theorem sqrt_fac_div (a b : ℝ) (ha : 0 ≤ a) (n : ℕ) : Real.sqrt (a / (n.factorial * n.factorial)) = Real.sqrt a / n.factorial := by
  rw [Real.sqrt_div ha, Real.sqrt_mul_self (by positivity)]

/-- The coefficients `b^m_n`. -/
noncomputable def bco (n m : ℤ) : ℝ :=
  (if m < 0 then -1 else 1) * Real.sqrt ((((n - m - 1) * (n - m) : ℤ) : ℝ) / (((2 * n - 1) * (2 * n + 1) : ℤ) : ℝ))

/-- The coefficients `a^m_n`. -/
noncomputable def aco (n m : ℤ) : ℝ :=
  Real.sqrt ((((n + 1 + m) * (n + 1 - m) : ℤ) : ℝ) / (((2 * n + 1) * (2 * n + 3) : ℤ) : ℝ))

/-- Relation (41). -/
theorem Hf_41 (c s : ℝ) (hu : c ^ 2 + s ^ 2 = 1) {n m : ℤ} (h1 : 1 ≤ m) (h2 : m ≤ n) :
    bco (n + 1) 0 * Hf c s n 1 m =
      1 / 2 * (bco (n + 1) (-m - 1) * (1 - (c ^ 2 - s ^ 2)) * Hf c s (n + 1) 0 (m + 1)
        - bco (n + 1) (m - 1) * (1 + (c ^ 2 - s ^ 2)) * Hf c s (n + 1) 0 (m - 1))
      - aco n m * (2 * s * c) * Hf c s (n + 1) 0 m := by
  obtain ⟨p, q, N, hN, rfl, rfl⟩ : ∃ p q N : ℕ, p + q = 2 * (N + 1) ∧ n = ((N + 1 : ℕ) : ℤ) ∧ m = p - (N + 1 : ℕ) :=
    ⟨(n + m).toNat, (n - m).toNat, (n - 1).toNat, by omega, by omega, by omega⟩
  have hq : (q : ℤ) = 2 * (N + 1) - p := by omega
  have key := Mr_low2 c s hu (N + 2) N q
  have hE : ((N + 1 : ℕ) : ℤ) + 1 = ((N + 2 : ℕ) : ℤ) := by push_cast; ring
  rw [hE, Hf_zero_row c s (p := p + 2) (q := q) (by omega) (by omega) (by omega),
    Hf_zero_row c s (p := p) (q := q + 2) (by omega) (by omega) (by omega),
    Hf_zero_row c s (p := p + 1) (q := q + 1) (by omega) (by omega) (by omega)]
  have hL : Hf c s ((N + 1 : ℕ) : ℤ) 1 ((p : ℤ) - (N + 1 : ℕ)) = -Dr c s (N + 2) N p q := by
    unfold Hf
    rw [eps_one, eps_nonpos (by omega), show (((N + 1 : ℕ) : ℤ) + 1).toNat = N + 2 by omega,
      show (((N + 1 : ℕ) : ℤ) - 1).toNat = N by omega, show (((N + 1 : ℕ) : ℤ) + ((p : ℤ) - (N + 1 : ℕ))).toNat = p by omega,
      show (((N + 1 : ℕ) : ℤ) - ((p : ℤ) - (N + 1 : ℕ))).toNat = q by omega]
    simp
  rw [hL]
  set T : ℝ := Real.sqrt ((2 * N + 3) * (2 * N + 5)) with hT
  have hT0 : 0 < T := Real.sqrt_pos.2 (by positivity)
  have hb : ∀ x : ℤ, Real.sqrt ((x : ℝ) / (((2 * ((N + 2 : ℕ) : ℤ) - 1) * (2 * ((N + 2 : ℕ) : ℤ) + 1) : ℤ) : ℝ))
      = Real.sqrt x / T := by
    intro x
    rw [hT, ← Real.sqrt_div' _ (by positivity)]
    congr 2
    push_cast; ring
  have hb1 : bco ((N + 2 : ℕ) : ℤ) 0 = Real.sqrt ((N + 1) * (N + 2)) / T := by
    unfold bco
    rw [hb, if_neg (by omega), one_mul]
    congr 2
    push_cast; ring
  have hb2 : bco ((N + 2 : ℕ) : ℤ) (-((p : ℤ) - (N + 1 : ℕ)) - 1) = -(Real.sqrt ((p + 1) * (p + 2)) / T) := by
    unfold bco
    rw [hb, if_pos (by omega)]
    rw [show (((N + 2 : ℕ) : ℤ) - (-((p : ℤ) - (N + 1 : ℕ)) - 1) - 1) * (((N + 2 : ℕ) : ℤ) - (-((p : ℤ) - (N + 1 : ℕ)) - 1))
      = (p + 1) * (p + 2) by push_cast; ring]
    push_cast; ring
  have hb3 : bco ((N + 2 : ℕ) : ℤ) ((p : ℤ) - (N + 1 : ℕ) - 1) = Real.sqrt ((q + 1) * (q + 2)) / T := by
    unfold bco
    rw [hb, if_neg (by omega)]
    rw [show (((N + 2 : ℕ) : ℤ) - ((p : ℤ) - (N + 1 : ℕ) - 1) - 1) * (((N + 2 : ℕ) : ℤ) - ((p : ℤ) - (N + 1 : ℕ) - 1))
      = (q + 1) * (q + 2) by rw [hq]; push_cast; ring]
    push_cast; ring
  have ha : aco ((N + 1 : ℕ) : ℤ) ((p : ℤ) - (N + 1 : ℕ)) = Real.sqrt ((p + 1) * (q + 1)) / T := by
    unfold aco
    rw [hT, ← Real.sqrt_div' _ (by positivity)]
    rw [show (((N + 1 : ℕ) : ℤ) + 1 + ((p : ℤ) - (N + 1 : ℕ))) * (((N + 1 : ℕ) : ℤ) + 1 - ((p : ℤ) - (N + 1 : ℕ)))
      = (p + 1) * (q + 1) by rw [hq]; push_cast; ring]
    congr 2
    · push_cast; ring
    · push_cast; ring
  set K : ℝ := Real.sqrt (p.factorial * q.factorial) with hK
  have d1 : Dr c s (N + 2) (N + 2) (p + 2) q = Real.sqrt ((p + 1) * (p + 2)) * K / (N + 2).factorial * Mr c s (N + 2) (N + 2) q := by
    unfold Dr
    rw [sqrt_fac_div _ 0 (by positivity), hK, ← Real.sqrt_mul (by positivity)]
    congr 3
    rw [Nat.factorial_succ, Nat.factorial_succ]; push_cast; ring
  have d2 : Dr c s (N + 2) (N + 2) p (q + 2) = Real.sqrt ((q + 1) * (q + 2)) * K / (N + 2).factorial * Mr c s (N + 2) (N + 2) (q + 2) := by
    unfold Dr
    rw [sqrt_fac_div _ 0 (by positivity), hK, ← Real.sqrt_mul (by positivity)]
    congr 3
    rw [Nat.factorial_succ, Nat.factorial_succ]; push_cast; ring
  have d3 : Dr c s (N + 2) (N + 2) (p + 1) (q + 1) = Real.sqrt ((p + 1) * (q + 1)) * K / (N + 2).factorial * Mr c s (N + 2) (N + 2) (q + 1) := by
    unfold Dr
    rw [sqrt_fac_div _ 0 (by positivity), hK, ← Real.sqrt_mul (by positivity)]
    congr 3
    rw [Nat.factorial_succ, Nat.factorial_succ]; push_cast; ring
  have d4 : Dr c s (N + 2) N p q = Real.sqrt ((N + 1) * (N + 2)) * K / (N + 2).factorial * Mr c s (N + 2) N q := by
    unfold Dr
    rw [hK, ← Real.sqrt_mul (by positivity), ← sqrt_fac_div _ 0 (by positivity)]
    congr 2
    rw [Nat.factorial_succ, Nat.factorial_succ]
    have := Nat.factorial_ne_zero N
    push_cast; field_simp; ring
  rw [hb1, hb2, hb3, ha, d1, d2, d3, d4]
  have q1 : Real.sqrt (((N : ℝ) + 1) * (N + 2)) * Real.sqrt ((N + 1) * (N + 2)) = (N + 1) * (N + 2) :=
    Real.mul_self_sqrt (by positivity)
  have q2 : Real.sqrt (((p : ℝ) + 1) * (p + 2)) * Real.sqrt ((p + 1) * (p + 2)) = (p + 1) * (p + 2) :=
    Real.mul_self_sqrt (by positivity)
  have q3 : Real.sqrt (((q : ℝ) + 1) * (q + 2)) * Real.sqrt ((q + 1) * (q + 2)) = (q + 1) * (q + 2) :=
    Real.mul_self_sqrt (by positivity)
  have q4 : Real.sqrt (((p : ℝ) + 1) * (q + 1)) * Real.sqrt ((p + 1) * (q + 1)) = (p + 1) * (q + 1) :=
    Real.mul_self_sqrt (by positivity)
  have hc1 : 1 - (c ^ 2 - s ^ 2) = 2 * s ^ 2 := by linarith
  have hc2 : 1 + (c ^ 2 - s ^ 2) = 2 * c ^ 2 := by linarith
  rw [hc1, hc2]
  have hpq : (p : ℝ) + q = 2 * (N + 1) := by exact_mod_cast hN
  push_cast at key
  have hp1 : ((N : ℝ) + 2 + N + 2 - q) = p + 2 := by linarith
  have hp2 : ((N : ℝ) + 2 + N + 1 - q) = p + 1 := by linarith
  rw [hp1, hp2] at key
  have hfac : ((N + 2).factorial : ℝ) ≠ 0 := by exact_mod_cast Nat.factorial_ne_zero _
  set r1 := Real.sqrt (((N : ℝ) + 1) * (N + 2))
  set r2 := Real.sqrt (((p : ℝ) + 1) * (p + 2))
  set r3 := Real.sqrt (((q : ℝ) + 1) * (q + 2))
  set r4 := Real.sqrt (((p : ℝ) + 1) * (q + 1))
  set F : ℝ := ((N + 2).factorial : ℝ)
  have hid : r1 * r1 * Mr c s (N + 2) N q = s ^ 2 * (r2 * r2) * Mr c s (N + 2) (N + 2) q
      + c ^ 2 * (r3 * r3) * Mr c s (N + 2) (N + 2) (q + 2) + 2 * s * c * (r4 * r4) * Mr c s (N + 2) (N + 2) (q + 1) := by
    rw [q1, q2, q3, q4]; linear_combination (-1 : ℝ) * key
  field_simp
  linear_combination (-K : ℝ) * hid

/-- The three-term relation along the row `m' = 0`. -/
theorem Hf_row0 (c s : ℝ) {n m : ℤ} (h1 : 0 ≤ m) (h2 : m < n) :
    2 * s * c * (Real.sqrt (((n - m) * (n + m + 1) : ℤ) : ℝ) * Hf c s n 0 m
      + Real.sqrt (((n + m + 2) * (n - m - 1) : ℤ) : ℝ) * Hf c s n 0 (m + 2))
      = (c ^ 2 - s ^ 2) * (2 * (m + 1) * Hf c s n 0 (m + 1)) := by
  obtain ⟨N, rfl⟩ : ∃ N : ℕ, n = N := ⟨n.toNat, by omega⟩
  obtain ⟨p, hp⟩ : ∃ p : ℕ, (p : ℤ) = N + m + 1 := ⟨(N + m + 1).toNat, by omega⟩
  obtain ⟨q, hq⟩ : ∃ q : ℕ, (q : ℤ) = N - (m + 1) := ⟨(N - (m + 1)).toNat, by omega⟩
  obtain ⟨b, rfl⟩ : ∃ b, p = b + 1 := ⟨p - 1, by omega⟩
  have key := Mr_row c s N q
  rw [Hf_zero_row c s (p := b) (q := q + 1) h1 (by omega) (by omega),
    Hf_zero_row c s (p := b + 1) (q := q) (m := m + 1) (by omega) (by omega) (by omega)]
  have hsum : N + N = (b + 1) + q := by omega
  set K := Real.sqrt (((b + 1).factorial * q.factorial : ℝ) / (N.factorial * N.factorial)) with hK
  have e3 : Real.sqrt ((((N : ℤ) - m) * (N + m + 1) : ℤ) : ℝ) * Dr c s N N b (q + 1) = K * ((q + 1 : ℕ) * Mr c s N N (q + 1)) := by
    unfold Dr
    have := sqrt_shift2 b q N N
    rw [show ((N : ℤ) - m) * (N + m + 1) = (q + 1) * (b + 1) by rw [show (q : ℤ) + 1 = N - m by omega, show (b : ℤ) + 1 = N + m + 1 by omega]]
    push_cast at this ⊢
    rw [← mul_assoc, this, hK]; push_cast; ring
  have e4 : Real.sqrt ((((N : ℤ) + m + 2) * (N - m - 1) : ℤ) : ℝ) * Hf c s N 0 (m + 2)
      = K * (if q = 0 then 0 else ((2 * N : ℕ) - (q : ℝ) + 1) * Mr c s N N (q - 1)) := by
    rw [show ((N : ℤ) + m + 2) * (N - m - 1) = (b + 1 + 1) * q by
      rw [show (q : ℤ) = N - m - 1 by omega, show (b : ℤ) + 1 + 1 = N + m + 2 by omega]]
    cases q with
    | zero => simp
    | succ a =>
      rw [if_neg (by omega), Hf_zero_row c s (p := b + 2) (q := a) (m := m + 2) (by omega) (by omega) (by omega)]
      unfold Dr
      have := sqrt_shift2 a (b + 1) N N
      rw [mul_comm (a.factorial : ℝ), mul_comm ((a + 1).factorial : ℝ)] at this
      rw [Nat.add_sub_cancel, hK]
      push_cast at this ⊢
      rw [← mul_assoc, this]
      have hN : 2 * (N : ℝ) = b + 1 + (a + 1) := by
        have : 2 * N = b + 1 + (a + 1) := by omega
        exact_mod_cast this
      rw [hN]; ring
  have e5 : Dr c s N N (b + 1) q = K * Mr c s N N q := rfl
  rw [e3, e4, e5]
  have hm : (m : ℝ) + 1 = N - q := by
    have : m + 1 = N - q := by omega
    exact_mod_cast this
  rw [hm]
  push_cast at *
  linear_combination K * key

/-- The end of the row. -/
theorem Hf_top (c s : ℝ) (n : ℕ) : Hf c s n 0 n = Real.sqrt ((2 * n).factorial) / n.factorial * (s * c) ^ n := by
  rw [Hf_zero_row c s (p := 2 * n) (q := 0) (by omega) (by omega) (by omega)]
  unfold Dr
  rw [sqrt_fac_div _ 0 (by positivity)]
  unfold Mr Gp
  rw [mul_coeff_zero]
  simp [coeff_zero_eq_eval_zero, mul_pow]
  ring_nf
  simp

end SF
