import Verif.Lemmas.Rep
import Verif.Lemmas.ThreeJOrth
import Verif.Props.ModesArith

/-!
# Invariance of the 3-j symbols under rotations, and the Clebsch–Gordan series

The polynomial `[23]^a [31]^b [12]^c`, where `[ij] = x_i y_j - x_j y_i`, is invariant under `SU(2)`.  Its coefficients are
the 3-j symbols up to normalisation.
-/

set_option autoImplicit false

namespace SF

open Finset ComplexConjugate Spec

/-- Index of the monomial that comes from the terms `t = (k, i, l)` of the three binomial expansions. -/
def tri3 (a b c : ℕ) (t : ℕ × ℕ × ℕ) : ℕ × ℕ × ℕ := (t.1 + (b - t.2.2), (c - t.1) + t.2.1, (a - t.2.1) + t.2.2)

/-- Coefficient of `x1^(b+c-q1) y1^q1 x2^(a+c-q2) y2^q2 x3^(a+b-q3) y3^q3` in `[23]^a [31]^b [12]^c`. -/
def gcg (a b c : ℕ) (q : ℕ × ℕ × ℕ) : ℂ :=
  ∑ t ∈ range (c + 1) ×ˢ range (a + 1) ×ˢ range (b + 1), if tri3 a b c t = q then
    (-1 : ℂ) ^ (t.1 + t.2.1 + t.2.2) * (c.choose t.1 * a.choose t.2.1 * b.choose t.2.2) else 0

theorem sub_pow_sum (u v : ℂ) (n : ℕ) :
    (u - v) ^ n = ∑ k ∈ range (n + 1), (-1 : ℂ) ^ k * n.choose k * (v ^ k * u ^ (n - k)) := by
  rw [sub_eq_add_neg, add_comm, add_pow]
  refine sum_congr rfl fun k _ => ?_
  rw [neg_pow v k]; ring

theorem gen3 (a b c : ℕ) (x1 y1 x2 y2 x3 y3 : ℂ) :
    (x2 * y3 - x3 * y2) ^ a * (x3 * y1 - x1 * y3) ^ b * (x1 * y2 - x2 * y1) ^ c
      = ∑ q ∈ range (b + c + 1) ×ˢ range (a + c + 1) ×ˢ range (a + b + 1), gcg a b c q
        * ((x1 ^ (b + c - q.1) * y1 ^ q.1) * (x2 ^ (a + c - q.2.1) * y2 ^ q.2.1) * (x3 ^ (a + b - q.2.2) * y3 ^ q.2.2)) := by
  unfold gcg
  simp only [sum_mul, ite_mul, zero_mul]
  rw [sum_comm]
  have : ∀ t ∈ range (c + 1) ×ˢ range (a + 1) ×ˢ range (b + 1),
      (∑ q ∈ range (b + c + 1) ×ˢ range (a + c + 1) ×ˢ range (a + b + 1), if tri3 a b c t = q then
        (-1 : ℂ) ^ (t.1 + t.2.1 + t.2.2) * (c.choose t.1 * a.choose t.2.1 * b.choose t.2.2)
        * ((x1 ^ (b + c - q.1) * y1 ^ q.1) * (x2 ^ (a + c - q.2.1) * y2 ^ q.2.1) * (x3 ^ (a + b - q.2.2) * y3 ^ q.2.2)) else 0)
      = ((-1 : ℂ) ^ t.1 * c.choose t.1 * ((x2 * y1) ^ t.1 * (x1 * y2) ^ (c - t.1)))
        * (((-1 : ℂ) ^ t.2.1 * a.choose t.2.1 * ((x3 * y2) ^ t.2.1 * (x2 * y3) ^ (a - t.2.1)))
          * ((-1 : ℂ) ^ t.2.2 * b.choose t.2.2 * ((x1 * y3) ^ t.2.2 * (x3 * y1) ^ (b - t.2.2)))) := by
    rintro ⟨k, i, l⟩ ht
    simp only [mem_product, mem_range] at ht
    obtain ⟨h1, h2, h3⟩ := ht
    rw [sum_ite_eq, if_pos (by simp only [tri3, mem_product, mem_range]; omega)]
    simp only [tri3]
    rw [show b + c - (k + (b - l)) = (c - k) + l by omega, show a + c - (c - k + i) = k + (a - i) by omega,
      show a + b - (a - i + l) = i + (b - l) by omega]
    simp only [pow_add, mul_pow]
    ring
  rw [sum_congr rfl this, sum_product]
  simp only [sum_product, ← mul_sum, ← sum_mul]
  rw [sub_pow_sum (x2 * y3), sub_pow_sum (x3 * y1), sub_pow_sum (x1 * y2)]
  ring

/-- Coefficients of a polynomial in three variables are determined by its values. -/
theorem coeffs_unique3 {n1 n2 n3 : ℕ} {c d : ℕ × ℕ × ℕ → ℂ}
    (h : ∀ y1 y2 y3 : ℂ, ∑ q ∈ range (n1 + 1) ×ˢ range (n2 + 1) ×ˢ range (n3 + 1), c q * (y1 ^ q.1 * y2 ^ q.2.1 * y3 ^ q.2.2)
      = ∑ q ∈ range (n1 + 1) ×ˢ range (n2 + 1) ×ˢ range (n3 + 1), d q * (y1 ^ q.1 * y2 ^ q.2.1 * y3 ^ q.2.2))
    {q : ℕ × ℕ × ℕ} (h1 : q.1 ≤ n1) (h2 : q.2.1 ≤ n2) (h3 : q.2.2 ≤ n3) : c q = d q := by
  obtain ⟨q1, q2, q3⟩ := q
  refine coeffs_unique (n := n3) (c := fun q3 => c (q1, q2, q3)) (d := fun q3 => d (q1, q2, q3)) (fun y3 => ?_) h3
  refine coeffs_unique (n := n2) (c := fun q2 => ∑ q3 ∈ range (n3 + 1), c (q1, q2, q3) * y3 ^ q3)
    (d := fun q2 => ∑ q3 ∈ range (n3 + 1), d (q1, q2, q3) * y3 ^ q3) (fun y2 => ?_) h2
  refine coeffs_unique (n := n1) (c := fun q1 => ∑ q2 ∈ range (n2 + 1), (∑ q3 ∈ range (n3 + 1), c (q1, q2, q3) * y3 ^ q3) * y2 ^ q2)
    (d := fun q1 => ∑ q2 ∈ range (n2 + 1), (∑ q3 ∈ range (n3 + 1), d (q1, q2, q3) * y3 ^ q3) * y2 ^ q2) (fun y1 => ?_) h1
  have e := h y1 y2 y3
  simp only [sum_product] at e
  simp only [sum_mul]
  refine Eq.trans ?_ (e.trans ?_) <;>
  · refine sum_congr rfl fun i _ => sum_congr rfl fun j _ => sum_congr rfl fun k _ => ?_
    ring

/-- Invariance of the coefficients under a unit rotor. -/
theorem gco_invariant {za zb : ℂ} (hu : IsUnit' za zb) (a b c : ℕ) {q1 q2 q3 : ℕ} (h1 : q1 ≤ b + c) (h2 : q2 ≤ a + c)
    (h3 : q3 ≤ a + b) :
    ∑ q ∈ range (b + c + 1) ×ˢ range (a + c + 1) ×ˢ range (a + b + 1), gcg a b c q
      * (Msum za zb (b + c - q.1) q.1 q1 * Msum za zb (a + c - q.2.1) q.2.1 q2 * Msum za zb (a + b - q.2.2) q.2.2 q3)
      = gcg a b c (q1, q2, q3) := by
  refine coeffs_unique3 (n1 := b + c) (n2 := a + c) (n3 := a + b) (c := fun p => ∑ q ∈ range (b + c + 1) ×ˢ range (a + c + 1) ×ˢ range (a + b + 1), gcg a b c q
      * (Msum za zb (b + c - q.1) q.1 p.1 * Msum za zb (a + c - q.2.1) q.2.1 p.2.1 * Msum za zb (a + b - q.2.2) q.2.2 p.2.2))
      (d := gcg a b c) (fun y1 y2 y3 => ?_) (q := (q1, q2, q3)) h1 h2 h3
  have g := gen3 a b c 1 y1 1 y2 1 y3
  simp only [one_pow, one_mul] at g
  have g' := gen3 a b c (za * 1 - conj zb * y1) (zb * 1 + conj za * y1) (za * 1 - conj zb * y2) (zb * 1 + conj za * y2)
    (za * 1 - conj zb * y3) (zb * 1 + conj za * y3)
  have hun : za * conj za + zb * conj zb = 1 := by
    unfold IsUnit' at hu
    rw [Complex.mul_conj, Complex.mul_conj]
    exact_mod_cast hu
  have inv : ∀ y y' : ℂ, (za * 1 - conj zb * y) * (zb * 1 + conj za * y') - (za * 1 - conj zb * y') * (zb * 1 + conj za * y)
      = y' - y := by
    intro y y'
    linear_combination (y' - y) * hun
  rw [inv, inv, inv, g] at g'
  rw [g', sum_congr rfl (g := fun p => _) (fun p _ => sum_mul _ _ _), sum_comm]
  refine sum_congr rfl fun q hq => ?_
  simp only [mem_product, mem_range] at hq
  obtain ⟨k1, k2, k3⟩ := hq
  rw [gen_row, gen_row, gen_row, show b + c - q.1 + q.1 = b + c by omega, show a + c - q.2.1 + q.2.1 = a + c by omega,
    show a + b - q.2.2 + q.2.2 = a + b by omega]
  simp only [one_pow, mul_one]
  rw [sum_mul_sum, sum_mul, mul_sum, sum_product]
  refine sum_congr rfl fun p1 _ => ?_
  rw [sum_mul_sum, mul_sum, sum_product]
  refine sum_congr rfl fun p2 _ => ?_
  rw [mul_sum]
  refine sum_congr rfl fun p3 _ => ?_
  ring

theorem gco_eq_zero {a b c q1 q2 q3 : ℕ} (hs : q1 + q2 + q3 ≠ a + b + c) : gcg a b c (q1, q2, q3) = 0 := by
  refine sum_eq_zero fun t ht => if_neg fun h => hs ?_
  simp only [mem_product, mem_range] at ht
  simp only [tri3, Prod.mk.injEq] at h
  omega

/-- The coefficients in the form of the Racah sum. -/
theorem gco_eq {j1 j2 j3 : ℤ} {a b c q1 q2 q3 : ℕ} (ha : (a : ℤ) = -j1 + j2 + j3) (hb : (b : ℤ) = j1 - j2 + j3)
    (hc : (c : ℤ) = j1 + j2 - j3) (hs : q1 + q2 + q3 = a + b + c) :
    gcg a b c (q1, q2, q3) = (((-1 : ℝ) ^ (j1 - j2 - (j3 - q3)) * (c.factorial * a.factorial * b.factorial)
      * ∑ k ∈ range (c + 1), (-1 : ℝ) ^ k
        * (invFact k * invFact (j1 + j2 - j3 - k) * invFact (j1 - (j1 - q1) - k) * invFact (j2 + (j2 - q2) - k)
          * invFact (j3 - j2 + (j1 - q1) + k) * invFact (j3 - j1 - (j2 - q2) + k)) : ℝ) : ℂ) := by
  unfold gcg
  rw [sum_product, mul_sum, Complex.ofReal_sum]
  refine sum_congr rfl fun k hk => ?_
  rw [mem_range] at hk
  have inv : ∀ (n : ℕ) (z : ℤ), z = n → invFact z = ((n.factorial : ℕ) : ℝ)⁻¹ := by
    rintro n z rfl
    unfold invFact
    rw [if_pos (by omega), Int.toNat_natCast]
  have inv0 : ∀ z : ℤ, z < 0 → invFact z = 0 := fun z hz => if_neg (by omega)
  by_cases h : c ≤ k + q2 ∧ k + q2 ≤ a + c ∧ q1 ≤ k + b ∧ k ≤ q1
  · obtain ⟨h1, h2, h3, h4⟩ := h
    rw [sum_eq_single (k + q2 - c, k + b - q1)]
    · rw [if_pos (by simp only [tri3, Prod.mk.injEq]; omega)]
      simp only
      rw [inv k _ rfl, inv (c - k) _ (by omega), inv (q1 - k) _ (by omega), inv (a + c - q2 - k) _ (by omega),
        inv (k + b - q1) _ (by omega), inv (k + q2 - c) _ (by omega)]
      have e1 := Nat.choose_mul_factorial_mul_factorial (show k ≤ c by omega)
      have e2 := Nat.choose_mul_factorial_mul_factorial (show k + q2 - c ≤ a by omega)
      have e3 := Nat.choose_mul_factorial_mul_factorial (show k + b - q1 ≤ b by omega)
      rw [show a - (k + q2 - c) = a + c - q2 - k by omega] at e2
      rw [show b - (k + b - q1) = q1 - k by omega] at e3
      have hsg : (-1 : ℝ) ^ (j1 - j2 - (j3 - q3)) * (-1 : ℝ) ^ k = (-1 : ℝ) ^ (k + (k + q2 - c) + (k + b - q1)) := by
        rw [← zpow_natCast, ← zpow_natCast, ← zpow_add₀ (by norm_num)]
        rw [show ((k + (k + q2 - c) + (k + b - q1) : ℕ) : ℤ) = (j1 - j2 - (j3 - q3) + k) + 2 * (k + q2 + j3 - j2 - j1) by omega,
          zpow_add₀ (by norm_num : (-1 : ℝ) ≠ 0) (j1 - j2 - (j3 - q3) + k), zpow_mul]
        norm_num
      have hf : (c.factorial * a.factorial * b.factorial : ℝ)
          * ((k.factorial : ℝ)⁻¹ * ((c - k).factorial : ℝ)⁻¹ * ((q1 - k).factorial : ℝ)⁻¹ * ((a + c - q2 - k).factorial : ℝ)⁻¹
            * ((k + b - q1).factorial : ℝ)⁻¹ * ((k + q2 - c).factorial : ℝ)⁻¹)
          = c.choose k * a.choose (k + q2 - c) * b.choose (k + b - q1) := by
        rw [← e1, ← e2, ← e3]
        push_cast
        field_simp
      have : ((-1 : ℂ) ^ (k + (k + q2 - c) + (k + b - q1)) * (c.choose k * a.choose (k + q2 - c) * b.choose (k + b - q1)))
          = (((-1 : ℝ) ^ (k + (k + q2 - c) + (k + b - q1)) * (c.choose k * a.choose (k + q2 - c) * b.choose (k + b - q1)) : ℝ) : ℂ) := by
        push_cast; ring
      rw [this, ← hsg, ← hf]
      congr 1
      ring
    · rintro ⟨i, l⟩ hil hne
      simp only [mem_product, mem_range] at hil
      refine if_neg fun h => hne ?_
      simp only [tri3, Prod.mk.injEq] at h
      rw [Prod.mk.injEq]
      omega
    · intro hn
      exact absurd (by simp only [mem_product, mem_range]; omega) hn
  · rw [sum_eq_zero]
    · have : invFact (j1 - (j1 - q1) - k) = 0 ∨ invFact (j2 + (j2 - q2) - k) = 0 ∨ invFact (j3 - j2 + (j1 - q1) + k) = 0 ∨
          invFact (j3 - j1 - (j2 - q2) + k) = 0 := by
        by_cases g1 : k ≤ q1
        · by_cases g2 : c ≤ k + q2
          · by_cases g3 : q1 ≤ k + b
            · exact .inr (.inl (inv0 _ (by omega)))
            · exact .inr (.inr (.inl (inv0 _ (by omega))))
          · exact .inr (.inr (.inr (inv0 _ (by omega))))
        · exact .inl (inv0 _ (by omega))
      rcases this with h | h | h | h <;> rw [h] <;> simp
    · rintro ⟨i, l⟩ hil
      simp only [mem_product, mem_range] at hil
      refine if_neg fun h' => h ?_
      simp only [tri3, Prod.mk.injEq] at h'
      omega

/-- Normalisation of the 3-j symbol. -/
noncomputable def nrm3 (a b c : ℕ) : ℝ :=
  Real.sqrt (c.factorial * b.factorial * a.factorial / (a + b + c + 1).factorial) / (c.factorial * a.factorial * b.factorial)

theorem threeJ_gco {j1 j2 j3 : ℤ} {a b c q1 q2 q3 : ℕ} (ha : (a : ℤ) = -j1 + j2 + j3) (hb : (b : ℤ) = j1 - j2 + j3)
    (hc : (c : ℤ) = j1 + j2 - j3) (h1 : q1 ≤ b + c) (h2 : q2 ≤ a + c) (h3 : q3 ≤ a + b) :
    (threeJ j1 j2 j3 (j1 - q1) (j2 - q2) (j3 - q3) : ℂ) = nrm3 a b c
      * (Real.sqrt ((b + c - q1).factorial * q1.factorial) * Real.sqrt ((a + c - q2).factorial * q2.factorial)
        * Real.sqrt ((a + b - q3).factorial * q3.factorial)) * gcg a b c (q1, q2, q3) := by
  have fc : ∀ (n : ℕ) (z : ℤ), z = n → fact z = ((n.factorial : ℕ) : ℝ) := by
    rintro n z rfl
    unfold fact
    rw [Int.toNat_natCast]
  by_cases hs : q1 + q2 + q3 = a + b + c
  · have hadm : Admissible j1 j2 j3 (j1 - q1) (j2 - q2) (j3 - q3) := by
      refine ⟨by omega, ?_, ?_, ?_, ?_, by omega⟩ <;> rw [abs_le] <;> omega
    unfold threeJ
    rw [if_pos hadm, gco_eq ha hb hc hs, show (j1 + j2 - j3).toNat = c by omega]
    rw [fc c _ (by omega), fc b (j1 - j2 + j3) (by omega), fc a (-j1 + j2 + j3) (by omega), fc (a + b + c + 1) _ (by push_cast; omega),
      fc (b + c - q1) _ (by omega), fc q1 _ (by omega), fc (a + c - q2) _ (by omega), fc q2 _ (by omega),
      fc (a + b - q3) _ (by omega), fc q3 _ (by omega)]
    rw [← Complex.ofReal_mul, ← Complex.ofReal_mul, ← Complex.ofReal_mul, ← Complex.ofReal_mul]
    congr 1
    rw [← Real.sqrt_mul (by positivity), ← Real.sqrt_mul (by positivity)]
    unfold nrm3
    rw [show ((b + c - q1).factorial * q1.factorial * ((a + c - q2).factorial * q2.factorial) * ((a + b - q3).factorial * q3.factorial) : ℝ)
      = (b + c - q1).factorial * q1.factorial * (a + c - q2).factorial * q2.factorial * (a + b - q3).factorial * q3.factorial by ring]
    have : (c.factorial * a.factorial * b.factorial : ℝ) ≠ 0 := by positivity
    field_simp
  · rw [gco_eq_zero hs, mul_zero, threeJ_eq_zero, Complex.ofReal_zero]
    rintro ⟨h, _⟩
    omega

/-- Invariance of the 3-j symbols under rotations, in terms of natural indices. -/
theorem threeJ_invariant_aux {za zb : ℂ} (hu : IsUnit' za zb) {j1 j2 j3 : ℤ} {a b c q1 q2 q3 : ℕ} (ha : (a : ℤ) = -j1 + j2 + j3)
    (hb : (b : ℤ) = j1 - j2 + j3) (hc : (c : ℤ) = j1 + j2 - j3) (h1 : q1 ≤ b + c) (h2 : q2 ≤ a + c) (h3 : q3 ≤ a + b) :
    ∑ q ∈ range (b + c + 1) ×ˢ range (a + c + 1) ×ˢ range (a + b + 1), (threeJ j1 j2 j3 (j1 - q.1) (j2 - q.2.1) (j3 - q.2.2) : ℂ)
      * (Dpq za zb (b + c - q.1) q.1 (b + c - q1) q1 * Dpq za zb (a + c - q.2.1) q.2.1 (a + c - q2) q2
        * Dpq za zb (a + b - q.2.2) q.2.2 (a + b - q3) q3) = threeJ j1 j2 j3 (j1 - q1) (j2 - q2) (j3 - q3) := by
  rw [threeJ_gco ha hb hc h1 h2 h3, ← gco_invariant hu a b c h1 h2 h3, mul_sum]
  refine sum_congr rfl fun q hq => ?_
  simp only [mem_product, mem_range] at hq
  obtain ⟨k1, k2, k3⟩ := hq
  rw [threeJ_gco ha hb hc (by omega) (by omega) (by omega), Dpq_eq_Msum, Dpq_eq_Msum, Dpq_eq_Msum]
  have key : ∀ p' q' p q : ℕ, ((Real.sqrt (p'.factorial * q'.factorial) : ℝ) : ℂ)
      * ((Real.sqrt ((p.factorial * q.factorial : ℝ) / (p'.factorial * q'.factorial)) : ℝ) : ℂ)
      = ((Real.sqrt (p.factorial * q.factorial) : ℝ) : ℂ) := by
    intro p' q' p q
    rw [← Complex.ofReal_mul, ← Real.sqrt_mul (by positivity)]
    congr 2
    field_simp
  rw [← key (b + c - q.1) q.1 (b + c - q1) q1, ← key (a + c - q.2.1) q.2.1 (a + c - q2) q2,
    ← key (a + b - q.2.2) q.2.2 (a + b - q3) q3]
  ring

theorem sum_range_Icc {M : Type} [AddCommMonoid M] {j : ℤ} {n : ℕ} (hn : (n : ℤ) = 2 * j) (g : ℤ → M) :
    ∑ q ∈ range (n + 1), g (j - q) = ∑ m ∈ Icc (-j) j, g m := by
  refine Finset.sum_nbij' (fun q => j - (q : ℤ)) (fun m => (j - m).toNat) ?_ ?_ ?_ ?_ ?_
  · intro k hk; rw [mem_range] at hk; rw [mem_Icc]; omega
  · intro m hm; rw [mem_Icc] at hm; rw [mem_range]; omega
  · intro k _; simp
  · intro m hm; rw [mem_Icc] at hm; omega
  · intro k _; rfl

/-- Integer-spin D matrix. -/
noncomputable abbrev wDi (za zb : ℂ) (j m' m : ℤ) : ℂ := wignerD za zb (2 * j) (2 * m') (2 * m)

theorem wDi_eq {za zb : ℂ} {j m' m : ℤ} {n q' q : ℕ} (hn : (n : ℤ) = 2 * j) (h' : m' = j - q') (h : m = j - q) (hq' : q' ≤ n) (hq : q ≤ n) :
    wDi za zb j m' m = Dpq za zb (n - q') q' (n - q) q := by
  unfold wDi wignerD
  congr 1 <;> omega

/-- Invariance of the 3-j symbols under rotations. -/
theorem threeJ_invariant {za zb : ℂ} (hu : IsUnit' za zb) {j1 j2 j3 m1 m2 m3 : ℤ} (ht : |j1 - j2| ≤ j3) (ht' : j3 ≤ j1 + j2)
    (h1 : |m1| ≤ j1) (h2 : |m2| ≤ j2) (h3 : |m3| ≤ j3) :
    ∑ n1 ∈ Icc (-j1) j1, ∑ n2 ∈ Icc (-j2) j2, ∑ n3 ∈ Icc (-j3) j3, (threeJ j1 j2 j3 n1 n2 n3 : ℂ)
      * (wDi za zb j1 n1 m1 * wDi za zb j2 n2 m2 * wDi za zb j3 n3 m3) = threeJ j1 j2 j3 m1 m2 m3 := by
  rw [abs_le] at ht h1 h2 h3
  obtain ⟨a, ha⟩ : ∃ a : ℕ, (a : ℤ) = -j1 + j2 + j3 := ⟨(-j1 + j2 + j3).toNat, by omega⟩
  obtain ⟨b, hb⟩ : ∃ b : ℕ, (b : ℤ) = j1 - j2 + j3 := ⟨(j1 - j2 + j3).toNat, by omega⟩
  obtain ⟨c, hc⟩ : ∃ c : ℕ, (c : ℤ) = j1 + j2 - j3 := ⟨(j1 + j2 - j3).toNat, by omega⟩
  have e := threeJ_invariant_aux hu ha hb hc (q1 := (j1 - m1).toNat) (q2 := (j2 - m2).toNat) (q3 := (j3 - m3).toNat)
    (by omega) (by omega) (by omega)
  rw [show j1 - ((j1 - m1).toNat : ℤ) = m1 by omega, show j2 - ((j2 - m2).toNat : ℤ) = m2 by omega,
    show j3 - ((j3 - m3).toNat : ℤ) = m3 by omega] at e
  rw [← e, sum_product, ← sum_range_Icc (n := b + c) (by push_cast; omega)]
  refine sum_congr rfl fun q1 hq1 => ?_
  rw [sum_product, ← sum_range_Icc (n := a + c) (by push_cast; omega)]
  refine sum_congr rfl fun q2 hq2 => ?_
  rw [← sum_range_Icc (n := a + b) (by push_cast; omega)]
  refine sum_congr rfl fun q3 hq3 => ?_
  rw [mem_range] at hq1 hq2 hq3
  rw [wDi_eq (n := b + c) (q' := q1) (q := (j1 - m1).toNat) (by push_cast; omega) rfl (by omega) (by omega) (by omega),
    wDi_eq (n := a + c) (q' := q2) (q := (j2 - m2).toNat) (by push_cast; omega) rfl (by omega) (by omega) (by omega),
    wDi_eq (n := a + b) (q' := q3) (q := (j3 - m3).toNat) (by push_cast; omega) rfl (by omega) (by omega) (by omega)]

/-- Coupling two D matrices. -/
theorem threeJ_couple {za zb : ℂ} (hu : IsUnit' za zb) {j1 j2 j3 m1 m2 n3 : ℤ} (ht : |j1 - j2| ≤ j3) (ht' : j3 ≤ j1 + j2)
    (h1 : |m1| ≤ j1) (h2 : |m2| ≤ j2) (h3 : |n3| ≤ j3) :
    ∑ n1 ∈ Icc (-j1) j1, ∑ n2 ∈ Icc (-j2) j2, (threeJ j1 j2 j3 n1 n2 n3 : ℂ) * (wDi za zb j1 n1 m1 * wDi za zb j2 n2 m2)
      = ∑ m3 ∈ Icc (-j3) j3, threeJ j1 j2 j3 m1 m2 m3 * conj (wDi za zb j3 n3 m3) := by
  have hj3 : 0 ≤ j3 := (abs_nonneg _).trans h3
  obtain ⟨l, rfl⟩ : ∃ l : ℕ, j3 = l := ⟨j3.toNat, by omega⟩
  have : ∀ m3 ∈ Icc (-(l : ℤ)) l, (threeJ j1 j2 l m1 m2 m3 : ℂ) * conj (wDi za zb l n3 m3)
      = ∑ n1 ∈ Icc (-j1) j1, ∑ n2 ∈ Icc (-j2) j2, ∑ n ∈ Icc (-(l : ℤ)) l, (threeJ j1 j2 l n1 n2 n : ℂ)
        * (wDi za zb j1 n1 m1 * wDi za zb j2 n2 m2) * (wDi za zb l n m3 * conj (wDi za zb l n3 m3)) := by
    intro m3 hm3
    rw [mem_Icc] at hm3
    rw [← threeJ_invariant hu ht ht' h1 h2 (abs_le.2 hm3), sum_mul]
    refine sum_congr rfl fun n1 _ => ?_
    rw [sum_mul]
    refine sum_congr rfl fun n2 _ => ?_
    rw [sum_mul]
    refine sum_congr rfl fun n _ => ?_
    ring
  rw [sum_congr rfl this]
  symm
  rw [sum_comm]
  refine sum_congr rfl fun n1 _ => ?_
  rw [sum_comm]
  refine sum_congr rfl fun n2 _ => ?_
  rw [sum_comm]
  simp only [← mul_sum]
  rw [sum_congr rfl (g := fun n => if n = n3 then (threeJ j1 j2 l n1 n2 n : ℂ) * (wDi za zb j1 n1 m1 * wDi za zb j2 n2 m2) else 0)]
  · rw [sum_ite_eq', if_pos (by rw [mem_Icc]; exact abs_le.1 h3)]
  · intro n hn
    rw [mem_Icc] at hn
    rw [wD_unitary_Icc hu (abs_le.2 hn) h3]
    split <;> simp

/-- The Clebsch–Gordan series. -/
theorem clebsch_gordan_series {za zb : ℂ} (hu : IsUnit' za zb) {j1 j2 n1 m1 n2 m2 : ℤ} (hn1 : |n1| ≤ j1) (hm1 : |m1| ≤ j1)
    (hn2 : |n2| ≤ j2) (hm2 : |m2| ≤ j2) :
    wDi za zb j1 n1 m1 * wDi za zb j2 n2 m2 = ∑ j ∈ Icc (max |j1 - j2| (max |n1 + n2| |m1 + m2|)) (j1 + j2),
      (2 * (j : ℂ) + 1) * threeJ j1 j2 j n1 n2 (-(n1 + n2)) * threeJ j1 j2 j m1 m2 (-(m1 + m2))
        * conj (wDi za zb j (-(n1 + n2)) (-(m1 + m2))) := by
  -- first over all `j` allowed by `n1`, `n2`
  have hsub : ∑ j ∈ Icc (max |j1 - j2| (max |n1 + n2| |m1 + m2|)) (j1 + j2),
      (2 * (j : ℂ) + 1) * threeJ j1 j2 j n1 n2 (-(n1 + n2)) * threeJ j1 j2 j m1 m2 (-(m1 + m2))
        * conj (wDi za zb j (-(n1 + n2)) (-(m1 + m2)))
      = ∑ j ∈ Icc (max |j1 - j2| |n1 + n2|) (j1 + j2),
      (2 * (j : ℂ) + 1) * threeJ j1 j2 j n1 n2 (-(n1 + n2)) * threeJ j1 j2 j m1 m2 (-(m1 + m2))
        * conj (wDi za zb j (-(n1 + n2)) (-(m1 + m2))) := by
    refine sum_subset ?_ ?_
    · intro j hj; rw [mem_Icc] at hj ⊢; omega
    · intro j hj hj'
      rw [mem_Icc] at hj hj'
      rw [threeJ_eq_zero (m1 := m1), Complex.ofReal_zero, mul_zero, zero_mul]
      rintro ⟨_, _, _, h, _⟩
      rw [abs_neg] at h
      omega
  rw [hsub]
  have hc : ∀ j ∈ Icc (max |j1 - j2| |n1 + n2|) (j1 + j2),
      (2 * (j : ℂ) + 1) * threeJ j1 j2 j n1 n2 (-(n1 + n2)) * threeJ j1 j2 j m1 m2 (-(m1 + m2))
        * conj (wDi za zb j (-(n1 + n2)) (-(m1 + m2)))
      = ∑ k1 ∈ Icc (-j1) j1, ∑ k2 ∈ Icc (-j2) j2, (2 * (j : ℂ) + 1) * threeJ j1 j2 j n1 n2 (-(n1 + n2))
          * ((threeJ j1 j2 j k1 k2 (-(n1 + n2)) : ℂ) * (wDi za zb j1 k1 m1 * wDi za zb j2 k2 m2)) := by
    intro j hj
    rw [mem_Icc] at hj
    have e := threeJ_couple hu (j1 := j1) (j2 := j2) (j3 := j) (m1 := m1) (m2 := m2) (n3 := -(n1 + n2)) (by omega) hj.2 hm1 hm2 (by rw [abs_neg]; omega)
    rw [show ∑ m3 ∈ Icc (-j) j, (threeJ j1 j2 j m1 m2 m3 : ℂ) * conj (wDi za zb j (-(n1 + n2)) m3)
        = threeJ j1 j2 j m1 m2 (-(m1 + m2)) * conj (wDi za zb j (-(n1 + n2)) (-(m1 + m2))) from ?_] at e
    · rw [mul_assoc _ (threeJ j1 j2 j m1 m2 (-(m1 + m2)) : ℂ), ← e]
      simp only [mul_sum]
    · refine sum_eq_single _ ?_ ?_
      · intro m3 _ hne
        rw [threeJ_eq_zero, Complex.ofReal_zero, zero_mul]
        rintro ⟨h, _⟩
        omega
      · intro hne
        rw [threeJ_eq_zero, Complex.ofReal_zero, zero_mul]
        rintro ⟨_, _, _, h, _⟩
        exact hne (mem_Icc.2 (abs_le.1 h))
  rw [sum_congr rfl hc, sum_comm]
  rw [sum_eq_single n1]
  · rw [sum_comm, sum_eq_single n2]
    · have e := threeJ_orth_j (j2 := j1) (j3 := j2) (m1 := -(n1 + n2)) (m2 := n1) (m2' := n1) hn1
        (by rw [show - -(n1 + n2) - n1 = n2 by ring]; exact hn2) hn1 (by rw [show - -(n1 + n2) - n1 = n2 by ring]; exact hn2)
      rw [if_pos rfl, abs_neg, show - -(n1 + n2) - n1 = n2 by ring] at e
      rw [show ∑ j ∈ Icc (max |j1 - j2| |n1 + n2|) (j1 + j2), (2 * (j : ℂ) + 1) * threeJ j1 j2 j n1 n2 (-(n1 + n2))
          * ((threeJ j1 j2 j n1 n2 (-(n1 + n2)) : ℂ) * (wDi za zb j1 n1 m1 * wDi za zb j2 n2 m2))
          = ((∑ j ∈ Icc (max |j1 - j2| |n1 + n2|) (j1 + j2), (2 * (j : ℝ) + 1)
            * (threeJ j j1 j2 (-(n1 + n2)) n1 n2 * threeJ j j1 j2 (-(n1 + n2)) n1 n2) : ℝ) : ℂ)
            * (wDi za zb j1 n1 m1 * wDi za zb j2 n2 m2) from ?_, e, Complex.ofReal_one, one_mul]
      rw [Complex.ofReal_sum, sum_mul]
      refine sum_congr rfl fun j _ => ?_
      rw [threeJ_cyclic j]
      push_cast
      ring
    · intro k2 _ hk
      refine sum_eq_zero fun j _ => ?_
      rw [threeJ_eq_zero (m2 := k2), Complex.ofReal_zero, zero_mul, mul_zero]
      rintro ⟨h, _⟩
      omega
    · intro hne
      exact absurd (mem_Icc.2 (abs_le.1 hn2)) hne
  · intro k1 hk1 hk
    rw [sum_comm]
    refine sum_eq_zero fun k2 hk2 => ?_
    rw [mem_Icc] at hk1 hk2
    by_cases hs : k1 + k2 = n1 + n2
    · have e := threeJ_orth_j (j2 := j1) (j3 := j2) (m1 := -(n1 + n2)) (m2 := n1) (m2' := k1) hn1
        (by rw [show - -(n1 + n2) - n1 = n2 by ring]; exact hn2) (abs_le.2 hk1) (by rw [show - -(n1 + n2) - k1 = k2 by omega]; exact abs_le.2 hk2)
      rw [if_neg (by omega), abs_neg, show - -(n1 + n2) - n1 = n2 by ring, show - -(n1 + n2) - k1 = k2 by omega] at e
      rw [show ∑ j ∈ Icc (max |j1 - j2| |n1 + n2|) (j1 + j2), (2 * (j : ℂ) + 1) * threeJ j1 j2 j n1 n2 (-(n1 + n2))
          * ((threeJ j1 j2 j k1 k2 (-(n1 + n2)) : ℂ) * (wDi za zb j1 k1 m1 * wDi za zb j2 k2 m2))
          = ((∑ j ∈ Icc (max |j1 - j2| |n1 + n2|) (j1 + j2), (2 * (j : ℝ) + 1)
            * (threeJ j j1 j2 (-(n1 + n2)) n1 n2 * threeJ j j1 j2 (-(n1 + n2)) k1 k2) : ℝ) : ℂ)
            * (wDi za zb j1 k1 m1 * wDi za zb j2 k2 m2) from ?_, e, Complex.ofReal_zero, zero_mul]
      rw [Complex.ofReal_sum, sum_mul]
      refine sum_congr rfl fun j _ => ?_
      rw [threeJ_cyclic j, threeJ_cyclic j]
      push_cast
      ring
    · refine sum_eq_zero fun j _ => ?_
      rw [threeJ_eq_zero (m1 := k1), Complex.ofReal_zero, zero_mul, mul_zero]
      rintro ⟨h, _⟩
      omega
  · intro hne
    exact absurd (mem_Icc.2 (abs_le.1 hn1)) hne

end SF
