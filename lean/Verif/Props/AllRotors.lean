import Verif.Props.NearPoles
import Verif.Props.Multiplication
import Verif.Props.ModesArith
import Verif.Props.Conversions

/-!
# The identities of C12–C15, C20–C22, C28, C29, C33, C34 at every unit rotor

Away from the poles these identities hold exactly for the values that the code returns.  If `|R.a|` or `|R.b|` is at most `epsilon`
but not zero, the code takes a shortcut.  Here the identities are proved for *every* unit rotor: those that survive the shortcut exactly
(double cover, spin behaviour, Euler form), the others up to an explicit multiple of `epsilon`.
-/

set_option autoImplicit false

namespace SF

open Finset ComplexConjugate Quaternion

/-- What `Wigner_D_element` returns for doubled indices `n = 2 ell`, `mp = 2 m'`, `m`, at any unit rotor. -/
noncomputable def Dval (Ra Rb : ℂ) (n mp m : ℤ) : ℂ :=
  open scoped Classical in
  if ‖Ra‖ ≤ epsilon then
    if mp = -m then (if (n - m) % 4 = 0 then 1 else -1) * Rb ^ m else 0
  else if ‖Rb‖ ≤ epsilon then
    if mp = m then Ra ^ m else 0
  else Spec.wignerD Ra Rb n mp m

theorem elemAny_val {L : ℤ} {table : List ℝ} (ht : IsWignerTable L table) {Ra Rb : ℂ} (hu : Spec.IsUnit' Ra Rb) {n mp m : ℤ}
    (hv : Spec.ValidD n mp m) (hle : n ≤ 2 * L) : elemAny table Ra Rb (n, mp, m) = .ok (Dval Ra Rb n mp m) := by
  obtain ⟨p', q', p, q, hsum, hap, hb, hc⟩ := valid_pq hv
  unfold elemAny Dval
  have hv2 := hv.1
  have hv3 := hv.2.1
  split_ifs with h1 h2 h3 h4 h5 h6 h7 h8
  all_goals simp only
  · unfold elem_ra_small
    rw [cpowInt_ok (unit_ra_small hu h1), if_neg (by rintro (h | h | h) <;> omega), if_pos (by assumption), one_mul]
  · unfold elem_ra_small
    rw [cpowInt_ok (unit_ra_small hu h1), if_neg (by rintro (h | h | h) <;> omega), if_neg (by assumption), neg_one_mul]
    rfl
  · unfold elem_ra_small
    rw [if_pos (by left; assumption)]
  · unfold elem_rb_small
    rw [cpowInt_ok (unit_rb_small hu (by assumption)), if_neg (by rintro (h | h | h) <;> omega)]
  · unfold elem_rb_small
    rw [if_pos (by left; assumption)]
  · exact elem_ra_lt_rb_eq ht (pos_of_eps (by assumption)) hv hle
  · exact elem_ra_ge_rb_eq ht (pos_of_eps h1) hv hle

theorem api_val {L : ℤ} {table : List ℝ} (ht : IsWignerTable L table) (flag : Bool) (junk : ℕ → ℂ)
    {rot : List DArg} {Ra Rb : ℂ} (hrot : RotationArgs rot Ra Rb) (hlen : rot.length ≠ 2) (hu : Spec.IsUnit' Ra Rb) {n mp m : ℤ}
    (hv : Spec.ValidD n mp m) (hle : n ≤ 2 * L) :
    Wigner_D_element table L flag junk (rot ++ [.num (.flt (half n)), .num (.flt (half mp)), .num (.flt (half m))])
      = .ok (.scalar (Dval Ra Rb n mp m)) := by
  obtain ⟨buf, hb, e⟩ := api_single hrot hlen table L flag junk n mp m
  rw [e, if_neg, kernel_eq_map [(n, mp, m)] buf hb (fun _ => Dval Ra Rb n mp m) (by simpa using elemAny_val ht hu hv hle)]
  · rfl
  · have : check_valid_indices L n mp m = true := by rw [check_iff]; exact ⟨hle, hv.1, hv.2.1⟩
    simp [this]

theorem apiD_val {L : ℤ} {table : List ℝ} (ht : IsWignerTable L table) (junk : ℕ → ℂ) {q : ℍ[ℝ]} (hq : normSq q = 1)
    {n mp m : ℤ} (hv : Spec.ValidD n mp m) (hle : n ≤ 2 * L) :
    apiD table L junk q n mp m = .ok (.scalar (Dval (partA q) (partB q) n mp m)) :=
  api_val ht true junk (RotationArgs.rotor q.re q.imI q.imJ q.imK) (by simp) (unitQ.mpr hq) hv hle

theorem Dval_error {Ra Rb : ℂ} (hu : Spec.IsUnit' Ra Rb) {n : ℕ} {mp m : ℤ} (hv : Spec.ValidD n mp m) :
    ‖Dval Ra Rb n mp m - Spec.wignerD Ra Rb n mp m‖ ≤ errH n := by
  obtain ⟨p', q', p, q, hsum, hap, hb, hc⟩ := valid_pq hv
  have hn : n = p + q := by omega
  have hE : errH n = errH (p + q) := by rw [hn]
  unfold Dval
  rw [wignerD_pq Ra Rb hsum hap hb hc]
  by_cases k1 : ‖Ra‖ ≤ epsilon
  · rw [if_pos k1, hE]
    refine le_trans (le_of_eq ?_) (Dpq_eps_ra hu k1 hsum)
    congr 2
    by_cases hm : mp = -m
    · rw [if_pos hm, if_pos (show p' = q by omega), ← hc, neg_one_pow_iffC]
      congr 1
      by_cases h4 : ((n : ℤ) - m) % 4 = 0
      · rw [if_pos h4, if_pos (by omega)]
      · rw [if_neg h4, if_neg (by omega)]
    · rw [if_neg hm, if_neg (by omega)]
  rw [if_neg k1]
  by_cases k2 : ‖Rb‖ ≤ epsilon
  · rw [if_pos k2, hE]
    refine le_trans (le_of_eq ?_) (Dpq_eps_rb hu k2 hsum)
    congr 2
    by_cases hm : mp = m
    · rw [if_pos hm, if_pos (by omega), ← hc]
    · rw [if_neg hm, if_neg (by omega)]
  · rw [if_neg k2, sub_self, norm_zero]
    exact errH_nonneg n

/-- No element of the closed form exceeds one. -/
theorem wD_norm_le_one {Ra Rb : ℂ} (hu : Spec.IsUnit' Ra Rb) {n : ℕ} {mp m : ℤ} (hv : Spec.ValidD n mp m) :
    ‖Spec.wignerD Ra Rb n mp m‖ ≤ 1 := by
  have h := wD_unitary hu (n := n) (mp := mp) (mpp := mp) ⟨hv.1, hv.1, hv.2.2.1, hv.2.2.1⟩
  rw [if_pos rfl] at h
  have h2 : ∑ k ∈ range (n + 1), ‖Spec.wignerD Ra Rb n mp (2 * k - n)‖ ^ 2 = 1 := by
    have : ((∑ k ∈ range (n + 1), ‖Spec.wignerD Ra Rb n mp (2 * k - n)‖ ^ 2 : ℝ) : ℂ) = ((1 : ℝ) : ℂ) := by
      rw [Complex.ofReal_one, ← h, Complex.ofReal_sum]
      apply sum_congr rfl
      intro k _
      rw [Complex.mul_conj, Complex.normSq_eq_norm_sq]
    exact_mod_cast this
  have hk : ∃ k : ℕ, k ∈ range (n + 1) ∧ m = 2 * (k : ℤ) - n := by
    obtain ⟨_, g2, _, g4⟩ := hv
    rw [abs_le] at g2
    exact ⟨((m + n) / 2).toNat, by rw [mem_range]; omega, by omega⟩
  obtain ⟨k, hk, rfl⟩ := hk
  have h3 := single_le_sum (f := fun k : ℕ => ‖Spec.wignerD Ra Rb n mp (2 * k - n)‖ ^ 2)
    (fun i _ => by positivity) hk
  rw [h2] at h3
  nlinarith [norm_nonneg (Spec.wignerD Ra Rb n mp (2 * k - n))]

/-- Error of a product of two approximate factors. -/
theorem mul_error {a b A B : ℂ} {e1 e2 K1 K2 : ℝ} (ha : ‖a - A‖ ≤ e1) (hb : ‖b - B‖ ≤ e2) (hA : ‖A‖ ≤ K1) (hB : ‖B‖ ≤ K2) :
    ‖a * b - A * B‖ ≤ K1 * e2 + e1 * K2 + e1 * e2 := by
  have e : a * b - A * B = A * (b - B) + (a - A) * B + (a - A) * (b - B) := by ring
  have h1 : 0 ≤ e1 := (norm_nonneg _).trans ha
  have h2 : 0 ≤ K1 := (norm_nonneg _).trans hA
  rw [e]
  refine (norm_add₃_le).trans ?_
  rw [norm_mul, norm_mul, norm_mul]
  gcongr

/-- Error of a sum of products. -/
theorem sum_mul_error {N : ℕ} {a b A B : ℕ → ℂ} {e1 e2 K1 K2 : ℝ} (ha : ∀ k ≤ N, ‖a k - A k‖ ≤ e1) (hb : ∀ k ≤ N, ‖b k - B k‖ ≤ e2)
    (hA : ∀ k ≤ N, ‖A k‖ ≤ K1) (hB : ∀ k ≤ N, ‖B k‖ ≤ K2) :
    ‖∑ k ∈ range (N + 1), a k * b k - ∑ k ∈ range (N + 1), A k * B k‖ ≤ (N + 1) * (K1 * e2 + e1 * K2 + e1 * e2) := by
  rw [← Finset.sum_sub_distrib]
  refine (norm_sum_le _ _).trans ?_
  have : ∀ k ∈ range (N + 1), ‖a k * b k - A k * B k‖ ≤ K1 * e2 + e1 * K2 + e1 * e2 := fun k hk => by
    rw [mem_range] at hk
    exact mul_error (ha k (by omega)) (hb k (by omega)) (hA k (by omega)) (hB k (by omega))
  refine (Finset.sum_le_card_nsmul _ _ _ this).trans ?_
  rw [card_range, nsmul_eq_mul]
  push_cast
  rfl

/-! ## The D functions -/

/-- **C12 (every rotor).** For all unit rotors: `Wigner_D_element(q*r, ...)` differs from the matrix product of the values returned for
`q` and `r` by at most `(2 ell+1)(2e + e²) + e`, where `e = errH (2 ell)` is the bound of C11, at most `(2 ell+3) epsilon` for `ell ≤ 5·10^13`. -/
theorem C12_every_rotor {L : ℤ} {table : List ℝ} (ht : IsWignerTable L table) (junk : ℕ → ℂ) (q r : ℍ[ℝ])
    (hq : normSq q = 1) (hr : normSq r = 1) (n : ℕ) (mp m : ℤ) (hv : Spec.ValidD n mp m) (hle : (n : ℤ) ≤ 2 * L) :
    ∃ (Dq Dr : ℕ → ℂ) (v : ℂ),
      (∀ k ≤ n, apiD table L junk q n mp (2 * k - n) = .ok (.scalar (Dq k)) ∧
        apiD table L junk r n (2 * k - n) m = .ok (.scalar (Dr k))) ∧
      apiD table L junk (q * r) n mp m = .ok (.scalar v) ∧
      ‖v - ∑ k ∈ range (n + 1), Dq k * Dr k‖ ≤ (n + 1) * (2 * errH n + errH n ^ 2) + errH n := by
  have hqr : normSq (q * r) = 1 := by rw [map_mul, hq, hr, one_mul]
  have uq := unitQ.mpr hq
  have ur := unitQ.mpr hr
  have vk := fun (k : ℕ) (hk : k ≤ n) => validD_k hv (k := k) (by omega)
  refine ⟨fun k => Dval (partA q) (partB q) n mp (2 * k - n), fun k => Dval (partA r) (partB r) n (2 * k - n) m, _,
    fun k hk => ⟨apiD_val ht junk hq (vk k hk).1 hle, apiD_val ht junk hr (vk k hk).2 hle⟩, apiD_val ht junk hqr hv hle, ?_⟩
  have e1 := Dval_error (unitQ.mpr hqr) hv
  have e2 := sum_mul_error (N := n) (fun k hk => Dval_error uq (vk k hk).1) (fun k hk => Dval_error ur (vk k hk).2)
    (fun k hk => wD_norm_le_one uq (vk k hk).1) (fun k hk => wD_norm_le_one ur (vk k hk).2)
  rw [C12_closed_form q r n mp m hv] at e2
  rw [norm_sub_rev] at e2
  have := norm_sub_le_norm_sub_add_norm_sub (Dval (partA (q * r)) (partB (q * r)) n mp m)
    (Spec.wignerD (partA (q * r)) (partB (q * r)) n mp m)
    (∑ k ∈ range (n + 1), Dval (partA q) (partB q) n mp (2 * k - n) * Dval (partA r) (partB r) n (2 * k - n) m)
  refine this.trans ?_
  have e3 : 1 * errH n + errH n * 1 + errH n * errH n = 2 * errH n + errH n ^ 2 := by ring
  rw [e3] at e2
  linarith

/-- **C13 (every rotor).** The double cover is exact at every unit rotor. -/
theorem C13_double_cover_every_rotor {L : ℤ} {table : List ℝ} (ht : IsWignerTable L table) (junk : ℕ → ℂ) (q : ℍ[ℝ])
    (hq : normSq q = 1) (n mp m : ℤ) (hv : Spec.ValidD n mp m) (hle : n ≤ 2 * L) :
    ∃ v, apiD table L junk q n mp m = .ok (.scalar v) ∧
      apiD table L junk (-q) n mp m = .ok (.scalar ((-1) ^ n * v)) := by
  refine ⟨_, apiD_val ht junk hq hv hle, ?_⟩
  have eA : partA (-q) = -partA q := by apply Complex.ext <;> simp [partA]
  have eB : partB (-q) = -partB q := by apply Complex.ext <;> simp [partB]
  rw [apiD_val ht junk (by rw [normSq_neg]; exact hq) hv hle, eA, eB]
  have sgn : ∀ z : ℂ, (-z) ^ m = (-1) ^ n * z ^ m := by
    intro z
    have : ((-1 : ℂ)) ^ n = (-1) ^ m := by
      have h2 : n = m + 2 * ((n - m) / 2) := by have := hv.2.2.2; omega
      conv_lhs => rw [h2, zpow_add₀ (by norm_num), zpow_mul]
      simp
    rw [this, ← mul_zpow]
    congr 1; ring
  congr 2
  unfold Dval
  rw [norm_neg, norm_neg]
  split_ifs
  · rw [sgn]; ring
  · rw [sgn]; ring
  · simp
  · rw [sgn]
  · simp
  · obtain ⟨p', q', p, q, hsum, ha, hb, hc⟩ := valid_pq hv
    rw [wignerD_pq _ _ hsum ha hb hc, wignerD_pq _ _ hsum ha hb hc, Dpq_neg _ _ hsum]
    have : n = ((p + q : ℕ) : ℤ) := by omega
    rw [this, zpow_natCast]

/-- **C14 (every rotor).** Inverse and conjugation, up to twice the error of one element; no element exceeds one by more than the error. -/
theorem C14_every_rotor {L : ℤ} {table : List ℝ} (ht : IsWignerTable L table) (junk : ℕ → ℂ) (q : ℍ[ℝ])
    (hq : normSq q = 1) (n : ℕ) (mp m : ℤ) (hv : Spec.ValidD n mp m) (hle : (n : ℤ) ≤ 2 * L) :
    ∃ a b c d, apiD table L junk q n mp m = .ok (.scalar a) ∧ apiD table L junk q n m mp = .ok (.scalar b) ∧
      apiD table L junk q⁻¹ n mp m = .ok (.scalar c) ∧ apiD table L junk q n (-mp) (-m) = .ok (.scalar d) ∧
      ‖a‖ ≤ 1 + errH n ∧ ‖c - conj b‖ ≤ 2 * errH n ∧ ‖conj a - (-1) ^ ((mp - m) / 2) * d‖ ≤ 2 * errH n := by
  have hv' : Spec.ValidD n (-mp) (-m) := by
    obtain ⟨h1, h2, h3, h4⟩ := hv
    exact ⟨by rwa [abs_neg], by rwa [abs_neg], by omega, by omega⟩
  have hi : normSq q⁻¹ = 1 := by rw [map_inv₀, hq, inv_one]
  have u := unitQ.mpr hq
  have ui := unitQ.mpr hi
  refine ⟨_, _, _, _, apiD_val ht junk hq hv hle, apiD_val ht junk hq (ValidD_symm hv) hle, apiD_val ht junk hi hv hle,
    apiD_val ht junk hq hv' hle, ?_, ?_, ?_⟩
  · have h1 := Dval_error u hv
    have h2 := wD_norm_le_one u hv
    have h3 := norm_sub_norm_le (Dval (partA q) (partB q) n mp m) (Spec.wignerD (partA q) (partB q) n mp m)
    linarith
  · have h1 := Dval_error ui hv
    have h2 := Dval_error u (ValidD_symm hv)
    have h3 : Spec.wignerD (partA q⁻¹) (partB q⁻¹) n mp m = conj (Spec.wignerD (partA q) (partB q) n m mp) := by
      rw [unit_inv hq, partA_star, partB_star, wD_inv' _ _ hv]
    rw [← Complex.norm_conj, map_sub, ← h3, norm_sub_rev] at h2
    have := norm_sub_le_norm_sub_add_norm_sub (Dval (partA q⁻¹) (partB q⁻¹) n mp m)
      (Spec.wignerD (partA q⁻¹) (partB q⁻¹) n mp m) (conj (Dval (partA q) (partB q) n m mp))
    linarith
  · have h1 := Dval_error u hv
    have h2 := Dval_error u hv'
    have h3 : conj (Spec.wignerD (partA q) (partB q) n mp m) = (-1) ^ ((mp - m) / 2) * Spec.wignerD (partA q) (partB q) n (-mp) (-m) := by
      obtain ⟨p', q', p, q, hsum, ha, hb, hc⟩ := valid_pq hv
      rw [wignerD_pq _ _ hsum ha hb hc, wignerD_pq _ _ (p' := q') (q' := p') (p := q) (q := p) (by omega) (by omega)
        (by omega) (by omega), Dpq_conj _ _ hsum]
      congr 1
      have e : (mp - m) / 2 = (p' : ℤ) - p := by omega
      rw [e, zpow_sub₀ (by norm_num), zpow_natCast, zpow_natCast, pow_add]
      rcases Nat.even_or_odd p with h | h
      · rw [h.neg_one_pow]; simp
      · rw [h.neg_one_pow, div_neg, div_one, mul_neg, mul_one]
    rw [← Complex.norm_conj, map_sub, h3] at h1
    have h4 : ‖(-1 : ℂ) ^ ((mp - m) / 2) * Spec.wignerD (partA q) (partB q) n (-mp) (-m)
        - (-1) ^ ((mp - m) / 2) * Dval (partA q) (partB q) n (-mp) (-m)‖ ≤ errH n := by
      rw [← mul_sub, norm_mul, norm_zpow, norm_neg, norm_one, one_zpow, one_mul, norm_sub_rev]
      exact h2
    have := norm_sub_le_norm_sub_add_norm_sub (conj (Dval (partA q) (partB q) n mp m))
      ((-1 : ℂ) ^ ((mp - m) / 2) * Spec.wignerD (partA q) (partB q) n (-mp) (-m))
      ((-1) ^ ((mp - m) / 2) * Dval (partA q) (partB q) n (-mp) (-m))
    linarith

/-- **C14 (every rotor).** Unitarity up to `(2 ell+1)(2e + e²)`. -/
theorem C14_unitary_every_rotor {L : ℤ} {table : List ℝ} (ht : IsWignerTable L table) (junk : ℕ → ℂ) (q : ℍ[ℝ])
    (hq : normSq q = 1) (n : ℕ) (mp mpp : ℤ) (hv : Spec.ValidD n mp mpp) (hle : (n : ℤ) ≤ 2 * L) :
    ∃ D D' : ℕ → ℂ,
      (∀ k ≤ n, apiD table L junk q n mp (2 * k - n) = .ok (.scalar (D k)) ∧
        apiD table L junk q n mpp (2 * k - n) = .ok (.scalar (D' k))) ∧
      ‖∑ k ∈ range (n + 1), D k * conj (D' k) - (if mp = mpp then 1 else 0)‖ ≤ (n + 1) * (2 * errH n + errH n ^ 2) := by
  have u := unitQ.mpr hq
  have v1 := fun (k : ℕ) (hk : k ≤ n) => (validD_k hv (k := k) (by omega)).1
  have v2 := fun (k : ℕ) (hk : k ≤ n) => (validD_k (ValidD_symm hv) (k := k) (by omega)).1
  refine ⟨_, _, fun k hk => ⟨apiD_val ht junk hq (v1 k hk) hle, apiD_val ht junk hq (v2 k hk) hle⟩, ?_⟩
  rw [← wD_unitary u hv]
  refine (sum_mul_error (N := n) (fun k hk => Dval_error u (v1 k hk))
    (b := fun k => conj (Dval (partA q) (partB q) n mpp (2 * k - n)))
    (B := fun k => conj (Spec.wignerD (partA q) (partB q) n mpp (2 * k - n)))
    (fun k hk => by rw [← map_sub, Complex.norm_conj]; exact Dval_error u (v2 k hk))
    (fun k hk => wD_norm_le_one u (v1 k hk)) (fun k hk => by rw [Complex.norm_conj]; exact wD_norm_le_one u (v2 k hk))).trans
    (le_of_eq ?_)
  ring

/-- **C15 (every angle).** The Euler form is exact at all angles, also next to the poles: there is a real function `d` of `β` alone, within the
error of one element of Wigner's `d`, such that the value returned is `exp(i m' α) d(β) exp(i m γ)`. -/
theorem C15_every_angle {L : ℤ} {table : List ℝ} (ht : IsWignerTable L table) (junk : ℕ → ℂ) (n : ℕ) (mp m : ℤ)
    (hv : Spec.ValidD n mp m) (hle : (n : ℤ) ≤ 2 * L) :
    ∃ d : ℝ → ℝ, (∀ β, ‖(d β : ℂ) - Spec.wignerD (Real.cos (β / 2)) (Real.sin (β / 2)) n mp m‖ ≤ errH n) ∧ ∀ α β γ : ℝ,
      Wigner_D_element table L true junk
          [.num (.flt α), .num (.flt β), .num (.flt γ), .num (.flt (half n)), .num (.flt (half mp)), .num (.flt (half m))]
        = .ok (.scalar (Complex.exp (Complex.I * half mp * α) * d β * Complex.exp (Complex.I * half m * γ))) := by
  have unit : ∀ β, Spec.IsUnit' (Real.cos (β / 2)) (Real.sin (β / 2)) := fun β => by
    unfold Spec.IsUnit'
    rw [Complex.normSq_ofReal, Complex.normSq_ofReal]
    have := Real.cos_sq_add_sin_sq (β / 2)
    linarith
  have real : ∀ β : ℝ, ∃ d : ℝ, Dval (Real.cos (β / 2)) (Real.sin (β / 2)) n mp m = d := by
    intro β
    unfold Dval
    obtain ⟨p', q', p, q, hsum, ha, hb, hc⟩ := valid_pq hv
    split_ifs
    · exact ⟨Real.sin (β / 2) ^ m, by push_cast; ring⟩
    · exact ⟨-Real.sin (β / 2) ^ m, by push_cast; ring⟩
    · exact ⟨0, by simp⟩
    · exact ⟨Real.cos (β / 2) ^ m, by push_cast; ring⟩
    · exact ⟨0, by simp⟩
    · rw [wignerD_pq _ _ hsum ha hb hc]; exact Dpq_real _ _ _ _ _ _
  choose d hd using real
  refine ⟨d, fun β => by rw [← hd]; exact Dval_error (unit β) hv, fun α β γ => ?_⟩
  have hnorm : ∀ (r θ : ℝ), ‖(r : ℂ) * Complex.exp (Complex.I * θ)‖ = ‖(r : ℂ)‖ := by
    intro r θ
    rw [norm_mul, mul_comm Complex.I, Complex.norm_exp_ofReal_mul_I, mul_one]
  have c1 : (((α + γ) / 2 : ℝ) : ℂ) = (α + γ) / 2 := by push_cast; ring
  have c2 : (((γ - α) / 2 : ℝ) : ℂ) = (γ - α) / 2 := by push_cast; ring
  have n1 := hnorm (Real.cos (β / 2)) ((α + γ) / 2)
  have n2 := hnorm (Real.sin (β / 2)) ((γ - α) / 2)
  rw [c1] at n1
  rw [c2] at n2
  have hu : Spec.IsUnit' (Real.cos (β / 2) * Complex.exp (Complex.I * ((α + γ) / 2)))
      (Real.sin (β / 2) * Complex.exp (Complex.I * ((γ - α) / 2))) := by
    have := unit β
    unfold Spec.IsUnit' at *
    rw [Complex.normSq_eq_norm_sq, Complex.normSq_eq_norm_sq] at *
    rw [n1, n2]; exact this
  refine (api_val ht true junk (RotationArgs.euler α β γ) (by simp) hu hv hle).trans ?_
  congr 2
  rw [← hd]
  unfold Dval
  rw [n1, n2]
  split_ifs with h1 h2 h3 h4 h5
  · rw [mul_zpow, ← Complex.exp_int_mul]
    have : Complex.exp (m * (Complex.I * ((γ - α) / 2))) = Complex.exp (Complex.I * half mp * α) * Complex.exp (Complex.I * half m * γ) := by
      rw [← Complex.exp_add]; congr 1; unfold half; rw [h2]; push_cast; ring
    rw [this]; ring
  · rw [mul_zpow, ← Complex.exp_int_mul]
    have : Complex.exp (m * (Complex.I * ((γ - α) / 2))) = Complex.exp (Complex.I * half mp * α) * Complex.exp (Complex.I * half m * γ) := by
      rw [← Complex.exp_add]; congr 1; unfold half; rw [h2]; push_cast; ring
    rw [this]; ring
  · simp
  · rw [mul_zpow, ← Complex.exp_int_mul]
    have : Complex.exp (m * (Complex.I * ((α + γ) / 2))) = Complex.exp (Complex.I * half mp * α) * Complex.exp (Complex.I * half m * γ) := by
      rw [← Complex.exp_add]; congr 1; unfold half; rw [h5]; push_cast; ring
    rw [this]; ring
  · simp
  · obtain ⟨p', q', p, q, hsum, ha, hb, hc⟩ := valid_pq hv
    rw [wignerD_pq _ _ hsum ha hb hc, wignerD_pq _ _ hsum ha hb hc, euler_form α β γ hsum]
    congr 3
    · unfold half; rw [hb]; push_cast; ring
    · unfold half; rw [hc]; push_cast; ring

/-! ## The harmonics -/

/-- The harmonics are bounded. -/
theorem sYlm_norm_le {Ra Rb : ℂ} (hu : Spec.IsUnit' Ra Rb) (s m : ℤ) (l : ℕ) :
    ‖Spec.sYlm Ra Rb s l m‖ ≤ Real.sqrt ((2 * l + 1) / (4 * Real.pi)) := by
  unfold Spec.sYlm
  split_ifs with h
  · have h1 : ‖Spec.wignerD Ra Rb ((2 * l : ℕ) : ℤ) (2 * m) (-2 * s)‖ ≤ 1 :=
      wD_norm_le_one hu (by push_cast; exact validD_sm h)
    push_cast at h1
    rw [norm_mul, norm_mul, norm_zpow, norm_neg, norm_one, one_zpow, one_mul, Complex.norm_real,
      Real.norm_of_nonneg (Real.sqrt_nonneg _)]
    push_cast
    calc _ ≤ Real.sqrt ((2 * l + 1) / (4 * Real.pi)) * 1 := by gcongr
      _ = _ := mul_one _
  · rw [norm_zero]; exact Real.sqrt_nonneg _

/-- **C20 (every rotor).** -/
theorem C20_every_rotor {L : ℤ} {table : List ℝ} (ht : IsWignerTable L table) (junk : ℕ → ℂ) (q : ℍ[ℝ])
    (hq : normSq q = 1) (s ell m : ℤ) (h0 : 0 ≤ ell) (hl : ell ≤ L) :
    ∃ y y', apiY table junk q s ell m = .ok [y] ∧ apiY table junk q (-s) ell (-m) = .ok [y'] ∧
      ‖conj y - (-1) ^ (s + m) * y'‖ ≤ 2 * errY ell := by
  refine ⟨_, _, apiY_any ht junk hq hl, apiY_any ht junk hq hl, ?_⟩
  have u := unitQ.mpr hq
  have h1 := Yret_error u s (m := m) h0
  have h2 := Yret_error u (-s) (m := -m) h0
  rw [← Complex.norm_conj, map_sub, sYlm_conj] at h1
  have h4 : ‖(-1 : ℂ) ^ (s + m) * Spec.sYlm (partA q) (partB q) (-s) ell (-m)
      - (-1) ^ (s + m) * Yret (partA q) (partB q) (-s) ell (-m)‖ ≤ errY ell := by
    rw [← mul_sub, norm_mul, norm_zpow, norm_neg, norm_one, one_zpow, one_mul, norm_sub_rev]
    exact h2
  have := norm_sub_le_norm_sub_add_norm_sub (conj (Yret (partA q) (partB q) s ell m))
    ((-1 : ℂ) ^ (s + m) * Spec.sYlm (partA q) (partB q) (-s) ell (-m)) ((-1) ^ (s + m) * Yret (partA q) (partB q) (-s) ell (-m))
  linarith

/-- **C21 (every rotor).** The behaviour under `q → q exp(γ z/2)` is exact at every unit rotor. -/
theorem C21_spin_every_rotor {L : ℤ} {table : List ℝ} (ht : IsWignerTable L table) (junk : ℕ → ℂ) (q : ℍ[ℝ]) (γ : ℝ)
    (hq : normSq q = 1) (s ell m : ℤ) (hl : ell ≤ L) :
    ∃ y, apiY table junk q s ell m = .ok [y] ∧
      apiY table junk (q * zrot γ) s ell m = .ok [Complex.exp (-(Complex.I * s * γ)) * y] := by
  refine ⟨_, apiY_any ht junk hq hl, ?_⟩
  have hz : normSq (zrot γ) = 1 := by
    rw [normSq_def']
    have := Real.cos_sq_add_sin_sq (γ / 2)
    simp only [zrot, mkQ_re, mkQ_imI, mkQ_imJ, mkQ_imK]; linarith
  rw [apiY_any ht junk (by rw [map_mul, hq, hz, one_mul]) hl]
  have eA : partA (q * zrot γ) = partA q * Complex.exp (((γ / 2 : ℝ) : ℂ) * Complex.I) := by
    rw [partA_mul, partB_zrot, mul_zero, sub_zero, partA_zrot]
  have eB : partB (q * zrot γ) = partB q * Complex.exp (((γ / 2 : ℝ) : ℂ) * Complex.I) := by
    rw [partB_mul, partB_zrot, mul_zero, zero_add, partA_zrot]
  have nA : ‖partA (q * zrot γ)‖ = ‖partA q‖ := by rw [eA, norm_mul, Complex.norm_exp_ofReal_mul_I, mul_one]
  have nB : ‖partB (q * zrot γ)‖ = ‖partB q‖ := by rw [eB, norm_mul, Complex.norm_exp_ofReal_mul_I, mul_one]
  congr 2
  by_cases k1 : ‖partA q‖ ≤ epsilon
  · unfold Yret
    rw [Dret_ra k1, Dret_ra (by rw [nA]; exact k1), eB]
    split_ifs with h1 h2
    · rw [mul_zpow, ← Complex.exp_int_mul]
      have : Complex.exp ((-2 * m : ℤ) * (((γ / 2 : ℝ) : ℂ) * Complex.I)) = Complex.exp (-(Complex.I * s * γ)) := by
        congr 1; have : m = s := by omega
        rw [this]; push_cast; ring
      rw [this]; ring
    · rw [mul_zpow, ← Complex.exp_int_mul]
      have : Complex.exp ((-2 * m : ℤ) * (((γ / 2 : ℝ) : ℂ) * Complex.I)) = Complex.exp (-(Complex.I * s * γ)) := by
        congr 1; have : m = s := by omega
        rw [this]; push_cast; ring
      rw [this]; ring
    · simp
    · simp
  by_cases k2 : ‖partB q‖ ≤ epsilon
  · unfold Yret
    rw [Dret_rb k1 k2, Dret_rb (by rw [nA]; exact k1) (by rw [nB]; exact k2), eA]
    split_ifs with h1 h2
    · rw [mul_zpow, ← Complex.exp_int_mul]
      have : Complex.exp ((2 * m : ℤ) * (((γ / 2 : ℝ) : ℂ) * Complex.I)) = Complex.exp (-(Complex.I * s * γ)) := by
        congr 1; rw [h2]; push_cast; ring
      rw [this]; ring
    · simp
    · simp
  · rw [Yret_gen k1 k2, Yret_gen (by rw [nA]; exact k1) (by rw [nB]; exact k2), sYlm_spin]

/-- **C21 (every rotor).** Rotation behaviour, up to `N ((2l+1)(2e + e²) + e)` with `N = sqrt((2l+1)/(4π))`, `e = (2l+1) 4^l epsilon`. -/
theorem C21_rotation_every_rotor {L : ℤ} {table : List ℝ} (ht : IsWignerTable L table) (junk : ℕ → ℂ) (p q : ℍ[ℝ])
    (hp : normSq p = 1) (hq : normSq q = 1) (s : ℤ) (l : ℕ) (m : ℤ) (hm : |m| ≤ l) (hl : (l : ℤ) ≤ L) :
    ∃ (D Y : ℕ → ℂ) (y : ℂ),
      (∀ k ≤ 2 * l, apiD table L junk p (2 * l) (2 * m) (2 * (k - l)) = .ok (.scalar (D k)) ∧
        apiY table junk q s l (k - l) = .ok [Y k]) ∧
      apiY table junk (p * q) s l m = .ok [y] ∧
      ‖y - ∑ k ∈ range (2 * l + 1), D k * Y k‖
        ≤ Real.sqrt ((2 * l + 1) / (4 * Real.pi)) * ((2 * l + 1) * (2 * errD l + errD l ^ 2) + errD l) := by
  have hpq : normSq (p * q) = 1 := by rw [map_mul, hp, hq, one_mul]
  have up := unitQ.mpr hp
  have uq := unitQ.mpr hq
  have hk : ∀ k : ℕ, k ≤ 2 * l → |(k : ℤ) - l| ≤ l := fun k hk => by rw [abs_le]; omega
  refine ⟨fun k => Dret (partA p) (partB p) l m (k - l), fun k => Yret (partA q) (partB q) s l (k - l), _,
    fun k h => ⟨apiD_any ht junk hp hm (hk k h) hl, apiY_any ht junk hq hl⟩, apiY_any ht junk hpq hl, ?_⟩
  have e1 := Yret_error (unitQ.mpr hpq) s (m := m) (Int.natCast_nonneg l)
  have e2 := sum_mul_error (N := 2 * l) (a := fun k => Dret (partA p) (partB p) l m (k - l))
    (A := fun k => Spec.wignerD (partA p) (partB p) (2 * l) (2 * m) (2 * (k - l)))
    (b := fun k => Yret (partA q) (partB q) s l (k - l)) (B := fun k => Spec.sYlm (partA q) (partB q) s l (k - l))
    (fun k h => Dret_error up hm (hk k h)) (fun k h => Yret_error uq s (Int.natCast_nonneg l))
    (K1 := 1) (fun k h => by
      have := wD_norm_le_one up (n := 2 * l) (mp := 2 * m) (m := 2 * (k - l)) (by push_cast; exact validD_int hm (hk k h))
      push_cast at this; exact this) (fun k h => sYlm_norm_le uq s (k - l) l)
  rw [← sYlm_rotate p q s l m hm, norm_sub_rev] at e2
  have := norm_sub_le_norm_sub_add_norm_sub (Yret (partA (p * q)) (partB (p * q)) s l m)
    (Spec.sYlm (partA (p * q)) (partB (p * q)) s l m)
    (∑ k ∈ range (2 * l + 1), Dret (partA p) (partB p) l m (k - l) * Yret (partA q) (partB q) s l (k - l))
  refine this.trans ((add_le_add e1 e2).trans (le_of_eq ?_))
  unfold errY
  push_cast
  ring

/-- **C22 (every rotor).** The addition theorem up to `(2l+1)²/(4π) (2e + e²)`. -/
theorem C22_every_rotor {L : ℤ} {table : List ℝ} (ht : IsWignerTable L table) (junk : ℕ → ℂ) (q : ℍ[ℝ])
    (hq : normSq q = 1) (s s' : ℤ) (l : ℕ) (hs : |s| ≤ l) (hs' : |s'| ≤ l) (hl : (l : ℤ) ≤ L) :
    ∃ Y Y' : ℕ → ℂ,
      (∀ k ≤ 2 * l, apiY table junk q s l (k - l) = .ok [Y k] ∧ apiY table junk q s' l (k - l) = .ok [Y' k]) ∧
      ‖∑ k ∈ range (2 * l + 1), Y k * conj (Y' k) - (if s = s' then (((2 * l + 1) / (4 * Real.pi) : ℝ) : ℂ) else 0)‖
        ≤ (2 * l + 1) ^ 2 / (4 * Real.pi) * (2 * errD l + errD l ^ 2) := by
  have u := unitQ.mpr hq
  refine ⟨fun k => Yret (partA q) (partB q) s l (k - l), fun k => Yret (partA q) (partB q) s' l (k - l),
    fun k _ => ⟨apiY_any ht junk hq hl, apiY_any ht junk hq hl⟩, ?_⟩
  have h := sYlm_addition u s s' l hs hs'
  simp only [mul_comm (conj _)] at h
  rw [← h]
  refine (sum_mul_error (N := 2 * l) (a := fun k => Yret (partA q) (partB q) s l (k - l))
    (A := fun k => Spec.sYlm (partA q) (partB q) s l (k - l))
    (b := fun k => conj (Yret (partA q) (partB q) s' l (k - l))) (B := fun k => conj (Spec.sYlm (partA q) (partB q) s' l (k - l)))
    (fun k h => Yret_error u s (Int.natCast_nonneg l))
    (fun k h => by rw [← map_sub, Complex.norm_conj]; exact Yret_error u s' (Int.natCast_nonneg l))
    (fun k h => sYlm_norm_le u s (k - l) l) (fun k h => by rw [Complex.norm_conj]; exact sYlm_norm_le u s' (k - l) l)).trans (le_of_eq ?_)
  unfold errY
  have hN : Real.sqrt ((2 * (l : ℝ) + 1) / (4 * Real.pi)) ^ 2 = (2 * l + 1) / (4 * Real.pi) := Real.sq_sqrt (by positivity)
  push_cast
  linear_combination (2 * (l : ℝ) + 1) * (2 * errD l + errD l ^ 2) * hN

/-! ## Modes objects -/

/-- Bound on the error of `evaluate` at any unit rotor (C61): `Σ |f(ell,m)| sqrt((2 ell+1)/(4π)) errD(ell)`. -/
noncomputable def evalErr (f : Modes) (idx : MIdx) : ℝ :=
  ∑ ell ∈ Icc 0 f.ell_max, ∑ m ∈ Icc (-ell) ell, ‖f.coef ell m idx‖ *
    (Real.sqrt ((2 * ell + 1) / (4 * Real.pi)) * ((2 * ell + 2) * epsilon + (((1 - epsilon ^ 2) ^ (2 * ell))⁻¹ - 1)))

/-- The function that a Modes object stands for, at a rotor and a leading index. -/
noncomputable def Modes.val (f : Modes) (q : ℍ[ℝ]) (idx : MIdx) : ℂ :=
  Spec.fieldValue f.s f.ell_max (fun ell m => f.coef ell m idx) (partA q) (partB q)

/-- **C28 (every rotor).** At every unit rotor the conjugate object evaluates to the complex conjugate, up to the sum of the two
evaluation errors of C61. -/
theorem C28_every_rotor {L : ℤ} {table : List ℝ} (ht : IsWignerTable L table) (junk : ℕ → ℤ × ℤ) (f : Modes) (hf : f.WF)
    (hL : f.ell_max ≤ L) (qs : List ℍ[ℝ]) (hne : qs ≠ []) (hq : ∀ q ∈ qs, normSq q = 1) (inplace : Bool) :
    ∃ g, ∃ v w : ℍ[ℝ] → MIdx → ℂ, f.conjugate inplace = .ok g ∧ g.s = -f.s ∧ g.ell_max = f.ell_max ∧ g.lead = f.lead ∧
      f.evaluate table junk (qs.map comps) = .ok (qs.map v) ∧ g.evaluate table junk (qs.map comps) = .ok (qs.map w) ∧
      ∀ q ∈ qs, ∀ idx, ‖w q idx - conj (v q idx)‖ ≤ evalErr f idx + evalErr g idx := by
  obtain ⟨g, g1, g2⟩ := conjugate_ok hf inplace
  obtain ⟨v, v1, v2⟩ := C61_evaluate ht junk f hf hL qs hne hq
  obtain ⟨w, w1, w2⟩ := C61_evaluate ht junk g g2.wf (by rw [g2.hL]; exact hL) qs hne hq
  refine ⟨g, v, w, g1, g2.hs, g2.hL, g2.lead, v1, w1, fun q hqm idx => ?_⟩
  have e : g.val q idx = conj (f.val q idx) := by
    unfold Modes.val
    rw [← fieldValue_conj, g2.hs, g2.hL]
    apply fieldValue_congr
    intro ell m h1 h2 h3
    rw [g2.coef ell m h1 h2 h3]
  have a := v2 q hqm idx
  have b := w2 q hqm idx
  have c : w q idx - conj (v q idx) = (w q idx - g.val q idx) - conj (v q idx - f.val q idx) := by
    rw [map_sub, e]; ring
  rw [c]
  refine (norm_sub_le _ _).trans ?_
  rw [Complex.norm_conj, add_comm]
  exact add_le_add a b

/-- **C29 (every rotor).** `real` and `imag` at every unit rotor, up to the evaluation errors of C61. -/
theorem C29_every_rotor {L : ℤ} {table : List ℝ} (ht : IsWignerTable L table) (junk : ℕ → ℤ × ℤ) (f : Modes) (hf : f.WF)
    (hs : f.s = 0) (hL : f.ell_max ≤ L) (qs : List ℍ[ℝ]) (hne : qs ≠ []) (hq : ∀ q ∈ qs, normSq q = 1) (inplace : Bool) :
    ∃ g h, ∃ v w x : ℍ[ℝ] → MIdx → ℂ, f.real_func inplace = .ok g ∧ f.imag_func inplace = .ok h ∧ g.s = 0 ∧ h.s = 0 ∧
      g.ell_max = f.ell_max ∧ h.ell_max = f.ell_max ∧
      f.evaluate table junk (qs.map comps) = .ok (qs.map v) ∧ g.evaluate table junk (qs.map comps) = .ok (qs.map w) ∧
      h.evaluate table junk (qs.map comps) = .ok (qs.map x) ∧
      ∀ q ∈ qs, ∀ idx, ‖w q idx - ((v q idx).re : ℂ)‖ ≤ evalErr f idx + evalErr g idx ∧
        ‖x q idx - ((v q idx).im : ℂ)‖ ≤ evalErr f idx + evalErr h idx := by
  obtain ⟨g, g1, g2⟩ := real_ok hf hs inplace
  obtain ⟨h, h1, h2⟩ := imag_ok hf hs inplace
  obtain ⟨v, v1, v2⟩ := C61_evaluate ht junk f hf hL qs hne hq
  obtain ⟨w, w1, w2⟩ := C61_evaluate ht junk g g2.wf (by rw [g2.hL]; exact hL) qs hne hq
  obtain ⟨x, x1, x2⟩ := C61_evaluate ht junk h h2.wf (by rw [h2.hL]; exact hL) qs hne hq
  have hc : ∀ (q : ℍ[ℝ]) (idx : MIdx),
      Spec.fieldValue 0 f.ell_max (fun ell m => (-1 : ℂ) ^ (0 + m) * conj (f.coef ell (-m) idx)) (partA q) (partB q)
        = conj (Spec.fieldValue 0 f.ell_max (fun ell m => f.coef ell m idx) (partA q) (partB q)) := by
    intro q idx
    have := fieldValue_conj 0 f.ell_max (fun ell m => f.coef ell m idx) (partA q) (partB q)
    simpa using this
  refine ⟨g, h, v, w, x, g1, h1, g2.hs, h2.hs, g2.hL, h2.hL, v1, w1, x1, fun q hqm idx => ⟨?_, ?_⟩⟩
  · have e : g.val q idx = ((f.val q idx).re : ℂ) := by
      unfold Modes.val
      rw [hs, Complex.re_eq_add_conj, ← hc, ← fieldValue_add, div_eq_inv_mul, ← fieldValue_smul, g2.hs, g2.hL]
      apply fieldValue_congr
      intro ell m k1 k2 k3
      rw [g2.coef ell m k1 k2 k3]
      simp only [realT]
      ring_nf
    have c : w q idx - ((v q idx).re : ℂ) = (w q idx - g.val q idx) - (((v q idx - f.val q idx).re : ℝ) : ℂ) := by
      rw [Complex.sub_re, Complex.ofReal_sub, e]; ring
    rw [c, add_comm]
    refine (norm_sub_le _ _).trans (add_le_add (w2 q hqm idx) ?_)
    rw [Complex.norm_real]
    exact (Complex.abs_re_le_norm _).trans (v2 q hqm idx)
  · have e : h.val q idx = ((f.val q idx).im : ℂ) := by
      unfold Modes.val
      rw [hs, Complex.im_eq_sub_conj, ← hc, ← fieldValue_sub, div_eq_inv_mul, ← fieldValue_smul, h2.hs, h2.hL]
      apply fieldValue_congr
      intro ell m k1 k2 k3
      rw [h2.coef ell m k1 k2 k3, zero_add]
      simp only [imagT, div_eq_inv_mul]
    have c : x q idx - ((v q idx).im : ℂ) = (x q idx - h.val q idx) - (((v q idx - f.val q idx).im : ℝ) : ℂ) := by
      rw [Complex.sub_im, Complex.ofReal_sub, e]; ring
    rw [c, add_comm]
    refine (norm_sub_le _ _).trans (add_le_add (x2 q hqm idx) ?_)
    rw [Complex.norm_real]
    exact (Complex.abs_im_le_norm _).trans (v2 q hqm idx)

/-- **C33 (every rotor).** The value of the untruncated product at every unit rotor is the product of the values, up to the
evaluation errors of C61. -/
theorem C33_every_rotor {L : ℤ} {table : List ℝ} (ht : IsWignerTable L table) (junkT : ℕ → ℤ × ℤ) (junk junk' : ℕ → ℝ) (f g : Modes)
    (hf : f.WF) (hg : g.WF) (hf0 : 0 ≤ f.ell_max) (hg0 : 0 ≤ g.ell_max) (hq : f.ell_max + g.ell_max ≤ 151) (lead : List ℕ)
    (hb : bcastShape f.lead g.lead = some lead) (truncator : Option Trunc) (Lp : ℤ) (hLp : ProductEllMax f g truncator Lp)
    (hfull : f.ell_max + g.ell_max ≤ Lp) (hLpL : Lp ≤ L) (qs : List ℍ[ℝ]) (hne : qs ≠ []) (hqs : ∀ q ∈ qs, normSq q = 1) (h : Modes)
    (hh : f.multiplyM junk junk' g truncator = .ok h) :
    ∃ a b c : ℍ[ℝ] → MIdx → ℂ, f.evaluate table junkT (qs.map comps) = .ok (qs.map a) ∧
      g.evaluate table junkT (qs.map comps) = .ok (qs.map b) ∧ h.evaluate table junkT (qs.map comps) = .ok (qs.map c) ∧
      ∀ q ∈ qs, ∀ idx, ValidIdx lead idx →
        let i := bcIdx f.lead idx; let j := bcIdx g.lead idx
        ‖c q idx - a q i * b q j‖ ≤ evalErr h idx + (‖a q i‖ * evalErr g j + ‖b q j‖ * evalErr f i + evalErr f i * evalErr g j) := by
  rcases multiplyM_ok (junk := junk) (junk' := junk') hf hg hf0 hg0 hq hLp (by omega) hb with ⟨h', e1, e2, e3, e4, e5, e6, e7⟩ | ⟨er, hz⟩
  · obtain rfl : h' = h := by rw [hh] at e1; injection e1 with e1; exact e1.symm
    obtain ⟨a, a1, a2⟩ := C61_evaluate ht junkT f hf (by omega) qs hne hqs
    obtain ⟨b, b1, b2⟩ := C61_evaluate ht junkT g hg (by omega) qs hne hqs
    obtain ⟨c, c1, c2⟩ := C61_evaluate ht junkT h' e2 (by omega) qs hne hqs
    refine ⟨a, b, c, a1, b1, c1, fun q hqm idx hv => ?_⟩
    intro i j
    have key : h'.val q idx = f.val q i * g.val q j := field_product hf hg hfull e4 e5 e7 (unitQ.mpr (hqs q hqm)) hv
    have ea : ‖a q i - f.val q i‖ ≤ evalErr f i := a2 q hqm i
    have eb : ‖b q j - g.val q j‖ ≤ evalErr g j := b2 q hqm j
    have ec : ‖c q idx - h'.val q idx‖ ≤ evalErr h' idx := c2 q hqm idx
    have r : c q idx - a q i * b q j = (c q idx - h'.val q idx) - (a q i * (b q j - g.val q j) + b q j * (a q i - f.val q i)
        - (a q i - f.val q i) * (b q j - g.val q j)) := by rw [key]; ring
    rw [r]
    refine (norm_sub_le _ _).trans (add_le_add ec ((norm_sub_le _ _).trans (add_le_add ((norm_add_le _ _).trans ?_) ?_)))
    · rw [norm_mul, norm_mul]
      gcongr
    · rw [norm_mul]
      exact mul_le_mul ea eb (norm_nonneg _) ((norm_nonneg _).trans ea)
  · rw [hh] at er; cases er

/-- Bound on the error of the modes of degree `l` rotated with the values that `Wigner_D_element` returns. -/
noncomputable def rotErr (f : Modes) (l : ℤ) (idx : MIdx) : ℝ := (∑ m ∈ Icc (-l) l, ‖f.coef l m idx‖) * errD l

/-- **C34 (every rotor).** Let `h` have the modes of `f` rotated by any unit rotor `p`, computed with the values that
`Wigner_D_element` returns.  Then the norm of `h` is that of `f` and `h` stands for `q ↦ f(p q)`, up to multiples of `epsilon`. -/
theorem C34_every_rotor {L : ℤ} {table : List ℝ} (ht : IsWignerTable L table) (junk : ℕ → ℤ × ℤ) (f h : Modes) (hf : f.WF)
    (hh : h.WF) (hs : h.s = f.s) (hL : h.ell_max = f.ell_max) (hfL : f.ell_max ≤ L) (p : ℍ[ℝ]) (hp : normSq p = 1)
    (hrot : ∀ (l : ℕ) (m' : ℤ) (idx : MIdx), |f.s| ≤ l → |m'| ≤ l → (l : ℤ) ≤ f.ell_max →
      ∃ D : ℤ → ℂ, (∀ m : ℤ, |m| ≤ l → apiD table L (fun _ => 0) p (2 * l) (2 * m) (2 * m') = .ok (.scalar (D m))) ∧
        h.coef l m' idx = ∑ m ∈ Icc (-(l : ℤ)) l, f.coef l m idx * D m) :
    (∀ q, normSq q = 1 → ∃ v w : MIdx → ℂ, h.evaluate table junk [comps q] = .ok [v] ∧
      f.evaluate table junk [comps (p * q)] = .ok [w] ∧
      ∀ idx, ‖v idx - w idx‖ ≤ evalErr h idx + evalErr f idx
        + ∑ ell ∈ Icc |f.s| f.ell_max, ∑ _m ∈ Icc (-ell) ell, rotErr f ell idx * Real.sqrt ((2 * ell + 1) / (4 * Real.pi))) ∧
    ∀ idx, |h.norm idx - f.norm idx| ≤ Real.sqrt (∑ ell ∈ Icc |f.s| f.ell_max, ∑ _m ∈ Icc (-ell) ell, rotErr f ell idx ^ 2) := by
  have up := unitQ.mpr hp
  -- the exactly rotated modes
  let c : MIdx → ℤ → ℤ → ℂ := fun idx l m' =>
    ∑ m ∈ Icc (-l) l, f.coef l m idx * Spec.wignerD (partA p) (partB p) (2 * l) (2 * m) (2 * m')
  have near : ∀ (ell m' : ℤ) (idx : MIdx), |f.s| ≤ ell → |m'| ≤ ell → ell ≤ f.ell_max → ‖h.coef ell m' idx - c idx ell m'‖ ≤ rotErr f ell idx := by
    intro ell m' idx h1 h2 h3
    obtain ⟨l, rfl⟩ := Int.eq_ofNat_of_zero_le ((abs_nonneg _).trans h1)
    obtain ⟨D, d1, d2⟩ := hrot l m' idx h1 h2 h3
    rw [d2, ← Finset.sum_sub_distrib]
    unfold rotErr
    rw [Finset.sum_mul]
    refine (norm_sum_le _ _).trans (Finset.sum_le_sum fun m hm => ?_)
    rw [mem_Icc] at hm
    rw [← mul_sub, norm_mul]
    have e := d1 m (abs_le.mpr hm)
    rw [apiD_any ht (fun _ => 0) hp (abs_le.mpr hm) h2 (by omega)] at e
    injection e with e
    injection e with e
    rw [← e]
    exact mul_le_mul_of_nonneg_left (Dret_error up (abs_le.mpr hm) h2) (norm_nonneg _)
  constructor
  · intro q hq
    have hpq : normSq (p * q) = 1 := by rw [map_mul, hp, hq, one_mul]
    obtain ⟨v, v1, v2⟩ := C61_evaluate ht junk h hh (by rw [hL]; exact hfL) [q] (by simp) (by simpa using hq)
    obtain ⟨w, w1, w2⟩ := C61_evaluate ht junk f hf hfL [p * q] (by simp) (by simpa using hpq)
    refine ⟨v q, w (p * q), by simpa using v1, by simpa using w1, fun idx => ?_⟩
    have a : ‖v q idx - h.val q idx‖ ≤ evalErr h idx := v2 q (by simp) idx
    have b : ‖w (p * q) idx - f.val (p * q) idx‖ ≤ evalErr f idx := w2 (p * q) (by simp) idx
    have e : f.val (p * q) idx = Spec.fieldValue f.s f.ell_max (c idx) (partA q) (partB q) :=
      (rotate_field p q fun l m' _ _ _ => rfl).symm
    have d : ‖h.val q idx - f.val (p * q) idx‖
        ≤ ∑ ell ∈ Icc |f.s| f.ell_max, ∑ _m ∈ Icc (-ell) ell, rotErr f ell idx * Real.sqrt ((2 * ell + 1) / (4 * Real.pi)) := by
      rw [e]
      unfold Modes.val
      rw [hs, hL, ← fieldValue_sub]
      unfold Spec.fieldValue
      refine (norm_sum_le _ _).trans (Finset.sum_le_sum fun ell hell => (norm_sum_le _ _).trans (Finset.sum_le_sum fun m hm => ?_))
      rw [mem_Icc] at hell hm
      rw [norm_mul]
      have h0 : 0 ≤ ell := (abs_nonneg _).trans hell.1
      have y : ‖Spec.sYlm (partA q) (partB q) f.s ell m‖ ≤ Real.sqrt ((2 * ell + 1) / (4 * Real.pi)) := by
        obtain ⟨l, rfl⟩ := Int.eq_ofNat_of_zero_le h0
        have := sYlm_norm_le (unitQ.mpr hq) f.s m l
        simpa using this
      exact mul_le_mul (near ell m idx hell.1 (abs_le.mpr hm) hell.2) y (norm_nonneg _)
        ((norm_nonneg _).trans (near ell m idx hell.1 (abs_le.mpr hm) hell.2))
    have r : v q idx - w (p * q) idx = (v q idx - h.val q idx) - (w (p * q) idx - f.val (p * q) idx)
        + (h.val q idx - f.val (p * q) idx) := by ring
    rw [r]
    exact (norm_add_le _ _).trans (add_le_add ((norm_sub_le _ _).trans (add_le_add a b)) d)
  · intro idx
    rw [norm_eq hf, norm_eq hh, hs, hL, ← rotate_norm p up (s := f.s) (L := f.ell_max) (c := fun l m => f.coef l m idx) (c' := c idx)
      fun l m' _ _ _ => rfl]
    simp only [Finset.sum_sigma']
    set S := (Icc |f.s| f.ell_max).sigma fun ell => Icc (-ell) ell with hS
    have up' : Real.sqrt (∑ x ∈ S, ‖h.coef x.1 x.2 idx - c idx x.1 x.2‖ ^ 2) ≤ Real.sqrt (∑ x ∈ S, rotErr f x.1 idx ^ 2) := by
      apply Real.sqrt_le_sqrt
      apply Finset.sum_le_sum
      intro x hx
      rw [hS, Finset.mem_sigma, mem_Icc, mem_Icc] at hx
      have := near x.1 x.2 idx hx.1.1 (abs_le.mpr hx.2) hx.1.2
      have h0 := norm_nonneg (h.coef x.1 x.2 idx - c idx x.1 x.2)
      exact pow_le_pow_left₀ h0 this 2
    have t1 := sqrt_sum_add_le S (fun x => c idx x.1 x.2) (fun x => h.coef x.1 x.2 idx - c idx x.1 x.2)
    have t2 := sqrt_sum_add_le S (fun x => h.coef x.1 x.2 idx) (fun x => c idx x.1 x.2 - h.coef x.1 x.2 idx)
    simp only [add_sub_cancel] at t1 t2
    have t3 : ∑ x ∈ S, ‖c idx x.1 x.2 - h.coef x.1 x.2 idx‖ ^ 2 = ∑ x ∈ S, ‖h.coef x.1 x.2 idx - c idx x.1 x.2‖ ^ 2 :=
      Finset.sum_congr rfl fun x _ => by rw [norm_sub_rev]
    rw [t3] at t2
    rw [abs_le]
    constructor <;> linarith

/-- **C41 (every rotor).** The modes made from a vector `v` represent `v · n` at every unit rotor, up to `|v|`-multiples of
`epsilon` (the evaluation error of C61). -/
theorem C41_every_rotor {L : ℤ} {table : List ℝ} (ht : IsWignerTable L table) (junk : ℕ → ℤ × ℤ) (hL : 1 ≤ L)
    (v : ℂ × ℂ × ℂ) (t : TruncKey) (call : List ℤ × Kw) (hc : call ∈ callsWithEllMax 0 1 1 t ++ callsWithout 0 1 t) :
    ∃ f, Modes.new (.array [] [fun _ => (vector_as_ell_1_modes v).1, fun _ => (vector_as_ell_1_modes v).2.1,
        fun _ => (vector_as_ell_1_modes v).2.2]) {} call.1 call.2 = .ok f ∧
      ∀ qs : List ℍ[ℝ], qs ≠ [] → (∀ q ∈ qs, normSq q = 1) → ∃ w : ℍ[ℝ] → MIdx → ℂ, f.evaluate table junk (qs.map comps) = .ok (qs.map w) ∧
        ∀ q ∈ qs, ∀ idx, ‖w q idx - (v.1 * (direction q).imI + v.2.1 * (direction q).imJ + v.2.2 * (direction q).imK)‖
          ≤ (‖(vector_as_ell_1_modes v).1‖ + ‖(vector_as_ell_1_modes v).2.1‖ + ‖(vector_as_ell_1_modes v).2.2‖)
            * (Real.sqrt (3 / (4 * Real.pi)) * (5 * epsilon)) := by
  obtain ⟨f, f1, f2, f3, -, f4, f5⟩ := vector_field v t call hc
  refine ⟨f, f1, fun qs hne hqs => ?_⟩
  obtain ⟨w, w1, w2⟩ := C61_evaluate ht junk f f2 (by omega) qs hne hqs
  refine ⟨w, w1, fun q hqm idx => ?_⟩
  have := w2 q hqm idx
  rw [f4 q idx, f3] at this
  refine this.trans ?_
  have i1 : Icc (0 : ℤ) 1 = {0, 1} := rfl
  have i2 : Icc (-(1 : ℤ)) 1 = {-1, 0, 1} := rfl
  rw [i1, sum_pair (by norm_num), i2, sum_insert (by decide), sum_pair (by norm_num)]
  simp only [Icc_self, sum_singleton, neg_zero]
  obtain ⟨c0, c1, c2, c3⟩ := f5 idx
  rw [c0, c1, c2, c3]
  have hE := C61_bound 1 (by norm_num) (by norm_num)
  set E := (2 * ((1 : ℤ) : ℝ) + 2) * epsilon + (((1 - epsilon ^ 2) ^ (2 * (1 : ℤ)))⁻¹ - 1)
  have h5 : E ≤ 5 * epsilon := hE.trans (le_of_eq (by rw [show epsilon = 1 / 10 ^ 15 from rfl]; norm_num))
  have h3 : (2 * ((1 : ℤ) : ℝ) + 1) = 3 := by norm_num
  rw [h3, norm_zero, zero_mul, zero_add, ← add_mul, ← add_mul, ← add_assoc]
  gcongr

/-- Non-vacuity of the every-rotor theorems: rotors in the punctured epsilon-neighbourhoods of the poles, degree 2 and degree 3/2. -/
example : ∃ table, IsWignerTable 32 table ∧ ∃ q r : ℍ[ℝ], ¬ GenericQ q ∧ ¬ GenericQ r ∧
    (∃ v, apiD table 32 (fun _ => 7) (q * r) 4 2 (-4) = .ok (.scalar v)) ∧
    (∃ v, apiD table 32 (fun _ => 7) (-q) 3 (-1) 3 = .ok (.scalar ((-1) ^ (3 : ℤ) * v))) ∧
    (∃ y, apiY table (fun _ => 7) r (-2) 3 1 = .ok [y]) ∧
    (∃ g, exModes.conjugate false = .ok g ∧ ∃ w, g.evaluate table (fun _ => 0) ([q, r].map comps) = .ok w) := by
  obtain ⟨t, ht⟩ := IsWignerTable.exists 32 (by norm_num)
  obtain ⟨q, r, h1, h2, h3, h4, -⟩ := nearPole_example
  obtain ⟨-, -, v, -, v1, -⟩ := C12_every_rotor ht (fun _ => 7) q r h1 h2 4 2 (-4) (by unfold Spec.ValidD; norm_num) (by norm_num)
  obtain ⟨w, -, w1⟩ := C13_double_cover_every_rotor ht (fun _ => 7) q h1 3 (-1) 3 (by unfold Spec.ValidD; norm_num) (by norm_num)
  obtain ⟨y, -, y1, -⟩ := C20_every_rotor ht (fun _ => 7) r h2 (-2) 3 1 (by norm_num) (by norm_num)
  obtain ⟨g, -, z, g1, -, -, -, -, z1, -⟩ := C28_every_rotor ht (fun _ => 0) exModes exModes_WF (by decide) [q, r] (by simp)
    (by simp only [List.mem_cons, List.not_mem_nil, or_false]; rintro x (rfl | rfl) <;> assumption) false
  exact ⟨t, ht, q, r, h3, h4, ⟨v, v1⟩, ⟨w, w1⟩, ⟨y, y1⟩, g, g1, _, z1⟩

end SF
