import Verif.Props.WignerD
import Mathlib.Algebra.Quaternion

/-!
# Properties C12–C17: the D matrices as a representation, `Wigner_D_matrices`, arrays of rotors

Rotors are Mathlib quaternions `q = q.re + q.imI i + q.imJ j + q.imK k`.  `apiD` is the call
`sf.Wigner_D_element(q, ell, mp, m)` (indices doubled).
-/

set_option autoImplicit false

namespace SF

open Finset ComplexConjugate Quaternion

/-- The rotor as an argument. -/
def rotorArg (q : ℍ[ℝ]) : DArg := .rotor (q.re, q.imI, q.imJ, q.imK)

/-- `sf.Wigner_D_element(q, twoell/2, twomp/2, twom/2)`. -/
noncomputable def apiD (table : List ℝ) (L : ℤ) (junk : ℕ → ℂ) (q : ℍ[ℝ]) (twoell twomp twom : ℤ) : Py DRes :=
  Wigner_D_element table L true junk
    [rotorArg q, .num (.flt (half twoell)), .num (.flt (half twomp)), .num (.flt (half twom))]

/-- The quaternion with the given components. -/
def mkQ (w x y z : ℝ) : ℍ[ℝ] := ⟨w, x, y, z⟩

@[simp] theorem mkQ_re (w x y z : ℝ) : (mkQ w x y z).re = w := rfl
@[simp] theorem mkQ_imI (w x y z : ℝ) : (mkQ w x y z).imI = x := rfl
@[simp] theorem mkQ_imJ (w x y z : ℝ) : (mkQ w x y z).imJ = y := rfl
@[simp] theorem mkQ_imK (w x y z : ℝ) : (mkQ w x y z).imK = z := rfl

/-- `q.a` -/
def partA (q : ℍ[ℝ]) : ℂ := ⟨q.re, q.imK⟩
/-- `q.b` -/
def partB (q : ℍ[ℝ]) : ℂ := ⟨q.imJ, q.imI⟩

/-- A unit quaternion outside the open epsilon-neighbourhoods. -/
def GenericQ (q : ℍ[ℝ]) : Prop := Generic (partA q) (partB q)

theorem partA_mul (q r : ℍ[ℝ]) : partA (q * r) = partA q * partA r - conj (partB q) * partB r := by
  apply Complex.ext <;> simp [partA, partB] <;> ring

theorem partB_mul (q r : ℍ[ℝ]) : partB (q * r) = conj (partA q) * partB r + partB q * partA r := by
  apply Complex.ext <;> simp [partA, partB] <;> ring

theorem unitQ {q : ℍ[ℝ]} : Spec.IsUnit' (partA q) (partB q) ↔ normSq q = 1 := by
  unfold Spec.IsUnit' partA partB
  simp only [Complex.normSq_apply, normSq_def']
  constructor <;> intro h <;> linarith

theorem apiD_eq {L : ℤ} {table : List ℝ} (ht : IsWignerTable L table) (junk : ℕ → ℂ) {q : ℍ[ℝ]} (hg : GenericQ q)
    {n mp m : ℤ} (hv : Spec.ValidD n mp m) (hle : n ≤ 2 * L) :
    apiD table L junk q n mp m = .ok (.scalar (Spec.wignerD (partA q) (partB q) n mp m)) :=
  C10_Wigner_D_element ht true junk _ _ _ (RotationArgs.rotor q.re q.imI q.imJ q.imK) (by simp) hg n mp m hv hle

/-- The value for an arbitrary unit rotor. -/
theorem apiD_any {L : ℤ} {table : List ℝ} (ht : IsWignerTable L table) (junk : ℕ → ℂ) {q : ℍ[ℝ]} (hq : normSq q = 1)
    {ell mp m : ℤ} (h1 : |mp| ≤ ell) (h2 : |m| ≤ ell) (hle : ell ≤ L) :
    apiD table L junk q (2 * ell) (2 * mp) (2 * m) = .ok (.scalar (Dret (partA q) (partB q) ell mp m)) := by
  obtain ⟨buf, hb, e⟩ := api_single (RotationArgs.rotor q.re q.imI q.imJ q.imK) (by simp) table L true junk
    (2 * ell) (2 * mp) (2 * m)
  refine e.trans ?_
  have hv := validD_int h1 h2
  have hc : check_valid_indices L (2 * ell) (2 * mp) (2 * m) = true := by
    rw [check_iff]; exact ⟨by omega, hv.1, hv.2.1⟩
  rw [if_neg (by simp [hc])]
  change (Wigner_D_element_kernel table (partA q) (partB q) _ buf >>= _) = _
  rw [kernel_eq_map [(2 * ell, 2 * mp, 2 * m)] buf hb (fun _ => Dret (partA q) (partB q) ell mp m)]
  · rfl
  · intro t htm
    simp only [List.mem_singleton] at htm
    subst htm
    exact elemAny_any ht (unitQ.mpr hq) h1 h2 hle

theorem validD_k {n mp m : ℤ} (hv : Spec.ValidD n mp m) {k : ℕ} (hk : (k : ℤ) ≤ n) :
    Spec.ValidD n mp (2 * k - n) ∧ Spec.ValidD n (2 * k - n) m := by
  obtain ⟨h1, h2, h3, h4⟩ := hv
  have : |2 * (k : ℤ) - n| ≤ n := by rw [abs_le]; omega
  exact ⟨⟨h1, this, h3, by omega⟩, ⟨this, h2, by omega, h4⟩⟩

theorem wignerD_mul (a1 b1 a2 b2 : ℂ) {n : ℕ} {mp m : ℤ} (hv : Spec.ValidD n mp m) :
    ∑ k ∈ range (n + 1), Spec.wignerD a1 b1 n mp (2 * k - n) * Spec.wignerD a2 b2 n (2 * k - n) m
      = Spec.wignerD (a1 * a2 - conj b1 * b2) (conj a1 * b2 + b1 * a2) n mp m := by
  obtain ⟨p', q', p, q, hsum, ha, hb, hc⟩ := valid_pq hv
  rw [wignerD_pq _ _ hsum ha hb hc, ← Dpq_mul a1 b1 a2 b2 hsum, ← Finset.sum_range_reflect]
  have hn : n = p' + q' := by omega
  rw [hn]
  apply Finset.sum_congr rfl
  intro k hk
  rw [mem_range] at hk
  rw [wignerD_pq a1 b1 (p' := p') (q' := q') (p := p' + q' - k) (q := k) (by omega) (by omega) (by omega) (by omega),
    wignerD_pq a2 b2 (p' := p' + q' - k) (q' := k) (p := p) (q := q) (by omega) (by omega) (by omega) (by omega)]

/-! ## C12 -/

/-- **C12.** The closed form is a representation, for all quaternions (unit or not). -/
theorem C12_closed_form (q r : ℍ[ℝ]) (n : ℕ) (mp m : ℤ) (hv : Spec.ValidD n mp m) :
    ∑ k ∈ range (n + 1), Spec.wignerD (partA q) (partB q) n mp (2 * k - n)
        * Spec.wignerD (partA r) (partB r) n (2 * k - n) m
      = Spec.wignerD (partA (q * r)) (partB (q * r)) n mp m := by
  rw [partA_mul, partB_mul, wignerD_mul _ _ _ _ hv]

/-- **C12.** `Wigner_D_element(q*r, ell, m', m)` is the matrix product of what the function returns for `q` and `r`;
the summation index `m''` is `k - ell`. -/
theorem C12_representation {L : ℤ} {table : List ℝ} (ht : IsWignerTable L table) (junk : ℕ → ℂ) (q r : ℍ[ℝ])
    (hq : GenericQ q) (hr : GenericQ r) (hqr : GenericQ (q * r)) (n : ℕ) (mp m : ℤ) (hv : Spec.ValidD n mp m)
    (hle : (n : ℤ) ≤ 2 * L) :
    ∃ Dq Dr : ℕ → ℂ,
      (∀ k ≤ n, apiD table L junk q n mp (2 * k - n) = .ok (.scalar (Dq k)) ∧
        apiD table L junk r n (2 * k - n) m = .ok (.scalar (Dr k))) ∧
      apiD table L junk (q * r) n mp m = .ok (.scalar (∑ k ∈ range (n + 1), Dq k * Dr k)) := by
  refine ⟨fun k => Spec.wignerD (partA q) (partB q) n mp (2 * k - n),
    fun k => Spec.wignerD (partA r) (partB r) n (2 * k - n) m, ?_, ?_⟩
  · intro k hk
    obtain ⟨h1, h2⟩ := validD_k hv (k := k) (by omega)
    exact ⟨apiD_eq ht junk hq h1 hle, apiD_eq ht junk hr h2 hle⟩
  · rw [apiD_eq ht junk hqr hv hle, C12_closed_form q r n mp m hv]

/-- Two generic rotors with a generic product that is not the product of commuting ones: 3/5 + 4/5 i and 3/5 + 4/5 j. -/
theorem generic_example : GenericQ (mkQ (3/5) (4/5) 0 0) ∧ GenericQ (mkQ (3/5) 0 (4/5) 0) ∧
    GenericQ ((mkQ (3/5) (4/5) 0 0) * mkQ (3/5) 0 (4/5) 0) := by
  have key : ∀ z : ℂ, 1 / 100 ≤ Complex.normSq z → epsilon < ‖z‖ := by
    intro z hz
    rw [Complex.normSq_eq_norm_sq] at hz
    have : 1 / 10 ≤ ‖z‖ := by nlinarith [norm_nonneg z]
    unfold epsilon
    norm_num at this ⊢
    linarith
  refine ⟨⟨unitQ.mpr ?_, Or.inr (key _ ?_), Or.inr (key _ ?_)⟩, ⟨unitQ.mpr ?_, Or.inr (key _ ?_), Or.inr (key _ ?_)⟩,
    ⟨unitQ.mpr ?_, Or.inr (key _ ?_), Or.inr (key _ ?_)⟩⟩
  all_goals
    simp [normSq_def', partA, partB, Complex.normSq_apply]
  all_goals norm_num

/-- Non-vacuity of C12: those rotors, `ell = 3/2`, `m' = 1/2`, `m = -3/2`. -/
example : ∃ table v, IsWignerTable 32 table ∧
    apiD table 32 (fun _ => 0) ((mkQ (3/5) (4/5) 0 0) * mkQ (3/5) 0 (4/5) 0) 3 1 (-3) = .ok v := by
  obtain ⟨t, ht⟩ := IsWignerTable.exists 32 (by norm_num)
  obtain ⟨h1, h2, h3⟩ := generic_example
  obtain ⟨Dq, Dr, -, h⟩ := C12_representation ht (fun _ => 0) _ _ h1 h2 h3 3 1 (-3) (by unfold Spec.ValidD; norm_num)
    (by norm_num)
  exact ⟨t, _, ht, h⟩

/-! ## C13 -/

theorem wD_rb_zero' {Ra : ℂ} (hu : Complex.normSq Ra = 1) {n mp m : ℤ} (hv : Spec.ValidD n mp m) :
    Spec.wignerD Ra 0 n mp m = if mp = m then Ra ^ m else 0 := by
  obtain ⟨p', q', p, q, hsum, ha, hb, hc⟩ := valid_pq hv
  rw [wignerD_pq _ _ hsum ha hb hc, Dpq_rb_zero hu hsum]
  by_cases h : q' = q
  · rw [if_pos h, if_pos (by omega), hc]
  · rw [if_neg h, if_neg (by omega)]

theorem generic_zrot (γ : ℝ) : GenericQ (mkQ (Real.cos (γ / 2)) 0 0 (Real.sin (γ / 2))) := by
  have h1 : Spec.IsUnit' (partA (mkQ (Real.cos (γ / 2)) 0 0 (Real.sin (γ / 2))))
      (partB (mkQ (Real.cos (γ / 2)) 0 0 (Real.sin (γ / 2)))) := by
    rw [unitQ, normSq_def']
    have := Real.cos_sq_add_sin_sq (γ / 2)
    simp only [mkQ_re, mkQ_imI, mkQ_imJ, mkQ_imK]
    linarith
  refine ⟨h1, Or.inr ?_, Or.inl ?_⟩
  · have h2 : partB (mkQ (Real.cos (γ / 2)) 0 0 (Real.sin (γ / 2))) = 0 := rfl
    rw [h2] at h1
    unfold Spec.IsUnit' at h1
    rw [Complex.normSq_zero, add_zero, Complex.normSq_eq_norm_sq] at h1
    have h3 : epsilon < 1 := by unfold epsilon; norm_num
    by_contra hc
    push Not at hc
    nlinarith [norm_nonneg (partA (mkQ (Real.cos (γ / 2)) 0 0 (Real.sin (γ / 2))))]
  · rfl

/-- **C13.** Rotation about `z` by `γ`: `D_{m',m} = δ_{m',m} exp(i m γ)`. -/
theorem C13_z_rotation {L : ℤ} {table : List ℝ} (ht : IsWignerTable L table) (junk : ℕ → ℂ) (γ : ℝ) (n mp m : ℤ)
    (hv : Spec.ValidD n mp m) (hle : n ≤ 2 * L) :
    apiD table L junk (mkQ (Real.cos (γ / 2)) 0 0 (Real.sin (γ / 2))) n mp m
      = .ok (.scalar (if mp = m then Complex.exp (Complex.I * half m * γ) else 0)) := by
  rw [apiD_eq ht junk (generic_zrot γ) hv hle]
  have hB : partB (mkQ (Real.cos (γ / 2)) 0 0 (Real.sin (γ / 2))) = 0 := rfl
  have hA : partA (mkQ (Real.cos (γ / 2)) 0 0 (Real.sin (γ / 2))) = Complex.exp (((γ / 2 : ℝ) : ℂ) * Complex.I) := by
    apply Complex.ext
    · rw [Complex.exp_ofReal_mul_I_re]; rfl
    · rw [Complex.exp_ofReal_mul_I_im]; rfl
  have hu : Complex.normSq (partA (mkQ (Real.cos (γ / 2)) 0 0 (Real.sin (γ / 2)))) = 1 := by
    rw [Complex.normSq_apply]
    have := Real.cos_sq_add_sin_sq (γ / 2)
    simp only [partA, mkQ_re, mkQ_imK]
    linarith
  rw [hB, wD_rb_zero' hu hv, hA, ← Complex.exp_int_mul]
  congr 4
  unfold half
  push_cast
  ring

/-- **C13.** The identity rotor gives the identity matrix. -/
theorem C13_identity {L : ℤ} {table : List ℝ} (ht : IsWignerTable L table) (junk : ℕ → ℂ) (n mp m : ℤ)
    (hv : Spec.ValidD n mp m) (hle : n ≤ 2 * L) :
    apiD table L junk 1 n mp m = .ok (.scalar (if mp = m then 1 else 0)) := by
  have h := C13_z_rotation ht junk 0 n mp m hv hle
  have e : mkQ (Real.cos (0 / 2)) 0 0 (Real.sin (0 / 2)) = 1 := by ext <;> simp
  rw [e] at h
  rw [h]
  split_ifs <;> simp

theorem Dpq_neg (za zb : ℂ) {p' q' p q : ℕ} (hsum : p' + q' = p + q) :
    Spec.Dpq (-za) (-zb) p' q' p q = (-1) ^ (p + q) * Spec.Dpq za zb p' q' p q := by
  rw [Dpq_eq_Ico, Dpq_eq_Ico, mul_left_comm]
  congr 1
  rw [mul_sum]
  apply sum_congr rfl
  intro ρ hρ
  rw [mem_Ico] at hρ
  unfold Dterm
  rw [map_neg, map_neg, neg_pow za, neg_pow (conj za), neg_pow zb, neg_pow (conj zb)]
  have e : p + q = (p' - ρ) + (q - ρ) + (q' - (q - ρ)) + ρ := by omega
  rw [e, pow_add, pow_add, pow_add]
  ring

/-- **C13.** Double cover: `D(-q) = (-1)^(2 ell) D(q)`. -/
theorem C13_double_cover {L : ℤ} {table : List ℝ} (ht : IsWignerTable L table) (junk : ℕ → ℂ) (q : ℍ[ℝ])
    (hq : GenericQ q) (n mp m : ℤ) (hv : Spec.ValidD n mp m) (hle : n ≤ 2 * L) :
    ∃ v, apiD table L junk q n mp m = .ok (.scalar v) ∧
      apiD table L junk (-q) n mp m = .ok (.scalar ((-1) ^ n * v)) := by
  refine ⟨_, apiD_eq ht junk hq hv hle, ?_⟩
  have eA : partA (-q) = -partA q := by apply Complex.ext <;> simp [partA]
  have eB : partB (-q) = -partB q := by apply Complex.ext <;> simp [partB]
  have hq' : GenericQ (-q) := by
    unfold GenericQ
    rw [eA, eB]
    obtain ⟨h1, h2, h3⟩ := hq
    refine ⟨?_, ?_, ?_⟩
    · unfold Spec.IsUnit' at *
      rwa [Complex.normSq_neg, Complex.normSq_neg]
    · rwa [norm_neg, neg_eq_zero]
    · rwa [norm_neg, neg_eq_zero]
  rw [apiD_eq ht junk hq' hv hle, eA, eB]
  obtain ⟨p', q', p, q, hsum, ha, hb, hc⟩ := valid_pq hv
  rw [wignerD_pq _ _ hsum ha hb hc, wignerD_pq _ _ hsum ha hb hc, Dpq_neg _ _ hsum]
  have : n = ((p + q : ℕ) : ℤ) := by omega
  rw [this, zpow_natCast]

/-! ## C14 -/

theorem wD_inv' (Ra Rb : ℂ) {n mp m : ℤ} (hv : Spec.ValidD n mp m) :
    Spec.wignerD (conj Ra) (-Rb) n mp m = conj (Spec.wignerD Ra Rb n m mp) := by
  obtain ⟨p', q', p, q, hsum, ha, hb, hc⟩ := valid_pq hv
  rw [wignerD_pq (conj Ra) (-Rb) hsum ha hb hc, wignerD_pq Ra Rb hsum.symm (by omega) hc hb, Dpq_inv Ra Rb hsum]

theorem ValidD_symm {n mp m : ℤ} (hv : Spec.ValidD n mp m) : Spec.ValidD n m mp := ⟨hv.2.1, hv.1, hv.2.2.2, hv.2.2.1⟩

theorem partA_star (q : ℍ[ℝ]) : partA (star q) = conj (partA q) := by apply Complex.ext <;> simp [partA]
theorem partB_star (q : ℍ[ℝ]) : partB (star q) = -partB q := by apply Complex.ext <;> simp [partB]

theorem GenericQ.star {q : ℍ[ℝ]} (hq : GenericQ q) : GenericQ (star q) := by
  unfold GenericQ
  rw [partA_star, partB_star]
  obtain ⟨h1, h2, h3⟩ := hq
  refine ⟨?_, ?_, ?_⟩
  · unfold Spec.IsUnit' at *
    rwa [Complex.normSq_conj, Complex.normSq_neg]
  · rw [Complex.norm_conj]
    rcases h2 with h2 | h2
    · left; rw [h2, map_zero]
    · right; exact h2
  · rwa [norm_neg, neg_eq_zero]

theorem unit_inv {q : ℍ[ℝ]} (hq : normSq q = 1) : q⁻¹ = star q := by
  rw [Quaternion.inv_def, hq, inv_one, one_smul]

/-- **C14.** `D_{m',m}(q⁻¹) = conj(D_{m,m'}(q))`. -/
theorem C14_inverse {L : ℤ} {table : List ℝ} (ht : IsWignerTable L table) (junk : ℕ → ℂ) (q : ℍ[ℝ])
    (hq : GenericQ q) (n mp m : ℤ) (hv : Spec.ValidD n mp m) (hle : n ≤ 2 * L) :
    ∃ v, apiD table L junk q n m mp = .ok (.scalar v) ∧ apiD table L junk q⁻¹ n mp m = .ok (.scalar (conj v)) := by
  refine ⟨_, apiD_eq ht junk hq (ValidD_symm hv) hle, ?_⟩
  rw [unit_inv (unitQ.mp hq.1), apiD_eq ht junk hq.star hv hle, partA_star, partB_star, wD_inv' _ _ hv]

/-- Orthonormality of the rows of the closed form. -/
theorem wD_unitary {Ra Rb : ℂ} (hu : Spec.IsUnit' Ra Rb) {n : ℕ} {mp mpp : ℤ} (hv : Spec.ValidD n mp mpp) :
    ∑ k ∈ range (n + 1), Spec.wignerD Ra Rb n mp (2 * k - n) * conj (Spec.wignerD Ra Rb n mpp (2 * k - n))
      = if mp = mpp then 1 else 0 := by
  have h := wignerD_mul Ra Rb (conj Ra) (-Rb) hv
  have e1 : Ra * conj Ra - conj Rb * -Rb = 1 := by
    unfold Spec.IsUnit' at hu
    rw [Complex.mul_conj, mul_neg, sub_neg_eq_add, mul_comm, Complex.mul_conj]
    exact_mod_cast hu
  have e2 : conj Ra * -Rb + Rb * conj Ra = 0 := by ring
  rw [e1, e2, wD_rb_zero' (by simp) hv] at h
  rw [one_zpow] at h
  rw [← h]
  apply sum_congr rfl
  intro k hk
  rw [mem_range] at hk
  rw [wD_inv' Ra Rb (validD_k hv (k := k) (by omega)).2]

/-- Orthonormality of the columns of the closed form. -/
theorem wD_unitary_col {Ra Rb : ℂ} (hu : Spec.IsUnit' Ra Rb) {n : ℕ} {m mm : ℤ} (hv : Spec.ValidD n m mm) :
    ∑ k ∈ range (n + 1), conj (Spec.wignerD Ra Rb n (2 * k - n) m) * Spec.wignerD Ra Rb n (2 * k - n) mm
      = if m = mm then 1 else 0 := by
  have h := wignerD_mul (conj Ra) (-Rb) Ra Rb hv
  have e1 : conj Ra * Ra - conj (-Rb) * Rb = 1 := by
    unfold Spec.IsUnit' at hu
    rw [map_neg, neg_mul, sub_neg_eq_add, ← Complex.normSq_eq_conj_mul_self, ← Complex.normSq_eq_conj_mul_self]
    exact_mod_cast hu
  have e2 : conj (conj Ra) * Rb + -Rb * Ra = 0 := by rw [Complex.conj_conj]; ring
  rw [e1, e2, wD_rb_zero' (by simp) hv] at h
  rw [one_zpow] at h
  rw [← h]
  apply sum_congr rfl
  intro k hk
  rw [mem_range] at hk
  rw [wD_inv' Ra Rb (validD_k hv (k := k) (by omega)).1]

/-- **C14.** The D matrix is unitary: rows are orthonormal. -/
theorem C14_unitary {L : ℤ} {table : List ℝ} (ht : IsWignerTable L table) (junk : ℕ → ℂ) (q : ℍ[ℝ])
    (hq : GenericQ q) (n : ℕ) (mp mpp : ℤ) (hv : Spec.ValidD n mp mpp) (hle : (n : ℤ) ≤ 2 * L) :
    ∃ D D' : ℕ → ℂ,
      (∀ k ≤ n, apiD table L junk q n mp (2 * k - n) = .ok (.scalar (D k)) ∧
        apiD table L junk q n mpp (2 * k - n) = .ok (.scalar (D' k))) ∧
      ∑ k ∈ range (n + 1), D k * conj (D' k) = if mp = mpp then 1 else 0 := by
  refine ⟨_, _, ?_, wD_unitary hq.1 hv⟩
  intro k hk
  exact ⟨apiD_eq ht junk hq (validD_k hv (by omega)).1 hle,
    apiD_eq ht junk hq (validD_k (ValidD_symm hv) (by omega)).1 hle⟩

/-- **C14.** No element exceeds one in absolute value. -/
theorem C14_bound {L : ℤ} {table : List ℝ} (ht : IsWignerTable L table) (junk : ℕ → ℂ) (q : ℍ[ℝ])
    (hq : GenericQ q) (n mp m : ℤ) (hv : Spec.ValidD n mp m) (hle : n ≤ 2 * L) :
    ∃ v, apiD table L junk q n mp m = .ok (.scalar v) ∧ ‖v‖ ≤ 1 := by
  refine ⟨_, apiD_eq ht junk hq hv hle, ?_⟩
  obtain ⟨N, rfl⟩ : ∃ N : ℕ, n = N := ⟨n.toNat, by have := hv.1; have := abs_nonneg mp; omega⟩
  have hv2 : Spec.ValidD N mp mp := ⟨hv.1, hv.1, hv.2.2.1, hv.2.2.1⟩
  have h := wD_unitary hq.1 hv2
  rw [if_pos rfl] at h
  have h2 : ∑ k ∈ range (N + 1), ‖Spec.wignerD (partA q) (partB q) N mp (2 * k - N)‖ ^ 2 = 1 := by
    have : ((∑ k ∈ range (N + 1), ‖Spec.wignerD (partA q) (partB q) N mp (2 * k - N)‖ ^ 2 : ℝ) : ℂ) = 1 := by
      rw [← h]
      push_cast
      apply sum_congr rfl
      intro k _
      rw [Complex.mul_conj, Complex.normSq_eq_norm_sq]
      push_cast; rfl
    exact_mod_cast this
  have hk : ∃ k : ℕ, k ∈ range (N + 1) ∧ m = 2 * (k : ℤ) - N := by
    obtain ⟨_, g2, _, g4⟩ := hv
    rw [abs_le] at g2
    exact ⟨((m + N) / 2).toNat, by rw [mem_range]; omega, by omega⟩
  obtain ⟨k, hk, rfl⟩ := hk
  have h3 := single_le_sum (f := fun k : ℕ => ‖Spec.wignerD (partA q) (partB q) N mp (2 * k - N)‖ ^ 2)
    (fun i _ => by positivity) hk
  rw [h2] at h3
  nlinarith [norm_nonneg (Spec.wignerD (partA q) (partB q) N mp (2 * k - N))]

/-- **C14.** `conj(D_{m',m}) = (-1)^(m'-m) D_{-m',-m}`. -/
theorem C14_conjugate {L : ℤ} {table : List ℝ} (ht : IsWignerTable L table) (junk : ℕ → ℂ) (q : ℍ[ℝ])
    (hq : GenericQ q) (n mp m : ℤ) (hv : Spec.ValidD n mp m) (hle : n ≤ 2 * L) :
    ∃ v w, apiD table L junk q n mp m = .ok (.scalar v) ∧ apiD table L junk q n (-mp) (-m) = .ok (.scalar w) ∧
      conj v = (-1) ^ ((mp - m) / 2) * w := by
  have hv' : Spec.ValidD n (-mp) (-m) := by
    obtain ⟨h1, h2, h3, h4⟩ := hv
    exact ⟨by rwa [abs_neg], by rwa [abs_neg], by omega, by omega⟩
  refine ⟨_, _, apiD_eq ht junk hq hv hle, apiD_eq ht junk hq hv' hle, ?_⟩
  obtain ⟨p', q', p, q, hsum, ha, hb, hc⟩ := valid_pq hv
  rw [wignerD_pq _ _ hsum ha hb hc, wignerD_pq _ _ (p' := q') (q' := p') (p := q) (q := p) (by omega) (by omega)
    (by omega) (by omega), Dpq_conj _ _ hsum]
  congr 1
  have e : (mp - m) / 2 = (p' : ℤ) - p := by omega
  rw [e, zpow_sub₀ (by norm_num), zpow_natCast, zpow_natCast, pow_add]
  rcases Nat.even_or_odd p with h | h
  · rw [h.neg_one_pow]; simp
  · rw [h.neg_one_pow, div_neg, div_one, mul_neg, mul_one]

/-! ## C15 -/

theorem euler_form (α β γ : ℝ) {p' q' p q : ℕ} (hsum : p' + q' = p + q) :
    Spec.Dpq (Real.cos (β / 2) * Complex.exp (Complex.I * ((α + γ) / 2)))
        (Real.sin (β / 2) * Complex.exp (Complex.I * ((γ - α) / 2))) p' q' p q
      = Complex.exp (Complex.I * (((p' : ℂ) - q') / 2) * α) * Spec.Dpq (Real.cos (β / 2)) (Real.sin (β / 2)) p' q' p q
        * Complex.exp (Complex.I * (((p : ℂ) - q) / 2) * γ) := by
  rw [Dpq_eq_Ico, Dpq_eq_Ico, mul_left_comm, mul_assoc]
  congr 1
  rw [mul_sum, sum_mul]
  apply sum_congr rfl
  intro ρ hρ
  rw [mem_Ico] at hρ
  unfold Dterm
  simp only [map_mul, Complex.conj_ofReal, ← Complex.exp_conj, Complex.conj_I, map_add, map_sub, map_div₀,
    map_ofNat, mul_pow, ← Complex.exp_nat_mul]
  have e : Complex.exp (Complex.I * (((p' : ℂ) - q') / 2) * α) * Complex.exp (Complex.I * (((p : ℂ) - q) / 2) * γ)
      = Complex.exp (((p' - ρ : ℕ) : ℂ) * (Complex.I * ((α + γ) / 2)))
        * Complex.exp (((q - ρ : ℕ) : ℂ) * (-Complex.I * ((α + γ) / 2)))
        * Complex.exp (((q' - (q - ρ) : ℕ) : ℂ) * (Complex.I * ((γ - α) / 2)))
        * Complex.exp ((ρ : ℂ) * (-Complex.I * ((γ - α) / 2))) := by
    rw [← Complex.exp_add, ← Complex.exp_add, ← Complex.exp_add, ← Complex.exp_add]
    congr 1
    have hp : (p : ℂ) = p' + q' - q := by
      have : ((p' + q' : ℕ) : ℂ) = ((p + q : ℕ) : ℂ) := by rw [hsum]
      push_cast at this
      rw [this]; ring
    have h1 : ρ ≤ p' := by omega
    have h2 : ρ ≤ q := by omega
    have h3 : q - ρ ≤ q' := by omega
    rw [hp]
    push_cast [h1, h2, h3]
    ring
  linear_combination ((-1 : ℂ) ^ ρ * (p'.choose ρ) * (q'.choose (q - ρ)) * (Real.cos (β / 2) : ℂ) ^ (p' - ρ)
    * (Real.cos (β / 2) : ℂ) ^ (q - ρ) * (Real.sin (β / 2) : ℂ) ^ (q' - (q - ρ)) * (Real.sin (β / 2) : ℂ) ^ ρ) * e.symm

/-- The D function of a real rotor is real. -/
theorem Dpq_real (x y : ℝ) (p' q' p q : ℕ) : ∃ d : ℝ, Spec.Dpq x y p' q' p q = d := by
  refine ⟨(Real.sqrt ((p.factorial * q.factorial : ℝ) / (p'.factorial * q'.factorial))) *
    ∑ ρ ∈ range (q + 1), (-1 : ℝ) ^ ρ * (p'.choose ρ) * (q'.choose (q - ρ))
      * x ^ (p' - ρ) * x ^ (q - ρ) * y ^ (q' - (q - ρ)) * y ^ ρ, ?_⟩
  unfold Spec.Dpq
  push_cast
  simp only [Complex.conj_ofReal]

/-- Non-vacuity of C13 and C14, at the rotor `3/5 + 4/5 i`. -/
example : ∃ table v w, IsWignerTable 32 table ∧
    apiD table 32 (fun _ => 0) (mkQ (3/5) (4/5) 0 0) 3 1 (-3) = .ok (.scalar v) ∧
    apiD table 32 (fun _ => 0) (-mkQ (3/5) (4/5) 0 0) 3 1 (-3) = .ok (.scalar ((-1) ^ (3 : ℤ) * v)) ∧ ‖v‖ ≤ 1 ∧
    apiD table 32 (fun _ => 0) (mkQ (3/5) (4/5) 0 0) 3 (-1) 3 = .ok (.scalar w) ∧ conj v = (-1) ^ (2 : ℤ) * w ∧
    apiD table 32 (fun _ => 0) (mkQ (3/5) (4/5) 0 0)⁻¹ 3 (-3) 1 = .ok (.scalar (conj v)) := by
  obtain ⟨t, ht⟩ := IsWignerTable.exists 32 (by norm_num)
  have hv : Spec.ValidD 3 1 (-3) := by simp [Spec.ValidD]
  obtain ⟨v, h1, h2⟩ := C13_double_cover ht (fun _ => 0) _ generic_example.1 3 1 (-3) hv (by norm_num)
  obtain ⟨v', h3, h4⟩ := C14_bound ht (fun _ => 0) _ generic_example.1 3 1 (-3) hv (by norm_num)
  obtain ⟨v'', w, h5, h6, h7⟩ := C14_conjugate ht (fun _ => 0) _ generic_example.1 3 1 (-3) hv (by norm_num)
  obtain ⟨u, h8, h9⟩ := C14_inverse ht (fun _ => 0) _ generic_example.1 3 (-3) 1 (ValidD_symm hv) (by norm_num)
  rw [h1] at h3 h5 h8
  cases h3; cases h5; cases h8
  exact ⟨t, v, w, ht, h1, h2, h4, by simpa using h6, by simpa using h7, h9⟩

/-- **C15.** With Euler angles: `D_{m',m} = exp(i m' α) d_{m',m}(β) exp(i m γ)` with `d` real and a function of `β` only. -/
theorem C15_euler {L : ℤ} {table : List ℝ} (ht : IsWignerTable L table) (junk : ℕ → ℂ) (n mp m : ℤ)
    (hv : Spec.ValidD n mp m) (hle : n ≤ 2 * L) :
    ∃ d : ℝ → ℝ, ∀ α β γ : ℝ,
      (Real.cos (β / 2) = 0 ∨ epsilon < |Real.cos (β / 2)|) → (Real.sin (β / 2) = 0 ∨ epsilon < |Real.sin (β / 2)|) →
      Wigner_D_element table L true junk
          [.num (.flt α), .num (.flt β), .num (.flt γ), .num (.flt (half n)), .num (.flt (half mp)), .num (.flt (half m))]
        = .ok (.scalar (Complex.exp (Complex.I * half mp * α) * d β * Complex.exp (Complex.I * half m * γ))) := by
  obtain ⟨p', q', p, q, hsum, ha, hb, hc⟩ := valid_pq hv
  choose d hd using fun β : ℝ => Dpq_real (Real.cos (β / 2)) (Real.sin (β / 2)) p' q' p q
  refine ⟨d, ?_⟩
  intro α β γ h1 h2
  have hnorm : ∀ (r θ : ℝ), ‖(r : ℂ) * Complex.exp (Complex.I * θ)‖ = |r| := by
    intro r θ
    rw [norm_mul, mul_comm Complex.I, Complex.norm_exp_ofReal_mul_I, mul_one, Complex.norm_real, Real.norm_eq_abs]
  have c1 : (((α + γ) / 2 : ℝ) : ℂ) = (α + γ) / 2 := by push_cast; ring
  have c2 : (((γ - α) / 2 : ℝ) : ℂ) = (γ - α) / 2 := by push_cast; ring
  have n1 := hnorm (Real.cos (β / 2)) ((α + γ) / 2)
  have n2 := hnorm (Real.sin (β / 2)) ((γ - α) / 2)
  rw [c1] at n1
  rw [c2] at n2
  have hg : Generic (Real.cos (β / 2) * Complex.exp (Complex.I * ((α + γ) / 2)))
      (Real.sin (β / 2) * Complex.exp (Complex.I * ((γ - α) / 2))) := by
    refine ⟨?_, ?_, ?_⟩
    · unfold Spec.IsUnit'
      rw [Complex.normSq_eq_norm_sq, Complex.normSq_eq_norm_sq, n1, n2, sq_abs, sq_abs]
      exact Real.cos_sq_add_sin_sq _
    · rw [n1]
      rcases h1 with h1 | h1
      · left; rw [h1]; simp
      · right; exact h1
    · rw [n2]
      rcases h2 with h2 | h2
      · left; rw [h2]; simp
      · right; exact h2
  have := C10_Wigner_D_element ht true junk _ _ _ (RotationArgs.euler α β γ) (by simp) hg n mp m hv hle
  refine this.trans ?_
  rw [wignerD_pq _ _ hsum ha hb hc, euler_form α β γ hsum, hd β]
  congr 5
  · unfold half; rw [hb]; push_cast; ring
  · unfold half; rw [hc]; push_cast; ring

/-- Non-vacuity of C15: the README's example angles `β = 0.2` are allowed. -/
example : epsilon < |Real.cos (0.2 / 2)| ∧ epsilon < |Real.sin (0.2 / 2)| := by
  have hp := Real.pi_gt_three
  have h1 : 1 / 2 ≤ Real.cos (0.2 / 2) := by
    have := Real.one_sub_sq_div_two_le_cos (x := 0.2 / 2)
    norm_num at this ⊢
    linarith
  have h2 : 1 / 20 ≤ Real.sin (0.2 / 2) := by
    have := Real.mul_le_sin (x := 0.2 / 2) (by norm_num) (by linarith)
    have hpi : Real.pi < 4 := Real.pi_lt_four
    have : 2 / Real.pi * (0.2 / 2) ≥ 1 / 20 := by
      rw [ge_iff_le, div_mul_eq_mul_div, le_div_iff₀ Real.pi_pos]
      linarith
    linarith
  have he : epsilon < 1 / 20 := by unfold epsilon; norm_num
  constructor
  · exact lt_of_lt_of_le (by linarith) (le_abs_self _)
  · exact lt_of_lt_of_le (by linarith) (le_abs_self _)

/-! ## C16, C17 -/

theorem pyIntQ_int (n : ℤ) : pyIntQ (n : ℚ) = n := by unfold pyIntQ; simp

/-- **C16.** `Wigner_D_matrices(R, ell_min, ell_max)` has the documented length and its entry `LMpM_index(ell,m',m,ell_min)` is
the element `Wigner_D_element(R, ell, m', m)`, for every unit rotor; `junk` is the previous content of the buffer. -/
theorem C16_Wigner_D_matrices {L : ℤ} {table : List ℝ} (ht : IsWignerTable L table) (junk : ℕ → ℂ) (q : ℍ[ℝ])
    (hq : normSq q = 1) (a b : ℤ) (ha : 0 ≤ a) (hab : a ≤ b + 1) (hb : b ≤ L) :
    ∃ out, Wigner_D_matrices table junk (partA q) (partB q) a b = .ok out ∧
      (out.length : ℤ) = LMpM_total_size a b ∧
      ∀ ell mp m : ℤ, a ≤ ell → ell ≤ b → |mp| ≤ ell → |m| ≤ ell →
        ∃ v, out[(LMpM_index ell mp m a).toNat]? = some v ∧ 0 ≤ LMpM_index ell mp m a ∧
          apiD table L junk q (2 * ell) (2 * mp) (2 * m) = .ok (.scalar v) ∧
          (GenericQ q → v = Spec.wignerD (partA q) (partB q) (2 * ell) (2 * mp) (2 * m)) := by
  have hlen : ((LMpMlist a b).length : ℤ) = LMpM_total_size a b := LMpMlist_length ha hab
  have hl0 : 0 ≤ LMpM_total_size a b := by omega
  refine ⟨Ftarget (Dret (partA q) (partB q)) a b, ?_, by simpa [Ftarget] using hlen, ?_⟩
  · unfold Wigner_D_matrices
    rw [if_neg (by rw [pyRound_intCast, pyRound_intCast]; norm_num), pyIntQ_int, pyIntQ_int, npEmpty_ok hl0, bind_ok]
    apply matrices_kernel_any ht (unitQ.mpr hq) ha hb
    simp [Ftarget]
    omega
  · intro ell mp m h1 h2 h3 h4
    obtain ⟨g1, g2⟩ := Ftarget_slot (Dret (partA q) (partB q)) ha h1 h2 h3 h4
    have e : slot a ell mp m = LMpM_index ell mp m a := (C05_offsets_agree ell mp m a b).1
    rw [e] at g1 g2
    exact ⟨_, g2, g1, apiD_any ht junk hq h3 h4 (by omega), fun hg => Dret_generic hg h3 h4⟩

/-- **C16.** Half-integer (more generally, clearly non-integer) limits are rejected. -/
theorem C16_non_integer_rejected (table : List ℝ) (junk : ℕ → ℂ) (Ra Rb : ℂ) (a b : ℚ)
    (h : 1 / 10 ^ 10 < |(pyRound b : ℚ) - b| ∨ 1 / 10 ^ 10 < |(pyRound a : ℚ) - a|) :
    Wigner_D_matrices table junk Ra Rb a b = .error .valueError := by
  unfold Wigner_D_matrices
  rw [if_pos h]

/-- **C17.** An array of unit rotors: entry by entry the value of the single-rotor call; zero for out-of-range `m'`, `m` (the
index check is not performed on this path). -/
theorem C17_array_of_rotors {L : ℤ} {table : List ℝ} (ht : IsWignerTable L table) (flag : Bool) (junk : ℕ → ℂ)
    (qs : List ℍ[ℝ]) (hq : ∀ q ∈ qs, normSq q = 1) (ell mp m : ℤ) :
    (|mp| ≤ ell → |m| ≤ ell → ell ≤ L →
      ∃ f : ℍ[ℝ] → ℂ,
        Wigner_D_element table L flag junk
          [.rotors (qs.map fun q => (q.re, q.imI, q.imJ, q.imK)), .num (.int ell), .num (.int mp), .num (.int m)]
          = .ok (.array (qs.map f)) ∧
        ∀ q ∈ qs, apiD table L junk q (2 * ell) (2 * mp) (2 * m) = .ok (.scalar (f q))) ∧
    (¬ (|mp| ≤ ell ∧ |m| ≤ ell) →
      Wigner_D_element table L flag junk
          [.rotors (qs.map fun q => (q.re, q.imI, q.imJ, q.imK)), .num (.int ell), .num (.int mp), .num (.int m)]
          = .ok (.array (qs.map fun _ => 0))) := by
  obtain ⟨buf, hb1, hb2⟩ := npEmpty_len junk (qs.map fun q : ℍ[ℝ] => (q.re, q.imI, q.imJ, q.imK)).length
  constructor
  · intro h1 h2 h3
    refine ⟨fun q => Dret (partA q) (partB q) ell mp m, ?_, ?_⟩
    · unfold Wigner_D_element
      simp only
      rw [hb1, bind_ok, elements_kernel_any ht _ _ h1 h2 h3 buf hb2, List.map_map]
      · rfl
      · intro R hR
        rw [List.mem_map] at hR
        obtain ⟨q, hqm, rfl⟩ := hR
        exact unitQ.mpr (hq q hqm)
    · intro q hqm
      exact apiD_any ht junk (hq q hqm) h1 h2 h3
  · intro h
    unfold Wigner_D_element
    simp only
    rw [hb1, bind_ok, elements_kernel_zero table _ h buf hb2, List.map_map]
    rfl

/-- Non-vacuity of C16 and C17. -/
example : ∃ table out vals, IsWignerTable 32 table ∧
    Wigner_D_matrices table (fun k => (k : ℂ)) (partA (mkQ (3/5) (4/5) 0 0)) (partB (mkQ (3/5) (4/5) 0 0)) (2 : ℤ) (4 : ℤ)
      = .ok out ∧ out.length = 155 ∧
    Wigner_D_element table 32 true (fun _ => 0)
      [.rotors ([mkQ (3/5) (4/5) 0 0, mkQ (3/5) 0 (4/5) 0].map fun q => (q.re, q.imI, q.imJ, q.imK)),
        .num (.int 2), .num (.int 1), .num (.int (-2))] = .ok (.array vals) ∧ vals.length = 2 := by
  obtain ⟨t, ht⟩ := IsWignerTable.exists 32 (by norm_num)
  obtain ⟨out, h1, h2, -⟩ := C16_Wigner_D_matrices ht (fun k => (k : ℂ)) _ (unitQ.mp generic_example.1.1) 2 4 (by norm_num)
    (by norm_num) (by norm_num)
  obtain ⟨f, h3, -⟩ := (C17_array_of_rotors ht true (fun _ => 0) [mkQ (3/5) (4/5) 0 0, mkQ (3/5) 0 (4/5) 0]
    (by
      intro q hq
      simp only [List.mem_cons, List.not_mem_nil, or_false] at hq
      rcases hq with rfl | rfl
      · exact unitQ.mp generic_example.1.1
      · exact unitQ.mp generic_example.2.1.1) 2 1 (-2)).1 (by norm_num) (by norm_num) (by norm_num)
  refine ⟨t, out, _, ht, h1, ?_, h3, by simp⟩
  have : LMpM_total_size 2 4 = 155 := by decide
  omega

end SF
