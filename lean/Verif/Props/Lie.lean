import Verif.Lemmas.Lie
import Verif.Props.ModesOperators
import Mathlib.Analysis.Normed.Algebra.QuaternionExponential

/-!
# Property C38: the operators of `Modes` are Lie derivatives

The docstrings of `SWSH_modes/derivatives.py` define, for a function `f(Q)` over the unit quaternions and a generator `g`,

    Lg(f){Q} = -0.5j df{exp(t*g) * Q} / dt |t=0        Rg(f){Q} = -0.5j df{Q * exp(t*g)} / dt |t=0

and state `Lz`, `Lplus = Lx + 1j Ly`, `Lminus = Lx - 1j Ly`, `Rz`, `Rplus = Rx - 1j Ry`, `Rminus = Rx + 1j Ry`.  Here
`f(Q)` is what `f.evaluate(Q)` returns, and `exp` is the exponential of Mathlib's quaternions.

The first four hold.  The last two are **off by a sign** in the code: `Rplus = -(Rx - 1j Ry)` and
`Rminus = -(Rx + 1j Ry)` (`C38_Rplus`, `C38_Rminus`); the comments of the source drop the sign
`(-1)**s = -(-1)**(s∓1)`.
-/

set_option autoImplicit false

namespace SF

open Finset ComplexConjugate Quaternion Topology

/-- The unit quaternions outside the epsilon-neighbourhoods of the two poles `q.a = 0`, `q.b = 0`. -/
def OffPoles (q : ℍ[ℝ]) : Prop := normSq q = 1 ∧ epsilon < ‖partA q‖ ∧ epsilon < ‖partB q‖

/-- The generators. -/
def qx : ℍ[ℝ] := mkQ 0 1 0 0
def qy : ℍ[ℝ] := mkQ 0 0 1 0
def qz : ℍ[ℝ] := mkQ 0 0 0 1

/-- `f.evaluate(Q)` returns the values `v` (one for each index of the leading axes). -/
def HasValue (table : List ℝ) (junk : ℕ → ℤ × ℤ) (f : Modes) (Q : ℍ[ℝ]) (v : Slice) : Prop :=
  f.evaluate table junk [comps Q] = .ok [v]

/-- `w = -0.5j d f{exp(t*g) * Q} / dt |t=0`. -/
def IsLeftLie (table : List ℝ) (junk : ℕ → ℤ × ℤ) (f : Modes) (g Q : ℍ[ℝ]) (w : Slice) : Prop :=
  ∃ v : ℝ → Slice, (∀ᶠ t in 𝓝 (0 : ℝ), HasValue table junk f (NormedSpace.exp (t • g) * Q) (v t)) ∧
    ∀ idx, ∃ d : ℂ, HasDerivAt (fun t => v t idx) d 0 ∧ w idx = -(1 / 2) * Complex.I * d

/-- `w = -0.5j d f{Q * exp(t*g)} / dt |t=0`. -/
def IsRightLie (table : List ℝ) (junk : ℕ → ℤ × ℤ) (f : Modes) (g Q : ℍ[ℝ]) (w : Slice) : Prop :=
  ∃ v : ℝ → Slice, (∀ᶠ t in 𝓝 (0 : ℝ), HasValue table junk f (Q * NormedSpace.exp (t • g)) (v t)) ∧
    ∀ idx, ∃ d : ℂ, HasDerivAt (fun t => v t idx) d 0 ∧ w idx = -(1 / 2) * Complex.I * d

/-! ## The exponential -/

theorem exp_generator {x y z : ℝ} (h : x ^ 2 + y ^ 2 + z ^ 2 = 1) (t : ℝ) :
    NormedSpace.exp (t • mkQ 0 x y z) = mkQ (Real.cos t) (x * Real.sin t) (y * Real.sin t) (z * Real.sin t) := by
  have hn : ‖t • mkQ 0 x y z‖ = |t| := by
    rw [norm_smul, Real.norm_eq_abs]
    have : ‖mkQ 0 x y z‖ = 1 := by
      have h1 : ‖mkQ 0 x y z‖ * ‖mkQ 0 x y z‖ = 1 := by
        rw [← Quaternion.normSq_eq_norm_mul_self, Quaternion.normSq_def']
        simp only [mkQ_re, mkQ_imI, mkQ_imJ, mkQ_imK]
        linarith
      nlinarith [norm_nonneg (mkQ 0 x y z)]
    rw [this, mul_one]
  have hr : (t • mkQ 0 x y z).re = 0 := by simp
  rw [Quaternion.exp_of_re_eq_zero _ hr, hn, Real.cos_abs]
  have hs : Real.sin |t| / |t| * t = Real.sin t := by
    rcases eq_or_ne t 0 with h0 | h0
    · subst h0; simp
    · rcases abs_choice t with h1 | h1
      · rw [h1]; field_simp
      · rw [h1, Real.sin_neg]; field_simp
  ext
  · simp
  · simp only [Quaternion.imI_add, Quaternion.imI_coe, Quaternion.imI_smul, mkQ_imI, smul_eq_mul, zero_add]
    rw [← hs]; ring
  · simp only [Quaternion.imJ_add, Quaternion.imJ_coe, Quaternion.imJ_smul, mkQ_imJ, smul_eq_mul, zero_add]
    rw [← hs]; ring
  · simp only [Quaternion.imK_add, Quaternion.imK_coe, Quaternion.imK_smul, mkQ_imK, smul_eq_mul, zero_add]
    rw [← hs]; ring

section

variable {x y z : ℝ} (hu : x ^ 2 + y ^ 2 + z ^ 2 = 1)
include hu

theorem exp_partA (t : ℝ) : partA (NormedSpace.exp (t • mkQ 0 x y z))
    = (Real.cos t : ℂ) + Complex.I * z * (Real.sin t : ℂ) := by
  rw [exp_generator hu]
  apply Complex.ext <;> simp [partA, Complex.cos_ofReal_re, Complex.sin_ofReal_re]

theorem exp_partB (t : ℝ) : partB (NormedSpace.exp (t • mkQ 0 x y z))
    = ((y : ℂ) + Complex.I * x) * (Real.sin t : ℂ) := by
  rw [exp_generator hu]
  apply Complex.ext <;> simp [partB, Complex.cos_ofReal_re, Complex.sin_ofReal_re]

theorem deriv_A : HasDerivAt (fun t : ℝ => partA (NormedSpace.exp (t • mkQ 0 x y z))) (Complex.I * z) 0 := by
  simp only [exp_partA hu]
  have h1 : HasDerivAt (fun t : ℝ => ((Real.cos t : ℝ) : ℂ)) ((-Real.sin 0 : ℝ) : ℂ) 0 :=
    (Real.hasDerivAt_cos 0).ofReal_comp
  have h2 : HasDerivAt (fun t : ℝ => ((Real.sin t : ℝ) : ℂ)) ((Real.cos 0 : ℝ) : ℂ) 0 :=
    (Real.hasDerivAt_sin 0).ofReal_comp
  refine (h1.add (h2.const_mul (Complex.I * z))).congr_deriv ?_
  simp

theorem deriv_B : HasDerivAt (fun t : ℝ => partB (NormedSpace.exp (t • mkQ 0 x y z))) ((y : ℂ) + Complex.I * x) 0 := by
  simp only [exp_partB hu]
  have h2 : HasDerivAt (fun t : ℝ => ((Real.sin t : ℝ) : ℂ)) ((Real.cos 0 : ℝ) : ℂ) 0 :=
    (Real.hasDerivAt_sin 0).ofReal_comp
  refine (h2.const_mul _).congr_deriv ?_
  simp

theorem exp_A_zero : partA (NormedSpace.exp ((0 : ℝ) • mkQ 0 x y z)) = 1 := by rw [exp_partA hu]; simp

theorem exp_B_zero : partB (NormedSpace.exp ((0 : ℝ) • mkQ 0 x y z)) = 0 := by rw [exp_partB hu]; simp

theorem exp_unit (t : ℝ) : normSq (NormedSpace.exp (t • mkQ 0 x y z)) = 1 := by
  rw [exp_generator hu, Quaternion.normSq_def']
  simp only [mkQ_re, mkQ_imI, mkQ_imJ, mkQ_imK]
  have := Real.sin_sq_add_cos_sq t
  calc Real.cos t ^ 2 + (x * Real.sin t) ^ 2 + (y * Real.sin t) ^ 2 + (z * Real.sin t) ^ 2
      = Real.cos t ^ 2 + (x ^ 2 + y ^ 2 + z ^ 2) * Real.sin t ^ 2 := by ring
    _ = 1 := by rw [hu]; linarith

theorem left_generic {Q : ℍ[ℝ]} (hQ : OffPoles Q) :
    ∀ᶠ t in 𝓝 (0 : ℝ), GenericQ (NormedSpace.exp (t • mkQ 0 x y z) * Q) := by
  have hA : ContinuousAt (fun t : ℝ => ‖partA (NormedSpace.exp (t • mkQ 0 x y z) * Q)‖) 0 := by
    simp only [partA_mul]
    exact (((deriv_A hu).continuousAt.mul continuousAt_const).sub
      ((hasDerivAt_conj (deriv_B hu)).continuousAt.mul continuousAt_const)).norm
  have hB : ContinuousAt (fun t : ℝ => ‖partB (NormedSpace.exp (t • mkQ 0 x y z) * Q)‖) 0 := by
    simp only [partB_mul]
    exact (((hasDerivAt_conj (deriv_A hu)).continuousAt.mul continuousAt_const).add
      ((deriv_B hu).continuousAt.mul continuousAt_const)).norm
  have eA := hA.eventually (lt_mem_nhds (a := epsilon) (by
    simp only [partA_mul, exp_A_zero hu, exp_B_zero hu]; simpa using hQ.2.1))
  have eB := hB.eventually (lt_mem_nhds (a := epsilon) (by
    simp only [partB_mul, exp_A_zero hu, exp_B_zero hu]; simpa using hQ.2.2))
  filter_upwards [eA, eB] with t h1 h2
  exact ⟨unitQ.mpr (by rw [map_mul, exp_unit hu, hQ.1, mul_one]), Or.inr h1, Or.inr h2⟩

theorem right_generic {Q : ℍ[ℝ]} (hQ : OffPoles Q) :
    ∀ᶠ t in 𝓝 (0 : ℝ), GenericQ (Q * NormedSpace.exp (t • mkQ 0 x y z)) := by
  have hA : ContinuousAt (fun t : ℝ => ‖partA (Q * NormedSpace.exp (t • mkQ 0 x y z))‖) 0 := by
    simp only [partA_mul]
    exact ((continuousAt_const.mul (deriv_A hu).continuousAt).sub
      (continuousAt_const.mul (deriv_B hu).continuousAt)).norm
  have hB : ContinuousAt (fun t : ℝ => ‖partB (Q * NormedSpace.exp (t • mkQ 0 x y z))‖) 0 := by
    simp only [partB_mul]
    exact ((continuousAt_const.mul (deriv_B hu).continuousAt).add
      (continuousAt_const.mul (deriv_A hu).continuousAt)).norm
  have eA := hA.eventually (lt_mem_nhds (a := epsilon) (by
    simp only [partA_mul, exp_A_zero hu, exp_B_zero hu]; simpa using hQ.2.1))
  have eB := hB.eventually (lt_mem_nhds (a := epsilon) (by
    simp only [partB_mul, exp_A_zero hu, exp_B_zero hu]; simpa using hQ.2.2))
  filter_upwards [eA, eB] with t h1 h2
  exact ⟨unitQ.mpr (by rw [map_mul, exp_unit hu, hQ.1, mul_one]), Or.inr h1, Or.inr h2⟩

end

/-! ## The values of the operators -/

/-- The value at `Q` of the function with the mode weights of `f`. -/
noncomputable def fv (f : Modes) (Q : ℍ[ℝ]) : Slice :=
  fun idx => Spec.fieldValue f.s f.ell_max (fun ell m => f.coef ell m idx) (partA Q) (partB Q)

theorem OffPoles.generic {Q : ℍ[ℝ]} (hQ : OffPoles Q) : GenericQ Q :=
  ⟨unitQ.mpr hQ.1, Or.inr hQ.2.1, Or.inr hQ.2.2⟩

theorem hasValue {L : ℤ} {table : List ℝ} (ht : IsWignerTable L table) (junk : ℕ → ℤ × ℤ) {f : Modes} (hf : f.WF)
    (hL : f.ell_max ≤ L) {Q : ℍ[ℝ]} (hQ : GenericQ Q) : HasValue table junk f Q (fv f Q) :=
  evaluate_ok ht junk hf hL [Q] (by simpa using hQ)

/-- **C38**, for the function defined by the mode weights, at *every* quaternion `Q` (poles included) and for every
generator `g = x i + y j + z k` of unit length:
`d f(exp(t g) Q)/dt = 2i (x Lx + y Ly + z Lz) f`, with `Lx = (L₊ + L₋)/2`, `Ly = (L₊ - L₋)/(2i)`. -/
theorem C38_left_all_generators {f : Modes} (hf : f.WF) {x y z : ℝ} (hu : x ^ 2 + y ^ 2 + z ^ 2 = 1) (Q : ℍ[ℝ])
    (idx : List ℕ) :
    ∃ gz gp gm, f.Lz = .ok gz ∧ f.Lplus = .ok gp ∧ f.Lminus = .ok gm ∧
      HasDerivAt (fun t : ℝ => fv f (NormedSpace.exp (t • mkQ 0 x y z) * Q) idx)
        (2 * Complex.I * (x * ((fv gp Q idx + fv gm Q idx) / 2) + y * ((fv gp Q idx - fv gm Q idx) / (2 * Complex.I))
          + z * fv gz Q idx)) 0 := by
  obtain ⟨gz, z1, z2⟩ := Lz_ok hf
  obtain ⟨gp, p1, p2⟩ := Lplus_ok hf
  obtain ⟨gm, m1, m2⟩ := Lminus_ok hf
  refine ⟨gz, gp, gm, z1, p1, m1, ?_⟩
  have h := lie_left_field (deriv_A hu) (deriv_B hu) (exp_A_zero hu) (exp_B_zero hu) (partA Q) (partB Q) f.s f.ell_max
    (fun ell m => f.coef ell m idx)
  have ez : fv gz Q idx = Spec.fieldValue f.s f.ell_max (fun l m => (m : ℂ) * f.coef l m idx) (partA Q) (partB Q) := by
    unfold fv; rw [z2.hs, z2.hL]
    exact fieldValue_congr _ _ fun ell m a1 a2 a3 => by rw [z2.coef ell m a1 a2 a3]
  have ep : fv gp Q idx = Spec.fieldValue f.s f.ell_max
      (fun l m => if m = -l then 0 else isqrtC ((l + m) * (l - m + 1)) * f.coef l (m - 1) idx) (partA Q) (partB Q) := by
    unfold fv; rw [p2.hs, p2.hL]
    exact fieldValue_congr _ _ fun ell m a1 a2 a3 => by rw [p2.coef ell m a1 a2 a3]
  have em : fv gm Q idx = Spec.fieldValue f.s f.ell_max
      (fun l m => if m = l then 0 else isqrtC ((l - m) * (l + m + 1)) * f.coef l (m + 1) idx) (partA Q) (partB Q) := by
    unfold fv; rw [m2.hs, m2.hL]
    exact fieldValue_congr _ _ fun ell m a1 a2 a3 => by rw [m2.coef ell m a1 a2 a3]
  rw [← ez, ← ep, ← em] at h
  simp only [← partA_mul, ← partB_mul] at h
  refine HasDerivAt.congr_deriv (f := fun t : ℝ => fv f (NormedSpace.exp (t • mkQ 0 x y z) * Q) idx) h ?_
  simp only [map_add, map_mul, Complex.conj_I, Complex.conj_ofReal]
  field_simp
  ring

/-- **C38**, for the function defined by the mode weights, at every quaternion and for every generator of unit length:
`d f(Q exp(t g))/dt = 2i (-x Rx - y Ry + z Rz) f`, with `Rx = (R₊ + R₋)/2`, `Ry = (R₋ - R₊)/(2i)`.  The two minus
signs contradict the docstrings of `Rplus` and `Rminus`. -/
theorem C38_right_all_generators {f : Modes} (hf : f.WF) {x y z : ℝ} (hu : x ^ 2 + y ^ 2 + z ^ 2 = 1) (Q : ℍ[ℝ])
    (idx : List ℕ) :
    ∃ gz gp gm, f.Rz = .ok gz ∧ f.Rplus = .ok gp ∧ f.Rminus = .ok gm ∧
      HasDerivAt (fun t : ℝ => fv f (Q * NormedSpace.exp (t • mkQ 0 x y z)) idx)
        (2 * Complex.I * (-(x * ((fv gp Q idx + fv gm Q idx) / 2)) - y * ((fv gm Q idx - fv gp Q idx) / (2 * Complex.I))
          + z * fv gz Q idx)) 0 := by
  obtain ⟨gz, z1, z2⟩ := Rz_ok hf
  obtain ⟨gp, p1, p2⟩ := Rplus_ok hf
  obtain ⟨gm, m1, m2⟩ := Rminus_ok hf
  refine ⟨gz, gp, gm, z1, p1, m1, ?_⟩
  have h := lie_right_field (deriv_A hu) (deriv_B hu) (exp_A_zero hu) (exp_B_zero hu) (partA Q) (partB Q) f.s f.ell_max
    (fun ell m => f.coef ell m idx)
  have low : ∀ ell m, |m| ≤ ell → ell ≤ f.ell_max → f.coef ell m idx = if |f.s| ≤ ell then f.coef ell m idx else 0 := by
    intro ell m a2 a3
    split_ifs with a1
    · rfl
    · rw [hf.low ell m (by omega) a2 a3]
  have ez : fv gz Q idx = -Spec.fieldValue f.s f.ell_max (fun l m => (f.s : ℂ) * f.coef l m idx) (partA Q) (partB Q) := by
    unfold fv; rw [z2.hs, z2.hL]
    unfold Spec.fieldValue
    rw [← Finset.sum_neg_distrib]
    apply Finset.sum_congr rfl
    intro ell h1
    rw [← Finset.sum_neg_distrib]
    apply Finset.sum_congr rfl
    intro m h2
    rw [mem_Icc] at h1 h2
    beta_reduce
    rw [z2.coef ell m h1.1 (abs_le.mpr h2) h1.2]
    ring
  have ep : fv gp Q idx = Spec.fieldValue (f.s - 1) f.ell_max
      (fun l m => isqrtC ((l + f.s) * (l - f.s + 1)) * (if |f.s| ≤ l then f.coef l m idx else 0)) (partA Q) (partB Q) := by
    unfold fv; rw [p2.hs, p2.hL]
    refine fieldValue_congr _ _ fun ell m a1 a2 a3 => ?_
    rw [p2.coef ell m a1 a2 a3, ← low ell m a2 a3]
    rw [show (ell - (f.s - 1)) * (ell + (f.s - 1) + 1) = (ell + f.s) * (ell - f.s + 1) by ring]
  have em : fv gm Q idx = Spec.fieldValue (f.s + 1) f.ell_max
      (fun l m => isqrtC ((l - f.s) * (l + f.s + 1)) * (if |f.s| ≤ l then f.coef l m idx else 0)) (partA Q) (partB Q) := by
    unfold fv; rw [m2.hs, m2.hL]
    refine fieldValue_congr _ _ fun ell m a1 a2 a3 => ?_
    rw [m2.coef ell m a1 a2 a3, ← low ell m a2 a3]
    rw [show (ell + (f.s + 1)) * (ell - (f.s + 1) + 1) = (ell - f.s) * (ell + f.s + 1) by ring]
  rw [← ep, ← em, ← neg_eq_iff_eq_neg.mpr ez] at h
  simp only [← partA_mul, ← partB_mul] at h
  refine HasDerivAt.congr_deriv (f := fun t : ℝ => fv f (Q * NormedSpace.exp (t • mkQ 0 x y z)) idx) h ?_
  simp only [map_add, map_mul, Complex.conj_I, Complex.conj_ofReal]
  field_simp
  ring

theorem half_I (X : ℂ) : X = -(1 / 2) * Complex.I * (2 * Complex.I * X) := by
  linear_combination X * Complex.I_mul_I

section

variable {L : ℤ} {table : List ℝ} (ht : IsWignerTable L table) (junk : ℕ → ℤ × ℤ) {f : Modes} (hf : f.WF)
  (hL : f.ell_max ≤ L) {Q : ℍ[ℝ]} (hQ : OffPoles Q)
include ht hf hL hQ

theorem isLeftLie {x y z : ℝ} (hu : x ^ 2 + y ^ 2 + z ^ 2 = 1) {gz gp gm : Modes} (h1 : f.Lz = .ok gz)
    (h2 : f.Lplus = .ok gp) (h3 : f.Lminus = .ok gm) :
    IsLeftLie table junk f (mkQ 0 x y z) Q fun idx => x * ((fv gp Q idx + fv gm Q idx) / 2)
      + y * ((fv gp Q idx - fv gm Q idx) / (2 * Complex.I)) + z * fv gz Q idx := by
  refine ⟨fun t => fv f (NormedSpace.exp (t • mkQ 0 x y z) * Q), ?_, fun idx => ?_⟩
  · filter_upwards [left_generic hu hQ] with t h
    exact hasValue ht junk hf hL h
  · obtain ⟨gz', gp', gm', e1, e2, e3, e4⟩ := C38_left_all_generators hf hu Q idx
    obtain rfl := Except.ok.inj (h1.symm.trans e1)
    obtain rfl := Except.ok.inj (h2.symm.trans e2)
    obtain rfl := Except.ok.inj (h3.symm.trans e3)
    exact ⟨_, e4, half_I _⟩

theorem isRightLie {x y z : ℝ} (hu : x ^ 2 + y ^ 2 + z ^ 2 = 1) {gz gp gm : Modes} (h1 : f.Rz = .ok gz)
    (h2 : f.Rplus = .ok gp) (h3 : f.Rminus = .ok gm) :
    IsRightLie table junk f (mkQ 0 x y z) Q fun idx => -(x * ((fv gp Q idx + fv gm Q idx) / 2))
      - y * ((fv gm Q idx - fv gp Q idx) / (2 * Complex.I)) + z * fv gz Q idx := by
  refine ⟨fun t => fv f (Q * NormedSpace.exp (t • mkQ 0 x y z)), ?_, fun idx => ?_⟩
  · filter_upwards [right_generic hu hQ] with t h
    exact hasValue ht junk hf hL h
  · obtain ⟨gz', gp', gm', e1, e2, e3, e4⟩ := C38_right_all_generators hf hu Q idx
    obtain rfl := Except.ok.inj (h1.symm.trans e1)
    obtain rfl := Except.ok.inj (h2.symm.trans e2)
    obtain rfl := Except.ok.inj (h3.symm.trans e3)
    exact ⟨_, e4, half_I _⟩

/-- **C38.** `(f.Lz)(Q) = -0.5j df{exp(t z) Q}/dt`. -/
theorem C38_Lz : ∃ g w, f.Lz = .ok g ∧ HasValue table junk g Q w ∧ IsLeftLie table junk f qz Q w := by
  obtain ⟨gz, z1, z2⟩ := Lz_ok hf
  obtain ⟨gp, p1, -⟩ := Lplus_ok hf
  obtain ⟨gm, m1, -⟩ := Lminus_ok hf
  refine ⟨gz, _, z1, hasValue ht junk z2.wf (by rw [z2.hL]; exact hL) hQ.generic, ?_⟩
  have h := isLeftLie ht junk hf hL hQ (x := 0) (y := 0) (z := 1) (by norm_num) z1 p1 m1
  simpa [qz] using h

/-- **C38.** `f.Lplus = Lx f + 1j Ly f`. -/
theorem C38_Lplus : ∃ g w wx wy, f.Lplus = .ok g ∧ HasValue table junk g Q w ∧ IsLeftLie table junk f qx Q wx ∧
    IsLeftLie table junk f qy Q wy ∧ ∀ idx, w idx = wx idx + Complex.I * wy idx := by
  obtain ⟨gz, z1, -⟩ := Lz_ok hf
  obtain ⟨gp, p1, p2⟩ := Lplus_ok hf
  obtain ⟨gm, m1, -⟩ := Lminus_ok hf
  refine ⟨gp, _, _, _, p1, hasValue ht junk p2.wf (by rw [p2.hL]; exact hL) hQ.generic,
    isLeftLie ht junk hf hL hQ (x := 1) (y := 0) (z := 0) (by norm_num) z1 p1 m1,
    isLeftLie ht junk hf hL hQ (x := 0) (y := 1) (z := 0) (by norm_num) z1 p1 m1, fun idx => ?_⟩
  simp only [Complex.ofReal_one, Complex.ofReal_zero]
  field_simp
  ring

/-- **C38.** `f.Lminus = Lx f - 1j Ly f`. -/
theorem C38_Lminus : ∃ g w wx wy, f.Lminus = .ok g ∧ HasValue table junk g Q w ∧ IsLeftLie table junk f qx Q wx ∧
    IsLeftLie table junk f qy Q wy ∧ ∀ idx, w idx = wx idx - Complex.I * wy idx := by
  obtain ⟨gz, z1, -⟩ := Lz_ok hf
  obtain ⟨gp, p1, -⟩ := Lplus_ok hf
  obtain ⟨gm, m1, m2⟩ := Lminus_ok hf
  refine ⟨gm, _, _, _, m1, hasValue ht junk m2.wf (by rw [m2.hL]; exact hL) hQ.generic,
    isLeftLie ht junk hf hL hQ (x := 1) (y := 0) (z := 0) (by norm_num) z1 p1 m1,
    isLeftLie ht junk hf hL hQ (x := 0) (y := 1) (z := 0) (by norm_num) z1 p1 m1, fun idx => ?_⟩
  simp only [Complex.ofReal_one, Complex.ofReal_zero]
  field_simp
  ring

/-- **C38.** `(f.Rz)(Q) = -0.5j df{Q exp(t z)}/dt`. -/
theorem C38_Rz : ∃ g w, f.Rz = .ok g ∧ HasValue table junk g Q w ∧ IsRightLie table junk f qz Q w := by
  obtain ⟨gz, z1, z2⟩ := Rz_ok hf
  obtain ⟨gp, p1, -⟩ := Rplus_ok hf
  obtain ⟨gm, m1, -⟩ := Rminus_ok hf
  refine ⟨gz, _, z1, hasValue ht junk z2.wf (by rw [z2.hL]; exact hL) hQ.generic, ?_⟩
  have h := isRightLie ht junk hf hL hQ (x := 0) (y := 0) (z := 1) (by norm_num) z1 p1 m1
  simpa [qz] using h

/-- **C38.** `f.Rplus = -(Rx f - 1j Ry f)`: the opposite of what the docstring states. -/
theorem C38_Rplus : ∃ g w wx wy, f.Rplus = .ok g ∧ HasValue table junk g Q w ∧ IsRightLie table junk f qx Q wx ∧
    IsRightLie table junk f qy Q wy ∧ ∀ idx, w idx = -(wx idx - Complex.I * wy idx) := by
  obtain ⟨gz, z1, -⟩ := Rz_ok hf
  obtain ⟨gp, p1, p2⟩ := Rplus_ok hf
  obtain ⟨gm, m1, -⟩ := Rminus_ok hf
  refine ⟨gp, _, _, _, p1, hasValue ht junk p2.wf (by rw [p2.hL]; exact hL) hQ.generic,
    isRightLie ht junk hf hL hQ (x := 1) (y := 0) (z := 0) (by norm_num) z1 p1 m1,
    isRightLie ht junk hf hL hQ (x := 0) (y := 1) (z := 0) (by norm_num) z1 p1 m1, fun idx => ?_⟩
  simp only [Complex.ofReal_one, Complex.ofReal_zero]
  field_simp
  ring

/-- **C38.** `f.Rminus` (and `f.eth`) `= -(Rx f + 1j Ry f)`: the opposite of what the docstring states. -/
theorem C38_Rminus : ∃ g w wx wy, f.Rminus = .ok g ∧ f.eth = .ok g ∧ HasValue table junk g Q w ∧
    IsRightLie table junk f qx Q wx ∧ IsRightLie table junk f qy Q wy ∧
    ∀ idx, w idx = -(wx idx + Complex.I * wy idx) := by
  obtain ⟨gz, z1, -⟩ := Rz_ok hf
  obtain ⟨gp, p1, -⟩ := Rplus_ok hf
  obtain ⟨gm, m1, m2⟩ := Rminus_ok hf
  refine ⟨gm, _, _, _, m1, m1, hasValue ht junk m2.wf (by rw [m2.hL]; exact hL) hQ.generic,
    isRightLie ht junk hf hL hQ (x := 1) (y := 0) (z := 0) (by norm_num) z1 p1 m1,
    isRightLie ht junk hf hL hQ (x := 0) (y := 1) (z := 0) (by norm_num) z1 p1 m1, fun idx => ?_⟩
  simp only [Complex.ofReal_one, Complex.ofReal_zero]
  field_simp
  ring

/-- **C38.** `f.ethbar = Rx f - 1j Ry f`. -/
theorem C38_ethbar : ∃ g w wx wy, f.ethbar = .ok g ∧ HasValue table junk g Q w ∧ IsRightLie table junk f qx Q wx ∧
    IsRightLie table junk f qy Q wy ∧ ∀ idx, w idx = wx idx - Complex.I * wy idx := by
  obtain ⟨gz, z1, -⟩ := Rz_ok hf
  obtain ⟨gp, p1, p2⟩ := Rplus_ok hf
  obtain ⟨gm, m1, -⟩ := Rminus_ok hf
  obtain ⟨g, g1, g2⟩ := ethbar_ok hf
  refine ⟨g, _, _, _, g1, hasValue ht junk g2.wf (by rw [g2.hL]; exact hL) hQ.generic,
    isRightLie ht junk hf hL hQ (x := 1) (y := 0) (z := 0) (by norm_num) z1 p1 m1,
    isRightLie ht junk hf hL hQ (x := 0) (y := 1) (z := 0) (by norm_num) z1 p1 m1, fun idx => ?_⟩
  have hv : fv g Q idx = -fv gp Q idx := by
    unfold fv; rw [g2.hs, g2.hL, p2.hs, p2.hL]
    unfold Spec.fieldValue
    rw [← Finset.sum_neg_distrib]
    apply Finset.sum_congr rfl
    intro ell h1
    rw [← Finset.sum_neg_distrib]
    apply Finset.sum_congr rfl
    intro m h2
    rw [mem_Icc] at h1 h2
    beta_reduce
    rw [g2.coef ell m h1.1 (abs_le.mpr h2) h1.2, p2.coef ell m h1.1 (abs_le.mpr h2) h1.2]
    ring
  rw [hv]
  simp only [Complex.ofReal_one, Complex.ofReal_zero]
  field_simp
  ring

end

/-- The derivative is determined: `IsLeftLie` holds for at most one value. -/
theorem isLeftLie_unique {table : List ℝ} {junk : ℕ → ℤ × ℤ} {f : Modes} {g Q : ℍ[ℝ]} {w w' : Slice}
    (h : IsLeftLie table junk f g Q w) (h' : IsLeftLie table junk f g Q w') : w = w' := by
  obtain ⟨v, v1, v2⟩ := h
  obtain ⟨v', u1, u2⟩ := h'
  funext idx
  obtain ⟨d, d1, d2⟩ := v2 idx
  obtain ⟨d', e1, e2⟩ := u2 idx
  have : (fun t => v t idx) =ᶠ[𝓝 0] fun t => v' t idx := by
    filter_upwards [v1, u1] with t a b
    have := List.head_eq_of_cons_eq (Except.ok.inj (a.symm.trans b))
    rw [this]
  rw [d2, e2, d1.unique (e1.congr_of_eventuallyEq this)]

/-- The derivative is determined: `IsRightLie` holds for at most one value. -/
theorem isRightLie_unique {table : List ℝ} {junk : ℕ → ℤ × ℤ} {f : Modes} {g Q : ℍ[ℝ]} {w w' : Slice}
    (h : IsRightLie table junk f g Q w) (h' : IsRightLie table junk f g Q w') : w = w' := by
  obtain ⟨v, v1, v2⟩ := h
  obtain ⟨v', u1, u2⟩ := h'
  funext idx
  obtain ⟨d, d1, d2⟩ := v2 idx
  obtain ⟨d', e1, e2⟩ := u2 idx
  have : (fun t => v t idx) =ᶠ[𝓝 0] fun t => v' t idx := by
    filter_upwards [v1, u1] with t a b
    have := List.head_eq_of_cons_eq (Except.ok.inj (a.symm.trans b))
    rw [this]
  rw [d2, e2, d1.unique (e1.congr_of_eventuallyEq this)]

/-- Non-vacuity: a rotor off the poles, and a nonzero right derivative of a mode object of spin weight `-1`. -/
theorem offPoles_example : OffPoles (mkQ (3/5) (4/5) 0 0) := by
  obtain ⟨h1, h2, h3⟩ := generic_example.1
  refine ⟨unitQ.mp h1, h2.resolve_left ?_, h3.resolve_left ?_⟩
  · intro h; have := congrArg Complex.re h; simp [partA] at this
  · intro h; have := congrArg Complex.im h; simp [partB] at this

example : ∃ table g w wx wy, IsWignerTable 32 table ∧ exModes.Rplus = .ok g ∧
    HasValue table (fun _ => 0) g (mkQ (3/5) (4/5) 0 0) w ∧
    IsRightLie table (fun _ => 0) exModes qx (mkQ (3/5) (4/5) 0 0) wx ∧
    IsRightLie table (fun _ => 0) exModes qy (mkQ (3/5) (4/5) 0 0) wy ∧
    ∀ idx, w idx = -(wx idx - Complex.I * wy idx) := by
  obtain ⟨t, ht⟩ := IsWignerTable.exists 32 (by norm_num)
  obtain ⟨g, w, wx, wy, h1, h2, h3, h4, h5⟩ := C38_Rplus ht (fun _ => 0) exModes_WF (by decide) offPoles_example
  exact ⟨t, g, w, wx, wy, ht, h1, h2, h3, h4, h5⟩

end SF
