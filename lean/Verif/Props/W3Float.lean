import Verif.Lemmas.W3FloatZero
import Verif.Props.Wigner3j
import Verif.Props.FloatError

/-!
# C91: the 3-j symbols in floating-point arithmetic

The specification is `Spec.threeJ` (the Racah formula).  `G : W3Ops` are arbitrary floating-point operations; `G.Std u` says that each of them has
relative error `u`; `gam u k = (1-u)^(-k) - 1` is the relative error of `k` roundings.
-/

set_option autoImplicit false

namespace SF

open Spec Finset

theorem calculateF_eq (G : W3Ops) {c : W3Calc} (hc : c.WF) (j2 j3 m2 m3 : ℤ) :
    c.calculateF G j2 j3 m2 m3 = do
      let w ← w3runF G ⟨List.replicate c.size.toNat 0, List.replicate c.size.toNat 0, List.replicate c.size.toNat 0,
        List.replicate c.size.toNat 0⟩ j2 j3 m2 m3
      return (w.f, { c with workspace := w.f ++ w.sf ++ w.F_minus ++ w.F_plus }) := by
  obtain ⟨h1, h2, h3, h4⟩ := calc_slices hc
  unfold W3Calc.calculateF
  simp only
  rw [h1, h2, h3, h4]

/-- With arbitrary floating-point operations, however wrong, and for all arguments: the call returns a well-formed calculator and an array of
the calculator's size whose entries outside the admissible range are zero, or it raises `ZeroDivisionError` or `ValueError`, or it divides an array by
zero (the model stops); it never accesses memory outside its arrays. -/
theorem C91_safe (G : W3Ops) {c : W3Calc} (hc : c.WF) {j2 j3 m2 m3 : ℤ} (hj : j2 + j3 < c.size) :
    (∃ f c', c.calculateF G j2 j3 m2 m3 = .ok (f, c') ∧ c'.WF ∧ c'.size = c.size ∧ f.length = c.size.toNat ∧
      (∀ i : ℕ, i < f.length → ((i : ℤ) < max |j2 - j3| |m2 + m3| ∨ j2 + j3 < i ∨ |m2| > j2 ∨ |m3| > j3) → f[i]? = some 0)) ∨
    c.calculateF G j2 j3 m2 m3 = .error .zeroDivision ∨ c.calculateF G j2 j3 m2 m3 = .error .valueError ∨
    c.calculateF G j2 j3 m2 m3 = .error .notImplementedError := by
  rw [calculateF_eq G hc]
  have hl := List.length_replicate (n := c.size.toNat) (a := (0 : ℝ))
  rcases w3runF_safe (G := G) (j2 := j2) (j3 := j3) (m2 := m2) (m3 := m3) (n := c.size.toNat)
      (w := ⟨List.replicate c.size.toNat 0, List.replicate c.size.toNat 0, List.replicate c.size.toNat 0,
        List.replicate c.size.toNat 0⟩) (by have := hc.1; omega) hl hl hl hl with ⟨w, e, ⟨h1, h1'⟩, h1'', h2, h3, h4⟩ | e | e | e
  · left
    refine ⟨w.f, { c with workspace := w.f ++ w.sf ++ w.F_minus ++ w.F_plus }, by rw [e]; rfl, ⟨hc.1, ?_⟩, rfl, h1, ?_⟩
    · simp only [List.length_append, h1, h2, h3, h4]; omega
    · intro i hi hout
      by_cases hs : |m2| > j2 ∨ |m3| > j3
      · rw [h1'' hs]; exact replicate_zero (by omega)
      · rw [h1' i (by tauto)]; exact replicate_zero (by omega)
  · right; left; rw [e]; rfl
  · right; right; left; rw [e]; rfl
  · right; right; right; rw [e]; rfl

/-- History independence, bit for bit: two calculators of the same size give the same outcome. -/
theorem C91_history (G : W3Ops) {c c' : W3Calc} (hc : c.WF) (hc' : c'.WF) (hs : c.size = c'.size) (j2 j3 m2 m3 : ℤ) :
    c.calculateF G j2 j3 m2 m3 = c'.calculateF G j2 j3 m2 m3 := by
  rw [calculateF_eq G hc, calculateF_eq G hc', hs]

/-- Outside the selection rules `Wigner3j` returns an exact zero, whatever the floating-point operations. -/
theorem C91_Wigner3j_selection (G : W3Ops) (junk : ℕ → ℝ) {j1 j2 j3 m1 m2 m3 : ℤ}
    (h : m1 + m2 + m3 ≠ 0 ∨ |m1| > j1 ∨ |m2| > j2 ∨ |m3| > j3 ∨ j1 > j2 + j3 ∨ j2 > j3 + j1 ∨ j3 > j1 + j2) :
    Wigner3jF G junk j1 j2 j3 m1 m2 m3 = .ok 0 := by
  unfold Wigner3jF
  split
  · rfl
  split
  · rfl
  rename_i hsum hsel
  have p1 := abs_nonneg m1
  have p2 := abs_nonneg m2
  have p3 := abs_nonneg m3
  by_cases c1 : j1 = max j1 (max j2 j3)
  · rw [if_pos c1]; dsimp only; rw [if_pos (by omega)]; rfl
  · rw [if_neg c1]
    by_cases c2 : j2 = max j1 (max j2 j3)
    · rw [if_pos c2]; dsimp only; rw [if_pos (by omega)]; rfl
    · rw [if_neg c2]; dsimp only; rw [if_pos (by omega)]; rfl

section
variable {G : W3Ops} {u : ℝ} (hG : G.Std u)
include hG

/-- The number of admissible values of `j`. -/
def rowLen (j2 j3 m2 m3 : ℤ) : ℕ := (j2 + j3 + 1 - max |j2 - j3| |m2 + m3|).toNat

/-- Whatever the accumulated rounding errors: while the coefficients fit their types, the call returns an array that satisfies
`Σ (2j+1) f[j]² = 1` up to a number of roundings linear in the length of the row, and whose last entry has the documented sign; or it raises
`ZeroDivisionError`.  No other exception is raised and no nan is produced. -/
theorem C91_normalised {c : W3Calc} (hc : c.WF) {j2 j3 m2 m3 : ℤ} (hj : j2 + j3 < c.size) (h2 : |m2| ≤ j2) (h3 : |m3| ≤ j3)
    (hfit : W3Fits j2 j3 m2 m3) :
    (∃ f c', c.calculateF G j2 j3 m2 m3 = .ok (f, c') ∧
      |∑ j ∈ Icc (max |j2 - j3| |m2 + m3|) (j2 + j3), (2 * (j : ℝ) + 1) * f.getD j.toNat 0 ^ 2 - 1| ≤ gam u (rowLen j2 j3 m2 m3 + 6) ∧
      0 ≤ (-1 : ℝ) ^ (j2 - j3 + m2 + m3) * f.getD (j2 + j3).toNat 0) ∨
    c.calculateF G j2 j3 m2 m3 = .error .zeroDivision := by
  rw [calculateF_eq G hc]
  have hl := List.length_replicate (n := c.size.toNat) (a := (0 : ℝ))
  rcases w3runF_norm hG (j2 := j2) (j3 := j3) (m2 := m2) (m3 := m3) (n := c.size.toNat)
      (w := ⟨List.replicate c.size.toNat 0, List.replicate c.size.toNat 0, List.replicate c.size.toNat 0,
        List.replicate c.size.toNat 0⟩) (by have := hc.1; omega) hl hl hl hl h2 h3 hfit with ⟨w, e, h4, h5⟩ | e
  · left
    refine ⟨w.f, { c with workspace := w.f ++ w.sf ++ w.F_minus ++ w.F_plus }, by rw [e]; rfl, ?_, ?_⟩
    · have := h4.err hG.u_nonneg hG.u_lt_one
      rw [abs_one, mul_one] at this
      exact this
    · rwa [negOnePow_eq] at h5
  · right; rw [e]; rfl

/-- Every entry is at most `1/sqrt(2j+1)`, up to rounding. -/
theorem C91_bound {c : W3Calc} (hc : c.WF) {j2 j3 m2 m3 : ℤ} (hj : j2 + j3 < c.size) (h2 : |m2| ≤ j2) (h3 : |m3| ≤ j3)
    (hfit : W3Fits j2 j3 m2 m3) {f : List ℝ} {c' : W3Calc} (h : c.calculateF G j2 j3 m2 m3 = .ok (f, c')) (i : ℕ) (hi : i < f.length) :
    (2 * (i : ℝ) + 1) * f[i] ^ 2 ≤ 1 + gam u (rowLen j2 j3 m2 m3 + 6) := by
  have hg := gam_nonneg hG.u_nonneg hG.u_lt_one (rowLen j2 j3 m2 m3 + 6)
  by_cases hout : (i : ℤ) < max |j2 - j3| |m2 + m3| ∨ j2 + j3 < i ∨ |m2| > j2 ∨ |m3| > j3
  · rcases C91_safe G hc (m2 := m2) (m3 := m3) hj with ⟨f', c'', e, _, _, _, h0⟩ | e | e | e <;> rw [e] at h <;> cases h
    have := h0 i hi hout
    rw [List.getElem?_eq_getElem hi] at this
    have hz : f[i] = 0 := by simpa using this
    rw [hz]
    norm_num
    linarith
  · rcases C91_normalised hG hc hj h2 h3 hfit with ⟨f', c'', e, hs, _⟩ | e <;> rw [e] at h <;> cases h
    have hd : f.getD ((i : ℤ).toNat) 0 = f[i] := by
      rw [Int.toNat_natCast, List.getD_eq_getElem?_getD, List.getElem?_eq_getElem hi]; rfl
    have hle := single_le_sum (f := fun j : ℤ => (2 * (j : ℝ) + 1) * f.getD j.toNat 0 ^ 2) (s := Icc (max |j2 - j3| |m2 + m3|) (j2 + j3))
      (fun j hj => by
        have h0 : 0 ≤ max |j2 - j3| |m2 + m3| := (abs_nonneg _).trans (le_max_left _ _)
        have : (0 : ℝ) ≤ j := by exact_mod_cast (by rw [mem_Icc] at hj; omega : 0 ≤ j)
        positivity) (mem_Icc.2 (⟨by omega, by omega⟩ : max |j2 - j3| |m2 + m3| ≤ (i : ℤ) ∧ (i : ℤ) ≤ j2 + j3))
    beta_reduce at hle
    rw [hd, Int.cast_natCast] at hle
    have := (abs_le.1 hs).2
    linarith

/-- Rows with a single admissible `j` are computed with two roundings. -/
theorem C91_single {c : W3Calc} (hc : c.WF) {j2 j3 m2 m3 : ℤ} (hj : j2 + j3 < c.size) (h2 : |m2| ≤ j2) (h3 : |m3| ≤ j3)
    (hs : j2 + j3 = max |j2 - j3| |m2 + m3|) :
    ∃ f c', c.calculateF G j2 j3 m2 m3 = .ok (f, c') ∧
      |f.getD (j2 + j3).toNat 0 - threeJ (j2 + j3) j2 j3 (-(m2 + m3)) m2 m3| ≤ gam u 2 * |threeJ (j2 + j3) j2 j3 (-(m2 + m3)) m2 m3| := by
  rw [calculateF_eq G hc]
  have hl := List.length_replicate (n := c.size.toNat) (a := (0 : ℝ))
  obtain ⟨w, e, _, h⟩ := w3runF_single hG (n := c.size.toNat)
      (w := ⟨List.replicate c.size.toNat 0, List.replicate c.size.toNat 0, List.replicate c.size.toNat 0,
        List.replicate c.size.toNat 0⟩) (by have := hc.1; omega) hl h2 h3 hs
  exact ⟨w.f, { c with workspace := w.f ++ w.sf ++ w.F_minus ++ w.F_plus }, by rw [e]; rfl, h.err hG.u_nonneg hG.u_lt_one⟩

/-- Rows with `m2 = m3 = 0`: the call returns, and every entry of the array has a small relative error.  In particular the entries with
`j + j2 + j3` odd are exactly zero. -/
theorem C91_zero_row (hu : u ≤ 1 / 100) {c : W3Calc} (hc : c.WF) {j2 j3 : ℤ} (h2 : 0 ≤ j2) (h3 : 0 ≤ j3) (hj : j2 + j3 < c.size)
    (hfit : W3Fits j2 j3 0 0) :
    ∃ f c', c.calculateF G j2 j3 0 0 = .ok (f, c') ∧ f.length = c.size.toNat ∧
      ∀ i : ℕ, (hi : i < f.length) → |f[i] - threeJ i j2 j3 0 0 0| ≤ gam u (31 * (2 * min j2 j3).toNat + 2) * |threeJ i j2 j3 0 0 0| := by
  have hlen : j2 + j3 - |j2 - j3| = 2 * min j2 j3 := by
    rcases le_total j2 j3 with h | h
    · rw [abs_of_nonpos (by omega)]; omega
    · rw [abs_of_nonneg (by omega)]; omega
  have hl := List.length_replicate (n := c.size.toNat) (a := (0 : ℝ))
  obtain ⟨w, e, hwl, h⟩ := w3runF_zero hG hu (n := c.size.toNat)
      (w := ⟨List.replicate c.size.toNat 0, List.replicate c.size.toNat 0, List.replicate c.size.toNat 0,
        List.replicate c.size.toNat 0⟩) (by have := hc.1; omega) hl hl hl h2 h3 hfit
  have ecalc : c.calculateF G j2 j3 0 0 = .ok (w.f, { c with workspace := w.f ++ w.sf ++ w.F_minus ++ w.F_plus }) := by
    rw [calculateF_eq G hc, e]; rfl
  refine ⟨w.f, _, ecalc, hwl, fun i hi => ?_⟩
  by_cases hin : |j2 - j3| ≤ i ∧ (i : ℤ) ≤ j2 + j3
  · have := (h i hin.1 hin.2).err hG.u_nonneg hG.u_lt_one
    rw [hlen, Int.toNat_natCast, List.getD_eq_getElem?_getD, List.getElem?_eq_getElem hi] at this
    exact this
  · rcases C91_safe G hc (m2 := 0) (m3 := 0) hj with ⟨f', c'', e', _, _, _, h0⟩ | e' | e' | e' <;> rw [ecalc] at e' <;> cases e'
    have hout : (i : ℤ) < max |j2 - j3| |(0 : ℤ) + 0| ∨ j2 + j3 < i := by
      rw [add_zero, abs_zero, max_eq_left (abs_nonneg _)]; omega
    have e0 := h0 i hi (by tauto)
    rw [List.getElem?_eq_getElem hi] at e0
    have ez : w.f[i] = 0 := by simpa using e0
    have et : threeJ i j2 j3 0 0 0 = 0 := by
      have := row3_outside (j2 := j2) (j3 := j3) (m2 := 0) (m3 := 0) hout
      simpa [row3] using this
    rw [ez, et]; simp

/-- `Wigner3j`, when the symbol is admissible and the two smaller `j` add up to at most 151: the result `v` satisfies `(2 j + 1) v² ≤ 1` up to
rounding, for each of the three `j`. -/
theorem C91_Wigner3j_bound {junk : ℕ → ℝ} {j1 j2 j3 m1 m2 m3 : ℤ} (hq : min (j1 + j2) (min (j1 + j3) (j2 + j3)) ≤ 151) {v : ℝ}
    (h : Wigner3jF G junk j1 j2 j3 m1 m2 m3 = .ok v) {j : ℤ} (hj : j = j1 ∨ j = j2 ∨ j = j3) : (2 * (j : ℝ) + 1) * v ^ 2 ≤ 1 + gam u 158 := by
  have hg := gam_nonneg hG.u_nonneg hG.u_lt_one 158
  have core : ∀ {j1 j2 j3 m2 m3 : ℤ}, 0 ≤ j1 → |m2| ≤ j2 → |m3| ≤ j3 → j2 + j3 ≤ 151 → j1 ≤ j2 + j3 → (do
      let c ← W3Calc.new junk j2 j3
      let (w3j, _) ← c.calculateF G j2 j3 m2 m3
      rd w3j j1 : Py ℝ) = .ok v → ∀ j : ℤ, j ≤ j1 → (2 * (j : ℝ) + 1) * v ^ 2 ≤ 1 + gam u 158 := by
    intro j1 j2 j3 m2 m3 p1 h2 h3 hq ht h j hj
    have p2 := (abs_nonneg _).trans h2
    have p3 := (abs_nonneg _).trans h3
    obtain ⟨c, ec, hc, hsz⟩ := C47_new (junk := junk) (j2_max := j2) (j3_max := j3) (by omega) (by omega)
    rw [ec] at h
    simp only [bind, Except.bind] at h
    cases e : c.calculateF G j2 j3 m2 m3 with
    | error _ => rw [e] at h; cases h
    | ok r =>
      obtain ⟨f, c'⟩ := r
      rw [e] at h
      simp only at h
      have hfl : f.length = c.size.toNat := by
        rcases C91_safe G hc (j2 := j2) (j3 := j3) (m2 := m2) (m3 := m3) (by omega) with ⟨f', c'', e', _, _, hl, _⟩ | e' | e' | e' <;>
          rw [e] at e' <;> cases e'
        exact hl
      have hi : j1.toNat < f.length := by omega
      have := C91_bound hG hc (by omega) h2 h3 (W3Fits.of_le h2 h3 hq) e j1.toNat hi
      rw [rd_ok p1 (List.getElem?_eq_getElem hi)] at h
      cases h
      have hmono : gam u (rowLen j2 j3 m2 m3 + 6) ≤ gam u 158 := gam_mono hG.u_nonneg hG.u_lt_one (by
        have : 0 ≤ max |j2 - j3| |m2 + m3| := (abs_nonneg _).trans (le_max_left _ _)
        unfold rowLen; omega)
      have hjr : (j : ℝ) ≤ ((j1.toNat : ℕ) : ℝ) := by exact_mod_cast (by omega : j ≤ (j1.toNat : ℤ))
      nlinarith [sq_nonneg f[j1.toNat]]
  have triv : ∀ w : ℝ, w = 0 → (2 * (j : ℝ) + 1) * w ^ 2 ≤ 1 + gam u 158 := by
    rintro w rfl; norm_num; linarith
  unfold Wigner3jF at h
  split at h
  · cases h; exact triv _ rfl
  split at h
  · cases h; exact triv _ rfl
  rename_i hsum hsel
  push Not at hsum hsel
  obtain ⟨s1, s2, s3⟩ := hsel
  have p1 : 0 ≤ j1 := (abs_nonneg _).trans s1
  have p2 : 0 ≤ j2 := (abs_nonneg _).trans s2
  have p3 : 0 ≤ j3 := (abs_nonneg _).trans s3
  by_cases c1 : j1 = max j1 (max j2 j3)
  · rw [if_pos c1] at h
    dsimp only at h
    split at h
    · cases h; exact triv _ rfl
    · exact core p1 s2 s3 (by omega) (by omega) h j (by omega)
  · rw [if_neg c1] at h
    by_cases c2 : j2 = max j1 (max j2 j3)
    · rw [if_pos c2] at h
      dsimp only at h
      split at h
      · cases h; exact triv _ rfl
      · exact core p2 s3 s1 (by omega) (by omega) h j (by omega)
    · rw [if_neg c2] at h
      dsimp only at h
      split at h
      · cases h; exact triv _ rfl
      · exact core p3 s1 s2 (by omega) (by omega) h j (by omega)

/-- Clebsch–Gordan coefficients are at most 1 in magnitude, up to rounding. -/
theorem C91_clebsch_gordan_bound {junk : ℕ → ℝ} {j1 m1 j2 m2 j3 m3 : ℤ} (hj3 : 0 ≤ j3) (hq : min (j1 + j2) (min (j1 + j3) (j2 + j3)) ≤ 151) {v : ℝ}
    (h : clebsch_gordanF G junk j1 m1 j2 m2 j3 m3 = .ok v) : v ^ 2 ≤ 1 + gam u 164 := by
  have hu0 := hG.u_nonneg
  have hu1 := hG.u_lt_one
  unfold clebsch_gordanF at h
  cases hw : Wigner3jF G junk j1 j2 j3 m1 m2 (-m3) with
  | error e => rw [hw] at h; cases h
  | ok w =>
    rw [hw] at h
    cases h
    have hb := C91_Wigner3j_bound hG hq hw (Or.inr (Or.inr rfl))
    have hp : (0 : ℝ) ≤ ((2 * j3 + 1 : ℤ) : ℝ) := by exact_mod_cast (by omega : 0 ≤ 2 * j3 + 1)
    have hn := (hG.near_mul (hG.near_mul (near_refl (u := u) ((-1 : ℝ) ^ (j1 - j2 + m3))) (hG.near_sqrt (near_refl (u := u) _) hp))
      (near_refl (u := u) w)).pow hu0 hu1 2
    have e : ((-1 : ℝ) ^ (j1 - j2 + m3) * Real.sqrt ((2 * j3 + 1 : ℤ) : ℝ) * w) ^ 2 = (2 * (j3 : ℝ) + 1) * w ^ 2 := by
      rw [mul_pow, mul_pow, Real.sq_sqrt hp]
      have : ((-1 : ℝ) ^ (j1 - j2 + m3)) ^ 2 = 1 := by
        rcases negOnePow_cases (j1 - j2 + m3) with h | h <;> rw [h.2] <;> norm_num
      rw [this]; push_cast; ring
    rw [e] at hn
    obtain ⟨θ, e1, _, f2⟩ := hn
    rw [e1]
    have hj : (0 : ℝ) ≤ j3 := by exact_mod_cast hj3
    have hx : 0 ≤ (2 * (j3 : ℝ) + 1) * w ^ 2 := by positivity
    have hpow : 0 < (1 - u) ^ 6 := pow_pos (by linarith) _
    have hθ : θ ≤ ((1 - u) ^ 6)⁻¹ := by
      rw [← one_div, le_div_iff₀ hpow]
      convert f2 using 3
    have eg : 1 + gam u 164 = (1 + gam u 158) * ((1 - u) ^ 6)⁻¹ := by
      unfold gam
      rw [show (1 - u) ^ 164 = (1 - u) ^ 158 * (1 - u) ^ 6 by rw [← pow_add], mul_inv]
      ring
    rw [eg]
    have : 0 ≤ ((1 - u) ^ 6)⁻¹ := inv_nonneg.2 hpow.le
    calc (2 * (j3 : ℝ) + 1) * w ^ 2 * θ ≤ (2 * (j3 : ℝ) + 1) * w ^ 2 * ((1 - u) ^ 6)⁻¹ := mul_le_mul_of_nonneg_left hθ hx
      _ ≤ _ := mul_le_mul_of_nonneg_right hb this

/-- `Wigner3j(j1, j2, j3, 0, 0, 0)` returns, with a small relative error, if the two smaller `j` add up to at most 151. -/
theorem C91_Wigner3j_zero (hu : u ≤ 1 / 100) {junk : ℕ → ℝ} {j1 j2 j3 : ℤ} (h1 : 0 ≤ j1) (h2 : 0 ≤ j2) (h3 : 0 ≤ j3)
    (hq : min (j1 + j2) (min (j1 + j3) (j2 + j3)) ≤ 151) :
    ∃ v, Wigner3jF G junk j1 j2 j3 0 0 0 = .ok v ∧ |v - threeJ j1 j2 j3 0 0 0| ≤ gam u 4652 * |threeJ j1 j2 j3 0 0 0| := by
  have core : ∀ {j1 j2 j3 : ℤ}, 0 ≤ j1 → 0 ≤ j2 → 0 ≤ j3 → j2 + j3 ≤ 151 → j1 ≤ j2 + j3 → ∃ v, (do
      let c ← W3Calc.new junk j2 j3
      let (w3j, _) ← c.calculateF G j2 j3 0 0
      rd w3j j1 : Py ℝ) = .ok v ∧ |v - threeJ j1 j2 j3 0 0 0| ≤ gam u 4652 * |threeJ j1 j2 j3 0 0 0| := by
    intro j1 j2 j3 p1 p2 p3 hq ht
    have k2 : |(0 : ℤ)| ≤ j2 := by rw [abs_zero]; exact p2
    have k3 : |(0 : ℤ)| ≤ j3 := by rw [abs_zero]; exact p3
    obtain ⟨c, ec, hc, hsz⟩ := C47_new (junk := junk) (j2_max := j2) (j3_max := j3) (by omega) (by omega)
    obtain ⟨f, c', e, hl, hv⟩ := C91_zero_row hG hu hc p2 p3 (by omega) (W3Fits.of_le k2 k3 hq)
    have hi : j1.toNat < f.length := by omega
    refine ⟨f[j1.toNat], ?_, ?_⟩
    · rw [ec]
      simp only [bind, Except.bind]
      rw [e]
      simp only
      rw [rd_ok p1 (List.getElem?_eq_getElem hi)]
    · have := hv j1.toNat hi
      rw [show ((j1.toNat : ℕ) : ℤ) = j1 by omega] at this
      exact this.trans (mul_le_mul_of_nonneg_right (gam_mono hG.u_nonneg hG.u_lt_one (by omega)) (abs_nonneg _))
  have hz : ∀ {j1 j2 j3 : ℤ}, j1 > j2 + j3 → threeJ j1 j2 j3 0 0 0 = 0 := by
    intro j1 j2 j3 h
    rw [threeJ_eq_zero]; rintro ⟨_, _, _, _, _, a5⟩; omega
  unfold Wigner3jF
  rw [if_neg (by norm_num), if_neg (by rw [abs_zero]; omega)]
  by_cases c1 : j1 = max j1 (max j2 j3)
  · rw [if_pos c1]
    dsimp only
    split
    · rename_i ht; exact ⟨0, rfl, by rw [hz ht]; simp⟩
    · exact core h1 h2 h3 (by omega) (by omega)
  · rw [if_neg c1]
    by_cases c2 : j2 = max j1 (max j2 j3)
    · rw [if_pos c2, threeJ_cyclic]
      dsimp only
      split
      · rename_i ht; exact ⟨0, rfl, by rw [hz ht]; simp⟩
      · exact core h2 h3 h1 (by omega) (by omega)
    · rw [if_neg c2, threeJ_cyclic, threeJ_cyclic]
      dsimp only
      split
      · rename_i ht; exact ⟨0, rfl, by rw [hz ht]; simp⟩
      · exact core h3 h1 h2 (by omega) (by omega)

end

/-! ## Double precision -/

/-- In double precision, for `j2 + j3 ≤ 151`: rows are normalised to 2e-14, Clebsch–Gordan coefficients are at most `1 + 2e-14`, and
`Wigner3j(j1, j2, j3, 0, 0, 0)` is accurate to thirteen digits (relative error `6e-13`). -/
theorem C91_double {G : W3Ops} (hG : G.Std (2 ^ (-53 : ℤ))) :
    (∀ {c : W3Calc} {j2 j3 m2 m3 : ℤ} {f : List ℝ} {c' : W3Calc}, c.WF → j2 + j3 < c.size → |m2| ≤ j2 → |m3| ≤ j3 → j2 + j3 ≤ 151 →
      c.calculateF G j2 j3 m2 m3 = .ok (f, c') →
      |∑ j ∈ Icc (max |j2 - j3| |m2 + m3|) (j2 + j3), (2 * (j : ℝ) + 1) * f.getD j.toNat 0 ^ 2 - 1| ≤ 2 / 10 ^ 14) ∧
    (∀ {junk : ℕ → ℝ} {j1 m1 j2 m2 j3 m3 : ℤ} {v : ℝ}, 0 ≤ j3 → min (j1 + j2) (min (j1 + j3) (j2 + j3)) ≤ 151 →
      clebsch_gordanF G junk j1 m1 j2 m2 j3 m3 = .ok v → |v| ≤ 1 + 2 / 10 ^ 14) ∧
    (∀ (junk : ℕ → ℝ) {j1 j2 j3 : ℤ}, 0 ≤ j1 → 0 ≤ j2 → 0 ≤ j3 → min (j1 + j2) (min (j1 + j3) (j2 + j3)) ≤ 151 →
      ∃ v, Wigner3jF G junk j1 j2 j3 0 0 0 = .ok v ∧ |v - threeJ j1 j2 j3 0 0 0| ≤ 6 / 10 ^ 13 * |threeJ j1 j2 j3 0 0 0|) := by
  have hu0 := hG.u_nonneg
  have hu1 := hG.u_lt_one
  have g158 : gam (2 ^ (-53 : ℤ)) 158 ≤ 2 / 10 ^ 14 := (gam_le hu0 hu1 (by norm_num)).trans (by norm_num)
  have g164 : gam (2 ^ (-53 : ℤ)) 164 ≤ 2 / 10 ^ 14 := (gam_le hu0 hu1 (by norm_num)).trans (by norm_num)
  have g4652 : gam (2 ^ (-53 : ℤ)) 4652 ≤ 6 / 10 ^ 13 := (gam_le hu0 hu1 (by norm_num)).trans (by norm_num)
  refine ⟨?_, ?_, ?_⟩
  · intro c j2 j3 m2 m3 f c' hc hj h2 h3 hq h
    rcases C91_normalised hG hc hj h2 h3 (W3Fits.of_le h2 h3 hq) with ⟨f', c'', e, hs, _⟩ | e <;> rw [e] at h <;> cases h
    refine hs.trans ((gam_mono hu0 hu1 ?_).trans g158)
    have : 0 ≤ max |j2 - j3| |m2 + m3| := (abs_nonneg _).trans (le_max_left _ _)
    unfold rowLen; omega
  · intro junk j1 m1 j2 m2 j3 m3 v hj3 hq h
    have := C91_clebsch_gordan_bound hG hj3 hq h
    apply abs_le_of_sq_le_sq _ (by norm_num)
    refine this.trans ?_
    nlinarith
  · intro junk j1 j2 j3 h1 h2 h3 hq
    obtain ⟨v, e, hv⟩ := C91_Wigner3j_zero hG (by norm_num) (junk := junk) h1 h2 h3 hq
    exact ⟨v, e, hv.trans (mul_le_mul_of_nonneg_right g4652 (abs_nonneg _))⟩

/-! ## The hypotheses are met -/

/-- Rounding to 53 significant bits satisfies the assumptions on the arithmetic. -/
noncomputable def W3Ops53 : W3Ops where
  add x y := fl53 (x + y)
  mul x y := fl53 (x * y)
  div x y := fl53 (x / y)
  sqrt x := fl53 (Real.sqrt x)
  ofInt n := fl53 n

theorem W3Ops53_std : W3Ops53.Std (2 ^ (-53 : ℤ)) :=
  ⟨by positivity, by norm_num, fun _ _ => fl53_err _, fun _ _ => fl53_err _, fun _ _ _ => fl53_err _, fun _ _ => fl53_err _, fun _ => fl53_err _⟩

/-- A used calculator, a row with `m2 = m3 = 0`. -/
example : ∃ f c', exCalc.calculateF W3Ops53 2 2 0 0 = .ok (f, c') ∧ f.length = 5 ∧
    ∀ i : ℕ, (hi : i < f.length) → |f[i] - threeJ i 2 2 0 0 0| ≤ gam (2 ^ (-53 : ℤ)) 126 * |threeJ i 2 2 0 0 0| := by
  obtain ⟨f, c', h1, h2, h3⟩ := C91_zero_row W3Ops53_std (by norm_num) exCalc_WF (j2 := 2) (j3 := 2) (by norm_num) (by norm_num)
    (by norm_num [exCalc]) (W3Fits.of_le (by norm_num) (by norm_num) (by norm_num))
  exact ⟨f, c', h1, h2, h3⟩

/-- A row with a single entry and `m ≠ 0`. -/
example : ∃ f c', exCalc.calculateF W3Ops53 2 2 2 2 = .ok (f, c') ∧
    |f.getD 4 0 - threeJ 4 2 2 (-4) 2 2| ≤ gam (2 ^ (-53 : ℤ)) 2 * |threeJ 4 2 2 (-4) 2 2| :=
  C91_single W3Ops53_std exCalc_WF (j2 := 2) (j3 := 2) (m2 := 2) (m3 := 2) (by norm_num [exCalc]) (by norm_num) (by norm_num) (by norm_num)

/-- `(2 2 2; 0 0 0)` in double precision. -/
example (junk : ℕ → ℝ) : ∃ v, Wigner3jF W3Ops53 junk 2 2 2 0 0 0 = .ok v ∧ |v - threeJ 2 2 2 0 0 0| ≤ 6 / 10 ^ 13 * |threeJ 2 2 2 0 0 0| :=
  (C91_double W3Ops53_std).2.2 junk (by norm_num) (by norm_num) (by norm_num) (by norm_num)

end SF
