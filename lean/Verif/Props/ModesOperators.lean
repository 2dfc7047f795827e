import Verif.Props.ModesArith

/-!
# Properties C35–C37: differential operators on `Modes`

The identities are equalities between results of sequences of API calls: both sides are `Py Modes` programs, and each
theorem implies that neither side raises.  `f - g` is `f.addM g true`, `f + g` is `f.addM g false`, and `c * f` is
`f.ufuncMulScalar (· * ·) (num c)`.
-/

set_option autoImplicit false

namespace SF

open Finset ComplexConjugate Quaternion

/-- `c * f`. -/
noncomputable def Modes.times (f : Modes) (c : ℂ) : Py Modes := f.ufuncMulScalar (· * ·) (num c)

/-- Equality of two API results, through their modes. -/
theorem same {f g h : Modes} {s : ℤ} {T T' : ℤ → ℤ → Slice} {x y : Py Modes} (hx : x = .ok g) (hy : y = .ok h)
    (hg : OpRes f g s T) (hh : OpRes f h s T')
    (hT : ∀ ell m z, |s| ≤ ell → |m| ≤ ell → ell ≤ f.ell_max → T ell m z = T' ell m z) : x = y := by
  rw [hx, hy, hg.eq hh hT]

variable (f : Modes) (hf : f.WF)

theorem OpRes.cast {f g : Modes} {s s' : ℤ} {T : ℤ → ℤ → Slice} (h : OpRes f g s T) (e : s = s') : OpRes f g s' T := by
  subst e; exact h

theorem isqrt_prod {a b : ℤ} (h : a = b) (h0 : 0 ≤ a) : isqrtC a * isqrtC b = (a : ℂ) := by
  rw [← h, isqrtC_mul_self h0]

include hf

/-! ## C35 -/

/-- **C35.** Every `L` operator succeeds and preserves spin weight, `ell_max` and leading shape. -/
theorem C35_preserve : ∀ op ∈ [Modes.Lsquared, Modes.Lz, Modes.Lplus, Modes.Lminus], ∃ g, op f = .ok g ∧ g.WF ∧
    g.s = f.s ∧ g.ell_max = f.ell_max ∧ g.lead = f.lead := by
  have h := OpRes.refl hf
  intro op hop
  simp only [List.mem_cons, List.not_mem_nil, or_false] at hop
  rcases hop with rfl | rfl | rfl | rfl
  · obtain ⟨g, g1, g2⟩ := h.Lsquared; exact ⟨g, g1, g2.wf, g2.hs, g2.hL, g2.lead⟩
  · obtain ⟨g, g1, g2⟩ := h.Lz; exact ⟨g, g1, g2.wf, g2.hs, g2.hL, g2.lead⟩
  · obtain ⟨g, g1, g2⟩ := h.Lplus; exact ⟨g, g1, g2.wf, g2.hs, g2.hL, g2.lead⟩
  · obtain ⟨g, g1, g2⟩ := h.Lminus; exact ⟨g, g1, g2.wf, g2.hs, g2.hL, g2.lead⟩

/-- **C35.** `Lz L+ f - L+ Lz f = L+ f`. -/
theorem C35_Lz_Lplus (h0 : 0 ≤ f.ell_max) :
    (do let a ← f.Lplus; let a ← a.Lz; let b ← f.Lz; let b ← b.Lplus; a.addM b true) = f.Lplus := by
  have h := OpRes.refl hf
  obtain ⟨a, a1, a2⟩ := h.Lplus
  obtain ⟨b, b1, b2⟩ := a2.Lz
  obtain ⟨c, c1, c2⟩ := h.Lz
  obtain ⟨d, d1, d2⟩ := c2.Lplus
  obtain ⟨e, e1, e2⟩ := b2.addM d2 h0 true
  refine same (by rw [a1, bind_ok, b1, bind_ok, c1, bind_ok, d1, bind_ok, e1]) a1 e2 a2 ?_
  intro ell m z _ _ _
  simp only [if_true]
  by_cases hm : m = -ell
  · simp [hm]
  · simp only [if_neg hm]; push_cast; ring

/-- **C35.** `Lz L- f - L- Lz f = -L- f`. -/
theorem C35_Lz_Lminus (h0 : 0 ≤ f.ell_max) :
    (do let a ← f.Lminus; let a ← a.Lz; let b ← f.Lz; let b ← b.Lminus; a.addM b true)
      = (do let a ← f.Lminus; a.negative) := by
  have h := OpRes.refl hf
  obtain ⟨a, a1, a2⟩ := h.Lminus
  obtain ⟨b, b1, b2⟩ := a2.Lz
  obtain ⟨c, c1, c2⟩ := h.Lz
  obtain ⟨d, d1, d2⟩ := c2.Lminus
  obtain ⟨e, e1, e2⟩ := b2.addM d2 h0 true
  obtain ⟨k, k1, k2⟩ := a2.negative
  refine same (by rw [a1, bind_ok, b1, bind_ok, c1, bind_ok, d1, bind_ok, e1]) (by rw [a1, bind_ok, k1]) e2 k2 ?_
  intro ell m z _ _ _
  simp only [if_true]
  by_cases hm : m = ell
  · simp [hm]
  · simp only [if_neg hm]; push_cast; ring

/-- **C35.** `L+ L- f - L- L+ f = 2 Lz f`. -/
theorem C35_Lplus_Lminus (h0 : 0 ≤ f.ell_max) :
    (do let a ← f.Lminus; let a ← a.Lplus; let b ← f.Lplus; let b ← b.Lminus; a.addM b true)
      = (do let a ← f.Lz; a.times 2) := by
  have h := OpRes.refl hf
  obtain ⟨a, a1, a2⟩ := h.Lminus
  obtain ⟨b, b1, b2⟩ := a2.Lplus
  obtain ⟨c, c1, c2⟩ := h.Lplus
  obtain ⟨d, d1, d2⟩ := c2.Lminus
  obtain ⟨e, e1, e2⟩ := b2.addM d2 h0 true
  obtain ⟨k, k1, k2⟩ := h.Lz
  obtain ⟨t, t1, t2⟩ := k2.scalar h0 (· * ·) 2
  refine same (by rw [a1, bind_ok, b1, bind_ok, c1, bind_ok, d1, bind_ok, e1]) (by rw [k1, bind_ok]; exact t1) e2 t2 ?_
  intro ell m z _ hm _
  have := abs_le.mp hm
  simp only [if_true]
  have e1 : (if m = -ell then 0 else isqrtC ((ell + m) * (ell - m + 1)) *
      if m - 1 = ell then 0 else isqrtC ((ell - (m - 1)) * (ell + (m - 1) + 1)) * f.coef ell (m - 1 + 1) z)
      = (((ell + m) * (ell - m + 1) : ℤ) : ℂ) * f.coef ell m z := by
    by_cases hm1 : m = -ell
    · rw [if_pos hm1, hm1]; push_cast; ring
    · rw [if_neg hm1, if_neg (by omega), ← mul_assoc, isqrt_prod (by ring) (mul_nonneg (by omega) (by omega))]
      congr 2; omega
  have e2 : (if m = ell then 0 else isqrtC ((ell - m) * (ell + m + 1)) *
      if m + 1 = -ell then 0 else isqrtC ((ell + (m + 1)) * (ell - (m + 1) + 1)) * f.coef ell (m + 1 - 1) z)
      = (((ell - m) * (ell + m + 1) : ℤ) : ℂ) * f.coef ell m z := by
    by_cases hm1 : m = ell
    · rw [if_pos hm1, hm1]; push_cast; ring
    · rw [if_neg hm1, if_neg (by omega), ← mul_assoc, isqrt_prod (by ring) (mul_nonneg (by omega) (by omega))]
      congr 2; omega
  rw [e1, e2]
  push_cast
  ring

/-- **C35.** `L² f = ½ (L+ L- f + L- L+ f) + Lz Lz f`. -/
theorem C35_Lsquared (h0 : 0 ≤ f.ell_max) :
    (do let a ← f.Lminus; let a ← a.Lplus; let b ← f.Lplus; let b ← b.Lminus; let c ← a.addM b false
        let c ← c.times (1 / 2); let d ← f.Lz; let d ← d.Lz; c.addM d false) = f.Lsquared := by
  have h := OpRes.refl hf
  obtain ⟨a, a1, a2⟩ := h.Lminus
  obtain ⟨b, b1, b2⟩ := a2.Lplus
  obtain ⟨c, c1, c2⟩ := h.Lplus
  obtain ⟨d, d1, d2⟩ := c2.Lminus
  obtain ⟨e, e1, e2⟩ := b2.addM d2 h0 false
  obtain ⟨t, t1, t2⟩ := e2.scalar h0 (· * ·) (1 / 2)
  obtain ⟨k, k1, k2⟩ := h.Lz
  obtain ⟨l, l1, l2⟩ := k2.Lz
  obtain ⟨r, r1, r2⟩ := t2.addM l2 h0 false
  obtain ⟨w, w1, w2⟩ := h.Lsquared
  have t1' : e.times (1 / 2) = .ok t := t1
  refine same (by rw [a1, bind_ok, b1, bind_ok, c1, bind_ok, d1, bind_ok, e1, bind_ok, t1', bind_ok, k1, bind_ok, l1, bind_ok, r1]) w1 r2 w2 ?_
  intro ell m z _ hm _
  have := abs_le.mp hm
  simp only [Bool.false_eq_true, if_false]
  have e1 : (if m = -ell then 0 else isqrtC ((ell + m) * (ell - m + 1)) *
      if m - 1 = ell then 0 else isqrtC ((ell - (m - 1)) * (ell + (m - 1) + 1)) * f.coef ell (m - 1 + 1) z)
      = (((ell + m) * (ell - m + 1) : ℤ) : ℂ) * f.coef ell m z := by
    by_cases hm1 : m = -ell
    · rw [if_pos hm1, hm1]; push_cast; ring
    · rw [if_neg hm1, if_neg (by omega), ← mul_assoc, isqrt_prod (by ring) (mul_nonneg (by omega) (by omega))]
      congr 2; omega
  have e2 : (if m = ell then 0 else isqrtC ((ell - m) * (ell + m + 1)) *
      if m + 1 = -ell then 0 else isqrtC ((ell + (m + 1)) * (ell - (m + 1) + 1)) * f.coef ell (m + 1 - 1) z)
      = (((ell - m) * (ell + m + 1) : ℤ) : ℂ) * f.coef ell m z := by
    by_cases hm1 : m = ell
    · rw [if_pos hm1, hm1]; push_cast; ring
    · rw [if_neg hm1, if_neg (by omega), ← mul_assoc, isqrt_prod (by ring) (mul_nonneg (by omega) (by omega))]
      congr 2; omega
  rw [e1, e2]
  push_cast
  ring

/-- **C35.** `L²` commutes with `Lz`, `L+`, `L-`. -/
theorem C35_Lsquared_comm : ∀ op ∈ [Modes.Lz, Modes.Lplus, Modes.Lminus],
    (do let a ← op f; a.Lsquared) = (do let a ← f.Lsquared; op a) := by
  have h := OpRes.refl hf
  obtain ⟨s, s1, s2⟩ := h.Lsquared
  intro op hop
  simp only [List.mem_cons, List.not_mem_nil, or_false] at hop
  rcases hop with rfl | rfl | rfl
  · obtain ⟨a, a1, a2⟩ := h.Lz
    obtain ⟨b, b1, b2⟩ := a2.Lsquared
    obtain ⟨c, c1, c2⟩ := s2.Lz
    refine same (by rw [a1, bind_ok, b1]) (by rw [s1, bind_ok, c1]) b2 c2 ?_
    intros; ring
  · obtain ⟨a, a1, a2⟩ := h.Lplus
    obtain ⟨b, b1, b2⟩ := a2.Lsquared
    obtain ⟨c, c1, c2⟩ := s2.Lplus
    refine same (by rw [a1, bind_ok, b1]) (by rw [s1, bind_ok, c1]) b2 c2 ?_
    intro ell m z _ _ _
    by_cases hm : m = -ell
    · simp only [if_pos hm, mul_zero]
    · simp only [if_neg hm]; ring
  · obtain ⟨a, a1, a2⟩ := h.Lminus
    obtain ⟨b, b1, b2⟩ := a2.Lsquared
    obtain ⟨c, c1, c2⟩ := s2.Lminus
    refine same (by rw [a1, bind_ok, b1]) (by rw [s1, bind_ok, c1]) b2 c2 ?_
    intro ell m z _ _ _
    by_cases hm : m = ell
    · simp only [if_pos hm, mul_zero]
    · simp only [if_neg hm]; ring

/-- **C35.** The eigenvalues: `L²` multiplies the modes of order `ell` by `ell (ell+1)`, `Lz` those with index `m` by `m`. -/
theorem C35_eigenvalues : ∃ g h, f.Lsquared = .ok g ∧ f.Lz = .ok h ∧
    ∀ ell m, |f.s| ≤ ell → |m| ≤ ell → ell ≤ f.ell_max → ∀ idx,
      g.coef ell m idx = ell * (ell + 1) * f.coef ell m idx ∧ h.coef ell m idx = m * f.coef ell m idx := by
  obtain ⟨g, g1, g2⟩ := Lsquared_ok hf
  obtain ⟨h, h1, h2⟩ := Lz_ok hf
  refine ⟨g, h, g1, h1, fun ell m k1 k2 k3 idx => ?_⟩
  rw [g2.coef ell m k1 k2 k3, h2.coef ell m k1 k2 k3]
  exact ⟨by push_cast; ring, rfl⟩

/-! ## C36 -/

/-- **C36.** The `R` operators succeed; `Rz` and `R²` keep the spin weight, `R+` lowers and `R-` raises it by one. -/
theorem C36_spin : ∃ a b c, f.Rz = .ok a ∧ f.Rplus = .ok b ∧ f.Rminus = .ok c ∧ a.WF ∧ b.WF ∧ c.WF ∧
    a.s = f.s ∧ b.s = f.s - 1 ∧ c.s = f.s + 1 ∧
    a.ell_max = f.ell_max ∧ b.ell_max = f.ell_max ∧ c.ell_max = f.ell_max ∧
    a.lead = f.lead ∧ b.lead = f.lead ∧ c.lead = f.lead := by
  have h := OpRes.refl hf
  obtain ⟨a, a1, a2⟩ := h.Rz
  obtain ⟨b, b1, b2⟩ := h.Rplus
  obtain ⟨c, c1, c2⟩ := h.Rminus
  exact ⟨a, b, c, a1, b1, c1, a2.wf, b2.wf, c2.wf, a2.hs, b2.hs, c2.hs, a2.hL, b2.hL, c2.hL, a2.lead, b2.lead, c2.lead⟩

/-- **C36.** `Rz R+ f - R+ Rz f = R+ f`. -/
theorem C36_Rz_Rplus (h0 : 0 ≤ f.ell_max) :
    (do let a ← f.Rplus; let a ← a.Rz; let b ← f.Rz; let b ← b.Rplus; a.addM b true) = f.Rplus := by
  have h := OpRes.refl hf
  obtain ⟨a, a1, a2⟩ := h.Rplus
  obtain ⟨b, b1, b2⟩ := a2.Rz
  obtain ⟨c, c1, c2⟩ := h.Rz
  obtain ⟨d, d1, d2⟩ := c2.Rplus
  obtain ⟨e, e1, e2⟩ := b2.addM d2 h0 true
  refine same (by rw [a1, bind_ok, b1, bind_ok, c1, bind_ok, d1, bind_ok, e1]) a1 e2 a2 ?_
  intro ell m z _ _ _
  simp only [if_true]
  by_cases hm : |f.s| ≤ ell
  · simp only [if_pos hm]; push_cast; ring
  · simp [if_neg hm]

/-- **C36.** `Rz R- f - R- Rz f = -R- f`. -/
theorem C36_Rz_Rminus (h0 : 0 ≤ f.ell_max) :
    (do let a ← f.Rminus; let a ← a.Rz; let b ← f.Rz; let b ← b.Rminus; a.addM b true)
      = (do let a ← f.Rminus; a.negative) := by
  have h := OpRes.refl hf
  obtain ⟨a, a1, a2⟩ := h.Rminus
  obtain ⟨b, b1, b2⟩ := a2.Rz
  obtain ⟨c, c1, c2⟩ := h.Rz
  obtain ⟨d, d1, d2⟩ := c2.Rminus
  obtain ⟨e, e1, e2⟩ := b2.addM d2 h0 true
  obtain ⟨k, k1, k2⟩ := a2.negative
  refine same (by rw [a1, bind_ok, b1, bind_ok, c1, bind_ok, d1, bind_ok, e1]) (by rw [a1, bind_ok, k1]) e2 k2 ?_
  intro ell m z _ _ _
  simp only [if_true]
  by_cases hm : |f.s| ≤ ell
  · simp only [if_pos hm]; push_cast; ring
  · simp [if_neg hm]

omit hf in
/-- Going up and down again, at the boundary `ell = |s|` too. -/
theorem R_up_down {s ell : ℤ} (h : |s| ≤ ell) (v : ℂ) :
    (isqrtC ((ell - (s + 1 - 1)) * (ell + (s + 1 - 1) + 1)) *
      if |s + 1| ≤ ell then isqrtC ((ell + (s + 1)) * (ell - (s + 1) + 1)) * (if |s| ≤ ell then v else 0) else 0)
      = (((ell - s) * (ell + s + 1) : ℤ) : ℂ) * v := by
  have := abs_le.mp h
  rw [if_pos h]
  by_cases h1 : |s + 1| ≤ ell
  · rw [if_pos h1, ← mul_assoc, isqrt_prod (by ring) (mul_nonneg (by omega) (by omega))]
    congr 2; ring
  · rw [if_neg h1, mul_zero]
    have : ell = s := by
      rcases abs_cases (s + 1) with ⟨h2, _⟩ | ⟨h2, _⟩ <;> omega
    rw [this]; push_cast; ring

omit hf in
theorem R_down_up {s ell : ℤ} (h : |s| ≤ ell) (v : ℂ) :
    (isqrtC ((ell + (s - 1 + 1)) * (ell - (s - 1 + 1) + 1)) *
      if |s - 1| ≤ ell then isqrtC ((ell - (s - 1)) * (ell + (s - 1) + 1)) * (if |s| ≤ ell then v else 0) else 0)
      = (((ell + s) * (ell - s + 1) : ℤ) : ℂ) * v := by
  have := abs_le.mp h
  rw [if_pos h]
  by_cases h1 : |s - 1| ≤ ell
  · rw [if_pos h1, ← mul_assoc, isqrt_prod (by ring) (mul_nonneg (by omega) (by omega))]
    congr 2; ring
  · rw [if_neg h1, mul_zero]
    have : ell = -s := by
      rcases abs_cases (s - 1) with ⟨h2, _⟩ | ⟨h2, _⟩ <;> omega
    rw [this]; push_cast; ring

/-- **C36.** `R+ R- f - R- R+ f = 2 Rz f`, including at the boundary `ell = |s|`. -/
theorem C36_Rplus_Rminus (h0 : 0 ≤ f.ell_max) :
    (do let a ← f.Rminus; let a ← a.Rplus; let b ← f.Rplus; let b ← b.Rminus; a.addM b true)
      = (do let a ← f.Rz; a.times 2) := by
  have h := OpRes.refl hf
  obtain ⟨a, a1, a2⟩ := h.Rminus
  obtain ⟨b, b1, b2⟩ := a2.Rplus
  obtain ⟨c, c1, c2⟩ := h.Rplus
  obtain ⟨d, d1, d2⟩ := c2.Rminus
  obtain ⟨e, e1, e2⟩ := (b2.cast (add_sub_cancel_right f.s 1)).addM (d2.cast (sub_add_cancel f.s 1)) h0 true
  obtain ⟨k, k1, k2⟩ := h.Rz
  obtain ⟨t, t1, t2⟩ := k2.scalar h0 (· * ·) 2
  refine same (by rw [a1, bind_ok, b1, bind_ok, c1, bind_ok, d1, bind_ok, e1]) (by rw [k1, bind_ok]; exact t1) e2 t2 ?_
  intro ell m z hs hm _
  have p := R_up_down hs (f.coef ell m z)
  have q := R_down_up hs (f.coef ell m z)
  simp only [if_true]
  rw [p, q]
  push_cast
  ring

/-- **C36.** `½ (R+ R- f + R- R+ f) + Rz Rz f = L² f`; `Rsquared` is the same method as `Lsquared`. -/
theorem C36_Rsquared (h0 : 0 ≤ f.ell_max) :
    (do let a ← f.Rminus; let a ← a.Rplus; let b ← f.Rplus; let b ← b.Rminus; let c ← a.addM b false
        let c ← c.times (1 / 2); let d ← f.Rz; let d ← d.Rz; c.addM d false) = f.Lsquared := by
  have h := OpRes.refl hf
  obtain ⟨a, a1, a2⟩ := h.Rminus
  obtain ⟨b, b1, b2⟩ := a2.Rplus
  obtain ⟨c, c1, c2⟩ := h.Rplus
  obtain ⟨d, d1, d2⟩ := c2.Rminus
  obtain ⟨e, e1, e2⟩ := (b2.cast (add_sub_cancel_right f.s 1)).addM (d2.cast (sub_add_cancel f.s 1)) h0 false
  obtain ⟨t, t1, t2⟩ := e2.scalar h0 (· * ·) (1 / 2)
  obtain ⟨k, k1, k2⟩ := h.Rz
  obtain ⟨l, l1, l2⟩ := k2.Rz
  obtain ⟨r, r1, r2⟩ := t2.addM l2 h0 false
  obtain ⟨w, w1, w2⟩ := h.Lsquared
  have t1' : e.times (1 / 2) = .ok t := t1
  refine same (by rw [a1, bind_ok, b1, bind_ok, c1, bind_ok, d1, bind_ok, e1, bind_ok, t1', bind_ok, k1, bind_ok, l1, bind_ok, r1]) w1 r2 w2 ?_
  intro ell m z hs hm _
  have p := R_up_down hs (f.coef ell m z)
  have q := R_down_up hs (f.coef ell m z)
  simp only [Bool.false_eq_true, if_false]
  rw [p, q]
  push_cast
  ring

/-- **C36.** Every `R` operator commutes with every `L` operator. -/
theorem C36_LR_commute : ∀ l ∈ [Modes.Lsquared, Modes.Lz, Modes.Lplus, Modes.Lminus],
    ∀ r ∈ [Modes.Lsquared, Modes.Rz, Modes.Rplus, Modes.Rminus],
      (do let a ← l f; r a) = (do let a ← r f; l a) := by
  have h := OpRes.refl hf
  obtain ⟨x1, y1, z1⟩ := h.Lsquared
  obtain ⟨x2, y2, z2⟩ := h.Lz
  obtain ⟨x3, y3, z3⟩ := h.Lplus
  obtain ⟨x4, y4, z4⟩ := h.Lminus
  obtain ⟨x5, y5, z5⟩ := h.Rz
  obtain ⟨x6, y6, z6⟩ := h.Rplus
  obtain ⟨x7, y7, z7⟩ := h.Rminus
  intro l hl r hr
  simp only [List.mem_cons, List.not_mem_nil, or_false] at hl hr
  rcases hl with rfl | rfl | rfl | rfl <;> rcases hr with rfl | rfl | rfl | rfl
  · rfl
  · obtain ⟨a, a1, a2⟩ := z1.Rz
    obtain ⟨b, b1, b2⟩ := z5.Lsquared
    refine same (by rw [y1, bind_ok, a1]) (by rw [y5, bind_ok, b1]) a2 b2 ?_
    intros; ring
  · obtain ⟨a, a1, a2⟩ := z1.Rplus
    obtain ⟨b, b1, b2⟩ := z6.Lsquared
    refine same (by rw [y1, bind_ok, a1]) (by rw [y6, bind_ok, b1]) a2 b2 ?_
    intros; split_ifs <;> ring
  · obtain ⟨a, a1, a2⟩ := z1.Rminus
    obtain ⟨b, b1, b2⟩ := z7.Lsquared
    refine same (by rw [y1, bind_ok, a1]) (by rw [y7, bind_ok, b1]) a2 b2 ?_
    intros; split_ifs <;> ring
  · exact (C35_Lsquared_comm f hf _ (by simp))
  · obtain ⟨a, a1, a2⟩ := z2.Rz
    obtain ⟨b, b1, b2⟩ := z5.Lz
    refine same (by rw [y2, bind_ok, a1]) (by rw [y5, bind_ok, b1]) a2 b2 ?_
    intros; ring
  · obtain ⟨a, a1, a2⟩ := z2.Rplus
    obtain ⟨b, b1, b2⟩ := z6.Lz
    refine same (by rw [y2, bind_ok, a1]) (by rw [y6, bind_ok, b1]) a2 b2 ?_
    intros; split_ifs <;> ring
  · obtain ⟨a, a1, a2⟩ := z2.Rminus
    obtain ⟨b, b1, b2⟩ := z7.Lz
    refine same (by rw [y2, bind_ok, a1]) (by rw [y7, bind_ok, b1]) a2 b2 ?_
    intros; split_ifs <;> ring
  · exact (C35_Lsquared_comm f hf _ (by simp))
  · obtain ⟨a, a1, a2⟩ := z3.Rz
    obtain ⟨b, b1, b2⟩ := z5.Lplus
    refine same (by rw [y3, bind_ok, a1]) (by rw [y5, bind_ok, b1]) a2 b2 ?_
    intros; split_ifs <;> ring
  · obtain ⟨a, a1, a2⟩ := z3.Rplus
    obtain ⟨b, b1, b2⟩ := z6.Lplus
    refine same (by rw [y3, bind_ok, a1]) (by rw [y6, bind_ok, b1]) a2 b2 ?_
    intros; split_ifs <;> ring
  · obtain ⟨a, a1, a2⟩ := z3.Rminus
    obtain ⟨b, b1, b2⟩ := z7.Lplus
    refine same (by rw [y3, bind_ok, a1]) (by rw [y7, bind_ok, b1]) a2 b2 ?_
    intros; split_ifs <;> ring
  · exact (C35_Lsquared_comm f hf _ (by simp))
  · obtain ⟨a, a1, a2⟩ := z4.Rz
    obtain ⟨b, b1, b2⟩ := z5.Lminus
    refine same (by rw [y4, bind_ok, a1]) (by rw [y5, bind_ok, b1]) a2 b2 ?_
    intros; split_ifs <;> ring
  · obtain ⟨a, a1, a2⟩ := z4.Rplus
    obtain ⟨b, b1, b2⟩ := z6.Lminus
    refine same (by rw [y4, bind_ok, a1]) (by rw [y6, bind_ok, b1]) a2 b2 ?_
    intros; split_ifs <;> ring
  · obtain ⟨a, a1, a2⟩ := z4.Rminus
    obtain ⟨b, b1, b2⟩ := z7.Lminus
    refine same (by rw [y4, bind_ok, a1]) (by rw [y7, bind_ok, b1]) a2 b2 ?_
    intros; split_ifs <;> ring

/-! ## C37 -/

/-- **C37.** `eth` raises and `ethbar` lowers the spin weight by one; the modes of `ethbar eth f` are
`-(ell-s)(ell+s+1)` times those of `f`. -/
theorem C37_ethbar_eth : ∃ a b c, f.eth = .ok a ∧ a.s = f.s + 1 ∧ f.ethbar = .ok b ∧ b.s = f.s - 1 ∧
    a.ethbar = .ok c ∧ c.s = f.s ∧ ∀ ell m, |f.s| ≤ ell → |m| ≤ ell → ell ≤ f.ell_max → ∀ idx,
      c.coef ell m idx = -((ell - f.s) * (ell + f.s + 1)) * f.coef ell m idx := by
  have h := OpRes.refl hf
  obtain ⟨a, a1, a2⟩ := h.eth
  obtain ⟨b, b1, b2⟩ := h.ethbar
  obtain ⟨c, c1, c2⟩ := a2.ethbar
  refine ⟨a, b, c, a1, a2.hs, b1, b2.hs, c1, by rw [c2.hs]; ring, ?_⟩
  intro ell m h1 h2 h3 idx
  have p := R_up_down h1 (f.coef ell m idx)
  rw [c2.coef ell m (by simpa using h1) h2 h3]
  simp only
  rw [p]
  push_cast
  ring

/-- **C37.** `ethbar eth f - eth ethbar f = 2 s f`. -/
theorem C37_commutator (h0 : 0 ≤ f.ell_max) :
    (do let a ← f.eth; let a ← a.ethbar; let b ← f.ethbar; let b ← b.eth; a.addM b true) = f.times (2 * f.s) := by
  have h := OpRes.refl hf
  obtain ⟨a, a1, a2⟩ := h.eth
  obtain ⟨b, b1, b2⟩ := a2.ethbar
  obtain ⟨c, c1, c2⟩ := h.ethbar
  obtain ⟨d, d1, d2⟩ := c2.eth
  obtain ⟨e, e1, e2⟩ := (b2.cast (add_sub_cancel_right f.s 1)).addM (d2.cast (sub_add_cancel f.s 1)) h0 true
  obtain ⟨t, t1, t2⟩ := h.scalar h0 (· * ·) (2 * f.s)
  refine same (by rw [a1, bind_ok, b1, bind_ok, c1, bind_ok, d1, bind_ok, e1]) t1 e2 t2 ?_
  intro ell m z hs hm _
  have p := R_up_down hs (f.coef ell m z)
  have q := R_down_up hs (f.coef ell m z)
  simp only [if_true]
  have q' : (isqrtC ((ell + (f.s - 1 + 1)) * (ell - (f.s - 1 + 1) + 1)) * if |f.s - 1| ≤ ell then
      -(isqrtC ((ell - (f.s - 1)) * (ell + (f.s - 1) + 1)) * (if |f.s| ≤ ell then f.coef ell m z else 0)) else 0)
      = -((((ell + f.s) * (ell - f.s + 1) : ℤ) : ℂ) * f.coef ell m z) := by
    rw [← q]
    by_cases h1 : |f.s - 1| ≤ ell
    · rw [if_pos h1, if_pos h1]; ring
    · rw [if_neg h1, if_neg h1]; ring
  rw [p, q']
  push_cast
  ring

/-- **C37.** `conj(eth f) = ethbar(conj f)`. -/
theorem C37_conjugate (b b' : Bool) :
    (do let a ← f.eth; a.conjugate b) = (do let a ← f.conjugate b'; a.ethbar) := by
  have h := OpRes.refl hf
  obtain ⟨a, a1, a2⟩ := h.eth
  obtain ⟨c, c1, c2⟩ := a2.conjugate b
  obtain ⟨d, d1, d2⟩ := h.conjugate b'
  obtain ⟨e, e1, e2⟩ := d2.ethbar
  have hs : -f.s - 1 = -(f.s + 1) := by ring
  rw [hs] at e2
  refine same (by rw [a1, bind_ok, c1]) (by rw [d1, bind_ok, e1]) c2 e2 ?_
  intro ell m z _ _ _
  rw [abs_neg, map_mul, isqrtC_congr (show (ell - -(f.s + 1)) * (ell + -(f.s + 1) + 1) = (ell + (f.s + 1)) * (ell - (f.s + 1) + 1) by ring)]
  have : conj (isqrtC ((ell + (f.s + 1)) * (ell - (f.s + 1) + 1))) = isqrtC ((ell + (f.s + 1)) * (ell - (f.s + 1) + 1)) := by
    unfold isqrtC; exact Complex.conj_ofReal _
  rw [this, show f.s + 1 + m = f.s + m + 1 by ring, zpow_add₀ (by norm_num), zpow_one]
  split_ifs
  · ring
  · simp

omit hf in
/-- Non-vacuity of C35–C37: the sample object meets the hypotheses, and `L+` and `eth` of it are nonzero. -/
example : exModes.WF ∧ 0 ≤ exModes.ell_max ∧
    ∃ g, exModes.eth = .ok g ∧ g.coef 2 (-1) [0] = isqrtC (2 * 3) * (5 * Complex.I) := by
  refine ⟨exModes_WF, by decide, ?_⟩
  obtain ⟨g, g1, g2⟩ := (OpRes.refl exModes_WF).eth
  refine ⟨g, g1, ?_⟩
  rw [g2.coef 2 (-1) (by decide) (by decide) (by decide)]
  simp only
  have h1 : exModes.s = -1 := rfl
  have h2 : exModes.coef 2 (-1) [0] = 5 * Complex.I := by
    have : mpos 2 (-1) = 5 := by unfold mpos; norm_num [LM_index]; rfl
    unfold Modes.coef
    rw [this]
    simp [exModes]
    norm_num
  rw [h1, if_pos (by decide), h2]
  norm_num

end SF
