import Verif.Lemmas.W3FloatNorm

/-!
# The normalisation of a row of 3-j symbols in floating-point arithmetic
-/

set_option autoImplicit false

namespace SF

open Spec Finset

/-- `Σ (2j+1) f[j]²` over the positions `a..b`. -/
noncomputable def rowNorm (f : List ℝ) (a b : ℤ) : ℝ := ∑ j ∈ Icc a b, (2 * (j : ℝ) + 1) * f.getD j.toNat 0 ^ 2

section
variable {u : ℝ} (hu0 : 0 ≤ u) (hu1 : u < 1)

theorem Near.add_nonneg {k : ℕ} {a b P Q : ℝ} (h : Near u k a P) (g : Near u k b Q) (hP : 0 ≤ P) (hQ : 0 ≤ Q) : Near u k (a + b) (P + Q) := by
  obtain ⟨θ, rfl, f1, f2⟩ := h
  obtain ⟨η, rfl, g1, g2⟩ := g
  rcases eq_or_lt_of_le (_root_.add_nonneg hP hQ) with h0 | h0
  · obtain rfl : P = 0 := by linarith
    obtain rfl : Q = 0 := by linarith
    exact ⟨θ, by ring, f1, f2⟩
  · refine ⟨(P * θ + Q * η) / (P + Q), by field_simp, ?_, ?_⟩
    · rw [le_div_iff₀ h0]
      nlinarith [mul_le_mul_of_nonneg_left f1 hP, mul_le_mul_of_nonneg_left g1 hQ]
    · rw [div_mul_eq_mul_div, div_le_one h0]
      nlinarith [mul_le_mul_of_nonneg_left f2 hP, mul_le_mul_of_nonneg_left g2 hQ]

theorem near_refl (x : ℝ) : Near u 0 x x := ⟨1, by simp, by simp, by simp⟩

include hu0 hu1

theorem near_zero (k : ℕ) : Near u k 0 0 :=
  ⟨1, by ring, pow_le_one₀ (by linarith) (by linarith), by rw [one_mul]; exact pow_le_one₀ (by linarith) (by linarith)⟩

theorem Near.sum {k : ℕ} {ι : Type} (s : Finset ι) {g f : ι → ℝ} (h : ∀ i ∈ s, Near u k (g i) (f i)) (hf : ∀ i ∈ s, 0 ≤ f i) :
    Near u k (∑ i ∈ s, g i) (∑ i ∈ s, f i) := by
  classical
  induction s using Finset.induction_on with
  | empty => simpa using near_zero hu0 hu1 k
  | insert i s hi ih =>
    rw [sum_insert hi, sum_insert hi]
    exact Near.add_nonneg (h i (by simp)) (ih (fun j hj => h j (by simp [hj])) fun j hj => hf j (by simp [hj])) (hf i (by simp))
      (sum_nonneg fun j hj => hf j (by simp [hj]))

theorem Near.sqrt {k : ℕ} {x' x : ℝ} (h : Near u k x' x) : Near u k (Real.sqrt x') (Real.sqrt x) := by
  obtain ⟨θ, rfl, f1, f2⟩ := h
  have p : 0 < (1 - u) ^ k := pow_pos (by linarith) k
  have p1 : (1 - u) ^ k ≤ 1 := pow_le_one₀ (by linarith) (by linarith)
  have hθ : 0 < θ := lt_of_lt_of_le p f1
  refine ⟨Real.sqrt θ, by rw [Real.sqrt_mul' _ hθ.le], ?_, ?_⟩
  · apply Real.le_sqrt_of_sq_le
    nlinarith
  · have : Real.sqrt θ * (1 - u) ^ k = Real.sqrt (θ * ((1 - u) ^ k) ^ 2) := by
      rw [Real.sqrt_mul hθ.le, Real.sqrt_sq p.le]
    rw [this, Real.sqrt_le_one]
    nlinarith

end

section
variable {G : W3Ops} {u : ℝ} (hG : G.Std u)
include hG

theorem W3Ops.Std.near_add {k : ℕ} {x y z : ℝ} (h : Near u k (x + y) z) : Near u (k + 1) (G.add x y) z :=
  Near.trans hG.u_nonneg hG.u_lt_one (RelErr.fac hG.u_nonneg hG.u_lt_one (hG.add x y)) h

theorem W3Ops.Std.near_mul {k l : ℕ} {x' x y' y : ℝ} (h : Near u k x' x) (g : Near u l y' y) : Near u (k + l + 1) (G.mul x' y') (x * y) :=
  Near.trans hG.u_nonneg hG.u_lt_one (RelErr.fac hG.u_nonneg hG.u_lt_one (hG.mul x' y')) (Near.mul hG.u_nonneg hG.u_lt_one h g)

theorem W3Ops.Std.near_div {k l : ℕ} {x' x y' y : ℝ} (h : Near u k x' x) (g : Near u l y' y) (hy : y' ≠ 0) :
    Near u (k + l + 1) (G.div x' y') (x / y) :=
  Near.trans hG.u_nonneg hG.u_lt_one (RelErr.fac hG.u_nonneg hG.u_lt_one (hG.div x' y' hy)) (Near.div hG.u_nonneg hG.u_lt_one h g)

theorem W3Ops.Std.near_sqrt {k : ℕ} {x' x : ℝ} (h : Near u k x' x) (hx : 0 ≤ x') : Near u (k + 1) (G.sqrt x') (Real.sqrt x) :=
  Near.trans hG.u_nonneg hG.u_lt_one (RelErr.fac hG.u_nonneg hG.u_lt_one (hG.sqrt x' hx)) (Near.sqrt hG.u_nonneg hG.u_lt_one h)

variable {n : ℕ} {a b : ℤ} {f : List ℝ}

theorem normLoop (h0 : 0 ≤ a) (hn : b < n) (hf : f.length = n) : ∀ (N : ℕ) (j : ℤ) (s : ℝ), (b + 1 - j).toNat = N → a ≤ j → j ≤ b + 1 →
    Near u ((j - a).toNat + 2) s (∑ i ∈ Ico a j, (2 * (i : ℝ) + 1) * f.getD i.toNat 0 ^ 2) →
    ∃ t, forL (pyRange j (b + 1)) s (fun j norm => do
      let v ← rd f j
      return G.add norm (G.mul ((2 * j + 1 : ℤ) : ℝ) (G.mul v v))) = .ok t ∧ Near u ((b + 1 - a).toNat + 2) t (rowNorm f a b) := by
  have hu0 := hG.u_nonneg
  have hu1 := hG.u_lt_one
  intro N
  induction N with
  | zero =>
    intro j s hN h1 h2 hs
    have : j = b + 1 := by omega
    subst this
    rw [pyRange_empty (le_refl _)]
    refine ⟨s, rfl, ?_⟩
    have e : Ico a (b + 1) = Icc a b := by ext x; simp
    rw [e] at hs
    exact hs
  | succ N ih =>
    intro j s hN h1 h2 hs
    rw [pyRange_cons (by omega), forL_cons, rd_val hf (by omega) (by omega)]
    refine ih (j + 1) _ (by omega) (by omega) (by omega) ?_
    have e : Ico a (j + 1) = insert j (Ico a j) := by ext x; simp only [mem_Ico, mem_insert]; omega
    rw [e, sum_insert (by simp), show (2 * (j : ℝ) + 1) * f.getD j.toNat 0 ^ 2 + ∑ i ∈ Ico a j, (2 * (i : ℝ) + 1) * f.getD i.toNat 0 ^ 2
      = (∑ i ∈ Ico a j, (2 * (i : ℝ) + 1) * f.getD i.toNat 0 ^ 2) + (2 * (j : ℝ) + 1) * f.getD j.toNat 0 ^ 2 from add_comm _ _]
    have ht : Near u ((j - a).toNat + 2) (G.mul ((2 * j + 1 : ℤ) : ℝ) (G.mul (f.getD j.toNat 0) (f.getD j.toNat 0)))
        ((2 * (j : ℝ) + 1) * f.getD j.toNat 0 ^ 2) := by
      have := hG.near_mul (near_refl (u := u) ((2 * j + 1 : ℤ) : ℝ))
        (hG.near_mul (near_refl (u := u) (f.getD j.toNat 0)) (near_refl (f.getD j.toNat 0)))
      push_cast at this ⊢
      rw [sq]
      exact this.mono hu0 hu1 (by omega)
    have hj : (0 : ℝ) ≤ j := by exact_mod_cast (by omega : 0 ≤ j)
    have hsum : 0 ≤ ∑ i ∈ Ico a j, (2 * (i : ℝ) + 1) * f.getD i.toNat 0 ^ 2 := by
      refine sum_nonneg fun i hi => ?_
      have : (0 : ℝ) ≤ i := by exact_mod_cast (by rw [mem_Ico] at hi; omega : 0 ≤ i)
      positivity
    have := hG.near_add (Near.add_nonneg hs ht hsum (by positivity))
    rw [show (j + 1 - a).toNat + 2 = (j - a).toNat + 2 + 1 by omega]
    exact this

omit hG in
theorem rowNorm_pos (h0 : 0 ≤ a) {i : ℤ} (h1 : a ≤ i) (h2 : i ≤ b) (h : NZ f i) : 0 < rowNorm f a b := by
  unfold rowNorm
  refine lt_of_lt_of_le ?_ (single_le_sum (f := fun j : ℤ => (2 * (j : ℝ) + 1) * f.getD j.toNat 0 ^ 2) (fun j hj => ?_) (mem_Icc.2 ⟨h1, h2⟩))
  · have : (0 : ℝ) ≤ i := by exact_mod_cast (by omega : 0 ≤ i)
    have := sq_pos_of_ne_zero h
    positivity
  · have : (0 : ℝ) ≤ j := by exact_mod_cast (by rw [mem_Icc] at hj; omega : 0 ≤ j)
    positivity

/-- The two final steps: the entries are divided by (about) the norm, up to a common sign, which makes the last entry have the sign that
is asked for; the sum of the `(2j+1) f[j]²` is then close to 1. -/
theorem finishF_spec (h0 : 0 ≤ a) (hn : b < n) (hf : f.length = n) (j2 j3 m2 m3 : ℤ) {i : ℤ} (h1 : a ≤ i) (h2 : i ≤ b) (hi : NZ f i) :
    ∃ g, (do let f ← w3normalizeF G f a b; w3signs f a b j2 j3 m2 m3 : Py (List ℝ)) = .ok g ∧ g.length = n ∧
      (∃ σ : ℝ, (σ = 1 ∨ σ = -1) ∧ ∀ j, a ≤ j → j ≤ b →
        Near u ((b + 1 - a).toNat + 4) (g.getD j.toNat 0) (σ * (f.getD j.toNat 0 / Real.sqrt (rowNorm f a b)))) ∧
      Near u ((b + 1 - a).toNat + 6) (rowNorm g a b) 1 ∧ 0 ≤ ((negOnePow (j2 - j3 + m2 + m3) : ℤ) : ℝ) * g.getD b.toNat 0 := by
  have hu0 := hG.u_nonneg
  have hu1 := hG.u_lt_one
  obtain ⟨t, et, ht⟩ := normLoop hG h0 hn hf _ a 0 rfl (le_refl _) (by omega)
    (by rw [Ico_self, sum_empty]; exact near_zero hu0 hu1 _)
  have hpos : 0 < rowNorm f a b := rowNorm_pos h0 h1 h2 hi
  have htp : 0 < t := ht.pos hu0 hu1 hpos
  have hs := hG.near_sqrt (near_refl (u := u) t) htp.le
  have hsp : 0 < G.sqrt t := hs.pos hu0 hu1 (Real.sqrt_pos.2 htp)
  have e1 : w3normalizeF G f a b = .ok (mapSlice f a (b + 1) (fun v => G.div v (G.sqrt t))) := by
    unfold w3normalizeF
    rw [et]
    simp only [bind, Except.bind, arrayDivisor]
    rw [if_neg hsp.ne']
    rfl
  set g := mapSlice f a (b + 1) (fun v => G.div v (G.sqrt t)) with hg
  have hgl : g.length = n := by rw [hg, mapSlice_length, hf]
  have hgj : ∀ j, a ≤ j → j ≤ b → g.getD j.toNat 0 = G.div (f.getD j.toNat 0) (G.sqrt t) := by
    intro j k1 k2
    rw [hg, getD_mapSlice (by omega), if_pos (by omega)]
  have hn1 : ∀ j, a ≤ j → j ≤ b → Near u 2 (g.getD j.toNat 0) (f.getD j.toNat 0 / Real.sqrt t) := by
    intro j k1 k2
    rw [hgj j k1 k2]
    exact (hG.near_div (near_refl (u := u) (f.getD j.toNat 0)) hs hsp.ne').mono hu0 hu1 (by omega)
  have hn2 : ∀ j, a ≤ j → j ≤ b → Near u ((b + 1 - a).toNat + 4) (g.getD j.toNat 0) (f.getD j.toNat 0 / Real.sqrt (rowNorm f a b)) := by
    intro j k1 k2
    refine (Near.trans hu0 hu1 (hn1 j k1 k2) (Near.div hu0 hu1 (near_refl (f.getD j.toNat 0)) (Near.sqrt hu0 hu1 ht))).mono hu0 hu1 (by omega)
  have hsum : Near u ((b + 1 - a).toNat + 6) (rowNorm g a b) 1 := by
    have s1 : Near u 4 (rowNorm g a b) (∑ j ∈ Icc a b, (2 * (j : ℝ) + 1) * (f.getD j.toNat 0 ^ 2 / t)) := by
      refine Near.sum hu0 hu1 _ (fun j hj => ?_) (fun j hj => ?_)
      · rw [mem_Icc] at hj
        have := (hn1 j hj.1 hj.2).pow hu0 hu1 2
        rw [div_pow, Real.sq_sqrt htp.le] at this
        exact (Near.mul hu0 hu1 (near_refl (2 * (j : ℝ) + 1)) this).mono hu0 hu1 (by omega)
      · have : (0 : ℝ) ≤ j := by exact_mod_cast (by rw [mem_Icc] at hj; omega : 0 ≤ j)
        positivity
    have s2 : ∑ j ∈ Icc a b, (2 * (j : ℝ) + 1) * (f.getD j.toNat 0 ^ 2 / t) = rowNorm f a b / t := by
      unfold rowNorm
      rw [div_eq_mul_inv, sum_mul]
      exact sum_congr rfl fun j _ => by ring
    rw [s2] at s1
    have s3 := Near.div hu0 hu1 (near_refl (u := u) (rowNorm f a b)) ht
    rw [div_self hpos.ne'] at s3
    exact (Near.trans hu0 hu1 s1 s3).mono hu0 hu1 (by omega)
  rw [e1]
  simp only [bind, Except.bind]
  unfold w3signs
  rw [rd_val hgl (by omega) (by omega)]
  simp only [bind, Except.bind]
  have hσ : negOnePow (j2 - j3 + m2 + m3) = 1 ∨ negOnePow (j2 - j3 + m2 + m3) = -1 := by
    unfold negOnePow; split <;> simp
  split
  · rename_i hc
    refine ⟨_, rfl, by rw [mapSlice_length, hgl], ⟨-1, Or.inr rfl, fun j k1 k2 => ?_⟩, ?_, ?_⟩
    · rw [getD_mapSlice (by omega), if_pos (by omega)]
      have := (hn2 j k1 k2).neg hu0 hu1
      rw [mul_neg, mul_one, neg_mul, one_mul]
      exact this
    · convert hsum using 1
      unfold rowNorm
      refine sum_congr rfl fun j hj => ?_
      rw [mem_Icc] at hj
      rw [getD_mapSlice (by omega), if_pos (by omega)]
      ring
    · rw [getD_mapSlice (by omega), if_pos (by omega)]
      rcases hσ with h | h <;> rw [h] at hc ⊢ <;> push_cast
      · have : g.getD b.toNat 0 < 0 := by
          rcases hc with hc | hc
          · exact hc.1
          · exact absurd hc.2 (by norm_num)
        linarith
      · have : 0 < g.getD b.toNat 0 := by
          rcases hc with hc | hc
          · exact absurd hc.2 (by norm_num)
          · exact hc.1
        linarith
  · rename_i hc
    refine ⟨g, rfl, hgl, ⟨1, Or.inl rfl, fun j k1 k2 => ?_⟩, hsum, ?_⟩
    · rw [one_mul]; exact hn2 j k1 k2
    · rcases hσ with h | h <;> rw [h] at hc ⊢ <;> push_cast
      · by_contra hlt
        exact hc (Or.inl ⟨by linarith, by norm_num⟩)
      · by_contra hlt
        exact hc (Or.inr ⟨by linarith, by norm_num⟩)

end

/-! ### The coefficients -/

section
variable {G : W3Ops} {u : ℝ} (hG : G.Std u) {j2 j3 m2 m3 : ℤ}
include hG

theorem w3AF_near (h2 : |m2| ≤ j2) (h3 : |m3| ≤ j3) (hfit : W3Fits j2 j3 m2 m3) {j : ℤ}
    (hj : max |j2 - j3| |m2 + m3| ≤ j) (hj' : j ≤ j2 + j3 + 1) :
    Near u 2 (w3AF G j j2 j3 (-(m2 + m3))) (w3A j j2 j3 (-(m2 + m3))) := by
  have h2' := abs_le.1 h2
  have h3' := abs_le.1 h3
  have hs := hfit.size
  have hj0 : 0 ≤ j := (abs_nonneg _).trans ((le_max_left _ _).trans hj)
  have hm : |m2 + m3| ≤ j := (le_max_right _ _).trans hj
  have hp : |j2 - j3| ≤ j := (le_max_left _ _).trans hj
  have c1 : 0 ≤ j ^ 2 - (j2 - j3) ^ 2 := by
    rw [sub_nonneg]; exact sq_le_sq' (by rw [abs_le] at hp; omega) ((le_abs_self _).trans hp)
  have c2 : 0 ≤ j ^ 2 - (-(m2 + m3)) ^ 2 := by
    rw [neg_sq, sub_nonneg]; exact sq_le_sq' (by rw [abs_le] at hm; omega) ((le_abs_self _).trans hm)
  have c3 : 0 ≤ (j2 + j3 + 1) ^ 2 - j ^ 2 := by rw [sub_nonneg]; exact pow_le_pow_left₀ hj0 hj' 2
  unfold w3AF w3A
  simp only
  rw [i32_id (abs_lt.2 (by omega) : |j| < 2 ^ 31), i32_id (abs_lt.2 (by omega) : |j2| < 2 ^ 31),
    i32_id (abs_lt.2 (by omega) : |j3| < 2 ^ 31), i32_id (abs_lt.2 (by omega) : |-(m2 + m3)| < 2 ^ 31),
    i64_id (mul_nonneg (mul_nonneg c1 c3) c2) (by have := hfit.rad j hj hj'; rwa [neg_sq])]
  have hN : (0 : ℝ) ≤ (((j ^ 2 - (j2 - j3) ^ 2) * ((j2 + j3 + 1) ^ 2 - j ^ 2) * (j ^ 2 - (-(m2 + m3)) ^ 2) : ℤ) : ℝ) := by
    exact_mod_cast mul_nonneg (mul_nonneg c1 c3) c2
  generalize ((j ^ 2 - (j2 - j3) ^ 2) * ((j2 + j3 + 1) ^ 2 - j ^ 2) * (j ^ 2 - (-(m2 + m3)) ^ 2) : ℤ) = N at hN
  have h := RelErr.fac hG.u_nonneg hG.u_lt_one (hG.ofInt N)
  refine hG.near_sqrt h ?_
  rcases eq_or_lt_of_le hN with e | e
  · rw [← e] at h
    obtain ⟨θ, h', _⟩ := h
    rw [h', zero_mul]
  · exact (h.pos hG.u_nonneg hG.u_lt_one e).le

theorem w3XF_near (h2 : |m2| ≤ j2) (h3 : |m3| ≤ j3) (hfit : W3Fits j2 j3 m2 m3) {j : ℤ}
    (hj : max |j2 - j3| |m2 + m3| ≤ j) (hj' : j ≤ j2 + j3) :
    Near u 3 (w3XF G j j2 j3 (-(m2 + m3))) (w3X j j2 j3 (-(m2 + m3))) := by
  unfold w3XF w3X
  have hj0 : 0 ≤ j := (abs_nonneg _).trans ((le_max_left _ _).trans hj)
  have hs := hfit.size
  have e : i32 j = j := i32_id (abs_lt.2 (by omega))
  rw [e]
  exact (hG.near_mul (near_refl (u := u) (j : ℝ)) (w3AF_near hG h2 h3 hfit (j := j + 1) (by omega) (by omega))).mono hG.u_nonneg hG.u_lt_one (by omega)

theorem w3ZF_near (h2 : |m2| ≤ j2) (h3 : |m3| ≤ j3) (hfit : W3Fits j2 j3 m2 m3) {j : ℤ}
    (hj : max |j2 - j3| |m2 + m3| ≤ j) (hj' : j ≤ j2 + j3) :
    Near u 3 (w3ZF G j j2 j3 (-(m2 + m3))) (w3Z j j2 j3 (-(m2 + m3))) := by
  unfold w3ZF w3Z
  have hj0 : 0 ≤ j := (abs_nonneg _).trans ((le_max_left _ _).trans hj)
  have hs := hfit.size
  exact (hG.near_mul (near_refl (u := u) ((i32 j + 1 : ℤ) : ℝ)) (w3AF_near hG h2 h3 hfit hj (by omega))).mono hG.u_nonneg hG.u_lt_one (by omega)

/-- Whatever the rounding errors, the row that is returned is normalised and has the documented sign. -/
theorem w3runF_norm {w : W3Work} {n : ℕ} (hn : j2 + j3 < n) (hf : w.f.length = n) (hsf : w.sf.length = n)
    (hFm : w.F_minus.length = n) (hFp : w.F_plus.length = n) (h2 : |m2| ≤ j2) (h3 : |m3| ≤ j3) (hfit : W3Fits j2 j3 m2 m3) :
    SafeZ (w3runF G w j2 j3 m2 m3) fun w' =>
      Near u ((j2 + j3 + 1 - max |j2 - j3| |m2 + m3|).toNat + 6) (rowNorm w'.f (max |j2 - j3| |m2 + m3|) (j2 + j3)) 1 ∧
      0 ≤ ((negOnePow (j2 - j3 + m2 + m3) : ℤ) : ℝ) * w'.f.getD (j2 + j3).toNat 0 := by
  have hu0 := hG.u_nonneg
  have hu1 := hG.u_lt_one
  have ha0 : 0 ≤ max |j2 - j3| |m2 + m3| := (abs_nonneg _).trans (le_max_left _ _)
  have hab0 : max |j2 - j3| |m2 + m3| ≤ j2 + j3 := by
    rw [abs_le] at h2 h3
    exact max_le (abs_le.2 (by omega)) (abs_le.2 (by omega))
  unfold w3runF
  dsimp only
  have hX : ∀ j, max |j2 - j3| |m2 + m3| ≤ j → 0 < j → j < j2 + j3 → w3XF G j j2 j3 (-(m2 + m3)) ≠ 0 := fun j a p b =>
    (w3XF_near hG h2 h3 hfit a b.le).ne_zero hu0 hu1 ((tri_row h2 h3 hfit (by omega)).Xpos j a p b).ne'
  have hZ : ∀ j, max |j2 - j3| |m2 + m3| < j → j ≤ j2 + j3 → w3ZF G j j2 j3 (-(m2 + m3)) ≠ 0 := fun j a b =>
    (w3ZF_near hG h2 h3 hfit a.le b).ne_zero hu0 hu1 ((tri_row h2 h3 hfit (by omega)).Zpos j a b).ne'
  have hXa : max |j2 - j3| |m2 + m3| = 0 → w3XF G (max |j2 - j3| |m2 + m3|) j2 j3 (-(m2 + m3)) = 0 := by
    intro h
    rw [h]
    unfold w3XF
    rw [i32_id (by norm_num), Int.cast_zero, hG.zero_mul]
  have hYa : max |j2 - j3| |m2 + m3| = 0 → ((w3B (max |j2 - j3| |m2 + m3|) j2 j3 m2 m3 : ℤ) : ℝ) = 0 := by
    intro h
    rw [w3B_eq h2 h3 hfit (le_refl _) hab0, h]
    have : m2 + m3 = 0 := by
      have := le_max_right |j2 - j3| |m2 + m3|
      rw [h] at this
      exact abs_eq_zero.1 (le_antisymm this (abs_nonneg _))
    rw [this]; simp
  rw [if_neg (by omega), if_neg (by omega)]
  generalize max |j2 - j3| |m2 + m3| = a at *
  split
  · rename_i hab
    have hp : (0 : ℝ) < ((2 * a + 1 : ℤ) : ℝ) := by exact_mod_cast (by omega : 0 < 2 * a + 1)
    have hs := hG.near_sqrt (near_refl (u := u) ((2 * a + 1 : ℤ) : ℝ)) hp.le
    have hsp := hs.pos hu0 hu1 (Real.sqrt_pos.2 hp)
    have hv := hG.near_div (near_refl (u := u) 1) hs hsp.ne'
    have hvp := hv.pos hu0 hu1 (by positivity)
    unfold fDiv
    rw [if_neg hsp.ne']
    simp only [bind, Except.bind]
    rw [wr_ok ha0 (by omega)]
    simp only
    rw [rd_val (n := n) (by simp [hf]) ha0 (by omega)]
    simp only
    have e : (w.f.set a.toNat (G.div 1 (G.sqrt ((2 * a + 1 : ℤ) : ℝ)))).getD a.toNat 0 = G.div 1 (G.sqrt ((2 * a + 1 : ℤ) : ℝ)) := by
      rw [List.getD_eq_getElem?_getD, List.getElem?_set_self (by omega)]; rfl
    have N2 : Near u 4 ((2 * (a : ℝ) + 1) * G.div 1 (G.sqrt ((2 * a + 1 : ℤ) : ℝ)) ^ 2) 1 := by
      have := Near.mul hu0 hu1 (near_refl (u := u) (2 * (a : ℝ) + 1)) (hv.pow hu0 hu1 2)
      have e : (2 * (a : ℝ) + 1) * (1 / Real.sqrt ((2 * a + 1 : ℤ) : ℝ)) ^ 2 = 1 := by
        rw [div_pow, Real.sq_sqrt hp.le]
        push_cast at hp ⊢
        field_simp
      rw [e] at this
      exact this.mono hu0 hu1 (by omega)
    rw [e]
    have hσ : negOnePow (j2 - j3 + m2 + m3) = 1 ∨ negOnePow (j2 - j3 + m2 + m3) = -1 := by
      unfold negOnePow; split <;> simp
    split
    · rename_i hc
      rw [wr_ok ha0 (by simp; omega)]
      refine SafeZ.pure ?_
      dsimp only
      have e' : ((w.f.set a.toNat (G.div 1 (G.sqrt ((2 * a + 1 : ℤ) : ℝ)))).set a.toNat (G.div 1 (G.sqrt ((2 * a + 1 : ℤ) : ℝ)) * -1)).getD a.toNat 0
          = G.div 1 (G.sqrt ((2 * a + 1 : ℤ) : ℝ)) * -1 := by
        rw [List.getD_eq_getElem?_getD, List.getElem?_set_self (by simp; omega)]; rfl
      constructor
      · rw [hab]; unfold rowNorm
        rw [Icc_self, sum_singleton, e']
        rw [mul_pow, show (-1 : ℝ) ^ 2 = 1 by norm_num, mul_one]
        exact N2.mono hu0 hu1 (by omega)
      · rw [hab, e']
        rcases hσ with h | h <;> rw [h] at hc ⊢ <;> push_cast
        · rcases hc with hc | hc
          · linarith [hc.1]
          · exact absurd hc.2 (by norm_num)
        · push_cast at hvp; linarith
    · rename_i hc
      refine SafeZ.pure ?_
      dsimp only
      constructor
      · rw [hab]; unfold rowNorm
        rw [Icc_self, sum_singleton, e]
        exact N2.mono hu0 hu1 (by omega)
      · rw [hab, e]
        rcases hσ with h | h <;> rw [h] at hc ⊢ <;> push_cast
        · push_cast at hvp; linarith
        · exact absurd (Or.inr ⟨hvp, by norm_num⟩) hc
  have hab : a < j2 + j3 := by omega
  have hX' : ∀ j, a < j → j < j2 + j3 → w3XF G j j2 j3 (-(m2 + m3)) ≠ 0 := fun j p q => hX j p.le (by omega) q
  have K : ∀ (f rf1 Fm2 Fp2 : List ℝ) (i : ℤ), f.length = n → a ≤ i → i ≤ j2 + j3 → NZ f i → SafeZ (do
      let f ← w3normalizeF G f a (j2 + j3)
      let f ← w3signs f a (j2 + j3) j2 j3 m2 m3
      return (⟨f, rf1, Fm2, Fp2⟩ : W3Work)) fun w' =>
      Near u ((j2 + j3 + 1 - a).toNat + 6) (rowNorm w'.f a (j2 + j3)) 1 ∧
      0 ≤ ((negOnePow (j2 - j3 + m2 + m3) : ℤ) : ℝ) * w'.f.getD (j2 + j3).toNat 0 := by
    intro f rf1 Fm2 Fp2 i hl k1 k2 hi
    obtain ⟨g, e, _, _, e1, e2⟩ := finishF_spec hG ha0 hn hl j2 j3 m2 m3 k1 k2 hi
    refine Or.inl ⟨⟨g, rf1, Fm2, Fp2⟩, ?_, e1, e2⟩
    simp only [bind, Except.bind] at e ⊢
    cases h : w3normalizeF G f a (j2 + j3) with
    | error _ => rw [h] at e; cases e
    | ok f1 => rw [h] at e; simp only at e ⊢; rw [e]; rfl
  refine (fwdPhaseF_nz hG ha0 hab hn hX' hXa hYa hsf hFm).bind fun r hr => ?_
  obtain ⟨sf1, Fm1, jm, um⟩ := r
  dsimp only at hr ⊢
  obtain ⟨e1, e2, e3, e4, e5, e6, e7⟩ := hr
  split
  · rename_i hjm
    by_cases hum : um = false
    · have := e6 hum
      exact K _ _ _ _ a (by rw [copySlice_length, hf]) (le_refl _) hab.le
        (NZ.copy ha0 (by omega) (le_refl _) (by omega) (this.2.1 a (le_refl _) (by omega)))
    · have := e7 (by simpa using hum)
      omega
  rename_i hjm
  refine (revPhaseF_nz hG ha0 hab hn hZ e3 (by omega) e1 hFp e5).bind fun r hr => ?_
  obtain ⟨rf1, Fp1, jp, ux⟩ := r
  dsimp only at hr ⊢
  obtain ⟨g1, g2, g3, g4, g5, g6⟩ := hr
  subst g6
  cases um <;> simp only [Bool.false_eq_true, and_false, if_false, not_false_eq_true, and_self, if_true, not_true_eq_false, and_true]
  · obtain ⟨k1, k2, k3⟩ := e6 rfl
    obtain ⟨l1, l2, l3⟩ := g5 rfl
    exact (meetPhaseF_nz hG ha0 hab hn hZ k1 (by omega) g3 l1 (fun h => l3 (k3 h)) hf e2 g2 k2 l2).bind fun r hr =>
      K r.1 _ r.2.1 r.2.2 (j2 + j3) hr.1 hab.le (le_refl _) hr.2
  · obtain ⟨l1, l2, l3⟩ := g5 rfl
    refine (zsafe_forL (I := fun F => F.length = n ∧ NZ F (j2 + j3)) _ Fp1 ⟨g2, l2⟩ (fun j hj F hF => ?_)).bind fun F2 h4 =>
      K _ _ _ _ (j2 + j3) (by rw [copySlice_length, hf]) hab.le (le_refl _) (NZ.copy (by omega) (by omega) hab.le (by omega) h4.2)
    have := mem_rangeDown hj
    exact (downStepF_nz hG (by omega) (by omega) hF.1).mono fun F' hF' => ⟨hF'.1, hF'.2 (j2 + j3) (by omega) hF.2⟩

end

end SF
