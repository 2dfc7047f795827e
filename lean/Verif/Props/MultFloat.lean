import Verif.Model.MultFloat
import Verif.Props.Multiplication
import Verif.Props.ConvFloat

/-!
# C89: rounding errors of products of modes
-/

set_option autoImplicit false

namespace SF

open Finset Spec ComplexConjugate

/-! ## Sums of signed terms -/

/-- `x'` is a computed value of `x`, which is a sum of terms of total absolute value at most `M`; every term carries at most `k` roundings. -/
def Sgn (u : ℝ) (k : ℕ) (x' x M : ℝ) : Prop :=
  ∃ P Q a b, 0 ≤ P ∧ 0 ≤ Q ∧ x = P - Q ∧ P + Q ≤ M ∧ x' = a - b ∧ Near u k a P ∧ Near u k b Q

section
variable {u : ℝ} (hu0 : 0 ≤ u) (hu1 : u < 1)
include hu0 hu1

omit hu0 hu1 in
theorem Near.add {k : ℕ} {a b P Q : ℝ} (h : Near u k a P) (g : Near u k b Q) (hP : 0 ≤ P) (hQ : 0 ≤ Q) : Near u k (a + b) (P + Q) := by
  obtain ⟨θ, rfl, f1, f2⟩ := h
  obtain ⟨η, rfl, g1, g2⟩ := g
  rcases eq_or_lt_of_le (add_nonneg hP hQ) with h0 | h0
  · obtain rfl : P = 0 := by linarith
    obtain rfl : Q = 0 := by linarith
    exact ⟨θ, by ring, f1, f2⟩
  · refine ⟨(P * θ + Q * η) / (P + Q), by field_simp, ?_, ?_⟩
    · rw [le_div_iff₀ h0]
      nlinarith [mul_le_mul_of_nonneg_left f1 hP, mul_le_mul_of_nonneg_left g1 hQ]
    · rw [div_mul_eq_mul_div, div_le_one h0]
      nlinarith [mul_le_mul_of_nonneg_left f2 hP, mul_le_mul_of_nonneg_left g2 hQ]

theorem Sgn.of_near {k : ℕ} {x' x : ℝ} (h : Near u k x' x) : Sgn u k x' x |x| := by
  have z : Near u k 0 0 := ⟨1, by ring, pow_le_one₀ (by linarith) (by linarith), by rw [one_mul]; exact pow_le_one₀ (by linarith) (by linarith)⟩
  rcases le_total 0 x with hx | hx
  · exact ⟨x, 0, x', 0, hx, le_rfl, by ring, by rw [abs_of_nonneg hx, add_zero], by ring, h, z⟩
  · exact ⟨0, -x, 0, -x', le_rfl, by linarith, by ring, by rw [abs_of_nonpos hx, zero_add], by ring, z, h.neg hu0 hu1⟩

theorem Sgn.mono {k l : ℕ} {x' x M N : ℝ} (h : Sgn u k x' x M) (hkl : k ≤ l) (hMN : M ≤ N) : Sgn u l x' x N := by
  obtain ⟨P, Q, a, b, h1, h2, h3, h4, h5, h6, h7⟩ := h
  exact ⟨P, Q, a, b, h1, h2, h3, h4.trans hMN, h5, h6.mono hu0 hu1 hkl, h7.mono hu0 hu1 hkl⟩

theorem Sgn.add {k : ℕ} {x' x M y' y N : ℝ} (h : Sgn u k x' x M) (g : Sgn u k y' y N) : Sgn u k (x' + y') (x + y) (M + N) := by
  obtain ⟨P, Q, a, b, h1, h2, h3, h4, h5, h6, h7⟩ := h
  obtain ⟨P', Q', a', b', g1, g2, g3, g4, g5, g6, g7⟩ := g
  exact ⟨P + P', Q + Q', a + a', b + b', by positivity, by positivity, by rw [h3, g3]; ring, by linarith, by rw [h5, g5]; ring,
    h6.add g6 h1 g1, h7.add g7 h2 g2⟩

omit hu0 hu1 in
theorem Sgn.neg {k : ℕ} {x' x M : ℝ} (h : Sgn u k x' x M) : Sgn u k (-x') (-x) M := by
  obtain ⟨P, Q, a, b, h1, h2, h3, h4, h5, h6, h7⟩ := h
  exact ⟨Q, P, b, a, h2, h1, by rw [h3]; ring, by linarith, by rw [h5]; ring, h7, h6⟩

theorem Sgn.round {k : ℕ} {x'' x' x M : ℝ} (h : Sgn u k x' x M) (r : RelErr u x'' x') : Sgn u (k + 1) x'' x M := by
  obtain ⟨P, Q, a, b, h1, h2, h3, h4, h5, h6, h7⟩ := h
  obtain ⟨θ, e, f⟩ := r.fac hu0 hu1
  have s : ∀ {a P : ℝ}, Near u k a P → Near u (k + 1) (a * θ) P := by
    intro a P h
    have := Near.trans hu0 hu1 (k := 1) (x'' := a * θ) ⟨θ, rfl, f⟩ h
    exact this
  exact ⟨P, Q, a * θ, b * θ, h1, h2, h3, h4, by rw [e, h5]; ring, s h6, s h7⟩

theorem Sgn.err {k : ℕ} {x' x M : ℝ} (h : Sgn u k x' x M) : |x' - x| ≤ gam u k * M := by
  obtain ⟨P, Q, a, b, h1, h2, h3, h4, h5, h6, h7⟩ := h
  have e1 := h6.err hu0 hu1
  have e2 := h7.err hu0 hu1
  rw [abs_of_nonneg h1] at e1
  rw [abs_of_nonneg h2] at e2
  have g := gam_nonneg hu0 hu1 k
  rw [h5, h3, show a - b - (P - Q) = (a - P) - (b - Q) by ring]
  calc |(a - P) - (b - Q)| ≤ |a - P| + |b - Q| := abs_sub _ _
    _ ≤ gam u k * P + gam u k * Q := add_le_add e1 e2
    _ = gam u k * (P + Q) := by ring
    _ ≤ gam u k * M := mul_le_mul_of_nonneg_left h4 g

/-- Adding up a list: one more rounding for each term. -/
theorem Sgn.foldl {ι : Type} {add : ℝ → ℝ → ℝ} (ha : ∀ x y, RelErr u (add x y) (x + y)) {k : ℕ} (t' t M : ι → ℝ) (is : List ι)
    (h : ∀ i ∈ is, Sgn u k (t' i) (t i) (M i)) {j : ℕ} {v' v N : ℝ} (hv : Sgn u (k + j) v' v N) :
    Sgn u (k + j + is.length) (is.foldl (fun a i => add a (t' i)) v') (v + (is.map t).sum) (N + (is.map M).sum) := by
  induction is generalizing j v' v N with
  | nil => simpa using hv
  | cons i is ih =>
    rw [List.foldl_cons, List.map_cons, List.map_cons, List.sum_cons, List.sum_cons, List.length_cons]
    have a := (hv.add hu0 hu1 ((h i (by simp)).mono hu0 hu1 (Nat.le_add_right k j) le_rfl)).round hu0 hu1 (ha v' (t' i))
    have := ih (fun i hi => h i (by simp [hi])) (j := j + 1) (v' := add v' (t' i)) a
    rw [← add_assoc v, ← add_assoc N, show k + j + (is.length + 1) = k + (j + 1) + is.length by ring]
    exact this

end

/-! ## The loops -/

/-- The quadruples `(ell1, m1, ell2, m2)` which contribute to mode `(l, m)`, in the order of the loops. -/
def quads (L a L1 b L2 l m : ℤ) : List (ℤ × ℤ × ℤ × ℤ) :=
  (pyRange a (L1 + 1)).flatMap fun l1 => (pyRange (-l1) (l1 + 1)).flatMap fun m1 => (pyRange b (L2 + 1)).flatMap fun l2 =>
    (pyRange (-l2) (l2 + 1)).flatMap fun m2 => (pyRange (max |m1 + m2| |l1 - l2|) (min (l1 + l2) L + 1)).flatMap fun l3 =>
      if l = l3 ∧ m = m1 + m2 then [(l1, m1, l2, m2)] else []

theorem sum_map_flatMap {ι κ M : Type} [AddCommMonoid M] (xs : List ι) (f : ι → List κ) (φ : κ → M) :
    ((xs.flatMap f).map φ).sum = (xs.map fun x => ((f x).map φ).sum).sum := by
  induction xs with
  | nil => rfl
  | cons x xs ih => rw [List.flatMap_cons, List.map_append, List.sum_append, ih]; rfl

theorem quads_sum {M : Type} [AddCommMonoid M] (L a L1 b L2 l m : ℤ) (φ : ℤ × ℤ × ℤ × ℤ → M) :
    ((quads L a L1 b L2 l m).map φ).sum = ∑ l1 ∈ Ico a (L1 + 1), ∑ m1 ∈ Ico (-l1) (l1 + 1), ∑ l2 ∈ Ico b (L2 + 1), ∑ m2 ∈ Ico (-l2) (l2 + 1),
      ∑ l3 ∈ Ico (max |m1 + m2| |l1 - l2|) (min (l1 + l2) L + 1), if l = l3 ∧ m = m1 + m2 then φ (l1, m1, l2, m2) else 0 := by
  unfold quads
  simp only [sum_map_flatMap, sum_pyRange]
  refine sum_congr rfl fun l1 _ => sum_congr rfl fun m1 _ => sum_congr rfl fun l2 _ => sum_congr rfl fun m2 _ => sum_congr rfl fun l3 _ => ?_
  split <;> simp

theorem mem_quads {L a L1 b L2 l m : ℤ} {q : ℤ × ℤ × ℤ × ℤ} (h : q ∈ quads L a L1 b L2 l m) :
    a ≤ q.1 ∧ q.1 ≤ L1 ∧ |q.2.1| ≤ q.1 ∧ b ≤ q.2.2.1 ∧ q.2.2.1 ≤ L2 ∧ |q.2.2.2| ≤ q.2.2.1 ∧ m = q.2.1 + q.2.2.2 ∧ l ≤ q.1 + q.2.2.1 ∧ 0 ≤ l := by
  unfold quads at h
  simp only [List.mem_flatMap, mem_pyRange] at h
  obtain ⟨l1, h1, m1, h2, l2, h3, m2, h4, l3, h5, h6⟩ := h
  split at h6
  · rename_i hh
    rw [List.mem_singleton] at h6
    subst h6
    have := abs_nonneg (m1 + m2)
    simp only [abs_le]
    omega
  · cases h6

/-- `fg'` is `fg` with the terms `val q l`, `q ∈ T l m`, added one after the other to mode `(l, m)`. -/
def AccF (F : ModesOps) (val : ℤ × ℤ × ℤ × ℤ → ℤ → Slice) (L : ℤ) (fg fg' : List Slice) (T : ℤ → ℤ → List (ℤ × ℤ × ℤ × ℤ)) : Prop :=
  fg'.length = fg.length ∧ ∀ l m, |m| ≤ l → l ≤ L → ∀ v, fg[mpos l m]? = some v →
    fg'[mpos l m]? = some fun x => (T l m).foldl (fun a q => mAdd F a (val q l x)) (v x)

theorem AccF.loop {F : ModesOps} {val : ℤ × ℤ × ℤ × ℤ → ℤ → Slice} {L : ℤ} {n : ℕ} {T : ℤ → ℤ → ℤ → List (ℤ × ℤ × ℤ × ℤ)}
    {body : ℤ → List Slice → Py (List Slice)} (xs : List ℤ) {fg : List Slice} (hn : fg.length = n)
    (h : ∀ x ∈ xs, ∀ fg : List Slice, fg.length = n → ∃ fg', body x fg = .ok fg' ∧ AccF F val L fg fg' (T x)) :
    ∃ fg', forL xs fg body = .ok fg' ∧ AccF F val L fg fg' fun l m => xs.flatMap fun x => T x l m := by
  induction xs generalizing fg with
  | nil => exact ⟨fg, rfl, rfl, fun l m _ _ v hv => by rw [hv]; rfl⟩
  | cons x xs ih =>
    obtain ⟨fg1, e1, a1, b1⟩ := h x (by simp) fg hn
    obtain ⟨fg2, e2, a2, b2⟩ := ih (a1.trans hn) fun y hy => h y (by simp [hy])
    refine ⟨fg2, by rw [forL_cons, e1]; exact e2, a2.trans a1, fun l m hm hl v hv => ?_⟩
    rw [b2 l m hm hl _ (b1 l m hm hl v hv)]
    congr 1
    funext x
    beta_reduce
    rw [List.flatMap_cons, List.foldl_append]

/-- The value of the 3-j symbol that the program sees. -/
noncomputable def w3Val (w3 : ℤ → ℤ → ℤ → ℤ → Py (List ℝ)) (i l1 l2 m m' : ℤ) : ℝ :=
  match w3 l1 l2 m m' with
  | .ok a => a.getD i.toNat 0
  | .error _ => 0

/-- The term the program adds. -/
noncomputable def mulValF (F : ConvOps) (w3 : ℤ → ℤ → ℤ → ℤ → Py (List ℝ)) (s1 s2 : ℤ) (cf cg : ℤ → ℤ → Slice) (q : ℤ × ℤ × ℤ × ℤ) (l : ℤ) : Slice := fun x =>
  mMul F.toModesOps (mScale F.toModesOps (mulCoefF F (q.1 + q.2.2.1 + l + (s1 + s2) + (q.2.1 + q.2.2.2)) l (w3Val w3 l q.1 q.2.2.1 s1 s2)
      (w3Val w3 l q.1 q.2.2.1 q.2.1 q.2.2.2)) (mScale F.toModesOps (sqrt1F F q.1) (cf q.1 q.2.1 x)))
    (mScale F.toModesOps (sqrt2F F q.2.2.1) (cg q.2.2.1 q.2.2.2 x))

/-- **Accuracy of the 3-j symbols** which a multiplication uses: for every pair `ell1 ≤ Lf`, `ell2 ≤ Lg`, the array for the spin weights and the
arrays for all `m1`, `m2` exist, and entry `i` differs from the 3-j symbol by at most `ε i ell1 ell2 m m'`. -/
def ThreeJApprox (w3 : ℤ → ℤ → ℤ → ℤ → Py (List ℝ)) (Lf sf Lg sg : ℤ) (ε : ℤ → ℤ → ℤ → ℤ → ℤ → ℝ) : Prop :=
  ∀ l1 l2 m m', 0 ≤ l1 → l1 ≤ Lf → 0 ≤ l2 → l2 ≤ Lg → (m = sf ∧ m' = sg ∨ |m| ≤ l1 ∧ |m'| ≤ l2) →
    ∃ a, w3 l1 l2 m m' = .ok a ∧ ∀ i : ℕ, (i : ℤ) ≤ l1 + l2 → ∃ x, a[i]? = some x ∧ |x - threeJ i l1 l2 (-(m + m')) m m'| ≤ ε i l1 l2 m m'

theorem mulHelperF_spec (F : ConvOps) {w3 : ℤ → ℤ → ℤ → ℤ → Py (List ℝ)} {ε : ℤ → ℤ → ℤ → ℤ → ℤ → ℝ} {leadf leadg lead : List ℕ} {f g fg : List Slice} {a L1 s1 b L2 s2 L : ℤ}
    {cf cg : ℤ → ℤ → Slice} (hf0 : 0 ≤ a) (hg0 : 0 ≤ b) (h3 : ThreeJApprox w3 L1 s1 L2 s2 ε)
    (hf : ∀ l m, a ≤ l → l ≤ L1 → |m| ≤ l → ∃ v, rd f (LM_index l m a) = .ok v ∧ ∀ x, bcTo leadf lead v x = cf l m x)
    (hg : ∀ l m, b ≤ l → l ≤ L2 → |m| ≤ l → ∃ v, rd g (LM_index l m b) = .ok v ∧ ∀ x, bcTo leadg lead v x = cg l m x)
    (hfg : (fg.length : ℤ) = (L + 1) ^ 2) :
    ∃ fg', mulHelperF F w3 leadf leadg lead f a L1 s1 g b L2 s2 fg 0 L (s1 + s2) = .ok fg' ∧
      AccF F.toModesOps (mulValF F w3 s1 s2 cf cg) L fg fg' (quads L a L1 b L2) := by
  unfold mulHelperF
  refine AccF.loop (n := fg.length) _ rfl fun l1 r1 fg1 n1 => ?_
  rw [mem_pyRange] at r1
  refine AccF.loop (n := fg.length) _ n1 fun m1 r2 fg2 n2 => ?_
  rw [mem_pyRange] at r2
  obtain ⟨v1, e1, c1⟩ := hf l1 m1 (by omega) (by omega) (abs_le.2 ⟨by omega, by omega⟩)
  rw [e1]
  simp only [bind, Except.bind]
  refine AccF.loop (n := fg.length) _ n2 fun l2 r3 fg3 n3 => ?_
  rw [mem_pyRange] at r3
  obtain ⟨ws, es, gs⟩ := h3 l1 l2 s1 s2 (by omega) (by omega) (by omega) (by omega) (.inl ⟨rfl, rfl⟩)
  rw [es]
  simp only
  refine AccF.loop (n := fg.length) _ n3 fun m2 r4 fg4 n4 => ?_
  rw [mem_pyRange] at r4
  obtain ⟨wm, em, gm⟩ := h3 l1 l2 m1 m2 (by omega) (by omega) (by omega) (by omega) (.inr ⟨abs_le.2 ⟨by omega, by omega⟩, abs_le.2 ⟨by omega, by omega⟩⟩)
  obtain ⟨v2, e2, c2⟩ := hg l2 m2 (by omega) (by omega) (abs_le.2 ⟨by omega, by omega⟩)
  rw [em]
  simp only
  rw [e2]
  simp only
  refine AccF.loop (n := fg.length) _ n4 fun l3 r5 fg5 n5 => ?_
  rw [mem_pyRange] at r5
  have hm : |m1 + m2| ≤ l3 := by omega
  have h0 : 0 ≤ l3 := (abs_nonneg _).trans hm
  have hL : l3 ≤ L := by omega
  have hlt := mpos_lt hm hL hfg
  obtain ⟨x, gx, -⟩ := gs l3.toNat (by omega)
  obtain ⟨y, gy, -⟩ := gm l3.toNat (by omega)
  obtain ⟨v, hv⟩ : ∃ v, fg5[mpos l3 (m1 + m2)]? = some v := ⟨_, List.getElem?_eq_getElem (by omega)⟩
  have wx : w3Val w3 l3 l1 l2 s1 s2 = x := by
    unfold w3Val
    rw [es]
    simp only [List.getD_eq_getElem?_getD, gx, Option.getD_some]
  have wy : w3Val w3 l3 l1 l2 m1 m2 = y := by
    unfold w3Val
    rw [em]
    simp only [List.getD_eq_getElem?_getD, gy, Option.getD_some]
  unfold mulBodyF
  simp only [bind, Except.bind]
  rw [rd_ok h0 gx]
  simp only
  rw [rd_ok h0 gy]
  simp only
  rw [rd_mpos hm hv]
  simp only
  rw [wr_mpos hm _ (by omega)]
  refine ⟨_, rfl, by simp, ?_⟩
  intro l m hml hl w hw
  rw [List.getElem?_set]
  split
  · rename_i heq
    obtain ⟨rfl, rfl⟩ := mpos_inj hm hml heq
    rw [hv] at hw
    cases hw
    rw [if_pos (by omega)]
    beta_reduce
    rw [if_pos ⟨rfl, rfl⟩]
    congr 1
    funext z
    rw [List.foldl_cons, List.foldl_nil]
    unfold mulValF
    simp only
    rw [wx, wy, c1, c2]
  · rename_i hne
    rw [hw]
    beta_reduce
    rw [if_neg]
    · rfl
    · rintro ⟨rfl, rfl⟩
      exact hne rfl

/-! ## The error of one term -/

/-- The sum of products in a component of a complex product. -/
theorem cross_le (z w : ℂ) : |z.re| * |w.re| + |z.im| * |w.im| ≤ ‖z‖ * ‖w‖ ∧ |z.re| * |w.im| + |z.im| * |w.re| ≤ ‖z‖ * ‖w‖ := by
  have key : ∀ a b c d : ℝ, |a| * |c| + |b| * |d| ≤ Real.sqrt (a * a + b * b) * Real.sqrt (c * c + d * d) := by
    intro a b c d
    rw [← Real.sqrt_mul (add_nonneg (mul_self_nonneg a) (mul_self_nonneg b))]
    apply Real.le_sqrt_of_sq_le
    have e1 := sq_abs a
    have e2 := sq_abs b
    have e3 := sq_abs c
    have e4 := sq_abs d
    nlinarith [sq_nonneg (|a| * |d| - |b| * |c|)]
  have n : ∀ z : ℂ, ‖z‖ = Real.sqrt (z.re * z.re + z.im * z.im) := by
    intro z
    rw [Complex.norm_def, Complex.normSq_apply]
  rw [n z, n w]
  refine ⟨key _ _ _ _, ?_⟩
  rw [add_comm (w.re * w.re)]
  exact key _ _ _ _

/-- The exact term with the 3-j symbols of the program. -/
noncomputable def mulCoefW (w3 : ℤ → ℤ → ℤ → ℤ → Py (List ℝ)) (s1 s2 : ℤ) (q : ℤ × ℤ × ℤ × ℤ) (l : ℤ) : ℝ :=
  (-1 : ℝ) ^ (q.1 + q.2.2.1 + l + (s1 + s2) + (q.2.1 + q.2.2.2)) * Real.sqrt ((2 * l + 1 : ℤ) : ℝ) * w3Val w3 l q.1 q.2.2.1 s1 s2
    * w3Val w3 l q.1 q.2.2.1 q.2.1 q.2.2.2 * Real.sqrt (((2 * q.1 + 1 : ℤ) : ℝ) / (4 * Real.pi)) * Real.sqrt ((2 * q.2.2.1 + 1 : ℤ) : ℝ)

theorem mulValF_near {u : ℝ} {δ : ℕ → ℝ} {M : ℤ} {F : ConvOps} (hF : F.Std u δ M) (w3 : ℤ → ℤ → ℤ → ℤ → Py (List ℝ)) (s1 s2 : ℤ) (cf cg : ℤ → ℤ → Slice)
    (q : ℤ × ℤ × ℤ × ℤ) (l : ℤ) (h1 : 0 ≤ q.1) (h2 : 0 ≤ q.2.2.1) (hl : 0 ≤ l) (x : MIdx) :
    Sgn u 14 (mulValF F w3 s1 s2 cf cg q l x).re ((mulCoefW w3 s1 s2 q l : ℂ) * (cf q.1 q.2.1 x * cg q.2.2.1 q.2.2.2 x)).re
      (|mulCoefW w3 s1 s2 q l| * (‖cf q.1 q.2.1 x‖ * ‖cg q.2.2.1 q.2.2.2 x‖)) ∧
    Sgn u 14 (mulValF F w3 s1 s2 cf cg q l x).im ((mulCoefW w3 s1 s2 q l : ℂ) * (cf q.1 q.2.1 x * cg q.2.2.1 q.2.2.2 x)).im
      (|mulCoefW w3 s1 s2 q l| * (‖cf q.1 q.2.1 x‖ * ‖cg q.2.2.1 q.2.2.2 x‖)) := by
  have hu0 := hF.u_nonneg
  have hu1 := hF.u_lt_one
  have hp := Real.pi_pos
  have q1 : (0 : ℝ) ≤ ((2 * q.1 + 1 : ℤ) : ℝ) := by exact_mod_cast (by omega)
  have q2 : (0 : ℝ) ≤ ((2 * q.2.2.1 + 1 : ℤ) : ℝ) := by exact_mod_cast (by omega)
  have q3 : (0 : ℝ) ≤ ((2 * l + 1 : ℤ) : ℝ) := by exact_mod_cast (by omega)
  set f := cf q.1 q.2.1 x with hf
  set g := cg q.2.2.1 q.2.2.2 x with hg
  set ws := w3Val w3 l q.1 q.2.2.1 s1 s2 with hws
  set wm := w3Val w3 l q.1 q.2.2.1 q.2.1 q.2.2.2 with hwm
  set n := q.1 + q.2.2.1 + l + (s1 + s2) + (q.2.1 + q.2.2.2) with hn
  -- factors
  have a0 : Near u 4 (mulCoefF F n l ws wm) ((-1 : ℝ) ^ n * Real.sqrt ((2 * l + 1 : ℤ) : ℝ) * ws * wm) :=
    mul_nearC hF (mul_nearC hF (mul_nearC hF (refl0 hF _) (sqrt_nearC hF (refl0 hF _) q3)) (refl0 hF _)) (refl0 hF _)
  have a1 : Near u 4 (sqrt1F F q.1) (Real.sqrt (((2 * q.1 + 1 : ℤ) : ℝ) / (4 * Real.pi))) :=
    sqrt_nearC hF (div_nearC hF (refl0 hF _) (mul_nearC hF (refl0 hF _) (pi_near hF)) (by positivity)) (by positivity)
  have a2 : Near u 1 (sqrt2F F q.2.2.1) (Real.sqrt ((2 * q.2.2.1 + 1 : ℤ) : ℝ)) := sqrt_nearC hF (refl0 hF _) q2
  set C := (-1 : ℝ) ^ n * Real.sqrt ((2 * l + 1 : ℤ) : ℝ) * ws * wm with hC
  set S1 := Real.sqrt (((2 * q.1 + 1 : ℤ) : ℝ) / (4 * Real.pi)) with hS1
  set S2 := Real.sqrt ((2 * q.2.2.1 + 1 : ℤ) : ℝ) with hS2
  have eW : mulCoefW w3 s1 s2 q l = C * S1 * S2 := rfl
  -- products of two components
  have pr : ∀ y z : ℝ, Near u 13 (F.mul (F.mul (mulCoefF F n l ws wm) (F.mul (sqrt1F F q.1) y)) (F.mul (sqrt2F F q.2.2.1) z)) (C * S1 * S2 * (y * z)) := by
    intro y z
    have := mul_nearC hF (mul_nearC hF a0 (mul_nearC hF a1 (refl0 hF y))) (mul_nearC hF a2 (refl0 hF z))
    rw [show C * S1 * S2 * (y * z) = C * (S1 * y) * (S2 * z) by ring]
    exact this
  have cr := cross_le f g
  have ab : ∀ y z : ℝ, |C * S1 * S2 * (y * z)| = |C * S1 * S2| * (|y| * |z|) := by
    intro y z; rw [abs_mul, abs_mul y]
  rw [eW, Complex.re_ofReal_mul, Complex.im_ofReal_mul, Complex.mul_re, Complex.mul_im]
  constructor
  · have h := (((Sgn.of_near hu0 hu1 (pr f.re g.re)).add hu0 hu1 ((Sgn.of_near hu0 hu1 (pr f.im g.im)).neg)).round hu0 hu1
      (hF.add _ _))
    rw [ab, ab, ← mul_add, ← sub_eq_add_neg, ← mul_sub] at h
    exact h.mono hu0 hu1 le_rfl (mul_le_mul_of_nonneg_left cr.1 (abs_nonneg _))
  · have h := (((Sgn.of_near hu0 hu1 (pr f.re g.im)).add hu0 hu1 (Sgn.of_near hu0 hu1 (pr f.im g.re))).round hu0 hu1 (hF.add _ _))
    rw [ab, ab, ← mul_add, ← mul_add] at h
    exact h.mono hu0 hu1 le_rfl (mul_le_mul_of_nonneg_left cr.2 (abs_nonneg _))

/-! ## The error of a mode -/

/-- The bound on the error of mode `(l, m)` of a product: the sum over all contributions to `productMode` of
`sqrt((2l1+1)(2l2+1)(2l+1)/(4π)) |c1(l1,m1)| |c2(l2,m2)|` times the largest change of the product of the two 3-j symbols, when each of them is
changed by its error and the product by the relative error `γ`. -/
noncomputable def productErr (γ : ℝ) (ε : ℤ → ℤ → ℤ → ℤ → ℤ → ℝ) (s1 L1 : ℤ) (c1 : ℤ → ℤ → ℂ) (s2 L2 : ℤ) (c2 : ℤ → ℤ → ℂ) (l m : ℤ) : ℝ :=
  ∑ l1 ∈ Icc 0 L1, ∑ m1 ∈ Icc (-l1) l1, ∑ l2 ∈ Icc 0 L2, ∑ m2 ∈ Icc (-l2) l2,
    if m1 + m2 = m then
      Real.sqrt ((2 * l1 + 1) * (2 * l2 + 1) * (2 * l + 1) / (4 * Real.pi)) * (‖c1 l1 m1‖ * ‖c2 l2 m2‖)
        * ((|threeJ l1 l2 l s1 s2 (-s1 - s2)| + ε l l1 l2 s1 s2) * (|threeJ l1 l2 l m1 m2 (-m)| + ε l l1 l2 m1 m2) * (1 + γ)
          - |threeJ l1 l2 l s1 s2 (-s1 - s2)| * |threeJ l1 l2 l m1 m2 (-m)|)
    else 0

theorem coef_err {γ K a a' b b' α β σ : ℝ} (hγ : 0 ≤ γ) (hK : 0 ≤ K) (hσ : |σ| = 1) (ha : |a' - a| ≤ α) (hb : |b' - b| ≤ β) :
    γ * |σ * K * a' * b'| + |σ * K * a' * b' - σ * K * a * b| ≤ K * ((|a| + α) * (|b| + β) * (1 + γ) - |a| * |b|) := by
  have a1 : |a'| ≤ |a| + α := by
    have := abs_sub_abs_le_abs_sub a' a
    linarith
  have b1 : |b'| ≤ |b| + β := by
    have := abs_sub_abs_le_abs_sub b' b
    linarith
  have α0 := (abs_nonneg _).trans ha
  have β0 := (abs_nonneg _).trans hb
  have e1 : |σ * K * a' * b'| = K * (|a'| * |b'|) := by
    rw [abs_mul, abs_mul, abs_mul, hσ, abs_of_nonneg hK]; ring
  have e2 : |σ * K * a' * b' - σ * K * a * b| = K * |a' * (b' - b) + (a' - a) * b| := by
    rw [show σ * K * a' * b' - σ * K * a * b = σ * K * (a' * (b' - b) + (a' - a) * b) by ring, abs_mul, abs_mul, hσ, abs_of_nonneg hK]; ring
  have t1 : |a'| * |b'| ≤ (|a| + α) * (|b| + β) := mul_le_mul a1 b1 (abs_nonneg _) (by positivity)
  have t2 : |a' * (b' - b) + (a' - a) * b| ≤ (|a| + α) * β + α * |b| := by
    refine (abs_add_le _ _).trans ?_
    rw [abs_mul, abs_mul]
    exact add_le_add (mul_le_mul a1 hb (abs_nonneg _) (by positivity)) (mul_le_mul_of_nonneg_right ha (abs_nonneg _))
  rw [e1, e2]
  have t3 := mul_le_mul_of_nonneg_left t1 hγ
  calc γ * (K * (|a'| * |b'|)) + K * |a' * (b' - b) + (a' - a) * b| = K * (γ * (|a'| * |b'|) + |a' * (b' - b) + (a' - a) * b|) := by ring
    _ ≤ K * (γ * ((|a| + α) * (|b| + β)) + ((|a| + α) * β + α * |b|)) := mul_le_mul_of_nonneg_left (add_le_add t3 t2) hK
    _ = K * ((|a| + α) * (|b| + β) * (1 + γ) - |a| * |b|) := by ring

theorem foldl_re {ι : Type} (F : ModesOps) (val : ι → ℂ) (is : List ι) (v : ℂ) :
    (is.foldl (fun a q => mAdd F a (val q)) v).re = is.foldl (fun a q => F.add a (val q).re) v.re := by
  induction is generalizing v with
  | nil => rfl
  | cons i is ih => rw [List.foldl_cons, List.foldl_cons, ih]; rfl

theorem foldl_im {ι : Type} (F : ModesOps) (val : ι → ℂ) (is : List ι) (v : ℂ) :
    (is.foldl (fun a q => mAdd F a (val q)) v).im = is.foldl (fun a q => F.add a (val q).im) v.im := by
  induction is generalizing v with
  | nil => rfl
  | cons i is ih => rw [List.foldl_cons, List.foldl_cons, ih]; rfl

theorem list_sum_re {ι : Type} (t : ι → ℂ) (is : List ι) : (is.map t).sum.re = (is.map fun i => (t i).re).sum := by
  induction is with
  | nil => rfl
  | cons i is ih => rw [List.map_cons, List.map_cons, List.sum_cons, List.sum_cons, Complex.add_re, ih]

theorem list_sum_im {ι : Type} (t : ι → ℂ) (is : List ι) : (is.map t).sum.im = (is.map fun i => (t i).im).sum := by
  induction is with
  | nil => rfl
  | cons i is ih => rw [List.map_cons, List.map_cons, List.sum_cons, List.sum_cons, Complex.add_im, ih]

theorem list_sum_err {ι : Type} (a b M d e : ι → ℝ) (γ : ℝ) (is : List ι) (h : ∀ i ∈ is, |a i - b i| ≤ d i ∧ γ * M i + d i ≤ e i) :
    γ * (is.map M).sum + |(is.map a).sum - (is.map b).sum| ≤ (is.map e).sum := by
  induction is with
  | nil => simp
  | cons i is ih =>
    have h1 := h i (by simp)
    have h2 := ih fun j hj => h j (by simp [hj])
    simp only [List.map_cons, List.sum_cons]
    have : |a i + (is.map a).sum - (b i + (is.map b).sum)| ≤ |a i - b i| + |(is.map a).sum - (is.map b).sum| := by
      rw [show a i + (is.map a).sum - (b i + (is.map b).sum) = (a i - b i) + ((is.map a).sum - (is.map b).sum) by ring]
      exact abs_add_le _ _
    rw [mul_add]
    linarith [h1.1, h1.2]

theorem quads_length {L L1 L2 l m : ℤ} (h1 : 0 ≤ L1) (h2 : 0 ≤ L2) : ((quads L 0 L1 0 L2 l m).length : ℤ) ≤ (L1 + 1) ^ 2 * (L2 + 1) := by
  have e : ((quads L 0 L1 0 L2 l m).length : ℤ) = ((quads L 0 L1 0 L2 l m).map fun _ => (1 : ℤ)).sum := by simp
  rw [e, quads_sum]
  have inner : ∀ l1 m1 l2 : ℤ, ∑ m2 ∈ Ico (-l2) (l2 + 1), ∑ l3 ∈ Ico (max |m1 + m2| |l1 - l2|) (min (l1 + l2) L + 1),
      (if l = l3 ∧ m = m1 + m2 then (1 : ℤ) else 0) ≤ 1 := by
    intro l1 m1 l2
    calc ∑ m2 ∈ Ico (-l2) (l2 + 1), ∑ l3 ∈ Ico (max |m1 + m2| |l1 - l2|) (min (l1 + l2) L + 1), (if l = l3 ∧ m = m1 + m2 then (1 : ℤ) else 0)
        ≤ ∑ m2 ∈ Ico (-l2) (l2 + 1), if m2 = m - m1 then (1 : ℤ) else 0 := by
          refine sum_le_sum fun m2 _ => ?_
          by_cases hm : m2 = m - m1
          · rw [if_pos hm]
            simp only [show m = m1 + m2 by omega, and_true]
            rw [sum_ite_eq]
            split <;> omega
          · rw [if_neg hm]
            refine (sum_eq_zero fun l3 _ => if_neg ?_).le
            rintro ⟨_, h⟩
            omega
      _ ≤ 1 := by
          rw [sum_ite_eq']
          split <;> omega
  have step : ∀ n : ℕ, ∑ l1 ∈ Ico (0 : ℤ) n, (2 * l1 + 1) * (L2 + 1) = (n : ℤ) ^ 2 * (L2 + 1) := by
    intro n
    induction n with
    | zero => simp
    | succ n ih =>
      rw [show Ico (0 : ℤ) ((n + 1 : ℕ) : ℤ) = insert (n : ℤ) (Ico (0 : ℤ) n) by ext z; simp only [mem_insert, mem_Ico]; omega,
        sum_insert (by simp), ih]
      push_cast
      ring
  have := step (L1 + 1).toNat
  rw [show (((L1 + 1).toNat : ℕ) : ℤ) = L1 + 1 by omega] at this
  rw [← this]
  refine sum_le_sum fun l1 hl1 => ?_
  rw [mem_Ico] at hl1
  calc _ ≤ ∑ m1 ∈ Ico (-l1) (l1 + 1), ∑ l2 ∈ Ico 0 (L2 + 1), (1 : ℤ) := sum_le_sum fun m1 _ => sum_le_sum fun l2 _ => inner l1 m1 l2
    _ = (2 * l1 + 1) * (L2 + 1) := by
      simp only [sum_const, Int.card_Ico, nsmul_eq_mul, mul_one]
      rw [show (((l1 + 1 - -l1).toNat : ℕ) : ℤ) = 2 * l1 + 1 by omega, show (((L2 + 1 - 0).toNat : ℕ) : ℤ) = L2 + 1 by omega]

section
variable {u : ℝ} {δ : ℕ → ℝ} {M : ℤ} {F : ConvOps} (hF : F.Std u δ M)
include hF

/-- The contributions to one mode, added one after the other. -/
theorem mode_err {w3 : ℤ → ℤ → ℤ → ℤ → Py (List ℝ)} {ε : ℤ → ℤ → ℤ → ℤ → ℤ → ℝ} {s1 L1 s2 L2 L : ℤ} (cf cg : ℤ → ℤ → Slice) (hL1 : 0 ≤ L1) (hL2 : 0 ≤ L2)
    (h3 : ThreeJApprox w3 L1 s1 L2 s2 ε) (hε : ∀ i l1 l2 m m', 0 ≤ ε i l1 l2 m m') {l m : ℤ} (hm : |m| ≤ l) (hl : l ≤ L) (x : MIdx) :
    |((quads L 0 L1 0 L2 l m).foldl (fun a q => mAdd F.toModesOps a (mulValF F w3 s1 s2 cf cg q l x)) 0).re
        - (productMode s1 L1 (fun l m => cf l m x) s2 L2 (fun l m => cg l m x) l m).re|
      ≤ productErr (gam u (((L1 + 1) ^ 2 * (L2 + 1)).toNat + 14)) ε s1 L1 (fun l m => cf l m x) s2 L2 (fun l m => cg l m x) l m ∧
    |((quads L 0 L1 0 L2 l m).foldl (fun a q => mAdd F.toModesOps a (mulValF F w3 s1 s2 cf cg q l x)) 0).im
        - (productMode s1 L1 (fun l m => cf l m x) s2 L2 (fun l m => cg l m x) l m).im|
      ≤ productErr (gam u (((L1 + 1) ^ 2 * (L2 + 1)).toNat + 14)) ε s1 L1 (fun l m => cf l m x) s2 L2 (fun l m => cg l m x) l m := by
  have hu0 := hF.u_nonneg
  have hu1 := hF.u_lt_one
  have h0 : 0 ≤ l := (abs_nonneg _).trans hm
  set K := ((L1 + 1) ^ 2 * (L2 + 1)).toNat + 14 with hK
  have γ0 := gam_nonneg hu0 hu1 K
  set T := quads L 0 L1 0 L2 l m with hT
  -- the exact sum, over the same list
  have ex : productMode s1 L1 (fun l m => cf l m x) s2 L2 (fun l m => cg l m x) l m
      = (T.map fun q => (mulCoef s1 s2 q.1 q.2.1 q.2.2.1 q.2.2.2 l : ℂ) * (cf q.1 q.2.1 x * cg q.2.2.1 q.2.2.2 x)).sum := by
    rw [← mulSum_eq cf cg hl hm x, hT, quads_sum]
    unfold mulSum mulTerm
    refine sum_congr rfl fun l1 _ => sum_congr rfl fun m1 _ => sum_congr rfl fun l2 _ => sum_congr rfl fun m2 _ => sum_congr rfl fun l3 _ => ?_
    by_cases h : l = l3 ∧ m = m1 + m2
    · rw [if_pos h, if_pos h, h.1]
    · rw [if_neg h, if_neg h]
  -- the bound, over the same list
  set e : ℤ × ℤ × ℤ × ℤ → ℝ := fun q => Real.sqrt ((2 * q.1 + 1) * (2 * q.2.2.1 + 1) * (2 * l + 1) / (4 * Real.pi)) * (‖cf q.1 q.2.1 x‖ * ‖cg q.2.2.1 q.2.2.2 x‖)
        * ((|threeJ q.1 q.2.2.1 l s1 s2 (-s1 - s2)| + ε l q.1 q.2.2.1 s1 s2) * (|threeJ q.1 q.2.2.1 l q.2.1 q.2.2.2 (-m)| + ε l q.1 q.2.2.1 q.2.1 q.2.2.2) * (1 + gam u K)
          - |threeJ q.1 q.2.2.1 l s1 s2 (-s1 - s2)| * |threeJ q.1 q.2.2.1 l q.2.1 q.2.2.2 (-m)|) with he
  have e0 : ∀ q, 0 ≤ e q := by
    intro q
    rw [he]
    have t : ∀ a b α β γ : ℝ, 0 ≤ α → 0 ≤ β → 0 ≤ γ → 0 ≤ (|a| + α) * (|b| + β) * (1 + γ) - |a| * |b| := by
      intro a b α β γ h1 h2 h3
      have t1 : |a| * |b| ≤ (|a| + α) * (|b| + β) := mul_le_mul (by linarith) (by linarith) (abs_nonneg _) (by positivity)
      have t2 : 0 ≤ (|a| + α) * (|b| + β) * γ := by positivity
      nlinarith
    exact mul_nonneg (by positivity) (t _ _ _ _ _ (hε _ _ _ _ _) (hε _ _ _ _ _) γ0)
  have hb : (T.map e).sum ≤ productErr (gam u K) ε s1 L1 (fun l m => cf l m x) s2 L2 (fun l m => cg l m x) l m := by
    rw [hT, quads_sum]
    unfold productErr
    simp only [Icc_eq_Ico]
    refine sum_le_sum fun l1 _ => sum_le_sum fun m1 _ => sum_le_sum fun l2 _ => sum_le_sum fun m2 _ => ?_
    by_cases hmm : m1 + m2 = m
    · rw [if_pos hmm]
      simp only [hmm, and_true]
      rw [sum_ite_eq]
      split
      · exact le_rfl
      · exact e0 (l1, m1, l2, m2)
    · rw [if_neg hmm]
      refine (sum_eq_zero fun l3 _ => if_neg ?_).le
      rintro ⟨_, h⟩
      exact hmm h.symm
  -- single terms
  have ht : ∀ q ∈ T, gam u K * (|mulCoefW w3 s1 s2 q l| * (‖cf q.1 q.2.1 x‖ * ‖cg q.2.2.1 q.2.2.2 x‖))
      + |mulCoefW w3 s1 s2 q l - mulCoef s1 s2 q.1 q.2.1 q.2.2.1 q.2.2.2 l| * (‖cf q.1 q.2.1 x‖ * ‖cg q.2.2.1 q.2.2.2 x‖) ≤ e q := by
    intro q hq
    obtain ⟨b1, b2, b3, b4, b5, b6, b7, b8, -⟩ := mem_quads hq
    have val : ∀ m m', (m = s1 ∧ m' = s2 ∨ |m| ≤ q.1 ∧ |m'| ≤ q.2.2.1) →
        |w3Val w3 l q.1 q.2.2.1 m m' - threeJ l q.1 q.2.2.1 (-(m + m')) m m'| ≤ ε l q.1 q.2.2.1 m m' := by
      intro m m' hmm
      obtain ⟨A, e1, e2⟩ := h3 q.1 q.2.2.1 m m' b1 b2 b4 b5 hmm
      obtain ⟨y, e3, e4⟩ := e2 l.toNat (by omega)
      rw [show ((l.toNat : ℕ) : ℤ) = l by omega] at e4
      have : w3Val w3 l q.1 q.2.2.1 m m' = y := by
        unfold w3Val
        rw [e1]
        simp only [List.getD_eq_getElem?_getD, e3, Option.getD_some]
      rw [this]
      exact e4
    have v1 := val s1 s2 (.inl ⟨rfl, rfl⟩)
    have v2 := val q.2.1 q.2.2.2 (.inr ⟨b3, b6⟩)
    have c := coef_err (σ := (-1 : ℝ) ^ (q.1 + q.2.2.1 + l + (s1 + s2) + (q.2.1 + q.2.2.2)))
      (K := Real.sqrt (2 * l + 1) * Real.sqrt ((2 * q.1 + 1) / (4 * Real.pi)) * Real.sqrt (2 * q.2.2.1 + 1)) γ0 (by positivity)
      (by rw [abs_zpow, abs_neg, abs_one, one_zpow]) v1 v2
    have k1 : mulCoefW w3 s1 s2 q l = (-1 : ℝ) ^ (q.1 + q.2.2.1 + l + (s1 + s2) + (q.2.1 + q.2.2.2))
        * (Real.sqrt (2 * l + 1) * Real.sqrt ((2 * q.1 + 1) / (4 * Real.pi)) * Real.sqrt (2 * q.2.2.1 + 1))
        * w3Val w3 l q.1 q.2.2.1 s1 s2 * w3Val w3 l q.1 q.2.2.1 q.2.1 q.2.2.2 := by
      unfold mulCoefW
      push_cast
      ring
    have k2 : mulCoef s1 s2 q.1 q.2.1 q.2.2.1 q.2.2.2 l = (-1 : ℝ) ^ (q.1 + q.2.2.1 + l + (s1 + s2) + (q.2.1 + q.2.2.2))
        * (Real.sqrt (2 * l + 1) * Real.sqrt ((2 * q.1 + 1) / (4 * Real.pi)) * Real.sqrt (2 * q.2.2.1 + 1))
        * threeJ l q.1 q.2.2.1 (-(s1 + s2)) s1 s2 * threeJ l q.1 q.2.2.1 (-(q.2.1 + q.2.2.2)) q.2.1 q.2.2.2 := by
      unfold mulCoef
      ring
    rw [← k1, ← k2] at c
    have q1 : (0 : ℝ) ≤ q.1 := by exact_mod_cast b1
    have q2 : (0 : ℝ) ≤ q.2.2.1 := by exact_mod_cast b4
    have q3 : (0 : ℝ) ≤ l := by exact_mod_cast h0
    have k3 : Real.sqrt ((2 * q.1 + 1) * (2 * q.2.2.1 + 1) * (2 * l + 1) / (4 * Real.pi))
        = Real.sqrt (2 * l + 1) * Real.sqrt ((2 * q.1 + 1) / (4 * Real.pi)) * Real.sqrt (2 * q.2.2.1 + 1) := by
      rw [show (2 * (q.1 : ℝ) + 1) * (2 * q.2.2.1 + 1) * (2 * l + 1) / (4 * Real.pi) = (2 * l + 1) * ((2 * q.1 + 1) / (4 * Real.pi)) * (2 * q.2.2.1 + 1) by ring,
        Real.sqrt_mul (by positivity), Real.sqrt_mul (by positivity)]
    rw [he]
    simp only
    rw [k3, b7, ← threeJ_cyclic l, ← threeJ_cyclic l, show -s1 - s2 = -(s1 + s2) by ring]
    have n0 : 0 ≤ ‖cf q.1 q.2.1 x‖ * ‖cg q.2.2.1 q.2.2.2 x‖ := by positivity
    have := mul_le_mul_of_nonneg_right c n0
    linarith
  have sg : ∀ q ∈ T, _ := fun q hq => mulValF_near hF w3 s1 s2 cf cg q l (mem_quads hq).1 (mem_quads hq).2.2.2.1 h0 x
  have len : 14 + 0 + T.length ≤ K := by
    have := quads_length (L := L) (l := l) (m := m) hL1 hL2
    rw [← hT] at this
    omega
  have z : Sgn u (14 + 0) 0 0 0 := by
    have := (Sgn.of_near hu0 hu1 (refl0 hF (0 : ℝ))).mono hu0 hu1 (Nat.zero_le 14) le_rfl
    rwa [abs_zero] at this
  rw [ex, list_sum_re, list_sum_im, foldl_re, foldl_im]
  constructor
  · have := (Sgn.foldl hu0 hu1 hF.add _ _ _ T (fun q hq => (sg q hq).1) z).mono hu0 hu1 len le_rfl
    have er := this.err hu0 hu1
    rw [zero_add, zero_add] at er
    have ls := list_sum_err (fun q : ℤ × ℤ × ℤ × ℤ => ((mulCoefW w3 s1 s2 q l : ℂ) * (cf q.1 q.2.1 x * cg q.2.2.1 q.2.2.2 x)).re)
      (fun q => ((mulCoef s1 s2 q.1 q.2.1 q.2.2.1 q.2.2.2 l : ℂ) * (cf q.1 q.2.1 x * cg q.2.2.1 q.2.2.2 x)).re)
      (fun q => |mulCoefW w3 s1 s2 q l| * (‖cf q.1 q.2.1 x‖ * ‖cg q.2.2.1 q.2.2.2 x‖)) (fun q => |mulCoefW w3 s1 s2 q l - mulCoef s1 s2 q.1 q.2.1 q.2.2.1 q.2.2.2 l| * (‖cf q.1 q.2.1 x‖ * ‖cg q.2.2.1 q.2.2.2 x‖))
      e (gam u K) T (fun q hq => ⟨?_, ht q hq⟩)
    · refine le_trans ?_ (ls.trans hb)
      refine le_trans (abs_sub_le _ _ _) (add_le_add er le_rfl)
    · rw [← Complex.sub_re, ← sub_mul, ← Complex.ofReal_sub]
      refine (Complex.abs_re_le_norm _).trans ?_
      rw [norm_mul, norm_mul, Complex.norm_real, Real.norm_eq_abs]
  · have := (Sgn.foldl hu0 hu1 hF.add _ _ _ T (fun q hq => (sg q hq).2) z).mono hu0 hu1 len le_rfl
    have er := this.err hu0 hu1
    rw [zero_add, zero_add] at er
    have ls := list_sum_err (fun q : ℤ × ℤ × ℤ × ℤ => ((mulCoefW w3 s1 s2 q l : ℂ) * (cf q.1 q.2.1 x * cg q.2.2.1 q.2.2.2 x)).im)
      (fun q => ((mulCoef s1 s2 q.1 q.2.1 q.2.2.1 q.2.2.2 l : ℂ) * (cf q.1 q.2.1 x * cg q.2.2.1 q.2.2.2 x)).im)
      (fun q => |mulCoefW w3 s1 s2 q l| * (‖cf q.1 q.2.1 x‖ * ‖cg q.2.2.1 q.2.2.2 x‖)) (fun q => |mulCoefW w3 s1 s2 q l - mulCoef s1 s2 q.1 q.2.1 q.2.2.1 q.2.2.2 l| * (‖cf q.1 q.2.1 x‖ * ‖cg q.2.2.1 q.2.2.2 x‖))
      e (gam u K) T (fun q hq => ⟨?_, ht q hq⟩)
    · refine le_trans ?_ (ls.trans hb)
      refine le_trans (abs_sub_le _ _ _) (add_le_add er le_rfl)
    · rw [← Complex.sub_im, ← sub_mul, ← Complex.ofReal_sub]
      refine (Complex.abs_im_le_norm _).trans ?_
      rw [norm_mul, norm_mul, Complex.norm_real, Real.norm_eq_abs]

/-! ## C89 -/

/-- **C89 (products of Modes objects).** If the 3-j symbols that the program computes have errors at most `ε`, the product of two Modes objects
is computed (the calculators return, so there is no exception), has the metadata of the exact product, and the real and the imaginary part of
every mode differ from those of the exact product by at most `productErr`, with `γ` the relative error of 14 roundings for each contribution
and one more for each of the at most `(ell_max_f + 1)² (ell_max_g + 1)` additions to a mode. -/
theorem C89_product {w3 : ℤ → ℤ → ℤ → ℤ → Py (List ℝ)} {ε : ℤ → ℤ → ℤ → ℤ → ℤ → ℝ} (f g : Modes) (hf : f.WF) (hg : g.WF) (hf0 : 0 ≤ f.ell_max)
    (hg0 : 0 ≤ g.ell_max) (h3 : ThreeJApprox w3 f.ell_max f.s g.ell_max g.s ε) (hε : ∀ i l1 l2 m m', 0 ≤ ε i l1 l2 m m') (truncator : Option Trunc)
    (L : ℤ) (hL : ProductEllMax f g truncator L) (hL1 : -1 ≤ L) (lead : List ℕ) (hb : bcastShape f.lead g.lead = some lead) :
    ∃ h, f.multiplyMF F w3 g truncator = .ok h ∧ h.WF ∧ h.lead = lead ∧ h.s = f.s + g.s ∧ h.ell_max = L ∧ h.trunc = f.trunc ∧
      ∀ l m, |f.s + g.s| ≤ l → |m| ≤ l → l ≤ L → ∀ idx, ValidIdx lead idx →
        let p := productMode f.s f.ell_max (fun l m => f.coef l m (bcIdx f.lead idx)) g.s g.ell_max (fun l m => g.coef l m (bcIdx g.lead idx)) l m
        let E := productErr (gam u (((f.ell_max + 1) ^ 2 * (g.ell_max + 1)).toNat + 14)) ε f.s f.ell_max (fun l m => f.coef l m (bcIdx f.lead idx))
          g.s g.ell_max (fun l m => g.coef l m (bcIdx g.lead idx)) l m
        |(h.coef l m idx).re - p.re| ≤ E ∧ |(h.coef l m idx).im - p.im| ≤ E := by
  have hlead : bcastLeads f g = .ok lead := by
    unfold bcastLeads
    rw [if_neg (by have := hf.dat_ne_nil hf0; have := hg.dat_ne_nil hg0; tauto), hb]
  have run : f.multiplyMF F w3 g truncator = (do
      let new ← npZeros (α := Slice) (LM_total_size 0 L)
      let new ← mulHelperF F w3 f.lead g.lead lead f.dat 0 f.ell_max f.s g.dat 0 g.ell_max g.s new 0 L (f.s + g.s)
      f.remake lead new (f.s + g.s) L) := by
    unfold Modes.multiplyMF
    unfold ProductEllMax at hL
    cases truncator with
    | some t =>
      simp only at hL ⊢
      rw [bind_ok, hlead, bind_ok, hL]
    | none =>
      simp only at hL ⊢
      obtain ⟨a, b, ha, hb, rfl⟩ := hL
      have c : ∀ h : Modes, ∀ v, (match h.trunc with
          | .absent => some (f.ell_max + g.ell_max)
          | .fn t => some (t f.ell_max g.ell_max)
          | .isNone => none) = some v → h.trunc.call f.ell_max g.ell_max = .ok v := by
        intro h v hv
        cases ht : h.trunc <;> rw [ht] at hv <;> simp_all [TruncKey.call]
      rw [c f a ha, bind_ok, c g b hb]
      simp only [bind_ok, pure, Except.pure, hlead]
  rw [run]
  obtain ⟨N, hN⟩ : ∃ N : ℕ, (N : ℤ) = (L + 1) ^ 2 := ⟨((L + 1) ^ 2).toNat, by have := sq_nonneg (L + 1); omega⟩
  have hz : npZeros (α := Slice) (LM_total_size 0 L) = .ok (List.replicate N (0 : Slice)) := by
    unfold npZeros
    rw [LM_total_size_zero, ← hN, npEmpty_ok (by omega), Int.toNat_natCast]
    congr 1
    exact List.ext_getElem (by simp) (by simp)
  rw [hz, bind_ok]
  have hrd : ∀ h : Modes, h.WF → ∀ l m, 0 ≤ l → l ≤ h.ell_max → |m| ≤ l →
      ∃ v, rd h.dat (LM_index l m 0) = .ok v ∧ ∀ x, bcTo h.lead lead v x = h.coefIn lead l m x := by
    intro h hh l m _ h2 h3
    refine ⟨h.coef l m, ?_, fun _ => rfl⟩
    have lo := mpos_lo h3
    have hm := abs_le.1 h3
    have : 0 ≤ LM_index l m 0 := by rw [LM_index_zero]; nlinarith
    exact rd_ok this (hh.sized.get h3 h2)
  obtain ⟨r, e, k2, k3⟩ := mulHelperF_spec F (L := L) (fg := List.replicate N (0 : Slice)) le_rfl le_rfl h3 (hrd f hf) (hrd g hg)
    (by rw [List.length_replicate]; exact hN)
  rw [List.length_replicate] at k2
  rw [e, bind_ok]
  obtain ⟨h, e1, e2, e3, e4, e5, e6, e7⟩ := remake_ok f lead r (f.s + g.s) L hL1 (by rw [k2]; exact hN)
  refine ⟨h, e1, e2, e3, e4, e5, e6, fun l m h1 h2 h4 idx hv => ?_⟩
  have hc : h.coef l m idx = (quads L 0 f.ell_max 0 g.ell_max l m).foldl
      (fun a q => mAdd F.toModesOps a (mulValF F w3 f.s g.s (f.coefIn lead) (g.coefIn lead) q l idx)) 0 := by
    have := e7 l m h2 h4
    rw [if_pos h1, k3 l m h2 h4 0 (by rw [List.getElem?_replicate, if_pos (mpos_lt h2 h4 hN)])] at this
    rw [coef_of_get this]
    rfl
  have := mode_err hF (L := L) (f.coefIn lead) (g.coefIn lead) hf0 hg0 h3 hε h2 h4 idx
  rw [← hc] at this
  unfold Modes.coefIn at this
  simp only [bcTo_valid _ hv] at this
  exact this

omit hF in
theorem productErr_relative (γ η : ℝ) (s1 L1 : ℤ) (c1 : ℤ → ℤ → ℂ) (s2 L2 : ℤ) (c2 : ℤ → ℤ → ℂ) (l m : ℤ) :
    productErr γ (fun i l1 l2 m m' => η * |threeJ i l1 l2 (-(m + m')) m m'|) s1 L1 c1 s2 L2 c2 l m
      = ((1 + η) ^ 2 * (1 + γ) - 1) * ∑ l1 ∈ Icc 0 L1, ∑ m1 ∈ Icc (-l1) l1, ∑ l2 ∈ Icc 0 L2, ∑ m2 ∈ Icc (-l2) l2,
        if m1 + m2 = m then Real.sqrt ((2 * l1 + 1) * (2 * l2 + 1) * (2 * l + 1) / (4 * Real.pi)) * (‖c1 l1 m1‖ * ‖c2 l2 m2‖)
          * (|threeJ l1 l2 l s1 s2 (-s1 - s2)| * |threeJ l1 l2 l m1 m2 (-m)|) else 0 := by
  unfold productErr
  simp only [mul_sum]
  refine sum_congr rfl fun l1 _ => sum_congr rfl fun m1 _ => sum_congr rfl fun l2 _ => sum_congr rfl fun m2 _ => ?_
  by_cases hm : m1 + m2 = m
  · rw [if_pos hm, if_pos hm, threeJ_cyclic l, threeJ_cyclic l, hm, show -(s1 + s2) = -s1 - s2 by ring]
    ring
  · rw [if_neg hm, if_neg hm, mul_zero]

/-- **C89 (relative errors of the 3-j symbols).** If every 3-j symbol used has relative error at most `η` (so that those which vanish are exact),
the error of each component of a mode is at most `(1+η)²(1+γ) - 1`, about `2η + γ`, times the sum of the absolute values of its contributions. -/
theorem C89_relative {w3 : ℤ → ℤ → ℤ → ℤ → Py (List ℝ)} {η : ℝ} (hη : 0 ≤ η) (f g : Modes) (hf : f.WF) (hg : g.WF) (hf0 : 0 ≤ f.ell_max)
    (hg0 : 0 ≤ g.ell_max)
    (h3 : ThreeJApprox w3 f.ell_max f.s g.ell_max g.s fun i l1 l2 m m' => η * |threeJ i l1 l2 (-(m + m')) m m'|) (truncator : Option Trunc)
    (L : ℤ) (hL : ProductEllMax f g truncator L) (hL1 : -1 ≤ L) (lead : List ℕ) (hb : bcastShape f.lead g.lead = some lead) :
    ∃ h, f.multiplyMF F w3 g truncator = .ok h ∧ h.WF ∧ h.lead = lead ∧ h.s = f.s + g.s ∧ h.ell_max = L ∧ h.trunc = f.trunc ∧
      ∀ l m, |f.s + g.s| ≤ l → |m| ≤ l → l ≤ L → ∀ idx, ValidIdx lead idx →
        let p := productMode f.s f.ell_max (fun l m => f.coef l m (bcIdx f.lead idx)) g.s g.ell_max (fun l m => g.coef l m (bcIdx g.lead idx)) l m
        let E := ((1 + η) ^ 2 * (1 + gam u (((f.ell_max + 1) ^ 2 * (g.ell_max + 1)).toNat + 14)) - 1)
          * ∑ l1 ∈ Icc 0 f.ell_max, ∑ m1 ∈ Icc (-l1) l1, ∑ l2 ∈ Icc 0 g.ell_max, ∑ m2 ∈ Icc (-l2) l2,
            if m1 + m2 = m then Real.sqrt ((2 * l1 + 1) * (2 * l2 + 1) * (2 * l + 1) / (4 * Real.pi))
              * (‖f.coef l1 m1 (bcIdx f.lead idx)‖ * ‖g.coef l2 m2 (bcIdx g.lead idx)‖)
              * (|threeJ l1 l2 l f.s g.s (-f.s - g.s)| * |threeJ l1 l2 l m1 m2 (-m)|) else 0
        |(h.coef l m idx).re - p.re| ≤ E ∧ |(h.coef l m idx).im - p.im| ≤ E := by
  obtain ⟨h, e1, e2, e3, e4, e5, e6, e7⟩ := C89_product hF f g hf hg hf0 hg0 h3 (fun _ _ _ _ _ => by positivity) truncator L hL hL1 lead hb
  refine ⟨h, e1, e2, e3, e4, e5, e6, fun l m h1 h2 h4 idx hv => ?_⟩
  have := e7 l m h1 h2 h4 idx hv
  simp only [productErr_relative] at this
  exact this

end

/-- 3-j symbols with a relative error `η`. -/
noncomputable def sloppy3j (η : ℝ) (j2 j3 m2 m3 : ℤ) : Py (List ℝ) :=
  .ok ((List.range (j2 + j3 + 1).toNat).map fun (i : ℕ) => threeJ (i : ℤ) j2 j3 (-(m2 + m3)) m2 m3 * (1 - η))

theorem sloppy3j_approx {η : ℝ} (hη : 0 ≤ η) (Lf sf Lg sg : ℤ) :
    ThreeJApprox (sloppy3j η) Lf sf Lg sg fun i l1 l2 m m' => η * |threeJ i l1 l2 (-(m + m')) m m'| := by
  intro l1 l2 m m' h1 _ h2 _ _
  refine ⟨_, rfl, fun i hi => ⟨_, by rw [List.getElem?_map, List.getElem?_range (by omega)]; rfl, ?_⟩⟩
  rw [show threeJ i l1 l2 (-(m + m')) m m' * (1 - η) - threeJ i l1 l2 (-(m + m')) m m' = -(η * threeJ i l1 l2 (-(m + m')) m m') by ring,
    abs_neg, abs_mul, abs_of_nonneg hη]

/-- Non-vacuity of C89: the squares of two functions of spin weight -1 with eight modes, with errors in every operation and in every 3-j symbol. -/
example : ∃ h, exModes.multiplyMF (sloppyConv (2 ^ (-53 : ℤ))) (sloppy3j (2 ^ (-40 : ℤ))) exModes none = .ok h ∧ h.WF := by
  have hF := sloppyConv_std (u := 2 ^ (-53 : ℤ)) (by positivity) (by norm_num)
  obtain ⟨h, e1, e2, -⟩ := C89_relative hF (η := 2 ^ (-40 : ℤ)) (by positivity) exModes exModes exModes_WF exModes_WF (by decide) (by decide)
    (sloppy3j_approx (by positivity) _ _ _ _) none _ ((C32_default_ell_max rfl rfl _).2 rfl) (by decide) exModes.lead (by decide)
  exact ⟨h, e1, e2⟩

end SF
