import Verif.Model.WignerHFloat
import Verif.Lemmas.WignerHIdx
import Verif.Lemmas.W3FloatFinish

/-! # Rounding errors of the statements of the H recursion -/

set_option autoImplicit false

namespace SF

/-- `|x| ≤ B` and `x'` approximates `x` with error at most `B η`. -/
def App (η B x' x : ℝ) : Prop := |x| ≤ B ∧ |x' - x| ≤ B * η

theorem App.nonneg {η B x' x : ℝ} (h : App η B x' x) : 0 ≤ B := (abs_nonneg x).trans h.1

theorem App.mono {η B B' x' x : ℝ} (h : App η B x' x) (hη : 0 ≤ η) (hB : B ≤ B') : App η B' x' x :=
  ⟨h.1.trans hB, h.2.trans (mul_le_mul_of_nonneg_right hB hη)⟩

theorem App.neg {η B x' x : ℝ} (h : App η B x' x) : App η B (-x') (-x) := by
  refine ⟨by rw [abs_neg]; exact h.1, ?_⟩
  rw [show -x' - -x = -(x' - x) by ring, abs_neg]; exact h.2

theorem App.self {η B x : ℝ} (hη : 0 ≤ η) (h : |x| ≤ B) : App η B x x := by
  refine ⟨h, ?_⟩
  rw [sub_self, abs_zero]
  exact mul_nonneg ((abs_nonneg x).trans h) hη

theorem App.abs_le {η B x' x : ℝ} (h : App η B x' x) (hη1 : η ≤ 1) : |x'| ≤ 2 * B := by
  have h0 := h.nonneg
  have : |x'| ≤ |x| + |x' - x| := by
    have := abs_add_le x (x' - x)
    rwa [show x + (x' - x) = x' by ring] at this
  have h2 : B * η ≤ B * 1 := mul_le_mul_of_nonneg_left hη1 h0
  linarith [h.1, h.2]

/-- The exact product of approximations. -/
theorem App.mul' {η A B x' x y' y : ℝ} (hη1 : η ≤ 1) (h : App η A x' x) (g : App η B y' y) :
    |x' * y' - x * y| ≤ 3 * A * B * η := by
  have e : x' * y' - x * y = x' * (y' - y) + (x' - x) * y := by ring
  rw [e]
  have hA := h.nonneg
  have hB := g.nonneg
  have h1 : |x' * (y' - y)| ≤ 2 * A * (B * η) := by
    rw [abs_mul]; exact mul_le_mul (h.abs_le hη1) g.2 (abs_nonneg _) (by positivity)
  have hx := h.2
  have h2 : |(x' - x) * y| ≤ A * η * B := by
    rw [abs_mul]; exact mul_le_mul hx g.1 (abs_nonneg _) ((abs_nonneg _).trans hx)
  calc _ ≤ _ := abs_add_le _ _
    _ ≤ 2 * A * (B * η) + A * η * B := add_le_add h1 h2
    _ = _ := by ring

/-- The floating-point operations have errors `u ≤ η ≤ 1`. -/
structure HOk (F : W3Ops) (u η : ℝ) : Prop where
  std : F.Std u
  u16 : u ≤ 1 / 16
  le : u ≤ η
  le_one : η ≤ 1

section
variable {F : W3Ops} {u η : ℝ} (E : HOk F u η)
include E

theorem HOk.nonneg : 0 ≤ η := E.std.u_nonneg.trans E.le

theorem HOk.mul {A B x' x y' y : ℝ} (h : App η A x' x) (g : App η B y' y) : App η (7 * A * B) (F.mul x' y') (x * y) := by
  have hA := h.nonneg
  have hB := g.nonneg
  have hη := E.nonneg
  refine ⟨?_, ?_⟩
  · rw [abs_mul]
    have := mul_le_mul h.1 g.1 (abs_nonneg _) hA
    nlinarith [mul_nonneg hA hB]
  · have h1 := h.mul' E.le_one g
    have h2 : |F.mul x' y' - x' * y'| ≤ u * |x' * y'| := E.std.mul x' y'
    have h3 : |x' * y'| ≤ 2 * A * (2 * B) := by
      rw [abs_mul]; exact mul_le_mul (h.abs_le E.le_one) (g.abs_le E.le_one) (abs_nonneg _) (by positivity)
    have h4 : u * |x' * y'| ≤ η * (2 * A * (2 * B)) := mul_le_mul E.le h3 (abs_nonneg _) hη
    have h5 := abs_sub_le (F.mul x' y') (x' * y') (x * y)
    calc _ ≤ _ := h5
      _ ≤ η * (2 * A * (2 * B)) + 3 * A * B * η := add_le_add (h2.trans h4) h1
      _ = _ := by ring

theorem HOk.add {A B x' x y' y : ℝ} (h : App η A x' x) (g : App η B y' y) : App η (3 * (A + B)) (F.add x' y') (x + y) := by
  have hA := h.nonneg
  have hB := g.nonneg
  have hη := E.nonneg
  refine ⟨?_, ?_⟩
  · have := abs_add_le x y
    linarith [h.1, g.1]
  · have h1 : |x' + y' - (x + y)| ≤ A * η + B * η := by
      rw [show x' + y' - (x + y) = (x' - x) + (y' - y) by ring]
      exact (abs_add_le _ _).trans (add_le_add h.2 g.2)
    have h2 : |F.add x' y' - (x' + y')| ≤ u * |x' + y'| := E.std.add x' y'
    have h3 : |x' + y'| ≤ 2 * A + 2 * B := (abs_add_le _ _).trans (add_le_add (h.abs_le E.le_one) (g.abs_le E.le_one))
    have h4 : u * |x' + y'| ≤ η * (2 * A + 2 * B) := mul_le_mul E.le h3 (abs_nonneg _) hη
    have h5 := abs_sub_le (F.add x' y') (x' + y') (x + y)
    calc _ ≤ _ := h5
      _ ≤ η * (2 * A + 2 * B) + (A * η + B * η) := add_le_add (h2.trans h4) h1
      _ = _ := by ring

theorem HOk.sub {A B x' x y' y : ℝ} (h : App η A x' x) (g : App η B y' y) : App η (3 * (A + B)) (F.add x' (-y')) (x - y) := by
  rw [sub_eq_add_neg]; exact E.add h g.neg

theorem HOk.gam_le : gam u 8 ≤ 16 * u := by
  have h0 := E.std.u_nonneg
  have h1 := E.u16
  have hb : 1 - 8 * u ≤ (1 - u) ^ 8 := by
    have := one_add_mul_le_pow (a := -u) (by linarith) 8
    push_cast at this
    rw [show (1 : ℝ) + -u = 1 - u by ring] at this
    linarith
  have hp : 0 < (1 - u) ^ 8 := by linarith
  unfold gam
  rw [sub_le_iff_le_add, inv_le_iff_one_le_mul₀ hp]
  nlinarith

theorem HOk.near {k : ℕ} (hk : k ≤ 8) {X x' x : ℝ} (h : Near u k x' x) (hX : |x| ≤ X) : App η (16 * X) x' x := by
  have hX0 : 0 ≤ X := (abs_nonneg x).trans hX
  refine ⟨by linarith, ?_⟩
  have h1 := (h.mono E.std.u_nonneg E.std.u_lt_one hk).err E.std.u_nonneg E.std.u_lt_one
  have h2 : gam u 8 ≤ 16 * η := E.gam_le.trans (by linarith [E.le])
  calc _ ≤ _ := h1
    _ ≤ 16 * η * X := mul_le_mul h2 hX (abs_nonneg _) (by linarith [E.nonneg])
    _ = _ := by ring

theorem HOk.div {A x' x y' y : ℝ} {k : ℕ} (hk : k ≤ 8) (h : App η A x' x) (g : Near u k y' y) (hy : 1 ≤ |y|) :
    App η (112 * A) (F.div x' y') (x / y) := by
  have hu0 := E.std.u_nonneg
  have hu1 := E.std.u_lt_one
  have hy0 : y ≠ 0 := fun h0 => by rw [h0, abs_zero] at hy; linarith
  have hy0' := g.ne_zero hu0 hu1 hy0
  have hi : Near u k (1 / y') (1 / y) := by
    have := (Near.refl (u := u) hu0 hu1 1).div hu0 hu1 g
    simpa using this
  have hB : App η (16 * 1) (1 / y') (1 / y) := E.near hk hi (by
    rw [abs_div, abs_one]; exact (div_le_one (by linarith)).2 hy)
  have hA := h.nonneg
  have hη := E.nonneg
  refine ⟨?_, ?_⟩
  · rw [abs_div]
    have h1 : |x| / |y| ≤ |x| := div_le_self (abs_nonneg _) hy
    linarith [h.1]
  · have h1 := h.mul' E.le_one hB
    have h2 : |F.div x' y' - x' / y'| ≤ u * |x' / y'| := E.std.div x' y' hy0'
    rw [show x' / y' = x' * (1 / y') by ring] at h2
    rw [show x / y = x * (1 / y) by ring]
    have h3 : |x' * (1 / y')| ≤ 2 * A * (2 * (16 * 1)) := by
      rw [abs_mul]; exact mul_le_mul (h.abs_le E.le_one) (hB.abs_le E.le_one) (abs_nonneg _) (by positivity)
    have h4 : u * |x' * (1 / y')| ≤ η * (2 * A * (2 * (16 * 1))) := mul_le_mul E.le h3 (abs_nonneg _) hη
    have h5 := abs_sub_le (F.div x' y') (x' * (1 / y')) (x * (1 / y))
    calc _ ≤ _ := h5
      _ ≤ η * (2 * A * (2 * (16 * 1))) + 3 * A * (16 * 1) * η := add_le_add (h2.trans h4) h1
      _ = _ := by ring

theorem HOk.ofInt (n : ℤ) : Near u 1 (F.ofInt n) n := RelErr.fac E.std.u_nonneg E.std.u_lt_one (E.std.ofInt n)

theorem HOk.sqrt {k : ℕ} {x' x : ℝ} (h : Near u k x' x) (hx : 0 ≤ x) : Near u (k + 1) (F.sqrt x') (Real.sqrt x) := by
  have hu0 := E.std.u_nonneg
  have hu1 := E.std.u_lt_one
  have hx' : 0 ≤ x' := by
    rcases hx.eq_or_lt with h0 | h0
    · obtain ⟨θ, e, -⟩ := h; rw [e, ← h0, zero_mul]
    · exact (h.pos hu0 hu1 h0).le
  exact (RelErr.fac hu0 hu1 (E.std.sqrt x' hx')).trans hu0 hu1 (h.sqrt hu0 hu1)

theorem HOk.ndiv {k l : ℕ} {x' x y' y : ℝ} (h : Near u k x' x) (g : Near u l y' y) (hy : y ≠ 0) :
    Near u (k + l + 1) (F.div x' y') (x / y) := by
  have hu0 := E.std.u_nonneg
  have hu1 := E.std.u_lt_one
  exact (RelErr.fac hu0 hu1 (E.std.div x' y' (g.ne_zero hu0 hu1 hy))).trans hu0 hu1 (h.div hu0 hu1 g)

theorem HOk.nmul {k l : ℕ} {x' x y' y : ℝ} (h : Near u k x' x) (g : Near u l y' y) :
    Near u (k + l + 1) (F.mul x' y') (x * y) := by
  have hu0 := E.std.u_nonneg
  have hu1 := E.std.u_lt_one
  exact (RelErr.fac hu0 hu1 (E.std.mul x' y')).trans hu0 hu1 (h.mul hu0 hu1 g)

theorem HOk.nadd {k : ℕ} {x' x y' y : ℝ} (h : Near u k x' x) (g : Near u k y' y) (hx : 0 ≤ x) (hy : 0 ≤ y) :
    Near u (k + 1) (F.add x' y') (x + y) := by
  have hu0 := E.std.u_nonneg
  have hu1 := E.std.u_lt_one
  exact (RelErr.fac hu0 hu1 (E.std.add x' y')).trans hu0 hu1 (h.add_nonneg g hx hy)

theorem HOk.nself (x : ℝ) : Near u 0 x x := Near.refl E.std.u_nonneg E.std.u_lt_one x

end

/-! ## Coefficients -/

/-- What is needed of the coefficient arrays. -/
structure GoodCoefF (u : ℝ) (C : HCoef) (N : ℕ) : Prop where
  n_max : C.n_max = N
  a : ∀ n m : ℤ, 0 ≤ m → m ≤ n → n ≤ N + 1 → ∃ y, rd C.a (nabsm_index n m) = .ok y ∧ Near u 7 y (aco n m)
  b : ∀ n m : ℤ, |m| ≤ n → n ≤ N + 1 → 1 ≤ n → ∃ y, rd C.b (nm_index n m) = .ok y ∧ Near u 7 y (bco n m)
  d : ∀ n m : ℤ, |m| ≤ n → n ≤ N + 1 → ∃ y, rd C.d (nm_index n m) = .ok y ∧ Near u 7 y (dco n m)
  g : ∀ n m : ℤ, 0 ≤ m → m < n → n ≤ N + 1 → ∃ y, rd C.g (nm_index n m) = .ok y ∧ Near u 7 y (gco n m)
  h : ∀ n m : ℤ, 0 ≤ m → m < n → n ≤ N + 1 → ∃ y, rd C.h (nm_index n m) = .ok y ∧ Near u 7 y (hco n m)

theorem goodCoefF_make {F : W3Ops} {u η : ℝ} (E : HOk F u η) {junk : ℤ → ℝ} {N : ℕ} {C : HCoef}
    (h : HCoef.makeF F junk N = .ok C) : GoodCoefF u C N := by
  have hu0 := E.std.u_nonneg
  have hu1 := E.std.u_lt_one
  unfold HCoef.makeF at h
  rw [if_neg (by omega)] at h
  cases h
  have c0 : ∀ z : ℤ, 0 ≤ z → (0 : ℝ) ≤ z := fun z hz => by exact_mod_cast hz
  have cne : ∀ z : ℤ, 0 < z → (z : ℝ) ≠ 0 := fun z hz => by have : (0 : ℝ) < z := by exact_mod_cast hz
                                                            exact this.ne'
  refine ⟨rfl, fun n m h0 h1 h2 => ?_, fun n m h1 h2 hn => ?_, fun n m h1 h2 => ?_, fun n m h0 h1 h2 => ?_, fun n m h0 h1 h2 => ?_⟩
  · obtain ⟨p0, p1⟩ := nabsmPairs_at h0 h1 h2
    refine ⟨_, rd_ok p0 (by rw [List.getElem?_map, p1]; rfl), ?_⟩
    have hp : 0 < (2 * n + 1) * (2 * n + 3) := mul_pos (by omega) (by omega)
    refine Near.mono hu0 hu1 (by norm_num) (E.sqrt (E.ndiv (E.ofInt _) (E.ofInt _) (cne _ hp)) ?_)
    exact div_nonneg (c0 _ (mul_nonneg (by omega) (by omega))) (c0 _ hp.le)
  · obtain ⟨p0, p1⟩ := nmPairs_at h1 h2
    rw [abs_le] at h1
    refine ⟨_, rd_ok p0 (by rw [List.getElem?_map, p1]; rfl), ?_⟩
    have hp : 0 < (2 * n - 1) * (2 * n + 1) := mul_pos (by omega) (by omega)
    have hq : 0 ≤ (n - m - 1) * (n - m) := by
      rcases eq_or_lt_of_le h1.2 with h | h
      · rw [h]; simp
      · exact mul_nonneg (by omega) (by omega)
    have key := E.sqrt (E.ndiv (E.ofInt ((n - m - 1) * (n - m))) (E.ofInt ((2 * n - 1) * (2 * n + 1))) (cne _ hp))
      (div_nonneg (c0 _ hq) (c0 _ hp.le))
    simp only [bco]
    split
    · rw [mul_comm (-1 : ℝ)]
      exact Near.mono hu0 hu1 (by norm_num) (E.nmul key (E.nself (-1)))
    · rw [one_mul]; exact Near.mono hu0 hu1 (by norm_num) key
  · obtain ⟨p0, p1⟩ := nmPairs_at h1 h2
    rw [abs_le] at h1
    refine ⟨_, rd_ok p0 (by rw [List.getElem?_map, p1]; rfl), ?_⟩
    have key := E.nmul (E.nself 0.5) (E.sqrt (E.ofInt ((n - m) * (n + m + 1))) (c0 _ (mul_nonneg (by omega) (by omega))))
    rw [show (0.5 : ℝ) * Real.sqrt (((n - m) * (n + m + 1) : ℤ) : ℝ) = 1 / 2 * Real.sqrt (((n - m) * (n + m + 1) : ℤ) : ℝ) by norm_num] at key
    simp only [dco]
    split
    · rw [mul_comm (-1 : ℝ)]
      exact Near.mono hu0 hu1 (by norm_num) (E.nmul key (E.nself (-1)))
    · rw [one_mul]; exact Near.mono hu0 hu1 (by norm_num) key
  · obtain ⟨p0, p1⟩ := nmPairs_at (n := n) (m := m) (by rw [abs_le]; omega) h2
    refine ⟨_, rd_ok p0 (by rw [List.getElem?_map, p1]; rfl), ?_⟩
    simp only [if_neg h1.ne', gco]
    have hp : 0 < (n - m) * (n + m + 1) := mul_pos (by omega) (by omega)
    exact Near.mono hu0 hu1 (by norm_num) (E.ndiv (E.ofInt _) (E.sqrt (E.ofInt _) (c0 _ hp.le))
      (Real.sqrt_pos.2 (by exact_mod_cast hp)).ne')
  · obtain ⟨p0, p1⟩ := nmPairs_at (n := n) (m := m) (by rw [abs_le]; omega) h2
    refine ⟨_, rd_ok p0 (by rw [List.getElem?_map, p1]; rfl), ?_⟩
    simp only [if_neg h1.ne', hco]
    have hp : 0 < (n - m) * (n + m + 1) := mul_pos (by omega) (by omega)
    exact Near.mono hu0 hu1 (by norm_num) (E.sqrt (E.ndiv (E.ofInt _) (E.ofInt _) (cne _ hp))
      (div_nonneg (c0 _ (mul_nonneg (by omega) (by omega))) (c0 _ hp.le)))

/-! Sizes of the coefficients. -/

theorem sqrt_div_le_one {x y : ℝ} (hy : 0 < y) (h : x ≤ y) : Real.sqrt (x / y) ≤ 1 := by
  rw [← Real.sqrt_one]; exact Real.sqrt_le_sqrt ((div_le_one hy).2 h)

theorem aco_le {n m : ℤ} (h0 : 0 ≤ m) (h1 : m ≤ n) : |aco n m| ≤ 1 := by
  unfold aco
  rw [abs_of_nonneg (Real.sqrt_nonneg _)]
  refine sqrt_div_le_one (by have : 0 < (2 * n + 1) * (2 * n + 3) := mul_pos (by omega) (by omega)
                             exact_mod_cast this) ?_
  exact_mod_cast (by nlinarith : (n + 1 + m) * (n + 1 - m) ≤ (2 * n + 1) * (2 * n + 3))

theorem bco_le {n m : ℤ} (h0 : |m| ≤ n) (h1 : 1 ≤ n) : |bco n m| ≤ 1 := by
  rw [abs_le] at h0
  unfold bco
  have key : Real.sqrt ((((n - m - 1) * (n - m) : ℤ) : ℝ) / (((2 * n - 1) * (2 * n + 1) : ℤ) : ℝ)) ≤ 1 := by
    refine sqrt_div_le_one (by have : 0 < (2 * n - 1) * (2 * n + 1) := mul_pos (by omega) (by omega)
                               exact_mod_cast this) ?_
    exact_mod_cast (by nlinarith : (n - m - 1) * (n - m) ≤ (2 * n - 1) * (2 * n + 1))
  rw [abs_mul, abs_of_nonneg (Real.sqrt_nonneg _)]
  split <;> simpa using key

theorem dco_abs (n m : ℤ) : |dco n m| = 1 / 2 * Real.sqrt (((n - m) * (n + m + 1) : ℤ) : ℝ) := by
  unfold dco
  have hs := Real.sqrt_nonneg (((n - m) * (n + m + 1) : ℤ) : ℝ)
  rw [abs_mul, abs_of_nonneg (show 0 ≤ 1 / 2 * Real.sqrt (((n - m) * (n + m + 1) : ℤ) : ℝ) by positivity)]
  split <;> simp

theorem dco_le {n m : ℤ} (h0 : |m| ≤ n) : |dco n m| ≤ n + 1 := by
  rw [abs_le] at h0
  rw [dco_abs]
  have hn : (0 : ℝ) ≤ n := by exact_mod_cast (by omega : (0 : ℤ) ≤ n)
  have : Real.sqrt (((n - m) * (n + m + 1) : ℤ) : ℝ) ≤ 2 * (n + 1) := by
    rw [Real.sqrt_le_left (by positivity)]
    exact_mod_cast (by nlinarith : (n - m) * (n + m + 1) ≤ (2 * (n + 1)) ^ 2)
  linarith

theorem dco_inv_le {n m : ℤ} (h1 : -n ≤ m) (h2 : m < n) : |1 / dco n m| ≤ 2 := by
  rw [abs_div, abs_one, dco_abs]
  have : 1 ≤ Real.sqrt (((n - m) * (n + m + 1) : ℤ) : ℝ) := by
    rw [Real.one_le_sqrt]
    have : 0 < (n - m) * (n + m + 1) := mul_pos (by omega) (by omega)
    exact_mod_cast this
  rw [div_le_iff₀ (by linarith)]; linarith

theorem bco_inv_le {n : ℤ} (h1 : 1 ≤ n) : |1 / bco (n + 1) 0| ≤ 3 := by
  unfold bco
  rw [if_neg (by omega), one_mul, abs_div, abs_one, abs_of_nonneg (Real.sqrt_nonneg _)]
  have hq : 0 < (2 * (n + 1) - 1) * (2 * (n + 1) + 1) := mul_pos (by omega) (by omega)
  have hq' : (0 : ℝ) < (((2 * (n + 1) - 1) * (2 * (n + 1) + 1) : ℤ) : ℝ) := by exact_mod_cast hq
  have h3 : 1 / 3 ≤ Real.sqrt ((((n + 1 - 0 - 1) * (n + 1 - 0) : ℤ) : ℝ) / (((2 * (n + 1) - 1) * (2 * (n + 1) + 1) : ℤ) : ℝ)) := by
    apply Real.le_sqrt_of_sq_le
    rw [le_div_iff₀ hq']
    have : (2 * (n + 1) - 1) * (2 * (n + 1) + 1) ≤ 9 * ((n + 1 - 0 - 1) * (n + 1 - 0)) := by nlinarith
    have h' : (((2 * (n + 1) - 1) * (2 * (n + 1) + 1) : ℤ) : ℝ) ≤ ((9 * ((n + 1 - 0 - 1) * (n + 1 - 0)) : ℤ) : ℝ) := by exact_mod_cast this
    rw [Int.cast_mul 9] at h'
    push_cast at h' ⊢
    linarith
  rw [div_le_iff₀ (by linarith)]; linarith

theorem gco_le {n m : ℤ} (h0 : 0 ≤ m) (h1 : m < n) : |gco n m| ≤ 2 * n := by
  unfold gco
  have hp : 0 < (n - m) * (n + m + 1) := mul_pos (by omega) (by omega)
  have hs : 1 ≤ Real.sqrt (((n - m) * (n + m + 1) : ℤ) : ℝ) := by
    rw [Real.one_le_sqrt]; exact_mod_cast hp
  have h2 : (0 : ℝ) ≤ ((2 * (m + 1) : ℤ) : ℝ) := by exact_mod_cast (by omega : 0 ≤ 2 * (m + 1))
  rw [abs_of_nonneg (div_nonneg h2 (by linarith))]
  calc _ ≤ ((2 * (m + 1) : ℤ) : ℝ) := div_le_self h2 hs
    _ ≤ _ := by exact_mod_cast (by omega : 2 * (m + 1) ≤ 2 * n)

theorem hco_le {n m : ℤ} (h0 : 0 ≤ m) (h1 : m < n) : |hco n m| ≤ 1 := by
  unfold hco
  rw [abs_of_nonneg (Real.sqrt_nonneg _)]
  have hp : 0 < (n - m) * (n + m + 1) := mul_pos (by omega) (by omega)
  refine sqrt_div_le_one (by exact_mod_cast hp) ?_
  exact_mod_cast (by nlinarith : (n + m + 2) * (n - m - 1) ≤ (n - m) * (n + m + 1))

end SF
