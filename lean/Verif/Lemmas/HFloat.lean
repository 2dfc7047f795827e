import Verif.Lemmas.HFloatOps

/-! # The steps of the H recursion in floating-point arithmetic -/

set_option autoImplicit false

namespace SF

/-- Bound for the coefficients. -/
noncomputable def hDn (N : ℕ) : ℝ := 32 * ((N : ℝ) + 2)

/-- Growth of the error bound in one statement. -/
noncomputable def hCn (N : ℕ) : ℝ := 2 ^ 17 * hDn N ^ 2

theorem hDn_ge (N : ℕ) : 64 ≤ hDn N := by
  unfold hDn
  have : (0 : ℝ) ≤ N := Nat.cast_nonneg N
  linarith

theorem hCn_ge (N : ℕ) : 2 ^ 17 * hDn N ≤ hCn N := by
  unfold hCn
  have := hDn_ge N
  nlinarith

theorem hCn_ge' (N : ℕ) : 2 ^ 23 ≤ hCn N := by
  have := hCn_ge N
  have := hDn_ge N
  linarith

section
variable {F : W3Ops} {u η : ℝ} (E : HOk F u η) {N : ℕ}
include E

theorem HOk.coef {k : ℕ} (hk : k ≤ 8) {x' x : ℝ} (h : Near u k x' x) (hx : |x| ≤ 2 * ((N : ℝ) + 2)) : App η (hDn N) x' x := by
  have := E.near hk h hx
  unfold hDn
  rwa [show (32 : ℝ) * ((N : ℝ) + 2) = 16 * (2 * ((N : ℝ) + 2)) by ring]

theorem HOk.st_top {B p' p : ℝ} {n : ℤ} (hn : 1 ≤ n) (h : App η B p' p) :
    App η (hCn N * B) (F.mul (F.sqrt (F.add 1 (F.div 0.5 (F.ofInt n)))) p') (Real.sqrt (1 + 0.5 / (n : ℝ)) * p) := by
  have hn' : (1 : ℝ) ≤ n := by exact_mod_cast hn
  have hB := h.nonneg
  have hd : (0 : ℝ) ≤ 0.5 / (n : ℝ) := by positivity
  have hd1 : (0.5 : ℝ) / (n : ℝ) ≤ 1 := (div_le_one (by linarith)).2 (by norm_num; linarith)
  have h1 : Near u 4 (F.sqrt (F.add 1 (F.div 0.5 (F.ofInt n)))) (Real.sqrt (1 + 0.5 / (n : ℝ))) :=
    E.sqrt (E.nadd ((E.nself 1).mono E.std.u_nonneg E.std.u_lt_one (by norm_num)) (E.ndiv (E.nself 0.5) (E.ofInt n) (by linarith))
      (by norm_num) hd) (by linarith)
  have h2 : |Real.sqrt (1 + 0.5 / (n : ℝ))| ≤ 2 := by
    rw [abs_of_nonneg (Real.sqrt_nonneg _), Real.sqrt_le_left (by norm_num)]; linarith
  refine (E.mul (E.near (by norm_num) h1 h2) h).mono E.nonneg ?_
  nlinarith [hCn_ge' N]

theorem HOk.st_one {B g' g co' co x' x : ℝ} (hg : Near u 7 g' g) (hg1 : |g| ≤ 2 * ((N : ℝ) + 2)) (hc : App η 1 co' co)
    (h : App η B x' x) : App η (hCn N * B) (F.mul (F.mul g' co') x') (g * co * x) := by
  have hB := h.nonneg
  refine (E.mul (E.mul (E.coef (by norm_num) hg hg1) hc) h).mono E.nonneg ?_
  have h1 := mul_le_mul_of_nonneg_right (hCn_ge N) hB
  have := mul_nonneg (by linarith [hDn_ge N] : 0 ≤ hDn N) hB
  linarith

theorem HOk.st_rec0 {B g' g h' h co' co si' si x1' x1 x2' x2 : ℝ} (hg : Near u 7 g' g) (hg1 : |g| ≤ 2 * ((N : ℝ) + 2))
    (hh : Near u 7 h' h) (hh1 : |h| ≤ 2 * ((N : ℝ) + 2)) (hc : App η 1 co' co) (hs : App η 1 si' si) (h1 : App η B x1' x1)
    (h2 : App η B x2' x2) :
    App η (1176 * (hDn N * B)) (F.add (F.mul (F.mul g' co') x1') (-F.mul (F.mul h' (F.mul si' si')) x2'))
      (g * co * x1 - h * si ^ 2 * x2) := by
  have hB := h1.nonneg
  rw [pow_two]
  refine (E.sub (E.mul (E.mul (E.coef (by norm_num) hg hg1) hc) h1)
    (E.mul (E.mul (E.coef (by norm_num) hh hh1) (E.mul hs hs)) h2)).mono E.nonneg ?_
  linarith

theorem HOk.st_rec {B g' g h' h co' co si' si x1' x1 x2' x2 : ℝ} (hg : Near u 7 g' g) (hg1 : |g| ≤ 2 * ((N : ℝ) + 2))
    (hh : Near u 7 h' h) (hh1 : |h| ≤ 2 * ((N : ℝ) + 2)) (hc : App η 1 co' co) (hs : App η 1 si' si) (h1 : App η B x1' x1)
    (h2 : App η B x2' x2) :
    App η (hCn N * B) (F.add (F.mul (F.mul g' co') x1') (-F.mul (F.mul h' (F.mul si' si')) x2'))
      (g * co * x1 - h * si ^ 2 * x2) := by
  have hB := h1.nonneg
  refine (E.st_rec0 hg hg1 hh hh1 hc hs h1 h2).mono E.nonneg ?_
  have h1 := mul_le_mul_of_nonneg_right (hCn_ge N) hB
  have := mul_nonneg (by linarith [hDn_ge N] : 0 ≤ hDn N) hB
  linarith

theorem HOk.const {n : ℤ} (hn : 0 ≤ n) : Near u 2 (F.sqrt (F.ofInt (4 * n + 2))) (Real.sqrt (4 * (n : ℝ) + 2)) := by
  have := E.sqrt (E.ofInt (4 * n + 2)) (by exact_mod_cast (by omega : (0 : ℤ) ≤ 4 * n + 2))
  rwa [show ((4 * n + 2 : ℤ) : ℝ) = 4 * (n : ℝ) + 2 by push_cast; ring] at this

omit E in
theorem const_ge {n : ℤ} (hn : 0 ≤ n) : 1 ≤ |Real.sqrt (4 * (n : ℝ) + 2)| := by
  have : (0 : ℝ) ≤ n := by exact_mod_cast hn
  rw [abs_of_nonneg (Real.sqrt_nonneg _), Real.one_le_sqrt]; linarith

theorem HOk.st_div {B g' g h' h co' co si' si x1' x1 x2' x2 : ℝ} {n : ℤ} (hn : 0 ≤ n) (hg : Near u 7 g' g)
    (hg1 : |g| ≤ 2 * ((N : ℝ) + 2))
    (hh : Near u 7 h' h) (hh1 : |h| ≤ 2 * ((N : ℝ) + 2)) (hc : App η 1 co' co) (hs : App η 1 si' si) (h1 : App η B x1' x1)
    (h2 : App η B x2' x2) :
    App η (hCn N * B) (F.div (F.add (F.mul (F.mul g' co') x1') (-F.mul (F.mul h' (F.mul si' si')) x2')) (F.sqrt (F.ofInt (4 * n + 2))))
      ((g * co * x1 - h * si ^ 2 * x2) / Real.sqrt (4 * (n : ℝ) + 2)) := by
  have hB := h1.nonneg
  refine (E.div (by norm_num) (E.st_rec0 hg hg1 hh hh1 hc hs h1 h2) (E.const hn) (const_ge hn)).mono E.nonneg ?_
  have h0 := mul_nonneg (by linarith [hDn_ge N] : 0 ≤ hDn N) hB
  have h3 : 64 * (hDn N * B) ≤ hDn N * (hDn N * B) := mul_le_mul_of_nonneg_right (hDn_ge N) h0
  unfold hCn
  nlinarith

theorem HOk.st_pre {n : ℤ} (hn : 0 ≤ n) : App η (hCn N) (F.div 1 (F.sqrt (F.ofInt (4 * n + 2)))) (1 / Real.sqrt (4 * (n : ℝ) + 2)) := by
  refine (E.div (by norm_num) (App.self (x := 1) (B := 1) E.nonneg (by simp)) (E.const hn) (const_ge hn)).mono E.nonneg ?_
  linarith [hCn_ge' N]

theorem HOk.st_pre_div {B p' p : ℝ} {n : ℤ} (hn : 0 ≤ n) (h : App η B p' p) :
    App η (hCn N * B) (F.div p' (F.sqrt (F.ofInt (4 * n + 2)))) (p / Real.sqrt (4 * (n : ℝ) + 2)) := by
  refine (E.div (by norm_num) h (E.const hn) (const_ge hn)).mono E.nonneg ?_
  exact mul_le_mul_of_nonneg_right (by linarith [hCn_ge' N]) h.nonneg

theorem HOk.st_mul1 {B p' p s' s : ℝ} (h : App η B p' p) (hs : App η 1 s' s) : App η (hCn N * B) (F.mul p' s') (p * s) := by
  refine (E.mul h hs).mono E.nonneg ?_
  have := mul_le_mul_of_nonneg_right (by linarith [hCn_ge' N] : 7 ≤ hCn N) h.nonneg
  linarith

theorem HOk.st_mul {A B p' p s' s : ℝ} (h : App η A p' p) (hs : App η B s' s) : App η (hCn N * (A * B)) (F.mul p' s') (p * s) := by
  refine (E.mul h hs).mono E.nonneg ?_
  have := mul_le_mul_of_nonneg_right (by linarith [hCn_ge' N] : 7 ≤ hCn N) (mul_nonneg h.nonneg hs.nonneg)
  linarith

omit E in
theorem hC_bound {k B : ℝ} (hk : k ≤ 2 ^ 17) (hB : 0 ≤ B) : k * (hDn N ^ 2 * B) ≤ hCn N * B := by
  unfold hCn
  have : 0 ≤ hDn N ^ 2 * B := by positivity
  nlinarith

theorem HOk.st_4 {B r' r a' a b' b c' c y2' y2 y3' y3 y4' y4 : ℝ} (hr : App η (hDn N) r' r) (ha : App η (hDn N) a' a)
    (hb : App η (hDn N) b' b) (hc : App η (hDn N) c' c) (h2 : App η B y2' y2) (h3 : App η B y3' y3) (h4 : App η B y4' y4) :
    App η (hCn N * B) (F.mul r' (F.add (F.add (F.mul a' y2') (-F.mul b' y3')) (F.mul c' y4'))) (r * (a * y2 - b * y3 + c * y4)) := by
  refine (E.mul hr (E.add (E.sub (E.mul ha h2) (E.mul hb h3)) (E.mul hc h4))).mono E.nonneg (le_trans (le_of_eq ?_)
    (hC_bound (k := 1029) (by norm_num) h2.nonneg))
  ring

theorem HOk.st_4' {B r' r a' a b' b y2' y2 y3' y3 : ℝ} (hr : App η (hDn N) r' r) (ha : App η (hDn N) a' a)
    (hb : App η (hDn N) b' b) (h2 : App η B y2' y2) (h3 : App η B y3' y3) :
    App η (hCn N * B) (F.mul r' (F.add (F.mul a' y2') (-F.mul b' y3'))) (r * (a * y2 - b * y3)) := by
  refine (E.mul hr (E.sub (E.mul ha h2) (E.mul hb h3))).mono E.nonneg (le_trans (le_of_eq ?_)
    (hC_bound (k := 294) (by norm_num) h2.nonneg))
  ring

theorem HOk.st_5 {B r' r a' a b' b c' c y2' y2 y3' y3 y4' y4 : ℝ} (hr : App η (hDn N) r' r) (ha : App η (hDn N) a' a)
    (hb : App η (hDn N) b' b) (hc : App η (hDn N) c' c) (h2 : App η B y2' y2) (h3 : App η B y3' y3) (h4 : App η B y4' y4) :
    App η (hCn N * B) (F.mul r' (F.add (F.add (F.mul a' y2') (F.mul b' y3')) (-F.mul c' y4'))) (r * (a * y2 + b * y3 - c * y4)) := by
  refine (E.mul hr (E.sub (E.add (E.mul ha h2) (E.mul hb h3)) (E.mul hc h4))).mono E.nonneg (le_trans (le_of_eq ?_)
    (hC_bound (k := 1029) (by norm_num) h2.nonneg))
  ring

theorem HOk.st_5' {B r' r a' a b' b y2' y2 y3' y3 : ℝ} (hr : App η (hDn N) r' r) (ha : App η (hDn N) a' a)
    (hb : App η (hDn N) b' b) (h2 : App η B y2' y2) (h3 : App η B y3' y3) :
    App η (hCn N * B) (F.mul r' (F.add (F.mul a' y2') (F.mul b' y3'))) (r * (a * y2 + b * y3)) := by
  refine (E.mul hr (E.add (E.mul ha h2) (E.mul hb h3))).mono E.nonneg (le_trans (le_of_eq ?_)
    (hC_bound (k := 294) (by norm_num) h2.nonneg))
  ring

theorem HOk.st_3 {B r' r b6' b6 b7' b7 a8' a8 co' co si' si y0' y0 y1' y1 y2' y2 : ℝ} (hr : App η (hDn N) r' r)
    (h6 : App η (hDn N) b6' b6) (h7 : App η (hDn N) b7' b7) (h8 : App η (hDn N) a8' a8) (hc : App η 1 co' co) (hs : App η 1 si' si)
    (h0 : App η B y0' y0) (h1 : App η B y1' y1) (h2 : App η B y2' y2) :
    App η (hCn N * B) (F.mul r' (F.add
        (F.mul 0.5 (F.add (F.mul (F.mul b6' (F.add 1 (-co'))) y2') (-F.mul (F.mul b7' (F.add 1 co')) y0')))
        (-F.mul (F.mul a8' si') y1')))
      (r * (0.5 * (b6 * (1 - co) * y2 - b7 * (1 + co) * y0) - a8 * si * y1)) := by
  have one : App η 1 1 1 := App.self E.nonneg (by simp)
  have half : App η 0.5 0.5 0.5 := App.self E.nonneg (by norm_num [abs_of_nonneg])
  refine (E.mul hr (E.sub (E.mul half (E.sub (E.mul (E.mul h6 (E.sub one hc)) h2) (E.mul (E.mul h7 (E.add one hc)) h0)))
    (E.mul (E.mul h8 hs) h1))).mono E.nonneg (le_trans (le_of_eq ?_) (hC_bound (k := 130683) (by norm_num) h2.nonneg))
  ring

end

/-! ## Rows -/

/-- Every column of `r` approximates the column of `v`. -/
def RowApp {J : ℕ} (η : Fin J → ℝ) (B : ℝ) (r v : HRow J) : Prop := ∀ j, App (η j) B (r j) (v j)

/-- Entry `i` of the array approximates `v`. -/
def AtA {J : ℕ} (η : Fin J → ℝ) (B : ℝ) (L : List (HRow J)) (i : ℤ) (v : HRow J) : Prop := ∃ r, At L i r ∧ RowApp η B r v

/-- Floating-point operations and the two rows of cosines and sines. -/
structure HRows {J : ℕ} (F : W3Ops) (u : ℝ) (η : Fin J → ℝ) (co' si' co si : HRow J) : Prop where
  base : HOk F u u
  ok : ∀ j, HOk F u (η j)
  co : ∀ j, App (η j) 1 (co' j) (co j)
  si : ∀ j, App (η j) 1 (si' j) (si j)

theorem AtA.mono {J : ℕ} {F : W3Ops} {u : ℝ} {η : Fin J → ℝ} {co' si' co si : HRow J} (R : HRows F u η co' si' co si) {B B' : ℝ}
    {L : List (HRow J)} {i : ℤ} {v : HRow J} (h : AtA η B L i v) (hB : B ≤ B') : AtA η B' L i v := by
  obtain ⟨r, h1, h2⟩ := h
  exact ⟨r, h1, fun j => (h2 j).mono (R.ok j).nonneg hB⟩

/-- Powers of the growth factor. -/
theorem hCpow_mono {N a b : ℕ} (h : a ≤ b) : hCn N ^ a ≤ hCn N ^ b :=
  pow_le_pow_right₀ (by linarith [hCn_ge' N]) h

theorem coN {N : ℕ} {x : ℝ} {n : ℤ} (hn : n ≤ N + 1) {y : ℝ} (h : |x| ≤ y) (hy : y ≤ 2 * ((n : ℝ) + 1) ∨ y ≤ 3) :
    |x| ≤ 2 * ((N : ℝ) + 2) := by
  have : (n : ℝ) ≤ N + 1 := by exact_mod_cast hn
  have : (0 : ℝ) ≤ N := Nat.cast_nonneg N
  rcases hy with hy | hy <;> linarith

end SF
