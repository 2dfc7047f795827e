import Verif.Model.TablesFloat
import Verif.Lemmas.W3FloatFinish
import Verif.Props.Tables
import Verif.Props.FloatError
import Mathlib.Data.Nat.Choose.Central

/-!
# C92: the coefficient tables in finite precision

`Rep53` are the numbers with 53 significant bits, `NearestDouble` rounding to nearest; the mpmath operations have relative error `ε ≤ 1e-18`.
-/

set_option autoImplicit false

namespace SF

/-! ## Numbers with 53 bits -/

theorem Rep53.int {n : ℤ} (h : |n| ≤ 2 ^ 53) : Rep53 n := ⟨n, 0, h, by simp⟩

theorem Rep53.zero : Rep53 0 := ⟨0, 0, by norm_num, by simp⟩

/-- The gap between two different numbers with 53 bits. -/
theorem Rep53.gap {x y : ℝ} (hx : Rep53 x) (hy : Rep53 y) (hne : y ≠ x) : |x| ≤ (2 ^ 53 + 1) * |y - x| := by
  obtain ⟨n, e, hn, rfl⟩ := hx
  obtain ⟨k, f, hk, rfl⟩ := hy
  have key : ∀ {a b g h : ℤ}, g ≤ h → (a : ℝ) * 2 ^ g ≠ b * 2 ^ h → (2 : ℝ) ^ g ≤ |(a : ℝ) * 2 ^ g - b * 2 ^ h| := by
    intro a b g h hgh hab
    obtain ⟨d, rfl⟩ : ∃ d : ℕ, h = g + d := ⟨(h - g).toNat, by omega⟩
    have p : (0 : ℝ) < 2 ^ g := by positivity
    have e : (a : ℝ) * 2 ^ g - b * 2 ^ (g + (d : ℤ)) = ((a - b * 2 ^ d : ℤ) : ℝ) * 2 ^ g := by
      rw [zpow_add₀ (by norm_num), zpow_natCast]; push_cast; ring
    rw [e, abs_mul, abs_of_pos p]
    have hz : a - b * 2 ^ d ≠ 0 := by
      intro hz
      apply hab
      rw [← sub_eq_zero, e, hz]; simp
    have : (1 : ℝ) ≤ |((a - b * 2 ^ d : ℤ) : ℝ)| := by
      rw [← Int.cast_abs]; exact_mod_cast Int.one_le_abs hz
    nlinarith
  have size : ∀ {a g : ℤ}, |a| ≤ 2 ^ 53 → |(a : ℝ) * 2 ^ g| ≤ 2 ^ 53 * 2 ^ g := by
    intro a g ha
    have p : (0 : ℝ) < 2 ^ g := by positivity
    rw [abs_mul, abs_of_pos p]
    have : |(a : ℝ)| ≤ 2 ^ 53 := by rw [← Int.cast_abs]; exact_mod_cast ha
    exact mul_le_mul_of_nonneg_right this p.le
  have h0 := abs_nonneg ((k : ℝ) * 2 ^ f - n * 2 ^ e)
  rcases le_total e f with h | h
  · have h1 := key h (Ne.symm hne)
    rw [abs_sub_comm] at h1
    have h2 := size (g := e) hn
    nlinarith
  · have h1 := key h hne
    have h2 := size (g := f) hk
    have h3 := abs_sub_abs_le_abs_sub ((n : ℝ) * 2 ^ e) (k * 2 ^ f)
    rw [abs_sub_comm] at h3
    nlinarith

/-- `fl53` gives numbers with 53 bits. -/
theorem fl53_rep (x : ℝ) : Rep53 (fl53 x) := by
  refine ⟨round (x * 2 ^ (52 - Int.log 2 |x|)), -(52 - Int.log 2 |x|), ?_, ?_⟩
  · have p : (0 : ℝ) < 2 ^ (52 - Int.log 2 |x|) := by positivity
    have lt : |x| < 2 ^ (Int.log 2 |x| + 1) := by
      have := Int.lt_zpow_succ_log_self (b := 2) (by norm_num) |x|
      exact_mod_cast this
    have h1 : |x * 2 ^ (52 - Int.log 2 |x|)| < 2 ^ 53 := by
      rw [abs_mul, abs_of_pos p]
      calc |x| * 2 ^ (52 - Int.log 2 |x|) < 2 ^ (Int.log 2 |x| + 1) * 2 ^ (52 - Int.log 2 |x|) := mul_lt_mul_of_pos_right lt p
        _ = 2 ^ (53 : ℤ) := by rw [← zpow_add₀ (by norm_num)]; congr 1; ring
        _ = 2 ^ 53 := by norm_cast
    have h2 := abs_sub_round (x * 2 ^ (52 - Int.log 2 |x|))
    have h3 := abs_sub_abs_le_abs_sub ((round (x * 2 ^ (52 - Int.log 2 |x|)) : ℤ) : ℝ) (x * 2 ^ (52 - Int.log 2 |x|))
    rw [abs_sub_comm] at h3
    have h4 : |((round (x * 2 ^ (52 - Int.log 2 |x|)) : ℤ) : ℝ)| < 2 ^ 53 + 1 := by linarith
    rw [← Int.cast_abs] at h4
    have : |round (x * 2 ^ (52 - Int.log 2 |x|))| < 2 ^ 53 + 1 := by exact_mod_cast h4
    omega
  · unfold fl53
    rw [zpow_neg, div_eq_mul_inv]

theorem NearestDouble.err {fl : ℝ → ℝ} (h : NearestDouble fl) (x : ℝ) : RelErr (2 ^ (-53 : ℤ)) (fl x) x :=
  ((h x).2 _ (fl53_rep x)).trans (fl53_err x)

/-- A number with 53 bits is found from an approximation. -/
theorem NearestDouble.exact {fl : ℝ → ℝ} (h : NearestDouble fl) {x y δ : ℝ} (hy : Rep53 y) (hx : |x - y| ≤ δ * |y|) (hδ : δ < 1 / 2 ^ 55) :
    fl x = y := by
  obtain ⟨h1, h2⟩ := h x
  have h3 := h2 y hy
  by_contra hne
  have h4 := hy.gap h1 hne
  have h5 : |fl x - y| ≤ |fl x - x| + |x - y| := abs_sub_le _ _ _
  rw [abs_sub_comm] at h3
  rw [abs_sub_comm] at hx
  have h6 : |fl x - y| ≤ 2 * (δ * |y|) := by
    have e1 : |x - y| = |y - x| := abs_sub_comm _ _
    have e2 : |fl x - x| = |x - fl x| := abs_sub_comm _ _
    linarith
  have hy0 : 0 ≤ |y| := abs_nonneg y
  have hpos : 0 < |fl x - y| := abs_pos.2 (sub_ne_zero.2 hne)
  have hyp : 0 < |y| := by
    rcases hy0.eq_or_lt with e | e
    · rw [← e] at h6; linarith
    · exact e
  nlinarith

theorem NearestDouble.rep {fl : ℝ → ℝ} (h : NearestDouble fl) {y : ℝ} (hy : Rep53 y) : fl y = y :=
  h.exact (δ := 0) hy (by simp) (by norm_num)

/-! ## The tables -/

theorem gen_binomialF_eq (M : MpOps) (junk : ℕ → ℝ) {L : ℤ} (hL : 0 ≤ L) :
    gen_binomialF M junk L = .ok ((binList (2 * L)).map fun p => M.float (M.binomial p.1 p.2)) := by
  have hl := binList_length2 (b := 2 * L) (by omega)
  unfold gen_binomialF
  have hsz : ((2 * L + 1) * (2 * L + 2)) / 2 = ((binList (2 * L)).length : ℤ) := by
    rw [← hl]; omega
  rw [hsz, npEmpty_ok (by omega), bind_ok]
  have := forL_fill_wr (binList (2 * L)) (fun p => M.float (M.binomial p.1 p.2))
    ((List.range (((binList (2 * L)).length : ℤ)).toNat).map junk) (by simp)
  have h2 : forL (binList (2 * L)) (σ := ℤ × List ℝ) = forL ((pyRange 0 (2 * L + 1)).flatMap
    fun n => (pyRange 0 (n + 1)).map fun k => (n, k)) := rfl
  rw [h2, forL_flatMap] at this
  simp only [forL_map] at this
  rw [this]
  rfl

theorem gen_ladderF_eq (M : MpOps) (junk : ℕ → ℝ) {L : ℤ} (hL : 0 ≤ L) :
    gen_ladderF M junk L = .ok ((ladList (2 * L)).map fun p => ladder_entryF M p.1 p.2) := by
  have hl := ladList_length2 (b := 2 * L) (by omega)
  unfold gen_ladderF
  have hsz : (2 * L + 3) * L + 1 = ((ladList (2 * L)).length : ℤ) := by
    have : 2 * ((2 * L + 3) * L + 1) = 2 * ((ladList (2 * L)).length : ℤ) := by rw [hl]; ring
    omega
  rw [hsz, npEmpty_ok (by omega), bind_ok]
  have := forL_fill_wr (ladList (2 * L)) (fun p => ladder_entryF M p.1 p.2)
    ((List.range (((ladList (2 * L)).length : ℤ)).toNat).map junk) (by simp)
  have h2 : forL (ladList (2 * L)) (σ := ℤ × List ℝ) = forL ((pyRange 0 (2 * L + 1)).flatMap
    fun n => (pyRange2 (-n) (n + 1)).map fun k => (n, k)) := rfl
  rw [h2, forL_flatMap] at this
  simp only [forL_map] at this
  rw [this]
  rfl

theorem gen_WignerF_eq (M : MpOps) (junk : ℕ → ℝ) {L : ℤ} (hL : 0 ≤ L) :
    gen_WignerF M junk L = .ok ((TwoList 0 (2 * L)).map fun p => wigner_entryF M p.1 p.2.1 p.2.2) := by
  have hl := TwoList_length6 (a := 0) (b := 2 * L) le_rfl (by omega)
  unfold gen_WignerF
  have hsz : (8 * L ^ 3 + 18 * L ^ 2 + 13 * L + 3) / 3 = ((TwoList 0 (2 * L)).length : ℤ) := by
    have : 2 * (8 * L ^ 3 + 18 * L ^ 2 + 13 * L + 3) = 6 * ((TwoList 0 (2 * L)).length : ℤ) := by
      rw [hl]; ring
    omega
  rw [hsz, npEmpty_ok (by omega), bind_ok]
  have := forL_fill_wr (TwoList 0 (2 * L)) (fun p => wigner_entryF M p.1 p.2.1 p.2.2)
    ((List.range (((TwoList 0 (2 * L)).length : ℤ)).toNat).map junk) (by simp)
  have h2 : forL (TwoList 0 (2 * L)) (σ := ℤ × List ℝ)
    = forL ((pyRange 0 (2 * L + 1)).flatMap TwoBlock) := rfl
  rw [h2, forL_flatMap] at this
  simp only [TwoBlock, forL_flatMap, forL_map] at this
  rw [this]
  rfl

section
variable {M : MpOps} {ε : ℝ} (hM : M.Std ε)
include hM

theorem MpOps.Std.lt_one : ε < 1 := lt_of_le_of_lt hM.ε_small (by norm_num)

theorem MpOps.Std.gam12 : gam ε 12 ≤ 13 / 10 ^ 18 := by
  refine (gam_le hM.ε_nonneg hM.lt_one (by have := hM.ε_small; norm_num at this ⊢; linarith)).trans ?_
  have h1 := hM.ε_small
  have h0 := hM.ε_nonneg
  rw [div_le_iff₀ (by norm_num at h1 ⊢; linarith)]
  norm_num at h1 ⊢
  linarith

/-- Converting an approximation with error `13e-18` to double precision. -/
theorem MpOps.Std.conv {x y : ℝ} (h : |x - y| ≤ 13 / 10 ^ 18 * |y|) :
    |M.float x - y| ≤ (2 ^ (-53 : ℤ) + 14 / 10 ^ 18) * |y| ∧ (Rep53 y → M.float x = y) := by
  refine ⟨?_, fun hy => hM.float.exact hy h (by norm_num)⟩
  have h1 := hM.float.err x
  unfold RelErr at h1
  have h2 : |M.float x - y| ≤ |M.float x - x| + |x - y| := abs_sub_le _ _ _
  have h3 : |x| ≤ (1 + 13 / 10 ^ 18) * |y| := by
    have := abs_sub_abs_le_abs_sub x y
    linarith
  have hy := abs_nonneg y
  norm_num at h1 h h3 ⊢
  linarith

/-- `factorial(n)` for `n ≤ 170` is the nearest double to `n!`: relative error `2^-53`, exact for `n ≤ 22`. -/
theorem C92_factorial (n : ℕ) (hn : n ≤ 170) :
    ∃ v, factorialF M n = .ok v ∧ |v - n.factorial| ≤ 2 ^ (-53 : ℤ) * n.factorial ∧ (n ≤ 22 → v = n.factorial) := by
  have h0 : (0 : ℝ) ≤ n.factorial := by positivity
  refine ⟨M.float (n.factorial : ℝ), ?_, ?_, ?_⟩
  · refine rd_ok (by omega) ?_
    have : n < 171 := by omega
    simp [factorialsF, this]
  · have := hM.float.err (n.factorial : ℝ)
    unfold RelErr at this
    rwa [abs_of_nonneg h0] at this
  · intro h22
    apply hM.float.rep
    by_cases h18 : n ≤ 18
    · have h1 : n.factorial ≤ Nat.factorial 18 := Nat.factorial_le h18
      have h2 : Nat.factorial 18 ≤ 2 ^ 53 := by norm_num [Nat.factorial]
      have : ((n.factorial : ℕ) : ℝ) = ((n.factorial : ℤ) : ℝ) := by push_cast; rfl
      rw [this]
      exact Rep53.int (by rw [abs_of_nonneg (by positivity)]; exact_mod_cast h1.trans h2)
    · obtain rfl | rfl | rfl | rfl : n = 19 ∨ n = 20 ∨ n = 21 ∨ n = 22 := by omega
      · exact ⟨1856156927625, 16, by norm_num, by norm_num [Nat.factorial]⟩
      · exact ⟨9280784638125, 18, by norm_num, by norm_num [Nat.factorial]⟩
      · exact ⟨194896477400625, 18, by norm_num, by norm_num [Nat.factorial]⟩
      · exact ⟨2143861251406875, 19, by norm_num, by norm_num [Nat.factorial]⟩

/-- `binomial_coefficient(n, k)`: relative error `2^-53 + 14e-18`, and exact whenever `C(n,k)` has 53 significant bits, in particular
for all `n ≤ 56`. -/
theorem C92_binomial (junk : ℕ → ℝ) (L : ℤ) (hL : 0 ≤ L) :
    ∃ table, gen_binomialF M junk L = .ok table ∧ ∀ n k : ℕ, k ≤ n → (n : ℤ) ≤ 2 * L →
      ∃ v, binomial_coefficient table n k = .ok v ∧ |v - n.choose k| ≤ (2 ^ (-53 : ℤ) + 14 / 10 ^ 18) * n.choose k ∧
        (Rep53 (n.choose k) → v = n.choose k) ∧ (n ≤ 56 → v = n.choose k) := by
  refine ⟨_, gen_binomialF_eq M junk hL, fun n k hkn hn => ?_⟩
  obtain ⟨h1, h2⟩ := binList_index (b := 2 * L) (n := n) (k := k) (by omega) (by omega) hn
  have hp : |((n.choose k : ℕ) : ℝ)| = n.choose k := abs_of_nonneg (by positivity)
  have hc := hM.conv (x := M.binomial n k) (y := (n.choose k : ℝ)) ((hM.binomial n k hkn).trans (by
    rw [hp]
    refine mul_le_mul_of_nonneg_right (hM.ε_small.trans (by norm_num)) (by positivity)))
  rw [hp] at hc
  refine ⟨M.float (M.binomial n k), rd_ok h1 (by rw [List.getElem?_map, h2]; rfl), hc.1, hc.2, fun h56 => hc.2 ?_⟩
  have b1 : n.choose k ≤ Nat.choose 56 28 := by
    refine (Nat.choose_le_choose k h56).trans ?_
    exact Nat.choose_le_middle k 56
  have b2 : Nat.choose 56 28 ≤ 2 ^ 53 := by
    rw [show Nat.choose 56 28 = 7648690600760440 by norm_num [Nat.choose_eq_factorial_div_factorial, Nat.factorial]]
    norm_num
  have : ((n.choose k : ℕ) : ℝ) = ((n.choose k : ℤ) : ℝ) := by push_cast; rfl
  rw [this]
  exact Rep53.int (by rw [abs_of_nonneg (by positivity)]; exact_mod_cast b1.trans b2)

/-- `ladder_operator_coefficient(ell, m)`: relative error `2^-53 + 14e-18` and exact whenever `sqrt((ell-m)(ell+m+1))` has 53 significant bits,
in particular exactly zero for `m = ell`. -/
theorem C92_ladder (junk : ℕ → ℝ) (L : ℤ) (hL : 0 ≤ L) (hL' : L ≤ 2 ^ 25) :
    ∃ table, gen_ladderF M junk L = .ok table ∧
      ∀ twoell twom : ℤ, |twom| ≤ twoell → twoell ≤ 2 * L → (twoell - twom) % 2 = 0 →
        ∃ v, ladder_operator_coefficient table ((twoell : ℚ) / 2) ((twom : ℚ) / 2) = .ok v ∧
          |v - Real.sqrt (((twoell : ℝ) / 2 - (twom : ℝ) / 2) * ((twoell : ℝ) / 2 + (twom : ℝ) / 2 + 1))|
            ≤ (2 ^ (-53 : ℤ) + 14 / 10 ^ 18) * Real.sqrt (((twoell : ℝ) / 2 - (twom : ℝ) / 2) * ((twoell : ℝ) / 2 + (twom : ℝ) / 2 + 1)) ∧
          (Rep53 (Real.sqrt (((twoell : ℝ) / 2 - (twom : ℝ) / 2) * ((twoell : ℝ) / 2 + (twom : ℝ) / 2 + 1))) →
            v = Real.sqrt (((twoell : ℝ) / 2 - (twom : ℝ) / 2) * ((twoell : ℝ) / 2 + (twom : ℝ) / 2 + 1))) ∧
          (twom = twoell → v = 0) := by
  refine ⟨_, gen_ladderF_eq M junk hL, ?_⟩
  intro n k hk hn hpar
  rw [abs_le] at hk
  have r1 : pyRound (2 * ((n : ℚ) / 2)) = n := by
    rw [mul_div_cancel₀ _ (by norm_num : (2 : ℚ) ≠ 0)]; exact pyRound_intCast n
  have r2 : pyRound (2 * ((k : ℚ) / 2)) = k := by
    rw [mul_div_cancel₀ _ (by norm_num : (2 : ℚ) ≠ 0)]; exact pyRound_intCast k
  unfold ladder_operator_coefficient ladder_operator_coefficient_two
  rw [r1, r2]
  obtain ⟨h1, h2⟩ := ladList_index (b := 2 * L) hk.1 hk.2 hn hpar
  obtain ⟨d, hd⟩ : ∃ d, n - k = 2 * d := ⟨(n - k) / 2, by omega⟩
  obtain rfl : n = k + 2 * d := by omega
  have e1 : (((k + 2 * d : ℤ) : ℝ) / 2 - (k : ℝ) / 2) * (((k + 2 * d : ℤ) : ℝ) / 2 + (k : ℝ) / 2 + 1) = ((d * (k + d + 1) : ℤ) : ℝ) := by
    push_cast; ring
  have e2 : (((k + 2 * d) * (k + 2 * d + 2) - k * (k + 2) : ℤ) : ℝ) / 4 = ((d * (k + d + 1) : ℤ) : ℝ) := by
    push_cast; ring
  have hd0 : 0 ≤ d := by omega
  have hs0 : 0 ≤ k + d + 1 := by omega
  have hi0 : 0 ≤ d * (k + d + 1) := mul_nonneg hd0 hs0
  have hi : |d * (k + d + 1)| ≤ 2 ^ 53 := by
    rw [abs_of_nonneg hi0]
    have a1 : d ≤ 2 ^ 26 := by omega
    have a2 : k + d + 1 ≤ 2 ^ 27 := by omega
    calc d * (k + d + 1) ≤ 2 ^ 26 * 2 ^ 27 := mul_le_mul a1 a2 hs0 (by norm_num)
      _ = 2 ^ 53 := by norm_num
  rw [e1]
  have hx : (0 : ℝ) ≤ ((d * (k + d + 1) : ℤ) : ℝ) := by exact_mod_cast hi0
  have hent : ladder_entryF M (k + 2 * d) k = M.float (M.sqrt ((d * (k + d + 1) : ℤ) : ℝ)) := by
    unfold ladder_entryF
    rw [e2, hM.float.rep (Rep53.int hi)]
  have hp : |Real.sqrt ((d * (k + d + 1) : ℤ) : ℝ)| = Real.sqrt ((d * (k + d + 1) : ℤ) : ℝ) := abs_of_nonneg (Real.sqrt_nonneg _)
  have hc := hM.conv (x := M.sqrt ((d * (k + d + 1) : ℤ) : ℝ)) (y := Real.sqrt ((d * (k + d + 1) : ℤ) : ℝ)) ((hM.sqrt _ hx).trans (by
    rw [hp]
    exact mul_le_mul_of_nonneg_right (hM.ε_small.trans (by norm_num)) (Real.sqrt_nonneg _)))
  rw [hp] at hc
  refine ⟨M.float (M.sqrt ((d * (k + d + 1) : ℤ) : ℝ)), rd_ok h1 (by rw [List.getElem?_map, h2, Option.map_some, hent]), hc.1, hc.2, fun hkn => ?_⟩
  obtain rfl : d = 0 := by omega
  have := hc.2
  simp only [zero_mul, Int.cast_zero, Real.sqrt_zero] at this ⊢
  exact this Rep53.zero

theorem wigner_entryF_near {p' q' p q : ℕ} (hsum : p' + q' = p + q) :
    ∃ x, wigner_entryF M (p + q) (p' - q') (p - q) = M.float x ∧ Near ε 12 x (wigner_entry (p + q) (p' - q') (p - q)) := by
  have hu0 := hM.ε_nonneg
  have hu1 := hM.lt_one
  have a1 : ((p : ℤ) + q + (p - q)) / 2 = (p : ℕ) := by omega
  have a2 : ((p : ℤ) + q - (p - q)) / 2 = (q : ℕ) := by omega
  have a3 : ((p : ℤ) + q + (p' - q')) / 2 = (p' : ℕ) := by omega
  have a4 : ((p : ℤ) + q - (p' - q')) / 2 = (q' : ℕ) := by omega
  have a5 : max 0 ((p' : ℤ) - q' - (p - q)) / 2 = ((p' - p : ℕ) : ℤ) := by omega
  have a6 : ((p : ℤ) + q - (p - q) - max 0 ((p' : ℤ) - q' - (p - q))) / 2 = ((q - (p' - p) : ℕ) : ℤ) := by omega
  have fac : ∀ n : ℕ, Near ε 1 (M.fac n) (n.factorial : ℝ) := fun n => by
    refine RelErr.fac hu0 hu1 ?_
    unfold RelErr
    rw [abs_of_nonneg (by positivity : (0 : ℝ) ≤ n.factorial)]
    exact hM.fac n
  have bin : ∀ n k : ℕ, k ≤ n → Near ε 1 (M.binomial n k) (n.choose k : ℝ) := fun n k h => by
    refine RelErr.fac hu0 hu1 ?_
    unfold RelErr
    rw [abs_of_nonneg (by positivity : (0 : ℝ) ≤ n.choose k)]
    exact hM.binomial n k h
  have mul : ∀ {k l : ℕ} {x' x y' y : ℝ}, Near ε k x' x → Near ε l y' y → Near ε (k + l + 1) (M.mul x' y') (x * y) := fun h g =>
    Near.trans hu0 hu1 (RelErr.fac hu0 hu1 (hM.mul _ _)) (Near.mul hu0 hu1 h g)
  have n1 := mul (fac p) (fac q)
  have n2 := mul (fac p') (fac q')
  have pos : ∀ a b : ℕ, (0 : ℝ) < a.factorial * b.factorial := fun a b => by positivity
  have n3 : Near ε (3 + 3 + 1) (M.div (M.mul (M.fac p) (M.fac q)) (M.mul (M.fac p') (M.fac q')))
      ((p.factorial * q.factorial : ℝ) / (p'.factorial * q'.factorial)) :=
    Near.trans hu0 hu1 (RelErr.fac hu0 hu1 (hM.div _ _ (n2.pos hu0 hu1 (pos p' q')).ne')) (Near.div hu0 hu1 n1 n2)
  have hpos : (0 : ℝ) < (p.factorial * q.factorial : ℝ) / (p'.factorial * q'.factorial) := div_pos (pos _ _) (pos _ _)
  have n4 : Near ε (7 + 1) (M.sqrt (M.div (M.mul (M.fac p) (M.fac q)) (M.mul (M.fac p') (M.fac q'))))
      (Real.sqrt ((p.factorial * q.factorial : ℝ) / (p'.factorial * q'.factorial))) := by
    refine Near.trans hu0 hu1 (RelErr.fac hu0 hu1 ?_) (Near.sqrt hu0 hu1 n3)
    have := hM.sqrt _ (n3.pos hu0 hu1 hpos).le
    unfold RelErr
    rwa [abs_of_nonneg (Real.sqrt_nonneg _)]
  have n5 := mul (mul n4 (bin p' (p' - p) (by omega))) (bin q' (q - (p' - p)) (by omega))
  have en : wigner_entry (p + q) (p' - q') (p - q) = Real.sqrt ((p.factorial * q.factorial : ℝ) / (p'.factorial * q'.factorial))
      * (p'.choose (p' - p)) * (q'.choose (q - (p' - p))) := by
    unfold wigner_entry mpFac mpBinomial
    dsimp only
    rw [a1, a2, a3, a4, a5, a6]
    simp only [Int.toNat_natCast]
  have n5' := n5
  rw [← en] at n5'
  refine Exists.intro _ (And.intro ?_ n5')
  unfold wigner_entryF
  dsimp only
  rw [a1, a2, a3, a4, a5, a6]

theorem wigner_entryF_ok {t : ℤ × ℤ × ℤ} {b : ℤ} (ht : t ∈ TwoList 0 b) :
    |wigner_entryF M t.1 t.2.1 t.2.2 - wigner_entry t.1 t.2.1 t.2.2| ≤ (2 ^ (-53 : ℤ) + 14 / 10 ^ 18) * |wigner_entry t.1 t.2.1 t.2.2| ∧
      (Rep53 (wigner_entry t.1 t.2.1 t.2.2) → wigner_entryF M t.1 t.2.1 t.2.2 = wigner_entry t.1 t.2.1 t.2.2) := by
  obtain ⟨n, mp, m⟩ := t
  simp only [TwoList, TwoBlock, List.mem_flatMap, List.mem_map, mem_pyRange, mem_pyRange2, Prod.mk.injEq] at ht
  obtain ⟨_, h1, _, h2, _, h3, rfl, rfl, rfl⟩ := ht
  rename_i n mp m
  obtain ⟨p, hp⟩ : ∃ p : ℕ, n + m = 2 * p := ⟨((n + m) / 2).toNat, by omega⟩
  obtain ⟨q, hq⟩ : ∃ q : ℕ, n - m = 2 * q := ⟨((n - m) / 2).toNat, by omega⟩
  obtain ⟨p', hp'⟩ : ∃ p : ℕ, n + mp = 2 * p := ⟨((n + mp) / 2).toNat, by omega⟩
  obtain ⟨q', hq'⟩ : ∃ q : ℕ, n - mp = 2 * q := ⟨((n - mp) / 2).toNat, by omega⟩
  obtain rfl : n = p + q := by omega
  obtain rfl : m = p - q := by omega
  obtain rfl : mp = p' - q' := by omega
  obtain ⟨x, e, hx⟩ := wigner_entryF_near hM (p' := p') (q' := q') (p := p) (q := q) (by omega)
  dsimp only
  rw [e]
  exact hM.conv ((hx.err hM.ε_nonneg hM.lt_one).trans (mul_le_mul_of_nonneg_right hM.gam12 (abs_nonneg _)))

/-- `Wigner_coefficient(ell, m', m)`, with `p' = ell+m'`, `q' = ell-m'`, `p = ell+m`, `q = ell-m` as in C07: relative error
`2^-53 + 14e-18`; exact whenever the exact value has 53 significant bits, in particular exactly 1 for `m' = m`. -/
theorem C92_Wigner_coefficient (junk : ℕ → ℝ) (L : ℤ) (hL : 0 ≤ L) :
    ∃ table, gen_WignerF M junk L = .ok table ∧
      ∀ p' q' p q : ℕ, p' + q' = p + q → ((p + q : ℕ) : ℤ) ≤ 2 * L →
        ∃ v, Wigner_coefficient table (((p + q : ℕ) : ℚ) / 2) (((p' : ℚ) - q') / 2) (((p : ℚ) - q) / 2) = .ok v ∧
          |v - Real.sqrt ((p.factorial * q.factorial : ℝ) / (p'.factorial * q'.factorial)) * (p'.choose (p' - p)) * (q'.choose (q - (p' - p)))|
            ≤ (2 ^ (-53 : ℤ) + 14 / 10 ^ 18) *
              (Real.sqrt ((p.factorial * q.factorial : ℝ) / (p'.factorial * q'.factorial)) * (p'.choose (p' - p)) * (q'.choose (q - (p' - p)))) ∧
          (Rep53 (Real.sqrt ((p.factorial * q.factorial : ℝ) / (p'.factorial * q'.factorial)) * (p'.choose (p' - p)) * (q'.choose (q - (p' - p)))) →
            v = Real.sqrt ((p.factorial * q.factorial : ℝ) / (p'.factorial * q'.factorial)) * (p'.choose (p' - p)) * (q'.choose (q - (p' - p)))) ∧
          (p' = p → v = 1) := by
  refine ⟨_, gen_WignerF_eq M junk hL, fun p' q' p q hsum hle => ?_⟩
  have r1 : pyRound (2 * (((p + q : ℕ) : ℚ) / 2)) = ((p + q : ℕ) : ℤ) := by
    rw [mul_div_cancel₀ _ (by norm_num : (2 : ℚ) ≠ 0)]
    exact pyRound_intCast ((p + q : ℕ) : ℤ)
  have r2 : pyRound (2 * (((p' : ℚ) - q') / 2)) = (p' : ℤ) - q' := by
    rw [mul_div_cancel₀ _ (by norm_num : (2 : ℚ) ≠ 0)]
    rw [← pyRound_intCast ((p' : ℤ) - q')]; push_cast; rfl
  have r3 : pyRound (2 * (((p : ℚ) - q) / 2)) = (p : ℤ) - q := by
    rw [mul_div_cancel₀ _ (by norm_num : (2 : ℚ) ≠ 0)]
    rw [← pyRound_intCast ((p : ℤ) - q)]; push_cast; rfl
  unfold Wigner_coefficient Wigner_coefficient_two
  rw [r1, r2, r3]
  obtain ⟨h1, h2⟩ := TwoList_index (b := 2 * L) (n := ((p + q : ℕ) : ℤ)) (mp := (p' : ℤ) - q')
    (m := (p : ℤ) - q) (by omega) hle (by omega) (by omega) (by omega) (by omega) (by omega)
    (by omega)
  have hok := wigner_entryF_ok hM (List.mem_of_getElem? h2)
  have hent : wigner_entry ((p + q : ℕ) : ℤ) ((p' : ℤ) - q') ((p : ℤ) - q)
      = Real.sqrt ((p.factorial * q.factorial : ℝ) / (p'.factorial * q'.factorial)) * (p'.choose (p' - p)) * (q'.choose (q - (p' - p))) := by
    simp only [wigner_entry, mpFac, mpBinomial]
    have a1 : ((((p + q : ℕ) : ℤ) + ((p : ℤ) - q)) / 2).toNat = p := by omega
    have a2 : ((((p + q : ℕ) : ℤ) - ((p : ℤ) - q)) / 2).toNat = q := by omega
    have a3 : ((((p + q : ℕ) : ℤ) + ((p' : ℤ) - q')) / 2).toNat = p' := by omega
    have a4 : ((((p + q : ℕ) : ℤ) - ((p' : ℤ) - q')) / 2).toNat = q' := by omega
    have a5 : (max 0 ((p' : ℤ) - q' - ((p : ℤ) - q)) / 2).toNat = p' - p := by omega
    have a6 : ((((p + q : ℕ) : ℤ) - ((p : ℤ) - q) - max 0 ((p' : ℤ) - q' - ((p : ℤ) - q))) / 2).toNat
        = q - (p' - p) := by omega
    rw [a1, a2, a3, a4, a5, a6]
  dsimp only at hok
  rw [hent] at hok
  have hp : (0 : ℝ) ≤ Real.sqrt ((p.factorial * q.factorial : ℝ) / (p'.factorial * q'.factorial)) * (p'.choose (p' - p)) *
      (q'.choose (q - (p' - p))) := by positivity
  rw [abs_of_nonneg hp] at hok
  refine ⟨_, rd_ok h1 (by rw [List.getElem?_map, h2, Option.map_some]), hok.1, hok.2, ?_⟩
  rintro rfl
  obtain rfl : q' = q := by omega
  have e : Real.sqrt ((p'.factorial * q'.factorial : ℝ) / (p'.factorial * q'.factorial)) * (p'.choose (p' - p')) * (q'.choose (q' - (p' - p'))) = 1 := by
    rw [div_self (by positivity)]
    simp
  have := hok.2
  rw [e] at this
  exact this ⟨1, 0, by norm_num, by simp⟩

/-- The table of the Wigner coefficients is what the theorems on rounding errors (C69, C70, C74, C78, C87, C90) assume. -/
theorem C92_RoundedTable {u : ℝ} (hu : 2 ^ (-53 : ℤ) + 14 / 10 ^ 18 ≤ u) (junk : ℕ → ℝ) (L : ℤ) (hL : 0 ≤ L) :
    ∃ table, gen_WignerF M junk L = .ok table ∧ RoundedTable u L table := by
  refine ⟨_, gen_WignerF_eq M junk hL, _, ⟨hL, junk, gen_Wigner_eq junk hL⟩, by simp, fun k x hx => ?_⟩
  rw [List.getElem?_map] at hx ⊢
  cases h : (TwoList 0 (2 * L))[k]? with
  | none => rw [h] at hx; cases hx
  | some t =>
    rw [h] at hx
    cases hx
    exact ⟨_, rfl, (wigner_entryF_ok hM (List.mem_of_getElem? h)).1.trans (mul_le_mul_of_nonneg_right hu (abs_nonneg _))⟩

/-- From the generator to the results: with the generated table and operations of relative error at most `2^-50`, every element with
`ell ≤ 8` at every unit rotor is within `1e-10` of the D function. -/
theorem C92_Wigner_D_element {u w : ℝ} {F : FloatOps} (hF : F.Std u w) (hu : 2 ^ (-53 : ℤ) + 14 / 10 ^ 18 ≤ u) (hu50 : u ≤ 2 ^ (-50 : ℤ))
    (hw : w ≤ 1 / 10 ^ 14) (junk : ℕ → ℝ) (L : ℤ) (hL : 0 ≤ L) :
    ∃ table, gen_WignerF M junk L = .ok table ∧ ∀ (Ra Rb : ℂ), Spec.IsUnit' Ra Rb → ∀ (indices : List (ℤ × ℤ × ℤ)) (elements : List ℂ),
      elements.length = indices.length → (∀ t ∈ indices, Lookable L t) →
      ∃ f : ℤ × ℤ × ℤ → ℂ, Wigner_D_element_kernelF F (1 / 10 ^ 15) table Ra Rb indices elements = .ok (indices.map f) ∧
        ∀ t ∈ indices, |t.2.1| ≤ t.1 → |t.2.2| ≤ t.1 → t.1 ≤ 16 → ‖f t - Spec.wignerD Ra Rb t.1 t.2.1 t.2.2‖ ≤ 1 / 10 ^ 10 := by
  obtain ⟨table, h1, h2⟩ := C92_RoundedTable hM hu junk L hL
  exact ⟨table, h1, fun Ra Rb hR indices elements hlen hi => C69_double hF hu50 hw h2 Ra Rb hR indices elements hlen hi⟩

end

/-! ## Limits -/

theorem not_rep_of_odd {k e : ℕ} (hk : k % 2 = 1) (hb : 2 ^ 53 < k) {x : ℝ} (hx : x = k * 2 ^ e) : ¬ Rep53 x := by
  rintro ⟨n, f, hn, rfl⟩
  rcases le_or_gt f e with h | h
  · obtain ⟨d, hd⟩ : ∃ d : ℕ, (e : ℤ) = f + d := ⟨(e - f).toNat, by omega⟩
    have : (n : ℝ) = ((k * 2 ^ d : ℤ) : ℝ) := by
      have p : (2 : ℝ) ^ f ≠ 0 := by positivity
      apply mul_right_cancel₀ p
      rw [hx, ← zpow_natCast, hd, zpow_add₀ (by norm_num), zpow_natCast]
      push_cast; ring
    have hn' : n = k * 2 ^ d := by exact_mod_cast this
    have : (1 : ℤ) ≤ 2 ^ d := one_le_pow₀ (by norm_num)
    have hk' : (2 : ℤ) ^ 53 < k := by exact_mod_cast hb
    rw [hn', abs_of_nonneg (by positivity)] at hn
    nlinarith
  · obtain ⟨d, hd⟩ : ∃ d : ℕ, f = e + (d + 1 : ℕ) := ⟨(f - e - 1).toNat, by omega⟩
    have : ((k : ℤ) : ℝ) = ((n * 2 ^ (d + 1) : ℤ) : ℝ) := by
      have p : (2 : ℝ) ^ e ≠ 0 := by positivity
      apply mul_right_cancel₀ p
      rw [Int.cast_natCast, ← hx, hd, zpow_add₀ (by norm_num), zpow_natCast, zpow_natCast]
      push_cast; ring
    have hk' : (k : ℤ) = n * 2 ^ (d + 1) := by exact_mod_cast this
    rw [pow_succ, ← mul_assoc] at hk'
    omega

/-- 23! has more than 53 significant bits: `factorial(23)` is not exact. -/
theorem C92_factorial_23 {M : MpOps} {ε : ℝ} (hM : M.Std ε) : ∃ v, factorialF M 23 = .ok v ∧ v ≠ (Nat.factorial 23 : ℕ) := by
  refine ⟨M.float ((Nat.factorial 23 : ℕ) : ℝ), rd_ok (by norm_num) (by simp [factorialsF]), fun h => ?_⟩
  have h1 := (hM.float ((Nat.factorial 23 : ℕ) : ℝ)).1
  rw [h] at h1
  exact not_rep_of_odd (k := 49308808782358125) (e := 19) (by decide) (by norm_num) (by norm_num [Nat.factorial]) h1

/-- C(57,25) has more than 53 significant bits: `binomial_coefficient(57, 25)` is not exact. -/
theorem C92_binomial_57 {M : MpOps} {ε : ℝ} (hM : M.Std ε) (junk : ℕ → ℝ) :
    ∃ table, gen_binomialF M junk 32 = .ok table ∧ ∃ v, binomial_coefficient table 57 25 = .ok v ∧ v ≠ (Nat.choose 57 25 : ℕ) := by
  refine ⟨_, gen_binomialF_eq M junk (by norm_num), ?_⟩
  obtain ⟨h1, h2⟩ := binList_index (b := 2 * 32) (n := 57) (k := 25) (by norm_num) (by norm_num) (by norm_num)
  refine ⟨M.float (M.binomial 57 25), rd_ok h1 (by rw [List.getElem?_map, h2]; rfl), fun h => ?_⟩
  have h3 := (hM.float (M.binomial 57 25)).1
  rw [h] at h3
  have e : Nat.choose 57 25 = 9929472283517787 := by norm_num [Nat.choose_eq_factorial_div_factorial, Nat.factorial]
  exact not_rep_of_odd (k := 9929472283517787) (e := 0) (by decide) (by norm_num) (by rw [e]; norm_num) h3

/-! ## The hypotheses are met -/

/-- `fl53` rounds to nearest. -/
theorem fl53_nearest : NearestDouble fl53 := by
  intro x
  refine ⟨fl53_rep x, ?_⟩
  rintro y ⟨n, e, hn, rfl⟩
  by_cases hx : x = 0
  · subst hx; simp [fl53]; positivity
  set L := Int.log 2 |x| with hL
  have p : (0 : ℝ) < 2 ^ (52 - L) := by positivity
  have l : (2 : ℝ) ^ L ≤ |x| := by
    have := Int.zpow_log_le_self (b := 2) (by norm_num) (abs_pos.mpr hx)
    exact_mod_cast this
  have e52 : (2 : ℝ) ^ L * 2 ^ (52 - L) = ((2 ^ 52 : ℤ) : ℝ) := by
    rw [← zpow_add₀ (by norm_num), show L + (52 - L) = 52 by ring]; norm_num
  have key : |x * 2 ^ (52 - L) - round (x * 2 ^ (52 - L))| ≤ |x * 2 ^ (52 - L) - n * 2 ^ e * 2 ^ (52 - L)| := by
    rcases le_or_gt ((2 : ℝ) ^ L) |(n : ℝ) * 2 ^ e| with h | h
    · have hz : ∃ z : ℤ, (n : ℝ) * 2 ^ e * 2 ^ (52 - L) = z := by
        have pe : (0 : ℝ) < 2 ^ e := by positivity
        rw [abs_mul, abs_of_pos pe] at h
        have hn' : |(n : ℝ)| ≤ 2 ^ 53 := by rw [← Int.cast_abs]; exact_mod_cast hn
        rcases le_or_gt (L - 52) e with h2 | h2
        · obtain ⟨d, hd⟩ : ∃ d : ℕ, e = L - 52 + d := ⟨(e - (L - 52)).toNat, by omega⟩
          refine ⟨n * 2 ^ d, ?_⟩
          rw [mul_assoc, ← zpow_add₀ (by norm_num), show e + (52 - L) = d by omega, zpow_natCast]
          push_cast; ring
        · have h3 : (2 : ℝ) ^ L ≤ 2 ^ (53 + e) := by
            rw [zpow_add₀ (by norm_num)]
            refine h.trans (mul_le_mul_of_nonneg_right (hn'.trans ?_) pe.le)
            norm_num
          have h4 : L ≤ 53 + e := (zpow_le_zpow_iff_right₀ (by norm_num : (1 : ℝ) < 2)).1 h3
          obtain rfl : e = L - 53 := by omega
          have h5 : (2 : ℝ) ^ 53 ≤ |(n : ℝ)| := by
            have : (2 : ℝ) ^ L = 2 ^ 53 * 2 ^ (L - 53) := by
              rw [show (2 : ℝ) ^ 53 = 2 ^ (53 : ℤ) by norm_num, ← zpow_add₀ (by norm_num)]; congr 1; ring
            rw [this] at h
            exact le_of_mul_le_mul_right h pe
          have h6 : |n| = 2 ^ 53 := by
            have : (2 : ℤ) ^ 53 ≤ |n| := by rw [← Int.cast_abs] at h5; exact_mod_cast h5
            omega
          have ec : (2 : ℝ) ^ (L - 53) * 2 ^ (52 - L) = 1 / 2 := by
            rw [← zpow_add₀ (by norm_num), show L - 53 + (52 - L) = -1 by ring]; norm_num
          rw [mul_assoc, ec]
          rcases abs_choice n with h7 | h7
          · exact ⟨2 ^ 52, by rw [show n = 2 ^ 53 by omega]; norm_num⟩
          · exact ⟨-2 ^ 52, by rw [show n = -2 ^ 53 by omega]; norm_num⟩
      obtain ⟨z, hz⟩ := hz
      rw [hz]
      exact round_le _ z
    · have a1 : |x * 2 ^ (52 - L) - round (x * 2 ^ (52 - L))| ≤ |x| * 2 ^ (52 - L) - 2 ^ L * 2 ^ (52 - L) := by
        have hge : 2 ^ L * 2 ^ (52 - L) ≤ |x| * 2 ^ (52 - L) := mul_le_mul_of_nonneg_right l p.le
        rcases le_total 0 x with h0 | h0
        · refine (round_le _ (2 ^ 52)).trans (le_of_eq ?_)
          rw [← e52]
          rw [abs_of_nonneg h0] at hge ⊢
          rw [abs_of_nonneg (by linarith)]
        · refine (round_le _ (-2 ^ 52)).trans (le_of_eq ?_)
          rw [show ((-2 ^ 52 : ℤ) : ℝ) = -((2 ^ 52 : ℤ) : ℝ) by push_cast; ring, ← e52]
          rw [abs_of_nonpos h0] at hge ⊢
          rw [abs_of_nonpos (by linarith)]
          ring
      have a2 : |x| - |(n : ℝ) * 2 ^ e| ≤ |x - n * 2 ^ e| := abs_sub_abs_le_abs_sub _ _
      have a3 : |x * 2 ^ (52 - L) - n * 2 ^ e * 2 ^ (52 - L)| = |x - n * 2 ^ e| * 2 ^ (52 - L) := by
        rw [← sub_mul, abs_mul, abs_of_pos p]
      rw [a3]
      refine a1.trans ?_
      rw [← sub_mul]
      exact mul_le_mul_of_nonneg_right (by linarith) p.le
  have e1 : fl53 x - x = (round (x * 2 ^ (52 - L)) - x * 2 ^ (52 - L)) / 2 ^ (52 - L) := by
    unfold fl53
    rw [← hL]
    field_simp
  have e2 : (n : ℝ) * 2 ^ e - x = (n * 2 ^ e * 2 ^ (52 - L) - x * 2 ^ (52 - L)) / 2 ^ (52 - L) := by
    field_simp
  rw [e1, e2, abs_div, abs_div, abs_of_pos p]
  rw [abs_sub_comm, abs_sub_comm (_ * _ * _)]
  exact div_le_div_of_nonneg_right key p.le

/-- Arithmetic with an error of `1e-20`, rounded to double precision. -/
noncomputable def exMp : MpOps where
  fac n := (Nat.factorial n.toNat : ℝ) * (1 + 1 / 10 ^ 20)
  binomial n k := (Nat.choose n.toNat k.toNat : ℝ) * (1 - 1 / 10 ^ 20)
  sqrt x := Real.sqrt x * (1 + 1 / 10 ^ 20)
  mul x y := x * y
  div x y := x / y * (1 - 1 / 10 ^ 20)
  float := fl53

theorem exMp_std : exMp.Std (1 / 10 ^ 20) where
  ε_nonneg := by norm_num
  ε_small := by norm_num
  fac n := by
    have : (0 : ℝ) ≤ n.factorial := by positivity
    simp only [exMp, Int.toNat_natCast]
    rw [show (n.factorial : ℝ) * (1 + 1 / 10 ^ 20) - n.factorial = 1 / 10 ^ 20 * n.factorial by ring, abs_of_nonneg (by positivity)]
  binomial n k _ := by
    have : (0 : ℝ) ≤ n.choose k := by positivity
    simp only [exMp, Int.toNat_natCast]
    rw [show (n.choose k : ℝ) * (1 - 1 / 10 ^ 20) - n.choose k = -(1 / 10 ^ 20 * n.choose k) by ring, abs_neg, abs_of_nonneg (by positivity)]
  sqrt x _ := by
    have := Real.sqrt_nonneg x
    simp only [exMp]
    rw [show Real.sqrt x * (1 + 1 / 10 ^ 20) - Real.sqrt x = 1 / 10 ^ 20 * Real.sqrt x by ring, abs_of_nonneg (by positivity)]
  mul x y := by simp only [exMp, sub_self, abs_zero]; positivity
  div x y _ := by
    simp only [exMp]
    rw [show x / y * (1 - 1 / 10 ^ 20) - x / y = -(1 / 10 ^ 20 * (x / y)) by ring, abs_neg, abs_mul, abs_of_pos (by norm_num : (0 : ℝ) < 1 / 10 ^ 20)]
  float := fl53_nearest

/-- With this arithmetic and the shipped limit: `binomial_coefficient(10, 3)` is exactly 120. -/
example : ∃ table, gen_binomialF exMp (fun _ => 7) 32 = .ok table ∧ binomial_coefficient table 10 3 = .ok 120 := by
  obtain ⟨t, h1, h2⟩ := C92_binomial exMp_std (fun _ => 7) 32 (by norm_num)
  obtain ⟨v, h3, _, _, h4⟩ := h2 10 3 (by norm_num) (by norm_num)
  refine ⟨t, h1, ?_⟩
  rw [h4 (by norm_num)] at h3
  rw [show ((10 : ℕ) : ℤ) = 10 by rfl, show ((3 : ℕ) : ℤ) = 3 by rfl] at h3
  rw [h3]
  norm_num [Nat.choose]

/-- `ladder_operator_coefficient(3/2, -1/2)` is exactly 2. -/
example : ∃ table, gen_ladderF exMp (fun _ => 7) 32 = .ok table ∧ ladder_operator_coefficient table (3 / 2) (-1 / 2) = .ok 2 := by
  obtain ⟨t, h1, h2⟩ := C92_ladder exMp_std (fun _ => 7) 32 (by norm_num) (by norm_num)
  obtain ⟨v, h3, _, h4, _⟩ := h2 3 (-1) (by norm_num) (by norm_num) (by norm_num)
  refine ⟨t, h1, ?_⟩
  have e : Real.sqrt ((((3 : ℤ) : ℝ) / 2 - ((-1 : ℤ) : ℝ) / 2) * (((3 : ℤ) : ℝ) / 2 + ((-1 : ℤ) : ℝ) / 2 + 1)) = 2 := by
    rw [show (((3 : ℤ) : ℝ) / 2 - ((-1 : ℤ) : ℝ) / 2) * (((3 : ℤ) : ℝ) / 2 + ((-1 : ℤ) : ℝ) / 2 + 1) = 2 ^ 2 by norm_num]
    exact Real.sqrt_sq (by norm_num)
  rw [e] at h4
  rw [h4 ⟨2, 0, by norm_num, by simp⟩] at h3
  rw [← h3]
  norm_num

/-- The generated Wigner table, `L = 32`, double precision. -/
example : ∃ table, gen_WignerF exMp (fun _ => 7) 32 = .ok table ∧ RoundedTable (2 ^ (-52 : ℤ)) 32 table :=
  C92_RoundedTable exMp_std (by norm_num) _ _ (by norm_num)

end SF
