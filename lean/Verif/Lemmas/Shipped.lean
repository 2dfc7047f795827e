import Verif.Model.ShippedTables
import Verif.Model.TablesFloat
import Verif.Lemmas.ShippedCheck
import Verif.Lemmas.Index
import Verif.Props.Tables
import Mathlib.Tactic.Positivity
import Mathlib.Tactic.FieldSimp
import Mathlib.Tactic.Linarith
import Mathlib.Tactic.NormNum

/-! # What the checks of Lemmas/ShippedCheck.lean mean -/

set_option autoImplicit false

namespace SF

/-! ## doubles -/

theorem sig_eq (w : ℕ) : sig w = (2 ^ 52 + w % 2 ^ 52) * 2 ^ (w / 2 ^ 52 - 1023) := rfl

theorem f64_eq_sig {w : ℕ} (h1 : 0x3ff0000000000000 ≤ w) (h2 : w ≤ 0x7fe0000000000001) : f64 w = (sig w : ℝ) / 2 ^ 52 := by
  have a1 : w / 2 ^ 63 % 2 = 0 := by omega
  obtain ⟨x, hx⟩ : ∃ x : ℕ, w / 2 ^ 52 = 1023 + x := ⟨w / 2 ^ 52 - 1023, by omega⟩
  have a2 : w / 2 ^ 52 % 2048 = 1023 + x := by omega
  have a3 : w / 2 ^ 52 - 1023 = x := by omega
  unfold f64
  rw [a1, a2, sig_eq, a3, if_neg (by omega), if_neg (by omega), one_mul]
  have a4 : (((1023 + x : ℕ) : ℤ) - 1075) = (x : ℤ) - 52 := by push_cast; ring
  rw [a4, zpow_sub₀ (by norm_num), zpow_natCast]
  push_cast
  norm_num
  ring

theorem sig_succ {w : ℕ} (h1 : 0x3ff0000000000000 ≤ w) :
    sig (w + 1) = (2 ^ 52 + w % 2 ^ 52 + 1) * 2 ^ (w / 2 ^ 52 - 1023) := by
  rw [sig_eq]
  by_cases h : w % 2 ^ 52 + 1 = 2 ^ 52
  · have b1 : (w + 1) % 2 ^ 52 = 0 := by omega
    have b2 : (w + 1) / 2 ^ 52 - 1023 = (w / 2 ^ 52 - 1023) + 1 := by omega
    rw [b1, b2, add_assoc, h, pow_succ]; ring
  · have b1 : (w + 1) % 2 ^ 52 = w % 2 ^ 52 + 1 := by omega
    have b2 : (w + 1) / 2 ^ 52 = w / 2 ^ 52 := by omega
    rw [b1, b2]; ring

/-- A double with biased exponent at least 1023 is `m 2^e`; the next double is `(m + 1) 2^e`. -/
theorem f64_form {w : ℕ} (h1 : 0x3ff0000000000000 ≤ w) (h2 : w ≤ 0x7fe0000000000000) :
    ∃ (m : ℕ) (e : ℤ), 2 ^ 52 ≤ m ∧ m < 2 ^ 53 ∧ f64 w = m * 2 ^ e ∧ f64 (w + 1) = (m + 1) * 2 ^ e := by
  refine ⟨2 ^ 52 + w % 2 ^ 52, ((w / 2 ^ 52 - 1023 : ℕ) : ℤ) - 52, by omega, by omega, ?_, ?_⟩
  · rw [f64_eq_sig h1 (by omega), sig_eq, zpow_sub₀ (by norm_num), zpow_natCast]
    push_cast
    norm_num
    ring
  · rw [f64_eq_sig (by omega) (by omega), sig_succ h1, zpow_sub₀ (by norm_num), zpow_natCast]
    push_cast
    norm_num
    ring

/-- No number with 53 significant bits lies strictly between a double and the next one. -/
theorem no_rep53_between {m : ℕ} {e : ℤ} (hm : 2 ^ 52 ≤ m) {y : ℝ} (hy : Rep53 y) (h1 : (m : ℝ) * 2 ^ e < y) : ((m : ℝ) + 1) * 2 ^ e ≤ y := by
  obtain ⟨n, f, hn, rfl⟩ := hy
  rcases le_or_gt e f with h | h
  · obtain ⟨d, rfl⟩ : ∃ d : ℕ, f = e + d := ⟨(f - e).toNat, by omega⟩
    rw [zpow_add₀ (by norm_num), zpow_natCast] at h1 ⊢
    have hp : (0 : ℝ) < 2 ^ e := zpow_pos (by norm_num) e
    have h3 : (m : ℝ) < n * 2 ^ d := by
      by_contra hc
      push Not at hc
      nlinarith
    have h4 : (m : ℤ) < n * 2 ^ d := by exact_mod_cast h3
    have h5 : ((m : ℝ) + 1) ≤ n * 2 ^ d := by exact_mod_cast h4
    nlinarith
  · exfalso
    obtain ⟨d, hd, rfl⟩ : ∃ d : ℕ, 1 ≤ d ∧ e = f + d := ⟨(e - f).toNat, by omega, by omega⟩
    rw [zpow_add₀ (by norm_num), zpow_natCast] at h1
    have hp : (0 : ℝ) < 2 ^ f := zpow_pos (by norm_num) f
    have h3 : (m : ℝ) * 2 ^ d < n := by
      by_contra hc
      push Not at hc
      nlinarith
    have h4 : (m : ℤ) * 2 ^ d < n := by exact_mod_cast h3
    have h5 : (2 : ℤ) ≤ 2 ^ d := by
      calc (2 : ℤ) = 2 ^ 1 := by norm_num
        _ ≤ 2 ^ d := pow_le_pow_right₀ (by norm_num) hd
    have h6 : (2 : ℤ) ^ 52 ≤ m := by exact_mod_cast hm
    have h7 := (abs_le.1 hn).2
    nlinarith

/-- What `bracketOk` means. -/
structure Bracket (n w S : ℕ) : Prop where
  lo : 0x3ff0000000000000 ≤ w
  hi : w ≤ 0x7fe0000000000000
  below : sig w ^ 2 ≤ S * 2 ^ 104
  above : S * 2 ^ 104 ≤ sig (w + 1) ^ 2
  strict : n ≤ 48 → S * 2 ^ 104 < sig (w + 1) ^ 2

theorem bracketOk_iff {n w S : ℕ} : bracketOk n w S = true ↔ Bracket n w S := by
  unfold bracketOk
  simp only [Bool.and_eq_true, Bool.or_eq_true, Nat.ble_eq]
  constructor
  · rintro ⟨⟨⟨h1, h2⟩, h3, h4⟩, h5⟩
    refine ⟨h1, h2, h3, h4, fun hn => ?_⟩
    rcases h5 with h5 | h5
    · omega
    · exact h5
  · rintro ⟨h1, h2, h3, h4, h5⟩
    refine ⟨⟨⟨h1, h2⟩, h3, h4⟩, ?_⟩
    rcases Nat.lt_or_ge 48 n with h | h
    · exact Or.inl h
    · exact Or.inr (h5 h)

theorem Bracket.le {n w S : ℕ} (h : Bracket n w S) : f64 w ≤ Real.sqrt S := by
  apply Real.le_sqrt_of_sq_le
  rw [f64_eq_sig h.lo (by have := h.hi; omega), div_pow, div_le_iff₀ (by positivity)]
  have := h.below
  have : (sig w : ℝ) ^ 2 ≤ S * 2 ^ 104 := by exact_mod_cast this
  calc _ ≤ _ := this
    _ = _ := by norm_num

theorem Bracket.ge {n w S : ℕ} (h : Bracket n w S) : Real.sqrt S ≤ f64 (w + 1) := by
  have h0 : (0 : ℝ) ≤ f64 (w + 1) := by
    rw [f64_eq_sig (by have := h.lo; omega) (by have := h.hi; omega)]; positivity
  rw [Real.sqrt_le_left h0]
  rw [f64_eq_sig (by have := h.lo; omega) (by have := h.hi; omega), div_pow, le_div_iff₀ (by positivity)]
  have := h.above
  have : (S : ℝ) * 2 ^ 104 ≤ (sig (w + 1) : ℝ) ^ 2 := by exact_mod_cast this
  calc _ = _ := by norm_num
    _ ≤ _ := this

theorem f64_rep53 {w : ℕ} (h1 : 0x3ff0000000000000 ≤ w) (h2 : w ≤ 0x7fe0000000000000) : Rep53 (f64 w) := by
  obtain ⟨m, e, _, h4, h5, _⟩ := f64_form h1 h2
  refine ⟨m, e, ?_, by rw [h5]; norm_num⟩
  rw [abs_of_nonneg (by positivity)]
  exact_mod_cast h4.le

theorem one_le_f64 {w : ℕ} (h1 : 0x3ff0000000000000 ≤ w) (h2 : w ≤ 0x7fe0000000000000) : 1 ≤ f64 w := by
  rw [f64_eq_sig h1 (by omega), le_div_iff₀ (by positivity), sig_eq, one_mul]
  have h3 : 1 ≤ 2 ^ (w / 2 ^ 52 - 1023) := Nat.one_le_two_pow
  have h4 : 2 ^ 52 ≤ (2 ^ 52 + w % 2 ^ 52) * 2 ^ (w / 2 ^ 52 - 1023) := by nlinarith [Nat.zero_le (w % 2 ^ 52)]
  exact_mod_cast h4

theorem f64_gap {w : ℕ} (h1 : 0x3ff0000000000000 ≤ w) (h2 : w ≤ 0x7fe0000000000000) : f64 (w + 1) - f64 w ≤ 2 ^ (-52 : ℤ) * f64 w := by
  obtain ⟨m, e, h3, _, h5, h6⟩ := f64_form h1 h2
  rw [h5, h6]
  have hp : (0 : ℝ) < 2 ^ e := zpow_pos (by norm_num) e
  have h3' : (2 : ℝ) ^ 52 ≤ m := by exact_mod_cast h3
  have : (1 : ℝ) ≤ 2 ^ (-52 : ℤ) * m := by
    calc (1 : ℝ) = 2 ^ (-52 : ℤ) * 2 ^ 52 := by norm_num
      _ ≤ _ := by gcongr
  nlinarith

/-- With the strict inequality, the double is the largest one that does not exceed the square root. -/
theorem Bracket.largest {n w S : ℕ} (h : Bracket n w S) (hn : n ≤ 48) {y : ℝ} (hy : Rep53 y) (hyc : y ≤ Real.sqrt S) : y ≤ f64 w := by
  by_contra hcon
  push Not at hcon
  obtain ⟨m, ex, m1, _, m3, m4⟩ := f64_form h.lo h.hi
  have h5 := no_rep53_between m1 hy (by rw [← m3]; exact hcon)
  rw [← m4] at h5
  have h6 : f64 (w + 1) ≤ Real.sqrt S := h5.trans hyc
  have l1 := h.lo
  have l2 := h.hi
  have e1 := f64_eq_sig (w := w + 1) (by omega) (by omega)
  rw [e1] at h6
  have h7 := (Real.le_sqrt' (by rw [← e1, m4]; exact mul_pos (Nat.cast_add_one_pos m) (zpow_pos (by norm_num) _))).1 h6
  rw [div_pow, div_le_iff₀ (by positivity), show ((2 : ℝ) ^ 52) ^ 2 = 2 ^ 104 by norm_num] at h7
  have h8 : sig (w + 1) ^ 2 ≤ S * 2 ^ 104 := by exact_mod_cast h7
  exact absurd (h.strict hn) (Nat.not_lt.2 h8)

/-! ## the squares of the coefficients -/

/-- The square of the coefficient. -/
def sqW (n p' p : ℕ) : ℕ := if p ≤ p' then p'.choose p * (n - p).choose (n - p') else p.choose p' * (n - p').choose (n - p)

theorem nextSq_eq {n p' p : ℕ} (h1 : p' ≤ n) (h2 : p < n) : nextSq n p' p (sqW n p' p) = sqW n p' (p + 1) := by
  unfold nextSq
  by_cases h : p < p'
  · rw [if_pos h]
    show sqW n p' p * (p' - p) ^ 2 / ((p + 1) * (n - p)) = _
    apply Nat.div_eq_of_eq_mul_left (Nat.mul_pos (by omega) (by omega))
    unfold sqW
    rw [if_pos h.le, if_pos (by omega)]
    have e1 := Nat.choose_succ_right_eq p' p
    obtain ⟨r, hr⟩ : ∃ r, n - p = r + 1 := ⟨n - p - 1, by omega⟩
    have e2 := Nat.choose_mul_succ_eq r (n - p')
    have e3 : n - (p + 1) = r := by omega
    have e4 : r + 1 - (n - p') = p' - p := by omega
    rw [e4] at e2
    rw [hr, e3]
    calc p'.choose p * (r + 1).choose (n - p') * (p' - p) ^ 2
        = (p'.choose p * (p' - p)) * ((r + 1).choose (n - p') * (p' - p)) := by ring
      _ = (p'.choose (p + 1) * (p + 1)) * (r.choose (n - p') * (r + 1)) := by rw [e1, e2]
      _ = _ := by ring
  · rw [if_neg h]
    show sqW n p' p * ((p + 1) * (n - p)) / (p + 1 - p') ^ 2 = _
    apply Nat.div_eq_of_eq_mul_left (by have : 0 < p + 1 - p' := by omega
                                        positivity)
    unfold sqW
    rw [if_neg (show ¬ p + 1 ≤ p' by omega)]
    have e1 := Nat.choose_mul_succ_eq p p'
    obtain ⟨q, hq⟩ : ∃ q, n - p = q + 1 := ⟨n - p - 1, by omega⟩
    have e3 : n - (p + 1) = q := by omega
    have e2 := Nat.choose_succ_right_eq (n - p') q
    have e4 : n - p' - q = p + 1 - p' := by omega
    rw [e4] at e2
    have e5 : (if p ≤ p' then p'.choose p * (n - p).choose (n - p') else p.choose p' * (n - p').choose (n - p)) = p.choose p' * (n - p').choose (n - p) := by
      split_ifs with hh
      · obtain rfl : p = p' := by omega
        simp
      · rfl
    rw [e5, hq, e3]
    calc p.choose p' * (n - p').choose (q + 1) * ((p + 1) * (q + 1))
        = (p.choose p' * (p + 1)) * ((n - p').choose (q + 1) * (q + 1)) := by ring
      _ = ((p + 1).choose p' * (p + 1 - p')) * ((n - p').choose q * (p + 1 - p')) := by rw [e1, e2]
      _ = _ := by ring

theorem sqW_zero {n p' : ℕ} (h : p' ≤ n) : sqW n p' 0 = n.choose p' := by
  unfold sqW
  simp [Nat.choose_symm h]

theorem next_choose {n p' : ℕ} : n.choose p' * (n - p') / (p' + 1) = n.choose (p' + 1) := by
  apply Nat.div_eq_of_eq_mul_left (by omega)
  exact (Nat.choose_succ_right_eq n p').symm

/-! ## rows and blocks -/

theorem forall2_append {α β : Type} {R : α → β → Prop} {a c : List α} {b d : List β} (h1 : List.Forall₂ R a b) (h2 : List.Forall₂ R c d) :
    List.Forall₂ R (a ++ c) (b ++ d) := by
  induction h1 with
  | nil => exact h2
  | cons h _ ih => exact List.Forall₂.cons h ih

theorem rowOk_sound {n p' : ℕ} (hp' : p' ≤ n) : ∀ (k p N : ℕ), p + k = n + 1 → rowOk n p' k p (sqW n p' p) N = true →
    List.Forall₂ (fun j w => Bracket n w (sqW n p' j)) (List.range' p k) (words k N) := by
  intro k
  induction k with
  | zero => intro p N _ _; exact List.Forall₂.nil
  | succ k ih =>
    intro p N hk h
    unfold rowOk at h
    rw [Bool.and_eq_true] at h
    obtain ⟨h1, h2⟩ := h
    rw [List.range'_succ]
    refine List.Forall₂.cons (bracketOk_iff.1 h1) ?_
    rcases k with _ | k
    · exact List.Forall₂.nil
    · rw [nextSq_eq hp' (by omega)] at h2
      exact ih (p + 1) (N / 2 ^ 64) (by omega) h2

theorem blockOk_sound {n : ℕ} : ∀ (rows : List ℕ) (p' : ℕ), p' ≤ n + 1 → blockOk n rows p' (n.choose p') = true →
    List.Forall₂ (fun (j : ℕ × ℕ) w => Bracket n w (sqW n j.1 j.2))
      ((List.range' p' (n + 1 - p')).flatMap fun a => (List.range' 0 (n + 1)).map fun b => (a, b)) (rows.flatMap (words (n + 1))) := by
  intro rows
  induction rows with
  | nil =>
    intro p' _ h
    have : p' = n + 1 := Nat.eq_of_beq_eq_true h
    subst this
    simp
  | cons N rows ih =>
    intro p' hp h
    unfold blockOk at h
    rw [Bool.and_eq_true] at h
    obtain ⟨h1, h2⟩ := h
    rcases Nat.lt_or_ge n p' with hlt | hle
    · exfalso
      have : p' = n + 1 := by omega
      subst this
      rw [Nat.choose_succ_self] at h1
      unfold rowOk at h1
      rw [Bool.and_eq_true] at h1
      have := bracketOk_iff.1 h1.1
      have h3 := this.below
      rw [sig_eq] at h3
      generalize Nat.mod N 0x10000000000000000 = w at h3
      have h4 : 0 < ((2 ^ 52 + w % 2 ^ 52) * 2 ^ (w / 2 ^ 52 - 1023)) ^ 2 :=
        Nat.pow_pos (Nat.mul_pos (Nat.add_pos_left (Nat.two_pow_pos 52) _) (Nat.two_pow_pos _))
      rw [zero_mul] at h3
      exact absurd h3 (Nat.not_le.2 h4)
    · have e : n + 1 - p' = (n + 1 - (p' + 1)) + 1 := by omega
      rw [e, List.range'_succ (s := p'), List.flatMap_cons, List.flatMap_cons]
      refine forall2_append ?_ (ih (p' + 1) (by omega) ?_)
      · rw [List.forall₂_map_left_iff]
        exact rowOk_sound hle (n + 1) 0 N (by omega) (by rw [sqW_zero hle]; exact h1)
      · rw [← next_choose]; exact h2

/-- All blocks are checked. -/
def AllOk : List (List ℕ) → ℕ → Prop
  | [], n => n = 65
  | r :: rs, n => blockOk n r 0 1 = true ∧ AllOk rs (n + 1)

theorem allOk_sound : ∀ (data : List (List ℕ)) (n : ℕ), n ≤ 65 → AllOk data n →
    List.Forall₂ (fun (j : ℕ × ℕ × ℕ) w => Bracket j.1 w (sqW j.1 j.2.1 j.2.2))
      ((List.range' n (65 - n)).flatMap fun a => (List.range' 0 (a + 1)).flatMap fun b => (List.range' 0 (a + 1)).map fun c => (a, b, c))
      ((data.zipIdx n).flatMap fun b => b.1.flatMap (words (b.2 + 1))) := by
  intro data
  induction data with
  | nil =>
    intro n _ h
    have : n = 65 := h
    subst this
    simp
  | cons r rs ih =>
    intro n hn h
    obtain ⟨h1, h2⟩ := h
    rcases Nat.lt_or_ge n 65 with hlt | hge
    · have e : 65 - n = (65 - (n + 1)) + 1 := by omega
      rw [e, List.range'_succ, List.flatMap_cons, List.zipIdx_cons, List.flatMap_cons]
      refine forall2_append ?_ (ih (n + 1) (by omega) h2)
      have := blockOk_sound (n := n) r 0 (by omega) (by rw [Nat.choose_zero_right]; exact h1)
      rw [Nat.sub_zero] at this
      have g := (List.forall₂_map_left_iff (f := fun j : ℕ × ℕ => (n, j.1, j.2))
        (R := fun (j : ℕ × ℕ × ℕ) w => Bracket j.1 w (sqW j.1 j.2.1 j.2.2))).2 this
      rw [List.map_flatMap] at g
      simpa only [List.map_map, Function.comp_def] using g
    · exfalso
      have : n = 65 := by omega
      subst this
      have : ∀ (rs : List (List ℕ)) (n : ℕ), 65 < n → ¬ AllOk rs n := by
        intro rs
        induction rs with
        | nil => intro n hn h; have : n = 65 := h; omega
        | cons r rs ih => intro n hn h; exact ih (n + 1) (by omega) h.2
      exact this rs 66 (by omega) h2

/-! ## the binomial coefficients -/

/-- What `binRowOk` says about one entry. -/
structure BinEntry (w C : ℕ) : Prop where
  lo : 0x3ff0000000000000 ≤ w
  hi : w ≤ 0x7fe0000000000000
  below : 2 * sig w ≤ C * (2 ^ 53 + 1)
  above : C * (2 ^ 53 - 1) ≤ 2 * sig w
  cases : sig w = C * 2 ^ 52 ∨
    2 ^ 53 < C ∧ sig (w - 1) + sig w ≤ C * 2 ^ 53 ∧ C * 2 ^ 53 ≤ sig w + sig (w + 1) ∧ 0x3ff0000000000001 ≤ w

theorem binRowOk_sound {n : ℕ} : ∀ (k p N : ℕ), p + k = n + 1 → binRowOk n k p (n.choose p) N = true →
    List.Forall₂ (fun j w => BinEntry w (n.choose j)) (List.range' p k) (words k N) := by
  intro k
  induction k with
  | zero => intro p N _ _; exact List.Forall₂.nil
  | succ k ih =>
    intro p N hk h
    unfold binRowOk at h
    simp only [Bool.and_eq_true, Bool.or_eq_true, Nat.ble_eq] at h
    obtain ⟨⟨⟨h1, h2⟩, ⟨h3, h4⟩, h5⟩, h6⟩ := h
    rw [List.range'_succ]
    refine List.Forall₂.cons ⟨h1, h2, h3, h4, ?_⟩ ?_
    · rcases h5 with h5 | h5
      · obtain ⟨⟨⟨g1, g2⟩, g3⟩, g4⟩ := h5
        exact Or.inr ⟨g1, g2, g3, g4⟩
      · exact Or.inl (Nat.eq_of_beq_eq_true h5)
    · have e : Nat.div (Nat.mul (n.choose p) (Nat.sub n p)) (Nat.succ p) = n.choose (p + 1) := next_choose
      rw [e] at h6
      exact ih (p + 1) (N / 2 ^ 64) (by omega) h6

theorem binOk_sound : ∀ (data : List ℕ) (n : ℕ), n ≤ 65 → binOk data n = true →
    List.Forall₂ (fun (j : ℕ × ℕ) w => BinEntry w (j.1.choose j.2))
      ((List.range' n (65 - n)).flatMap fun a => (List.range' 0 (a + 1)).map fun b => (a, b))
      ((data.zipIdx n).flatMap fun b => words (b.2 + 1) b.1) := by
  intro data
  induction data with
  | nil =>
    intro n _ h
    have : n = 65 := Nat.eq_of_beq_eq_true h
    subst this
    simp
  | cons r rs ih =>
    intro n hn h
    unfold binOk at h
    rw [Bool.and_eq_true] at h
    obtain ⟨h1, h2⟩ := h
    rcases Nat.lt_or_ge n 65 with hlt | hge
    · have e : 65 - n = (65 - (n + 1)) + 1 := by omega
      rw [e, List.range'_succ, List.flatMap_cons, List.zipIdx_cons, List.flatMap_cons]
      refine forall2_append ?_ (ih (n + 1) (by omega) h2)
      rw [List.forall₂_map_left_iff]
      exact binRowOk_sound (n + 1) 0 r (by omega) (by rw [Nat.choose_zero_right]; exact h1)
    · exfalso
      have : n = 65 := by omega
      subst this
      have : ∀ (rs : List ℕ) (n : ℕ), 65 < n → ¬ binOk rs n = true := by
        intro rs
        induction rs with
        | nil => intro n hn h; have : n = 65 := Nat.eq_of_beq_eq_true h; omega
        | cons r rs ih => intro n hn h; unfold binOk at h; rw [Bool.and_eq_true] at h; exact ih (n + 1) (by omega) h.2
      exact this rs 66 (by omega) h2

/-! ## the ladder coefficients -/

/-- What `ladRowOk` says about one entry. -/
def LadEntry (w n p : ℕ) : Prop :=
  (p = n ∧ w = 0) ∨ (p ≠ n ∧ Bracket 0 w ((n - p) * (p + 1)))

theorem ladRowOk_sound {n : ℕ} : ∀ (k p N : ℕ), p + k = n + 1 → ladRowOk n k p N = true →
    List.Forall₂ (fun j w => LadEntry w n j) (List.range' p k) (words k N) := by
  intro k
  induction k with
  | zero => intro p N _ _; exact List.Forall₂.nil
  | succ k ih =>
    intro p N hk h
    unfold ladRowOk at h
    rw [Bool.and_eq_true] at h
    obtain ⟨h1, h2⟩ := h
    rw [List.range'_succ]
    refine List.Forall₂.cons ?_ (ih (p + 1) (N / 2 ^ 64) (by omega) h2)
    by_cases hp : p = n
    · rw [if_pos hp] at h1
      exact Or.inl ⟨hp, Nat.eq_of_beq_eq_true h1⟩
    · rw [if_neg hp] at h1
      exact Or.inr ⟨hp, bracketOk_iff.1 h1⟩

theorem ladOk_sound : ∀ (data : List ℕ) (n : ℕ), n ≤ 65 → ladOk data n = true →
    List.Forall₂ (fun (j : ℕ × ℕ) w => LadEntry w j.1 j.2)
      ((List.range' n (65 - n)).flatMap fun a => (List.range' 0 (a + 1)).map fun b => (a, b))
      ((data.zipIdx n).flatMap fun b => words (b.2 + 1) b.1) := by
  intro data
  induction data with
  | nil =>
    intro n _ h
    have : n = 65 := Nat.eq_of_beq_eq_true h
    subst this
    simp
  | cons r rs ih =>
    intro n hn h
    unfold ladOk at h
    rw [Bool.and_eq_true] at h
    obtain ⟨h1, h2⟩ := h
    rcases Nat.lt_or_ge n 65 with hlt | hge
    · have e : 65 - n = (65 - (n + 1)) + 1 := by omega
      rw [e, List.range'_succ, List.flatMap_cons, List.zipIdx_cons, List.flatMap_cons]
      refine forall2_append ?_ (ih (n + 1) (by omega) h2)
      rw [List.forall₂_map_left_iff]
      exact ladRowOk_sound (n + 1) 0 r (by omega) h1
    · exfalso
      have : n = 65 := by omega
      subst this
      have : ∀ (rs : List ℕ) (n : ℕ), 65 < n → ¬ ladOk rs n = true := by
        intro rs
        induction rs with
        | nil => intro n hn h; have : n = 65 := Nat.eq_of_beq_eq_true h; omega
        | cons r rs ih => intro n hn h; unfold ladOk at h; rw [Bool.and_eq_true] at h; exact ih (n + 1) (by omega) h.2
      exact this rs 66 (by omega) h2

end SF
