import Verif.Lemmas.Tri
import Mathlib.Algebra.BigOperators.Intervals
import Mathlib.Order.Interval.Finset.Basic
import Mathlib.Data.Int.Interval

/-!
# The two-sided recursion of `Wigner3jCalculator`: reverse phase, joining, normalisation
-/

set_option autoImplicit false

namespace SF

theorem rangeDown_cons {a b : ℤ} (h : b < a) : pyRangeDown a b = a :: pyRangeDown (a - 1) b := by
  have h1 : (a - b).toNat = (a - 1 - b).toNat + 1 := by omega
  simp only [pyRangeDown, h1, List.range_succ_eq_map, List.map_cons, List.map_map]
  congr 1
  · simp
  · refine List.map_congr_left fun k _ => ?_
    simp only [Function.comp, Nat.succ_eq_add_one]; push_cast; ring

theorem rangeDown_empty {a b : ℤ} (h : a ≤ b) : pyRangeDown a b = [] := by
  have : (a - b).toNat = 0 := by omega
  simp [pyRangeDown, this]

section
variable {X Y Z w : ℤ → ℝ} {a b : ℤ}

/-- `rf[i]` is the ratio `w(i)/w(i-1)`, positive and (except at `b`) at most 1. -/
def RevGood (w : ℤ → ℝ) (rf : List ℝ) (lo b : ℤ) : Prop :=
  ∀ i, lo ≤ i → i ≤ b → ∃ r, rf[i.toNat]? = some r ∧ 0 < r ∧ (i < b → r ≤ 1) ∧ w i = r * w (i - 1)

theorem revLoop_spec (H : Tri X Y Z w a b) {n : ℕ} (hn : b < n) {jm : ℤ} (hjm : a ≤ jm) (d : ℕ) :
    ∀ (j : ℤ) (rf : List ℝ), (j - (jm - 1)).toNat = d → jm - 1 ≤ j → j ≤ b - 1 → rf.length = n → RevGood w rf (j + 1) b →
      ∃ rf' o, revLoop X Y Z (pyRangeDown j (jm - 1)) rf = .ok (rf', o) ∧ rf'.length = n ∧
        ((o = none ∧ RevGood w rf' jm b) ∨ (∃ jp, o = some jp ∧ jm + 1 ≤ jp ∧ jp ≤ j + 1 ∧ RevGood w rf' jp b)) := by
  induction d with
  | zero =>
    intro j rf hd h1 h2 hl hg
    have : j = jm - 1 := by omega
    subst this
    rw [rangeDown_empty (le_refl _)]
    exact ⟨rf, none, rfl, hl, Or.inl ⟨rfl, by simpa using hg⟩⟩
  | succ d ih =>
    intro j rf hd h1 h2 hl hg
    have h0 := H.a0
    rw [rangeDown_cons (show jm - 1 < j by omega)]
    obtain ⟨r, hr, hr0, _, hwr⟩ := hg (j + 1) (by omega) (by omega)
    unfold revLoop
    rw [rd_ok (by omega) hr]
    simp only [bind, Except.bind]
    by_cases hc : Y j + X j * r = 0 ∨ |Z j| > |Y j + X j * r| ∨ Z j * (Y j + X j * r) ≥ 0
    · rw [if_pos hc]
      exact ⟨rf, some (j + 1), rfl, hl, Or.inr ⟨j + 1, rfl, by omega, le_refl _, hg⟩⟩
    · rw [if_neg hc]
      push Not at hc
      obtain ⟨c1, c2, c3⟩ := hc
      rw [pyDiv_ok c1]
      simp only
      rw [wr_ok (by omega) (by omega)]
      simp only
      have hja : j ≠ a := by
        rintro rfl
        rw [H.Za, zero_mul] at c3; exact lt_irrefl _ c3
      have hZ := H.Zpos j (by omega) (by omega)
      have hden : Y j + X j * r < 0 := by
        by_contra hcon
        exact absurd (mul_nonneg hZ.le (not_lt.1 hcon)) (not_le.2 c3)
      rw [add_sub_cancel_right] at hwr
      have hwj : w j = -Z j / (Y j + X j * r) * w (j - 1) := by
        have e := H.eqn j (by omega) (by omega)
        rw [hwr] at e
        field_simp
        linarith
      obtain ⟨rf', o, g1, g2, g3⟩ := ih (j - 1) (rf.set j.toNat (-Z j / (Y j + X j * r))) (by omega) (by omega)
        (by omega) (by simp [hl]) (by
          intro i hi1 hi2
          by_cases hij : i = j
          · subst hij
            refine ⟨_, getElem?_set_eq' (by omega) (by omega), div_pos_of_neg_of_neg (by linarith) hden, ?_, hwj⟩
            intro _
            rw [abs_of_pos hZ, abs_of_neg hden] at c2
            rw [div_le_one_of_neg hden]; linarith
          · obtain ⟨s', p1, p2⟩ := hg i (by omega) (by omega)
            exact ⟨s', by rw [getElem?_set_ne' (by omega) (by omega) (by omega)]; exact p1, p2⟩)
      refine ⟨rf', o, g1, g2, ?_⟩
      rcases g3 with g3 | ⟨jp, q1, q2, q3, q4⟩
      · exact Or.inl g3
      · exact Or.inr ⟨jp, q1, q2, by omega, q4⟩

theorem RevGood.ne (H : w b ≠ 0) {rf : List ℝ} {lo : ℤ} (hg : RevGood w rf lo b) {i : ℤ} (h1 : lo - 1 ≤ i) (h2 : i ≤ b) :
    w i ≠ 0 := by
  have key : ∀ n : ℕ, lo - 1 ≤ b - n → w (b - n) ≠ 0 := by
    intro n
    induction n with
    | zero => intro _; simpa using H
    | succ n ih =>
      intro hb hz
      push_cast at hb hz
      obtain ⟨r, _, _, _, e⟩ := hg (b - n) (by omega) (by omega)
      apply ih (by omega)
      rw [e, show b - (n : ℤ) - 1 = b - (n + 1) by ring, hz, mul_zero]
  have := key (b - i).toNat (by omega)
  rwa [show b - ((b - i).toNat : ℤ) = i by omega] at this

/-- All values have the same sign. -/
theorem RevGood.same_sign {rf : List ℝ} {lo : ℤ} (hg : RevGood w rf lo b) {i : ℤ} (h1 : lo - 1 ≤ i) (h2 : i ≤ b) :
    ∃ r, 0 < r ∧ w b = r * w i := by
  have key : ∀ n : ℕ, lo - 1 ≤ b - n → ∃ r, 0 < r ∧ w b = r * w (b - n) := by
    intro n
    induction n with
    | zero => intro _; exact ⟨1, one_pos, by simp⟩
    | succ n ih =>
      intro hb
      push_cast at hb
      obtain ⟨r, hr, e⟩ := ih (by omega)
      obtain ⟨s, _, hs, _, es⟩ := hg (b - n) (by omega) (by omega)
      refine ⟨r * s, mul_pos hr hs, ?_⟩
      rw [e, es]; push_cast; rw [show b - (n : ℤ) - 1 = b - (n + 1) by ring, mul_assoc]
  have := key (b - i).toNat (by omega)
  rwa [show b - ((b - i).toNat : ℤ) = i by omega] at this

/-- The filling loop of the reverse phase. -/
theorem revFill_spec {n : ℕ} {jp : ℤ} (h0 : 0 ≤ jp) (hjp : jp ≤ b) (hn : b < n) {rf F : List ℝ} (hF : F.length = n)
    (hw : w b ≠ 0) (hg : RevGood w rf (jp + 1) b) :
    ∃ F', (forL (pyRange 1 (b - jp + 1)) (F.set jp.toNat 1) fun k F => do
        let x ← rd F (jp + k - 1)
        let y ← rd rf (jp + k)
        wr F (jp + k) (x * y)) = .ok F' ∧ F'.length = n ∧ Has F' jp b (fun i => (w jp)⁻¹ * w i) := by
  have hwj : w jp ≠ 0 := hg.ne hw (by omega) (by omega)
  obtain ⟨F', h1, h2, h3⟩ := forR_inv 1 (b - jp + 1) (by omega)
    (fun k F' => F'.length = n ∧ Has F' jp (jp + k - 1) (fun i => (w jp)⁻¹ * w i)) (F.set jp.toNat 1)
    (fun k F => do
        let x ← rd F (jp + k - 1)
        let y ← rd rf (jp + k)
        wr F (jp + k) (x * y))
    ⟨by simp [hF], by
      intro i i1 i2
      have : i = jp := by omega
      subst this
      rw [getElem?_set_eq' (by omega) (by omega)]
      simp only; rw [inv_mul_cancel₀ hwj]⟩
    (by
      intro k F' k1 k2 ⟨l, hh⟩
      obtain ⟨s, e1, _, _, e2⟩ := hg (jp + k) (by omega) (by omega)
      refine ⟨F'.set (jp + k).toNat ((w jp)⁻¹ * w (jp + k - 1) * s), ?_, by simp [l], ?_⟩
      · rw [hh.rd (by omega) (by omega) (by omega)]
        simp only [bind, Except.bind]
        rw [rd_ok (by omega) e1]
        simp only
        rw [wr_ok (by omega) (by omega)]
      · intro i i1 i2
        by_cases hik : i = jp + k
        · subst hik
          rw [getElem?_set_eq' (by omega) (by omega)]
          simp only; rw [e2]
          congr 1; ring
        · rw [getElem?_set_ne' (by omega) (by omega) (by omega)]
          exact hh i (by omega) (by omega))
  exact ⟨F', h1, h2, h3.mono (by omega) (by omega)⟩

/-- Result of the reverse phase. -/
theorem revPhase_spec (H : Tri X Y Z w a b) {m1 m2 m3 jm : ℤ} {n : ℕ} (hn : b < n) {rf F : List ℝ} (hrf : rf.length = n)
    (hF : F.length = n) (h1 : a ≤ jm) (h2 : jm ≤ b - 1) (hm0 : m1 = 0 ∧ m2 = 0 ∧ m3 = 0 → w (b - 1) = 0)
    (hno : a + 2 ≤ jm → ¬ ∃ rf, RevGood w rf jm b) :
    ∃ rf' F' jp, revPhase X Y Z m1 m2 m3 a b jm rf F = .ok (rf', F', jp, false) ∧ rf'.length = n ∧ F'.length = n ∧
      a ≤ jp ∧ jp ≤ b - 1 ∧ (jm ≤ jp ∨ (jp = a ∧ jm ≤ a + 1)) ∧ (m1 = 0 ∧ m2 = 0 ∧ m3 = 0 → jp = b - 1) ∧
      ∃ l, l ≠ 0 ∧ Has F' jp b (fun i => l * w i) := by
  have h0 := H.a0
  have hab := H.ab
  have hZ := H.Zpos b hab (le_refl _)
  have rb := H.eqn b hab.le (le_refl _)
  rw [H.Xb, zero_mul, zero_add] at rb
  have two : ∀ v, v * w b = w (b - 1) →
      ∃ rf' F' jp, (Except.ok (rf, ((F.set b.toNat 1).set (b - 1).toNat v), b - 1, false) : Py _) = .ok (rf', F', jp, false) ∧
        rf'.length = n ∧ F'.length = n ∧
      a ≤ jp ∧ jp ≤ b - 1 ∧ (jm ≤ jp ∨ (jp = a ∧ jm ≤ a + 1)) ∧ (m1 = 0 ∧ m2 = 0 ∧ m3 = 0 → jp = b - 1) ∧
      ∃ l, l ≠ 0 ∧ Has F' jp b (fun i => l * w i) := by
    intro v hv
    refine ⟨_, _, _, rfl, hrf, by simp [hF], by omega, le_refl _, Or.inl h2, fun _ => rfl, (w b)⁻¹, inv_ne_zero H.wb, ?_⟩
    intro i i1 i2
    by_cases hi : i = b - 1
    · subst hi
      rw [getElem?_set_eq' (by omega) (by simp; omega)]
      simp only; rw [← hv]
      congr 1; have := H.wb; field_simp
    · have : i = b := by omega
      subst this
      rw [getElem?_set_ne' (by omega) (by omega) (by omega), getElem?_set_eq' (by omega) (by omega)]
      simp only; rw [inv_mul_cancel₀ H.wb]
  have hv : -Y b / Z b * w b = w (b - 1) := by field_simp; linarith
  unfold revPhase
  by_cases c1 : m1 = 0 ∧ m2 = 0 ∧ m3 = 0
  · rw [if_pos c1, wr_ok (by omega) (by omega)]
    simp only [bind, Except.bind]
    rw [wr_ok (by omega) (by simp; omega)]
    exact two 0 (by rw [hm0 c1]; ring)
  · rw [if_neg c1]
    by_cases c2 : Y b = 0
    · rw [if_pos c2, if_neg hZ.ne', wr_ok (by omega) (by omega)]
      simp only [bind, Except.bind]
      rw [pyDiv_ok hZ.ne']
      simp only
      rw [wr_ok (by omega) (by simp; omega)]
      exact two _ hv
    · rw [if_neg c2]
      by_cases c3 : Y b * Z b ≥ 0
      · rw [if_pos c3, wr_ok (by omega) (by omega)]
        simp only [bind, Except.bind]
        rw [pyDiv_ok hZ.ne']
        simp only
        rw [wr_ok (by omega) (by simp; omega)]
        exact two _ hv
      · rw [if_neg c3, pyDiv_ok c2]
        simp only [bind, Except.bind]
        rw [wr_ok (by omega) (by omega)]
        simp only
        have hY : Y b < 0 := by
          by_contra hcon
          exact c3 (mul_nonneg (not_lt.1 hcon) hZ.le)
        have hg0 : RevGood w (rf.set b.toNat (-Z b / Y b)) b b := by
          intro i i1 i2
          have : i = b := by omega
          subst this
          refine ⟨_, getElem?_set_eq' (by omega) (by omega), div_pos_of_neg_of_neg (by linarith) hY, by omega, ?_⟩
          field_simp; linarith
        obtain ⟨rf', o, g1, g2, g3⟩ := revLoop_spec H hn h1 _ (b - 1) (rf.set b.toNat (-Z b / Y b)) rfl (by omega)
          (le_refl _) (by simp [hrf]) (by simpa using hg0)
        rw [g1]
        simp only
        have hjp : ∃ jp, o.getD a = jp ∧ a ≤ jp ∧ jp ≤ b ∧ (jm + 1 ≤ jp ∨ (jp = a ∧ jm ≤ a + 1)) ∧ RevGood w rf' (jp + 1) b := by
          rcases g3 with ⟨q1, q2⟩ | ⟨jp, q1, q2, q3, q4⟩
          · subst q1
            have hle : jm ≤ a + 1 := by
              by_contra hcon
              exact hno (by omega) ⟨rf', q2⟩
            exact ⟨a, rfl, le_refl _, hab.le, Or.inr ⟨rfl, hle⟩, fun i i1 i2 => q2 i (by omega) i2⟩
          · subst q1
            exact ⟨jp, rfl, by omega, by omega, Or.inl q2, fun i i1 i2 => q4 i (by omega) i2⟩
        obtain ⟨jp, e, p1, p2, p3, p4⟩ := hjp
        rw [e, wr_ok (by omega) (by omega)]
        simp only
        obtain ⟨F', k1, k2, k3⟩ := revFill_spec (n := n) (jp := jp) (by omega) p2 hn hF H.wb p4
        simp only [bind, Except.bind] at k1
        rw [k1]
        simp only
        by_cases c4 : jp = b
        · rw [if_pos c4, pyDiv_ok hZ.ne']
          simp only
          rw [wr_ok (by omega) (by omega)]
          refine ⟨_, _, _, rfl, g2, by simp [k2], by omega, le_refl _, Or.inl h2, fun h => absurd h c1, (w b)⁻¹,
            inv_ne_zero H.wb, ?_⟩
          intro i i1 i2
          by_cases hi : i = b - 1
          · subst hi
            rw [getElem?_set_eq' (by omega) (by omega)]
            simp only; rw [← hv]
            congr 1; have := H.wb; field_simp
          · rw [getElem?_set_ne' (by omega) (by omega) (by omega)]
            rw [c4] at k3
            exact k3 i (by omega) i2
        · rw [if_neg c4]
          have hne : w jp ≠ 0 := p4.ne H.wb (by omega) (by omega)
          exact ⟨_, _, _, rfl, g2, k2, p1, by omega, by omega, fun h => absurd h c1, _, inv_ne_zero hne, k3⟩

/-- A multiple of `w`, possibly rescaled, is a multiple of `w`. -/
theorem rescale {F : List ℝ} {lo hi lo' hi' : ℤ} {l : ℝ} (h0 : 0 ≤ lo) (hl : l ≠ 0) (h : Has F lo hi (fun i => l * w i))
    (h1 : lo' ≤ lo) (h2 : hi < hi') (c : Prop) [Decidable c] : ∃ l', l' ≠ 0 ∧
      Has (if c then mapSlice F lo' hi' (fun v => v / 1000) else F) lo hi (fun i => l' * w i) := by
  by_cases hc : c
  · rw [if_pos hc]
    exact ⟨l / 1000, by positivity, (h.mapSlice h0 h1 h2).congr fun i _ _ => by ring⟩
  · rw [if_neg hc]; exact ⟨l, hl, h⟩

/-- One pass through the upward loop, up to the division. -/
theorem midLoop_step (H : Tri X Y Z w a b) {n : ℕ} (hn : b < n) {j : ℤ} {js : List ℤ} {F : List ℝ} {mid : ℤ} {l : ℝ}
    (h1 : a + 1 ≤ j) (h2 : j < b) (hF : F.length = n) (hz : ZeroBelow F a) (hl : l ≠ 0)
    (hh : Has F a j (fun i => l * w i)) :
    ∃ F' l', F'.length = n ∧ ZeroBelow F' a ∧ l' ≠ 0 ∧ Has F' a (j + 1) (fun i => l' * w i) ∧
      midLoop X Y Z a (j :: js) F mid = (do
        let q ← pyDiv (l' * w (j + 1)) (l' * w (j - 1))
        if |q| < 1 ∧ l' * w (j + 1) ≠ 0 then return (F', j + 1) else midLoop X Y Z a js F' mid) := by
  have h0 := H.a0
  have hX := H.Xpos j (by omega) (by omega) h2
  have hv : -(Y j * (l * w j) + Z j * (l * w (j - 1))) / X j = l * w (j + 1) := by
    have := H.eqn j (by omega) h2.le
    field_simp
    linear_combination (-1) * this
  have hset : Has (F.set (j + 1).toNat (l * w (j + 1))) a (j + 1) (fun i => l * w i) := by
    intro i i1 i2
    by_cases hi : i = j + 1
    · subst hi; rw [getElem?_set_eq' (by omega) (by omega)]
    · rw [getElem?_set_ne' (by omega) (by omega) (by omega)]; exact hh i i1 (by omega)
  obtain ⟨l', hl', hr⟩ := rescale (w := w) (lo' := a) (hi' := j + 1 + 1) h0 hl hset (le_refl _) (by omega)
    (|l * w (j + 1)| > 1)
  refine ⟨_, l', ?_, ?_, hl', hr, ?_⟩
  · split
    · rw [mapSlice_length]; simp [hF]
    · simp [hF]
  · split
    · exact (hz.set (by omega)).mapSlice (le_refl _)
    · exact hz.set (by omega)
  · rw [midLoop.eq_2]
    rw [hh.rd (by omega) (by omega) (by omega), hh.rd (by omega) (by omega) (by omega)]
    simp only [bind, Except.bind]
    rw [pyDiv_ok hX.ne', hv]
    simp only
    rw [wr_ok (by omega) (by omega)]
    simp only
    rw [hset.rd (by omega) (by omega) (by omega)]
    simp only
    rw [hr.rd (by omega) (by omega) (by omega), hr.rd (by omega) (by omega) (by omega)]

theorem midLoop_spec (H : Tri X Y Z w a b) {n : ℕ} (hn : b < n) {mid : ℤ} (hmid : mid ≤ b - 1) (d : ℕ) :
    ∀ (j : ℤ) (F : List ℝ) (l : ℝ), (mid - j).toNat = d → a + 1 ≤ j → j ≤ mid → F.length = n → ZeroBelow F a → l ≠ 0 →
      Has F a j (fun i => l * w i) → w (j - 1) ≠ 0 →
      (∃ F' mid' l', midLoop X Y Z a (pyRange j mid) F mid = .ok (F', mid') ∧ F'.length = n ∧ ZeroBelow F' a ∧ l' ≠ 0 ∧
        Has F' a mid' (fun i => l' * w i) ∧ j ≤ mid' ∧ mid' ≤ mid) ∨
      (midLoop X Y Z a (pyRange j mid) F mid = .error .zeroDivision ∧
        ∃ k, j ≤ k ∧ k + 2 ≤ mid ∧ w k = 0 ∧ ∀ i, j ≤ i → i ≤ k → |w (i - 1)| ≤ |w (i + 1)| ∨ w (i + 1) = 0) := by
  induction d with
  | zero =>
    intro j F l hd h1 h2 hF hz hl hh hw
    have : j = mid := by omega
    subst this
    rw [pyRange_empty (le_refl _)]
    exact Or.inl ⟨F, j, l, rfl, hF, hz, hl, hh, le_refl _, le_refl _⟩
  | succ d ih =>
    intro j F l hd h1 h2 hF hz hl hh hw
    rw [pyRange_cons (show j < mid by omega)]
    obtain ⟨F', l', g1, g2, g3, g4, g5⟩ := midLoop_step H hn (js := pyRange (j + 1) mid) (mid := mid) h1 (by omega) hF hz hl hh
    rw [g5, pyDiv_ok (mul_ne_zero g3 hw)]
    simp only [bind, Except.bind]
    by_cases hc : |l' * w (j + 1) / (l' * w (j - 1))| < 1 ∧ l' * w (j + 1) ≠ 0
    · rw [if_pos hc]
      exact Or.inl ⟨F', j + 1, l', rfl, g1, g2, g3, g4, by omega, by omega⟩
    · rw [if_neg hc]
      have hge : |w (j - 1)| ≤ |w (j + 1)| ∨ w (j + 1) = 0 := by
        by_contra hcon
        push Not at hcon
        refine hc ⟨?_, mul_ne_zero g3 hcon.2⟩
        rw [mul_div_mul_left _ _ g3, abs_div, div_lt_one (abs_pos.2 hw)]
        exact hcon.1
      by_cases hwj : w j = 0
      · by_cases hlast : j + 1 = mid
        · rw [hlast, pyRange_empty (le_refl _)]
          rw [hlast] at g4
          exact Or.inl ⟨F', mid, l', rfl, g1, g2, g3, g4, by omega, le_refl _⟩
        · right
          rw [pyRange_cons (show j + 1 < mid by omega)]
          obtain ⟨F'', l'', _, _, _, _, q5⟩ := midLoop_step H hn (js := pyRange (j + 1 + 1) mid) (mid := mid)
            (show a + 1 ≤ j + 1 by omega) (by omega) g1 g2 g3 g4
          rw [q5, add_sub_cancel_right, hwj, mul_zero, pyDiv_zero]
          exact ⟨rfl, j, le_refl _, by omega, hwj, fun i i1 i2 => by rw [show i = j by omega]; exact hge⟩
      · rcases ih (j + 1) F' l' (by omega) (by omega) (by omega) g1 g2 g3 g4 (by rwa [add_sub_cancel_right]) with
          ⟨F'', mid', l'', q1, q2, q3, q4, q5, q6, q7⟩ | ⟨q1, k, q2, q3, q4⟩
        · exact Or.inl ⟨F'', mid', l'', q1, q2, q3, q4, q5, by omega, q7⟩
        · refine Or.inr ⟨q1, k, by omega, q3, q4.1, fun i i1 i2 => ?_⟩
          by_cases hij : i = j
          · rw [hij]; exact hge
          · exact q4.2 i (by omega) i2

theorem downLoop_spec (H : Tri X Y Z w a b) {n : ℕ} (hn : b < n) {mid : ℤ} (hmid : a ≤ mid) (d : ℕ) :
    ∀ (j : ℤ) (F : List ℝ) (l : ℝ), (j - mid).toNat = d → mid ≤ j → j ≤ b - 1 → F.length = n → l ≠ 0 →
      Has F j b (fun i => l * w i) →
      ∃ F' l', forL (pyRangeDown j mid) F (downStep X Y Z b) = .ok F' ∧ F'.length = n ∧ l' ≠ 0 ∧
        Has F' mid b (fun i => l' * w i) := by
  induction d with
  | zero =>
    intro j F l hd h1 h2 hF hl hh
    have : j = mid := by omega
    subst this
    rw [rangeDown_empty (le_refl _)]
    exact ⟨F, l, rfl, hF, hl, hh⟩
  | succ d ih =>
    intro j F l hd h1 h2 hF hl hh
    have h0 := H.a0
    have hZ := H.Zpos j (by omega) (by omega)
    have hv : -(X j * (l * w (j + 1)) + Y j * (l * w j)) / Z j = l * w (j - 1) := by
      have := H.eqn j (by omega) (by omega)
      field_simp
      linear_combination (-1) * this
    have hset : Has (F.set (j - 1).toNat (l * w (j - 1))) (j - 1) b (fun i => l * w i) := by
      intro i i1 i2
      by_cases hi : i = j - 1
      · subst hi; rw [getElem?_set_eq' (by omega) (by omega)]
      · rw [getElem?_set_ne' (by omega) (by omega) (by omega)]; exact hh i (by omega) (by omega)
    obtain ⟨l', hl', hr⟩ := rescale (w := w) (lo' := j - 1) (hi' := b + 1) (by omega) hl hset (le_refl _) (by omega)
      (|l * w (j - 1)| > 1)
    rw [rangeDown_cons (show mid < j by omega), forL_cons]
    have hstep : downStep X Y Z b j F = .ok (if |l * w (j - 1)| > 1 then
        mapSlice (F.set (j - 1).toNat (l * w (j - 1))) (j - 1) (b + 1) (fun v => v / 1000)
        else F.set (j - 1).toNat (l * w (j - 1))) := by
      unfold downStep
      rw [hh.rd (by omega) (by omega) (by omega), hh.rd (by omega) (by omega) (by omega)]
      simp only [bind, Except.bind]
      rw [pyDiv_ok hZ.ne', hv]
      simp only
      rw [wr_ok (by omega) (by omega)]
      simp only
      rw [hset.rd (by omega) (by omega) (by omega)]
      rfl
    rw [hstep]
    simp only [bind, Except.bind]
    refine ih (j - 1) _ l' (by omega) (by omega) (by omega) ?_ hl' hr
    split
    · rw [mapSlice_length]; simp [hF]
    · simp [hF]

theorem Has.getD {F : List ℝ} {lo hi : ℤ} {v : ℤ → ℝ} (h : Has F lo hi v) {i : ℤ} (h1 : lo ≤ i) (h2 : i ≤ hi) :
    F.getD i.toNat 0 = v i := by rw [List.getD_eq_getElem?_getD, h i h1 h2]; rfl

theorem copy_has {f F : List ℝ} {n : ℕ} {v : ℤ → ℝ} (h0 : 0 ≤ a) (hf : f.length = n) (hn : b < n) (h : Has F a b v) :
    Has (copySlice f F a (b + 1) id) a b v := by
  intro i i1 i2
  obtain ⟨x, hx⟩ : ∃ x, f[i.toNat]? = some x := ⟨f[i.toNat]'(by omega), List.getElem?_eq_getElem (by omega)⟩
  rw [copySlice_getElem?, hx]
  simp only [Option.map_some]
  rw [if_pos (by constructor <;> omega), h.getD i1 i2]; rfl

theorem copy_other {f F : List ℝ} {lo hi : ℤ} {g : ℝ → ℝ} {i : ℕ} (h : (i : ℤ) < lo ∨ hi ≤ i) :
    (copySlice f F lo hi g)[i]? = f[i]? := by
  rw [copySlice_getElem?]
  cases f[i]? with
  | none => rfl
  | some x => simp only [Option.map_some]; rw [if_neg (by omega)]

/-- Result of joining the two solutions. -/
theorem meetPhase_spec (H : Tri X Y Z w a b) {n : ℕ} (hn : b < n) {jm jp : ℤ} {f Fm Fp : List ℝ} {l l' : ℝ}
    (h1 : a + 1 ≤ jm) (h2 : a ≤ jp) (h3 : jp ≤ b - 1) (h4 : jm ≤ jp ∨ (jp = a ∧ jm ≤ a + 1 ∧ a ≠ 0))
    (hf : f.length = n) (hFm : Fm.length = n) (hFp : Fp.length = n) (hz : ZeroBelow Fm a) (hl : l ≠ 0) (hl' : l' ≠ 0)
    (hm : Has Fm a jm (fun i => l * w i)) (hp : Has Fp jp b (fun i => l' * w i)) (hw : w (jm - 1) ≠ 0) :
    (∃ f' Fm' Fp' μ, meetPhase X Y Z a b jm jp f Fm Fp = .ok (f', Fm', Fp') ∧ f'.length = n ∧ Fm'.length = n ∧
      Fp'.length = n ∧ μ ≠ 0 ∧ Has f' a b (fun i => μ * w i) ∧ ∀ i : ℕ, (i : ℤ) < a ∨ b < i → f'[i]? = f[i]?) ∨
    (meetPhase X Y Z a b jm jp f Fm Fp = .error .zeroDivision ∧
      ∃ k, jm ≤ k ∧ k + 2 ≤ (jm + jp) / 2 ∧ w k = 0 ∧
        ∀ i, jm ≤ i → i ≤ k → |w (i - 1)| ≤ |w (i + 1)| ∨ w (i + 1) = 0) := by
  have h0 := H.a0
  have hab := H.ab
  -- the part after the upward loop
  have fin : ∀ (mid : ℤ) (Fm' : List ℝ) (l : ℝ), a ≤ mid → mid ≤ jp → w mid ≠ 0 → l ≠ 0 → Fm'.length = n →
      Has Fm' a mid (fun i => l * w i) →
      ∃ f' Fm'' Fp' μ, (do
        let F_minus_j_mid ← rd Fm' mid
        let F_plus ← forL (pyRangeDown jp mid) Fp (downStep X Y Z b)
        let F_plus_j_mid ← rd F_plus mid
        if mid = b then return (copySlice f Fm' a (b + 1) id, Fm', F_plus)
        else if mid = a then return (copySlice f F_plus a (b + 1) id, Fm', F_plus)
        else
          let f := copySlice f Fm' a (mid + 1) (fun v => v * F_plus_j_mid / F_minus_j_mid)
          return (copySlice f F_plus (mid + 1) (b + 1) id, Fm', F_plus) : Py (List ℝ × List ℝ × List ℝ)) = .ok (f', Fm'', Fp') ∧
        f'.length = n ∧ Fm''.length = n ∧ Fp'.length = n ∧ μ ≠ 0 ∧ Has f' a b (fun i => μ * w i) ∧
        ∀ i : ℕ, (i : ℤ) < a ∨ b < i → f'[i]? = f[i]? := by
    intro mid Fm' l m1 m2 m3 m4 m5 m6
    obtain ⟨Fp', μ, d1, d2, d3, d4⟩ := downLoop_spec H hn m1 _ jp Fp l' rfl m2 h3 hFp hl' hp
    rw [m6.rd (by omega) (by omega) (by omega)]
    simp only [bind, Except.bind]
    rw [d1]
    simp only
    rw [d4.rd (by omega) (by omega) (by omega)]
    simp only
    rw [if_neg (by omega)]
    by_cases hma : mid = a
    · rw [if_pos hma]
      refine ⟨_, _, _, μ, rfl, by rw [copySlice_length, hf], m5, d2, d3, copy_has h0 hf hn (by rwa [hma] at d4), ?_⟩
      intro i hi; exact copy_other (by omega)
    · rw [if_neg hma]
      refine ⟨_, _, _, μ, rfl, by rw [copySlice_length, copySlice_length, hf], m5, d2, d3, ?_, ?_⟩
      · intro i i1 i2
        obtain ⟨x, hx⟩ : ∃ x, f[i.toNat]? = some x := ⟨f[i.toNat]'(by omega), List.getElem?_eq_getElem (by omega)⟩
        rw [copySlice_getElem?, copySlice_getElem?, hx]
        simp only [Option.map_some]
        by_cases hi : i ≤ mid
        · rw [if_neg (by omega), if_pos (by constructor <;> omega), m6.getD i1 hi]
          congr 1
          field_simp
        · rw [if_pos (by constructor <;> omega), d4.getD (by omega) i2]; rfl
      · intro i hi
        rw [copy_other (by omega), copy_other (by omega)]
  unfold meetPhase
  simp only
  rcases h4 with h4 | ⟨h4, h5, h6⟩
  · rcases midLoop_spec H hn (mid := (jm + jp) / 2) (by omega) _ jm Fm l rfl h1 (by omega) hFm hz hl hm hw with
      ⟨Fm', mid, l2, q1, q2, q3, q4, q5, q6, q7⟩ | ⟨q1, k, q2, q3, q4⟩
    · left
      rw [q1]
      simp only [bind, Except.bind]
      rw [q5.rd (by omega) (by omega) (by omega), q5.rd (by omega) (by omega) (by omega)]
      simp only
      by_cases hprev : w (mid - 1) = 0
      · rw [if_neg (by rw [hprev, mul_zero]; simp)]
        simp only [pure, Except.pure, Bool.false_eq_true, if_false]
        have hne : w mid ≠ 0 := by
          have := H.no_two_zeros (j := mid - 1) (by omega) (by omega) hprev
          rwa [sub_add_cancel] at this
        have := fin mid Fm' l2 (by omega) (by omega) hne q4 q2 q5
        simpa only [bind, Except.bind, pure, Except.pure] using this
      · rw [if_pos (mul_ne_zero q4 hprev), pyDiv_ok (mul_ne_zero q4 hprev)]
        simp only [pure, Except.pure]
        by_cases hs : |l2 * w mid / (l2 * w (mid - 1))| < 1 / 1000000
        · rw [decide_eq_true hs]
          simp only [if_true]
          have := fin (mid - 1) Fm' l2 (by omega) (by omega) hprev q4 q2 (q5.mono (le_refl _) (by omega))
          simpa only [bind, Except.bind, pure, Except.pure] using this
        · rw [decide_eq_false hs]
          simp only [Bool.false_eq_true, if_false]
          have hne : w mid ≠ 0 := by
            intro hz0
            apply hs
            rw [hz0]; simp
          have := fin mid Fm' l2 (by omega) (by omega) hne q4 q2 q5
          simpa only [bind, Except.bind, pure, Except.pure] using this
    · right
      rw [q1]
      exact ⟨rfl, k, q2, q3, q4⟩
  · left
    have e1 : jm = a + 1 := by omega
    subst h4
    have e2 : (jm + jp) / 2 = jp := by omega
    rw [e2, pyRange_empty (by omega)]
    have : midLoop X Y Z jp [] Fm jp = .ok (Fm, jp) := rfl
    rw [this]
    simp only [bind, Except.bind]
    rw [hm.rd (by omega) (by omega) (by omega)]
    have hprev : rd Fm (jp - 1) = .ok 0 := by
      refine rd_ok (by omega) ?_
      exact hz (jp - 1).toNat (by omega)
    rw [hprev]
    simp only
    rw [if_neg (by simp)]
    simp only [pure, Except.pure, Bool.false_eq_true, if_false]
    have := fin jp Fm l (le_refl _) (le_refl _) H.wa hl hFm (hm.mono (le_refl _) (by omega))
    simpa only [bind, Except.bind, pure, Except.pure] using this

end

end SF
