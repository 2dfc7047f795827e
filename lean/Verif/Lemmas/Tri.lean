import Verif.Model.Wigner3j
import Mathlib.Tactic.FieldSimp
import Mathlib.Tactic.Positivity

/-!
# The two-sided recursion of `Wigner3jCalculator`, for an abstract three-term recurrence

`w` is a solution of `X j w(j+1) + Y j w(j) + Z j w(j-1) = 0` on `a..b`; every phase of the algorithm produces a multiple
of `w`.
-/

set_option autoImplicit false

namespace SF

/-- What the proofs use about the recurrence and its solution. -/
structure Tri (X Y Z w : ℤ → ℝ) (a b : ℤ) : Prop where
  a0 : 0 ≤ a
  ab : a < b
  eqn : ∀ j, a ≤ j → j ≤ b → X j * w (j + 1) + Y j * w j + Z j * w (j - 1) = 0
  Xpos : ∀ j, a ≤ j → 0 < j → j < b → 0 < X j
  Zpos : ∀ j, a < j → j ≤ b → 0 < Z j
  X0 : a = 0 → X a = 0
  Xb : X b = 0
  Za : Z a = 0
  wa : w a ≠ 0
  wb : w b ≠ 0

/-- The array holds `v i` at the positions `lo..hi`. -/
def Has (F : List ℝ) (lo hi : ℤ) (v : ℤ → ℝ) : Prop := ∀ i, lo ≤ i → i ≤ hi → F[i.toNat]? = some (v i)

/-- The array is zero below `a`. -/
def ZeroBelow (F : List ℝ) (a : ℤ) : Prop := ∀ i : ℕ, (i : ℤ) < a → F[i]? = some 0

theorem pyDiv_ok {x y : ℝ} (h : y ≠ 0) : pyDiv x y = .ok (x / y) := by unfold pyDiv; rw [if_neg h]

theorem pyDiv_zero (x : ℝ) : pyDiv x 0 = .error .zeroDivision := by unfold pyDiv; rw [if_pos rfl]

theorem Has.mono {F : List ℝ} {lo hi lo' hi' : ℤ} {v : ℤ → ℝ} (h : Has F lo hi v) (h1 : lo ≤ lo') (h2 : hi' ≤ hi) :
    Has F lo' hi' v := fun i a b => h i (by omega) (by omega)

theorem Has.congr {F : List ℝ} {lo hi : ℤ} {v v' : ℤ → ℝ} (h : Has F lo hi v) (hv : ∀ i, lo ≤ i → i ≤ hi → v i = v' i) :
    Has F lo hi v' := fun i a b => by rw [h i a b, hv i a b]

theorem Has.rd {F : List ℝ} {lo hi : ℤ} {v : ℤ → ℝ} (h : Has F lo hi v) {i : ℤ} (h0 : 0 ≤ i) (h1 : lo ≤ i) (h2 : i ≤ hi) :
    rd F i = .ok (v i) := rd_ok h0 (h i h1 h2)

theorem getElem?_set_ne' {F : List ℝ} {i j : ℤ} {x : ℝ} (hi : 0 ≤ i) (hj : 0 ≤ j) (h : i ≠ j) :
    (F.set i.toNat x)[j.toNat]? = F[j.toNat]? := List.getElem?_set_ne (by omega)

theorem getElem?_set_eq' {F : List ℝ} {i : ℤ} {x : ℝ} (hi : 0 ≤ i) (h : i < F.length) :
    (F.set i.toNat x)[i.toNat]? = some x := by rw [List.getElem?_set_self (by omega)]

theorem ZeroBelow.set {F : List ℝ} {a i : ℤ} {x : ℝ} (h : ZeroBelow F a) (hi : a ≤ i) : ZeroBelow (F.set i.toNat x) a := by
  intro k hk
  rw [List.getElem?_set_ne (by omega)]; exact h k hk

theorem mapSlice_length (F : List ℝ) (lo hi : ℤ) (g : ℝ → ℝ) : (mapSlice F lo hi g).length = F.length := by
  simp [mapSlice]

theorem copySlice_length (F G : List ℝ) (lo hi : ℤ) (g : ℝ → ℝ) : (copySlice F G lo hi g).length = F.length := by
  simp [copySlice]

theorem mapSlice_getElem? (F : List ℝ) (lo hi : ℤ) (g : ℝ → ℝ) (i : ℕ) :
    (mapSlice F lo hi g)[i]? = F[i]?.map fun v => if lo ≤ (i : ℤ) ∧ (i : ℤ) < hi then g v else v := by
  simp [mapSlice, List.getElem?_mapIdx]

theorem copySlice_getElem? (F G : List ℝ) (lo hi : ℤ) (g : ℝ → ℝ) (i : ℕ) :
    (copySlice F G lo hi g)[i]? = F[i]?.map fun v => if lo ≤ (i : ℤ) ∧ (i : ℤ) < hi then g (G.getD i 0) else v := by
  simp [copySlice, List.getElem?_mapIdx]

theorem Has.mapSlice {F : List ℝ} {lo hi lo' hi' : ℤ} {v : ℤ → ℝ} {g : ℝ → ℝ} (h0 : 0 ≤ lo) (h : Has F lo hi v)
    (h1 : lo' ≤ lo) (h2 : hi < hi') : Has (mapSlice F lo' hi' g) lo hi (fun i => g (v i)) := by
  intro i a b
  rw [mapSlice_getElem?, h i a b]
  simp only [Option.map_some]
  rw [if_pos (by constructor <;> omega)]

theorem ZeroBelow.mapSlice {F : List ℝ} {a lo hi : ℤ} {g : ℝ → ℝ} (h : ZeroBelow F a) (h1 : a ≤ lo) :
    ZeroBelow (mapSlice F lo hi g) a := by
  intro i hi
  rw [mapSlice_getElem?, h i hi]
  simp only [Option.map_some]
  rw [if_neg (by omega)]

section
variable {X Y Z w : ℤ → ℝ} {a b : ℤ}

/-- No two neighbouring values vanish. -/
theorem Tri.no_two_zeros (H : Tri X Y Z w a b) {j : ℤ} (h1 : a ≤ j) (h2 : j < b) (hz : w j = 0) : w (j + 1) ≠ 0 := by
  intro hz1
  have key : ∀ n : ℕ, j + n + 1 ≤ b → w (j + n) = 0 ∧ w (j + n + 1) = 0 := by
    intro n
    induction n with
    | zero => intro _; simpa using ⟨hz, hz1⟩
    | succ n ih =>
      intro hb
      push_cast at hb ⊢
      obtain ⟨e1, e2⟩ := ih (by omega)
      have h0 := H.a0
      have r := H.eqn (j + n + 1) (by omega) (by omega)
      have hx := H.Xpos (j + n + 1) (by omega) (by omega) (by omega)
      rw [show j + n + 1 - 1 = j + (n : ℤ) by ring, e1, e2] at r
      rw [show j + ((n : ℤ) + 1) = j + n + 1 by ring]
      refine ⟨e2, ?_⟩
      have : X (j + n + 1) * w (j + n + 1 + 1) = 0 := by linarith
      exact (mul_eq_zero.1 this).resolve_left hx.ne'
  have := (key (b - j - 1).toNat (by omega)).2
  rw [show j + ((b - j - 1).toNat : ℤ) + 1 = b by omega] at this
  exact H.wb this

/-- `sf[i]` is the ratio `w(i)/w(i+1)`, positive and (except at `a`) at most 1. -/
def FwdGood (w : ℤ → ℝ) (sf : List ℝ) (a hi : ℤ) : Prop :=
  ∀ i, a ≤ i → i ≤ hi → ∃ s, sf[i.toNat]? = some s ∧ 0 < s ∧ (a < i → s ≤ 1) ∧ w i = s * w (i + 1)

theorem fwdLoop_spec (H : Tri X Y Z w a b) {n : ℕ} (hn : b < n) (d : ℕ) :
    ∀ (j : ℤ) (sf : List ℝ), (b - j).toNat = d → a + 1 ≤ j → j ≤ b → sf.length = n → FwdGood w sf a (j - 1) →
      ∃ sf' o, fwdLoop X Y Z (pyRange j b) sf = .ok (sf', o) ∧ sf'.length = n ∧ j - 1 ≤ o.getD b ∧
        (o.getD b = b ∨ o.getD b ≤ b - 2) ∧ FwdGood w sf' a (min (o.getD b) (b - 1)) := by
  induction d with
  | zero =>
    intro j sf hd h1 h2 hl hg
    have : j = b := by omega
    subst this
    rw [pyRange_empty (le_refl j)]
    refine ⟨sf, none, rfl, hl, by simp, Or.inl (by simp), ?_⟩
    simpa using hg
  | succ d ih =>
    intro j sf hd h1 h2 hl hg
    have h0 := H.a0
    rw [pyRange_cons (show j < b by omega)]
    obtain ⟨s, hs, hs0, _, hws⟩ := hg (j - 1) (by omega) (by omega)
    unfold fwdLoop
    rw [rd_ok (by omega) hs]
    simp only [bind, Except.bind]
    by_cases hc : |X j| > |Y j + Z j * s| ∨ X j * (Y j + Z j * s) ≥ 0 ∨ Y j + Z j * s = 0
    · rw [if_pos hc]
      refine ⟨sf, some (j - 1), rfl, hl, by simp, Or.inr (by simp; omega), ?_⟩
      simp only [Option.getD_some]
      rw [min_eq_left (by omega)]; exact hg
    · rw [if_neg hc]
      push Not at hc
      obtain ⟨c1, c2, c3⟩ := hc
      rw [pyDiv_ok c3]
      simp only
      rw [wr_ok (by omega) (by omega)]
      simp only
      have hX := H.Xpos j (by omega) (by omega) (by omega)
      have hden : Y j + Z j * s < 0 := by
        by_contra hcon
        exact absurd (mul_nonneg hX.le (not_lt.1 hcon)) (not_le.2 c2)
      have e1 : j - 1 + 1 = j := by ring
      rw [e1] at hws
      have hwj : w j = -X j / (Y j + Z j * s) * w (j + 1) := by
        have r := H.eqn j (by omega) (by omega)
        rw [hws] at r
        field_simp
        linarith
      obtain ⟨sf', o, g1, g2, g3, g4, g5⟩ := ih (j + 1) (sf.set j.toNat (-X j / (Y j + Z j * s))) (by omega) (by omega)
        (by omega) (by simp [hl]) (by
          intro i hi1 hi2
          by_cases hij : i = j
          · subst hij
            refine ⟨_, getElem?_set_eq' (by omega) (by omega), div_pos_of_neg_of_neg (by linarith) hden, ?_, hwj⟩
            intro _
            rw [abs_of_pos hX, abs_of_neg hden] at c1
            rw [div_le_one_of_neg hden]; linarith
          · obtain ⟨s', p1, p2⟩ := hg i hi1 (by omega)
            exact ⟨s', by rw [getElem?_set_ne' (by omega) (by omega) (by omega)]; exact p1, p2⟩)
      exact ⟨sf', o, g1, g2, by omega, g4, g5⟩

theorem FwdGood.ne (H : w a ≠ 0) {sf : List ℝ} {hi : ℤ} (hg : FwdGood w sf a hi) {i : ℤ} (h1 : a ≤ i) (h2 : i ≤ hi + 1) :
    w i ≠ 0 := by
  have key : ∀ n : ℕ, a + n ≤ hi + 1 → w (a + n) ≠ 0 := by
    intro n
    induction n with
    | zero => intro _; simpa using H
    | succ n ih =>
      intro hb hz
      push_cast at hb hz
      obtain ⟨s, _, _, _, e⟩ := hg (a + n) (by omega) (by omega)
      apply ih (by omega)
      rw [e, add_assoc, hz, mul_zero]
  have := key (i - a).toNat (by omega)
  rwa [show a + ((i - a).toNat : ℤ) = i by omega] at this

/-- All values have the same sign. -/
theorem FwdGood.same_sign {sf : List ℝ} {hi : ℤ} (hg : FwdGood w sf a hi) {i : ℤ} (h1 : a ≤ i) (h2 : i ≤ hi + 1) :
    ∃ r, 0 < r ∧ w a = r * w i := by
  have key : ∀ n : ℕ, a + n ≤ hi + 1 → ∃ r, 0 < r ∧ w a = r * w (a + n) := by
    intro n
    induction n with
    | zero => intro _; exact ⟨1, one_pos, by simp⟩
    | succ n ih =>
      intro hb
      push_cast at hb
      obtain ⟨r, hr, e⟩ := ih (by omega)
      obtain ⟨s, _, hs, _, es⟩ := hg (a + n) (by omega) (by omega)
      refine ⟨r * s, mul_pos hr hs, ?_⟩
      rw [e, es]; push_cast; rw [add_assoc, mul_assoc]
  have := key (i - a).toNat (by omega)
  rwa [show a + ((i - a).toNat : ℤ) = i by omega] at this

/-- The filling loop of the forward phase. -/
theorem fwdFill_spec {n : ℕ} {jm : ℤ} (h0 : 0 ≤ a) (hjm : a ≤ jm) (hn : jm < n) {sf F : List ℝ} (hF : F.length = n)
    (hz : ZeroBelow F a) (hw : w a ≠ 0) (hg : FwdGood w sf a (jm - 1)) :
    ∃ F', (forL (pyRange 1 (jm - a + 1)) (F.set jm.toNat 1) fun k F => do
        let x ← rd F (jm - k + 1)
        let y ← rd sf (jm - k)
        wr F (jm - k) (x * y)) = .ok F' ∧ F'.length = n ∧ ZeroBelow F' a ∧ Has F' a jm (fun i => (w jm)⁻¹ * w i) := by
  have hwj : w jm ≠ 0 := hg.ne hw hjm (by omega)
  obtain ⟨F', h1, h2, h3, h4⟩ := forR_inv 1 (jm - a + 1) (by omega)
    (fun k F' => F'.length = n ∧ ZeroBelow F' a ∧ Has F' (jm - k + 1) jm (fun i => (w jm)⁻¹ * w i)) (F.set jm.toNat 1)
    (fun k F => do
        let x ← rd F (jm - k + 1)
        let y ← rd sf (jm - k)
        wr F (jm - k) (x * y))
    ⟨by simp [hF], hz.set hjm, by
      intro i i1 i2
      have : i = jm := by omega
      subst this
      rw [getElem?_set_eq' (by omega) (by omega)]
      simp only; rw [inv_mul_cancel₀ hwj]⟩
    (by
      intro k F' k1 k2 ⟨l, z, hh⟩
      obtain ⟨s, e1, _, _, e2⟩ := hg (jm - k) (by omega) (by omega)
      refine ⟨F'.set (jm - k).toNat ((w jm)⁻¹ * w (jm - k + 1) * s), ?_, by simp [l], z.set (by omega), ?_⟩
      · rw [hh.rd (by omega) (by omega) (by omega)]
        simp only [bind, Except.bind]
        rw [rd_ok (by omega) e1]
        simp only
        rw [wr_ok (by omega) (by omega)]
      · intro i i1 i2
        by_cases hik : i = jm - k
        · subst hik
          rw [getElem?_set_eq' (by omega) (by omega)]
          simp only; rw [e2]
          congr 1; ring
        · rw [getElem?_set_ne' (by omega) (by omega) (by omega)]
          exact hh i (by omega) i2)
  exact ⟨F', h1, h2, h3, h4.mono (by omega) (le_refl _)⟩

/-- Result of the forward phase. -/
theorem fwdPhase_spec (H : Tri X Y Z w a b) {m1 m2 m3 : ℤ} {n : ℕ} (hn : b < n) {sf F : List ℝ} (hsf : sf.length = n)
    (hF : F.length = n) (hz : ZeroBelow F a)
    (hm0 : m1 = 0 ∧ m2 = 0 ∧ m3 = 0 → w (a + 1) = 0) (ha0 : a = 0 → Y a = 0) :
    ∃ sf' F' jm um, fwdPhase X Y Z m1 m2 m3 a b sf F = .ok (sf', F', jm, um) ∧ sf'.length = n ∧ F'.length = n ∧
      ((um = true ∧ jm = a ∧ ¬ (m1 = 0 ∧ m2 = 0 ∧ m3 = 0)) ∨
       (um = false ∧ (a = 0 → m1 = 0 ∧ m2 = 0 ∧ m3 = 0) ∧ a + 1 ≤ jm ∧ jm ≤ b ∧ ZeroBelow F' a ∧
        (∃ l, l ≠ 0 ∧ Has F' a jm (fun i => l * w i)) ∧ w (jm - 1) ≠ 0 ∧
        (a + 2 ≤ jm → jm < b → jm ≤ b - 2 ∧ FwdGood w sf' a jm))) := by
  have h0 := H.a0
  have hab := H.ab
  -- the branches that only fill in two values
  have two : ∀ v, v * w a = w (a + 1) → (a = 0 → m1 = 0 ∧ m2 = 0 ∧ m3 = 0) →
      ∃ sf' F' jm um, (Except.ok (sf, ((F.set a.toNat 1).set (a + 1).toNat v), a + 1, false) : Py _) = .ok (sf', F', jm, um) ∧
        sf'.length = n ∧ F'.length = n ∧
      ((um = true ∧ jm = a ∧ ¬ (m1 = 0 ∧ m2 = 0 ∧ m3 = 0)) ∨
       (um = false ∧ (a = 0 → m1 = 0 ∧ m2 = 0 ∧ m3 = 0) ∧ a + 1 ≤ jm ∧ jm ≤ b ∧ ZeroBelow F' a ∧
        (∃ l, l ≠ 0 ∧ Has F' a jm (fun i => l * w i)) ∧ w (jm - 1) ≠ 0 ∧
        (a + 2 ≤ jm → jm < b → jm ≤ b - 2 ∧ FwdGood w sf' a jm))) := by
    intro v hv hs
    refine ⟨_, _, _, _, rfl, hsf, by simp [hF], Or.inr ⟨rfl, hs, le_refl _, by omega, (hz.set (le_refl _)).set (by omega),
      ⟨(w a)⁻¹, inv_ne_zero H.wa, ?_⟩, by rw [add_sub_cancel_right]; exact H.wa, by omega⟩⟩
    intro i i1 i2
    by_cases hi : i = a + 1
    · subst hi
      rw [getElem?_set_eq' (by omega) (by simp; omega)]
      simp only; rw [← hv]
      congr 1; have := H.wa; field_simp
    · have : i = a := by omega
      subst this
      rw [getElem?_set_ne' (by omega) (by omega) (by omega), getElem?_set_eq' (by omega) (by omega)]
      simp only; rw [inv_mul_cancel₀ H.wa]
  have ra := H.eqn a (le_refl _) hab.le
  rw [H.Za, zero_mul, add_zero] at ra
  unfold fwdPhase
  by_cases c1 : m1 = 0 ∧ m2 = 0 ∧ m3 = 0
  · rw [if_pos c1, wr_ok (by omega) (by omega)]
    simp only [bind, Except.bind]
    rw [wr_ok (by omega) (by simp; omega)]
    exact two 0 (by rw [hm0 c1]; ring) (fun _ => c1)
  · rw [if_neg c1]
    by_cases c2 : Y a = 0
    · rw [if_pos c2]
      by_cases c3 : X a = 0
      · rw [if_pos c3]
        exact ⟨sf, F, a, true, rfl, hsf, hF, Or.inl ⟨rfl, rfl, c1⟩⟩
      · rw [if_neg c3, wr_ok (by omega) (by omega)]
        simp only [bind, Except.bind]
        rw [wr_ok (by omega) (by simp; omega)]
        have ha : a ≠ 0 := fun h => c3 (H.X0 h)
        refine two 0 ?_ (fun h => absurd h ha)
        rw [c2, zero_mul, add_zero] at ra
        rw [(mul_eq_zero.1 ra).resolve_left c3]; ring
    · have ha : a ≠ 0 := fun h => c2 (ha0 h)
      have hX := H.Xpos a (le_refl _) (by omega) hab
      have hv : -Y a / X a * w a = w (a + 1) := by field_simp; linarith
      rw [if_neg c2]
      by_cases c3 : X a * Y a ≥ 0
      · rw [if_pos c3, wr_ok (by omega) (by omega)]
        simp only [bind, Except.bind]
        rw [pyDiv_ok hX.ne']
        simp only
        rw [wr_ok (by omega) (by simp; omega)]
        exact two _ hv (fun h => absurd h ha)
      · rw [if_neg c3, pyDiv_ok c2]
        simp only [bind, Except.bind]
        rw [wr_ok (by omega) (by omega)]
        simp only
        have hY : Y a < 0 := by
          by_contra hcon
          exact c3 (mul_nonneg hX.le (not_lt.1 hcon))
        have hg0 : FwdGood w (sf.set a.toNat (-X a / Y a)) a a := by
          intro i i1 i2
          have : i = a := by omega
          subst this
          refine ⟨_, getElem?_set_eq' (by omega) (by omega), div_pos_of_neg_of_neg (by linarith) hY, by omega, ?_⟩
          field_simp; linarith
        obtain ⟨sf', o, g1, g2, g3, g4, g5⟩ := fwdLoop_spec H hn _ (a + 1) (sf.set a.toNat (-X a / Y a)) rfl (le_refl _)
          (by omega) (by simp [hsf]) (by simpa using hg0)
        rw [g1]
        simp only
        generalize o.getD b = jm at *
        rw [wr_ok (by omega) (by omega)]
        simp only
        obtain ⟨F', k1, k2, k3, k4⟩ := fwdFill_spec (n := n) (jm := jm) h0 (by omega) (by omega) hF hz H.wa
          (fun i i1 i2 => g5 i i1 (by omega))
        simp only [bind, Except.bind] at k1
        rw [k1]
        simp only
        by_cases c4 : jm = a
        · rw [if_pos c4, pyDiv_ok hX.ne']
          simp only
          rw [wr_ok (by omega) (by omega)]
          refine ⟨_, _, _, _, rfl, g2, by simp [k2], Or.inr ⟨rfl, fun h => absurd h ha, le_refl _, by omega, k3.set (by omega),
            ⟨(w a)⁻¹, inv_ne_zero H.wa, ?_⟩, by rw [add_sub_cancel_right]; exact H.wa, by omega⟩⟩
          intro i i1 i2
          by_cases hi : i = a + 1
          · subst hi
            rw [getElem?_set_eq' (by omega) (by omega)]
            simp only; rw [← hv]
            congr 1; have := H.wa; field_simp
          · rw [getElem?_set_ne' (by omega) (by omega) (by omega)]
            rw [c4] at k4
            exact k4 i i1 (by omega)
        · rw [if_neg c4]
          have hne : w jm ≠ 0 := FwdGood.ne H.wa (sf := sf') (hi := jm - 1) (fun i i1 i2 => g5 i i1 (by omega)) (by omega) (by omega)
          refine ⟨_, _, _, _, rfl, g2, k2, Or.inr ⟨rfl, fun h => absurd h ha, by omega, by omega, k3, ⟨_, inv_ne_zero hne, k4⟩,
            FwdGood.ne H.wa (sf := sf') (hi := jm - 1) (fun i i1 i2 => g5 i i1 (by omega)) (by omega) (by omega), ?_⟩⟩
          intro h1 h2
          have : jm ≤ b - 2 := by omega
          refine ⟨this, ?_⟩
          rwa [min_eq_left (by omega)] at g5

end

end SF
