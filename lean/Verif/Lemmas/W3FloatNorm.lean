import Verif.Lemmas.W3FloatSafe
import Verif.Lemmas.Rounding
import Verif.Lemmas.Wigner3j

/-!
# The row of `Wigner3jCalculator.calculate` before its normalisation does not vanish, in floating-point arithmetic
-/

set_option autoImplicit false

namespace SF

/-- The computation returns a value satisfying `Q`, or raises `ZeroDivisionError`. -/
def SafeZ {α : Type} (p : Py α) (Q : α → Prop) : Prop := (∃ v, p = .ok v ∧ Q v) ∨ p = .error .zeroDivision

theorem SafeZ.pure {α : Type} {v : α} {Q : α → Prop} (h : Q v) : SafeZ (Except.ok v) Q := Or.inl ⟨v, rfl, h⟩

theorem SafeZ.bind {α β : Type} {p : Py α} {k : α → Py β} {Q : α → Prop} {R : β → Prop} (h : SafeZ p Q)
    (hk : ∀ v, Q v → SafeZ (k v) R) : SafeZ (p >>= k) R := by
  rcases h with ⟨v, rfl, hv⟩ | rfl
  · exact hk v hv
  · exact Or.inr rfl

theorem SafeZ.mono {α : Type} {p : Py α} {Q R : α → Prop} (h : SafeZ p Q) (hk : ∀ v, Q v → R v) : SafeZ p R := by
  rcases h with ⟨v, rfl, hv⟩ | rfl
  · exact Or.inl ⟨v, rfl, hk v hv⟩
  · exact Or.inr rfl

theorem zsafe_forL {α σ : Type} {I : σ → Prop} {body : α → σ → Py σ} :
    ∀ (xs : List α) (st : σ), I st → (∀ x ∈ xs, ∀ s, I s → SafeZ (body x s) I) → SafeZ (forL xs st body) I := by
  intro xs
  induction xs with
  | nil => intro st h _; exact SafeZ.pure h
  | cons x xs ih =>
    intro st h hb
    rw [forL_cons]
    exact (hb x (by simp) st h).bind fun s hs => ih s hs fun y hy => hb y (by simp [hy])

/-- The entry at position `i` is not zero. -/
def NZ (F : List ℝ) (i : ℤ) : Prop := F.getD i.toNat 0 ≠ 0

theorem NZ.set_self {F : List ℝ} {i : ℤ} {v : ℝ} (h : i < F.length) (h0 : 0 ≤ i) (hv : v ≠ 0) : NZ (F.set i.toNat v) i := by
  unfold NZ
  rw [List.getD_eq_getElem?_getD, List.getElem?_set_self (by omega)]
  exact hv

theorem NZ.set_ne {F : List ℝ} {i k : ℤ} {v : ℝ} (h0 : 0 ≤ i) (hk : 0 ≤ k) (hik : i ≠ k) (h : NZ F k) : NZ (F.set i.toNat v) k := by
  unfold NZ at h ⊢
  rw [List.getD_eq_getElem?_getD, List.getElem?_set_ne (by omega), ← List.getD_eq_getElem?_getD]
  exact h

theorem NZ.set {F : List ℝ} {i k : ℤ} {v : ℝ} (h0 : 0 ≤ i) (hk : 0 ≤ k) (hi : i < F.length) (hv : v ≠ 0) (h : i ≠ k → NZ F k) :
    NZ (F.set i.toNat v) k := by
  by_cases e : i = k
  · subst e; exact NZ.set_self hi h0 hv
  · exact NZ.set_ne h0 hk e (h e)

theorem getD_mapSlice {F : List ℝ} {lo hi : ℤ} {g : ℝ → ℝ} {i : ℕ} (h : i < F.length) :
    (mapSlice F lo hi g).getD i 0 = if lo ≤ (i : ℤ) ∧ (i : ℤ) < hi then g (F.getD i 0) else F.getD i 0 := by
  rw [List.getD_eq_getElem?_getD, mapSlice_getElem?, List.getD_eq_getElem?_getD, List.getElem?_eq_getElem h]
  simp

theorem getD_ge {F : List ℝ} {i : ℕ} (h : ¬ i < F.length) : F.getD i 0 = 0 := by
  rw [List.getD_eq_getElem?_getD, List.getElem?_eq_none (by omega)]; rfl

theorem NZ.map {F : List ℝ} {lo hi k : ℤ} {g : ℝ → ℝ} (hg : ∀ v, v ≠ 0 → g v ≠ 0) (h : NZ F k) : NZ (mapSlice F lo hi g) k := by
  unfold NZ at h ⊢
  by_cases hk : k.toNat < F.length
  · rw [getD_mapSlice hk]
    split
    · exact hg _ h
    · exact h
  · exact absurd (getD_ge hk) h

theorem getD_copySlice {f F : List ℝ} {lo hi : ℤ} {g : ℝ → ℝ} {i : ℕ} (h : i < f.length) :
    (copySlice f F lo hi g).getD i 0 = if lo ≤ (i : ℤ) ∧ (i : ℤ) < hi then g (F.getD i 0) else f.getD i 0 := by
  unfold copySlice
  rw [List.getD_eq_getElem?_getD, List.getElem?_mapIdx, List.getD_eq_getElem?_getD (l := f), List.getElem?_eq_getElem h]
  simp

theorem NZ.copy {f F : List ℝ} {lo hi k : ℤ} (h0 : 0 ≤ k) (hf : k < f.length) (h1 : lo ≤ k) (h2 : k < hi) (h : NZ F k) :
    NZ (copySlice f F lo hi id) k := by
  unfold NZ at h ⊢
  rw [getD_copySlice (by omega), if_pos (by omega)]
  exact h

theorem rd_val {a : List ℝ} {n : ℕ} {i : ℤ} (hl : a.length = n) (h0 : 0 ≤ i) (h1 : i < n) : rd a i = .ok (a.getD i.toNat 0) := by
  apply rd_ok h0
  rw [List.getD_eq_getElem?_getD, List.getElem?_eq_getElem (by omega)]
  rfl

theorem zsafe_rdv {a : List ℝ} {n : ℕ} {i : ℤ} (hl : a.length = n) (h0 : 0 ≤ i) (h1 : i < n) :
    SafeZ (rd a i) fun v => v = a.getD i.toNat 0 := by
  rw [rd_val hl h0 h1]; exact SafeZ.pure rfl

theorem zsafe_wrv {a : List ℝ} {n : ℕ} {i : ℤ} {v : ℝ} (hl : a.length = n) (h0 : 0 ≤ i) (h1 : i < n) :
    SafeZ (wr a i v) fun b => b = a.set i.toNat v ∧ b.length = n := by
  rw [wr_ok h0 (by omega)]; exact SafeZ.pure ⟨rfl, by simp [hl]⟩

theorem pyRangeDown_nil {a b : ℤ} (h : a ≤ b) : pyRangeDown a b = [] := by
  unfold pyRangeDown
  rw [show (a - b).toNat = 0 by omega]; rfl

theorem pyRangeDown_cons {a b : ℤ} (h : b < a) : pyRangeDown a b = a :: pyRangeDown (a - 1) b := by
  unfold pyRangeDown
  rw [show (a - b).toNat = (a - 1 - b).toNat + 1 by omega, List.range_succ_eq_map, List.map_cons, List.map_map]
  congr 1
  · simp
  · apply List.map_congr_left
    intro k _
    simp only [Function.comp]
    push_cast; ring

theorem RelErr.eq_zero {u x' : ℝ} (h : RelErr u x' 0) : x' = 0 := by
  unfold RelErr at h
  simpa using h

section
variable {G : W3Ops} {u : ℝ} (hG : G.Std u)
include hG

theorem W3Ops.Std.div_ne {x y : ℝ} (hx : x ≠ 0) (hy : y ≠ 0) : G.div x y ≠ 0 :=
  (RelErr.fac hG.u_nonneg hG.u_lt_one (hG.div x y hy)).ne_zero hG.u_nonneg hG.u_lt_one (div_ne_zero hx hy)

theorem W3Ops.Std.mul_ne {x y : ℝ} (hx : x ≠ 0) (hy : y ≠ 0) : G.mul x y ≠ 0 :=
  (RelErr.fac hG.u_nonneg hG.u_lt_one (hG.mul x y)).ne_zero hG.u_nonneg hG.u_lt_one (mul_ne_zero hx hy)

theorem W3Ops.Std.add_ne {x y : ℝ} (h : x + y ≠ 0) : G.add x y ≠ 0 :=
  (RelErr.fac hG.u_nonneg hG.u_lt_one (hG.add x y)).ne_zero hG.u_nonneg hG.u_lt_one h

theorem W3Ops.Std.mul_zero (x : ℝ) : G.mul x 0 = 0 := RelErr.eq_zero (u := u) (by simpa using hG.mul x 0)

theorem W3Ops.Std.zero_mul (x : ℝ) : G.mul 0 x = 0 := RelErr.eq_zero (u := u) (by simpa using hG.mul 0 x)

theorem W3Ops.Std.zero_div {y : ℝ} (h : y ≠ 0) : G.div 0 y = 0 := RelErr.eq_zero (u := u) (by simpa using hG.div 0 y h)

theorem W3Ops.Std.scale_ne (v : ℝ) (hv : v ≠ 0) : G.div v 1000 ≠ 0 := hG.div_ne hv (by norm_num)

theorem zsafe_fDiv (x y : ℝ) : SafeZ (fDiv G x y) fun v => y ≠ 0 ∧ v = G.div x y ∧ (x ≠ 0 → v ≠ 0) := by
  unfold fDiv
  split
  · exact Or.inr rfl
  · rename_i h
    exact SafeZ.pure ⟨h, rfl, fun hx => hG.div_ne hx h⟩

variable {X Y Z : ℤ → ℝ} {a b : ℤ} {n : ℕ}

theorem fwdLoopF_nz (h0 : 0 ≤ a) (hn : b < n) (hX : ∀ j, a < j → j < b → X j ≠ 0) : ∀ (N : ℕ) (j : ℤ) (sf : List ℝ), (b - j).toNat = N → a < j →
    j ≤ b → sf.length = n → (∀ i, a ≤ i → i < j → NZ sf i) → SafeZ (fwdLoopF G X Y Z (pyRange j b) sf) fun r => r.1.length = n ∧
      ((r.2 = none ∧ ∀ i, a ≤ i → i < b → NZ r.1 i) ∨ ∃ k, r.2 = some k ∧ a ≤ k ∧ k < b ∧ ∀ i, a ≤ i → i ≤ k → NZ r.1 i) := by
  intro N
  induction N with
  | zero =>
    intro j sf hN haj hjb hl hnz
    have : j = b := by omega
    subst this
    rw [pyRange_empty (le_refl _)]
    exact SafeZ.pure ⟨hl, Or.inl ⟨rfl, hnz⟩⟩
  | succ N ih =>
    intro j sf hN haj hjb hl hnz
    rw [pyRange_cons (by omega)]
    unfold fwdLoopF
    refine (zsafe_rdv hl (by omega) (by omega)).bind fun s _ => ?_
    dsimp only
    split
    · exact SafeZ.pure ⟨hl, Or.inr ⟨j - 1, rfl, by omega, by omega, fun i h1 h2 => hnz i h1 (by omega)⟩⟩
    · refine (zsafe_fDiv hG _ _).bind fun v hv => ?_
      refine (zsafe_wrv hl (by omega) (by omega)).bind fun sf' hl' => ?_
      refine ih (j + 1) sf' (by omega) (by omega) (by omega) hl'.2 fun i h1 h2 => ?_
      rw [hl'.1]
      exact NZ.set (by omega) (by omega) (by omega) (hv.2.2 (neg_ne_zero.2 (hX j haj (by omega)))) fun _ => hnz i h1 (by omega)

theorem fwdPhaseF_nz (h0 : 0 ≤ a) (hab : a < b) (hn : b < n) (hX : ∀ j, a < j → j < b → X j ≠ 0) {m1 m2 m3 : ℤ} {sf F : List ℝ}
    (hXa : a = 0 → X a = 0) (hYa : a = 0 → Y a = 0)
    (hs : sf.length = n) (hF : F.length = n) :
    SafeZ (fwdPhaseF G X Y Z m1 m2 m3 a b sf F) fun r => r.1.length = n ∧ r.2.1.length = n ∧ a ≤ r.2.2.1 ∧ r.2.2.1 ≤ b ∧
      (∀ i, a < i → i < r.2.2.1 → NZ r.1 i) ∧
      (r.2.2.2 = false → a + 1 ≤ r.2.2.1 ∧ (∀ i, a ≤ i → i < r.2.2.1 → NZ r.2.1 i) ∧ (a = 0 → m1 = 0 ∧ m2 = 0 ∧ m3 = 0)) ∧ (r.2.2.2 = true → r.2.2.1 = a) := by
  have K : ∀ (v : ℝ) (sf : List ℝ), sf.length = n → (a = 0 → m1 = 0 ∧ m2 = 0 ∧ m3 = 0) → SafeZ (do
      let F_minus ← wr F a 1
      let F_minus ← wr F_minus (a + 1) v
      return (sf, F_minus, a + 1, false) : Py (List ℝ × List ℝ × ℤ × Bool)) fun r => r.1.length = n ∧ r.2.1.length = n ∧ a ≤ r.2.2.1 ∧ r.2.2.1 ≤ b ∧
      (∀ i, a < i → i < r.2.2.1 → NZ r.1 i) ∧
      (r.2.2.2 = false → a + 1 ≤ r.2.2.1 ∧ (∀ i, a ≤ i → i < r.2.2.1 → NZ r.2.1 i) ∧ (a = 0 → m1 = 0 ∧ m2 = 0 ∧ m3 = 0)) ∧ (r.2.2.2 = true → r.2.2.1 = a) := by
    intro v sf hs hm
    refine (zsafe_wrv hF (by omega) (by omega)).bind fun F1 h1 => (zsafe_wrv h1.2 (by omega) (by omega)).bind fun F2 h2 => ?_
    refine SafeZ.pure ⟨hs, h2.2, by dsimp only; omega, by dsimp only; omega, fun i g1 g2 => ?_, fun _ => ⟨le_refl _, fun i g1 g2 => ?_, hm⟩, by simp⟩
    · dsimp only at g2; omega
    · dsimp only at g2 ⊢
      have : i = a := by omega
      subst this
      rw [h2.1]
      refine NZ.set_ne (by omega) (by omega) (by omega) ?_
      rw [h1.1]
      exact NZ.set_self (by omega) (by omega) one_ne_zero
  unfold fwdPhaseF
  split
  · rename_i hm; exact K 0 sf hs fun _ => hm
  split
  · split
    · exact SafeZ.pure ⟨hs, hF, by simp, by simp; omega, fun i g1 g2 => by dsimp only at g2; omega, by simp, fun _ => rfl⟩
    · rename_i hx; exact K 0 sf hs fun h => absurd (hXa h) hx
  rename_i hY
  have ha : a ≠ 0 := fun h => hY (hYa h)
  split
  · refine (zsafe_wrv hF (by omega) (by omega)).bind fun F1 h1 => ?_
    refine (zsafe_fDiv hG _ _).bind fun v _ => (zsafe_wrv h1.2 (by omega) (by omega)).bind fun F2 h2 => ?_
    refine SafeZ.pure ⟨hs, h2.2, by dsimp only; omega, by dsimp only; omega, fun i g1 g2 => ?_, fun _ => ⟨le_refl _, fun i g1 g2 => ?_, fun h => absurd h ha⟩, by simp⟩
    · dsimp only at g2; omega
    · dsimp only at g2 ⊢
      have : i = a := by omega
      subst this
      rw [h2.1]
      refine NZ.set_ne (by omega) (by omega) (by omega) ?_
      rw [h1.1]
      exact NZ.set_self (by omega) (by omega) one_ne_zero
  · rename_i hXY
    have hXa' : X a ≠ 0 := by
      intro h; apply hXY; rw [h, hG.zero_mul]
    refine (zsafe_fDiv hG _ _).bind fun v hv => (zsafe_wrv hs (by omega) (by omega)).bind fun sf1 h1 => ?_
    refine (fwdLoopF_nz hG h0 hn hX _ (a + 1) sf1 rfl (by omega) (by omega) h1.2 fun i g1 g2 => ?_).bind fun r hr => ?_
    · have : i = a := by omega
      subst this
      rw [h1.1]
      exact NZ.set_self (by omega) (by omega) (hv.2.2 (neg_ne_zero.2 hXa'))
    obtain ⟨sf2, o⟩ := r
    obtain ⟨hr1, hr2⟩ := hr
    dsimp only at hr1 hr2 ⊢
    have ho : a ≤ o.getD b ∧ o.getD b ≤ b ∧ ∀ i, a ≤ i → i < o.getD b → NZ sf2 i := by
      rcases hr2 with ⟨rfl, h⟩ | ⟨k, rfl, g1, g2, g3⟩
      · exact ⟨by simp; omega, by simp, fun i g1 g2 => h i g1 (by simpa using g2)⟩
      · exact ⟨by simpa using g1, by simp; omega, fun i g4 g5 => g3 i g4 (by simp at g5; omega)⟩
    generalize o.getD b = jm at ho
    obtain ⟨ho1, ho2, ho3⟩ := ho
    refine (zsafe_wrv hF (by omega) (by omega)).bind fun F1 h2 => ?_
    have L : SafeZ (forL (pyRange 1 (jm - a + 1)) F1 fun k F_minus => do
        let a ← rd F_minus (jm - k + 1)
        let b ← rd sf2 (jm - k)
        wr F_minus (jm - k) (G.mul a b)) fun F => F.length = n ∧ ∀ i, a ≤ i → i ≤ jm → NZ F i := by
      have aux : ∀ (N : ℕ) (k : ℤ) (F : List ℝ), (jm - a + 1 - k).toNat = N → 1 ≤ k → k ≤ jm - a + 1 → F.length = n →
          (∀ i, jm - k < i → i ≤ jm → NZ F i) → SafeZ (forL (pyRange k (jm - a + 1)) F fun k F_minus => do
        let a ← rd F_minus (jm - k + 1)
        let b ← rd sf2 (jm - k)
        wr F_minus (jm - k) (G.mul a b)) fun F => F.length = n ∧ ∀ i, a ≤ i → i ≤ jm → NZ F i := by
        intro N
        induction N with
        | zero =>
          intro k F hN hk1 hk2 hl hz
          rw [pyRange_empty (by omega)]
          exact SafeZ.pure ⟨hl, fun i g1 g2 => hz i (by omega) g2⟩
        | succ N ih =>
          intro k F hN hk1 hk2 hl hz
          rw [pyRange_cons (by omega), forL_cons]
          refine SafeZ.bind (Q := fun F => F.length = n ∧ ∀ i, jm - (k + 1) < i → i ≤ jm → NZ F i) ?_
            fun F' hF' => ih (k + 1) F' (by omega) (by omega) (by omega) hF'.1 hF'.2
          refine (zsafe_rdv hl (by omega) (by omega)).bind fun x hx => (zsafe_rdv hr1 (by omega) (by omega)).bind fun y hy => ?_
          refine (zsafe_wrv hl (by omega) (by omega)).mono fun F' hF' => ⟨hF'.2, fun i g1 g2 => ?_⟩
          rw [hF'.1]
          refine NZ.set (by omega) (by omega) (by omega) (hG.mul_ne ?_ ?_) fun _ => hz i (by omega) g2
          · rw [hx]; exact hz (jm - k + 1) (by omega) (by omega)
          · rw [hy]; exact ho3 (jm - k) (by omega) (by omega)
      refine aux _ 1 F1 rfl (le_refl _) (by omega) h2.2 fun i g1 g2 => ?_
      have : i = jm := by omega
      subst this
      rw [h2.1]
      exact NZ.set_self (by omega) (by omega) one_ne_zero
    refine L.bind fun F2 h3 => ?_
    split
    · rename_i hjm
      refine (zsafe_fDiv hG _ _).bind fun v _ => (zsafe_wrv h3.1 (by omega) (by omega)).bind fun F3 h4 => ?_
      refine SafeZ.pure ⟨hr1, h4.2, by simp, by simp; omega, fun i g1 g2 => ?_, fun _ => ⟨le_refl _, fun i g1 g2 => ?_, fun h => absurd h ha⟩, by simp⟩
      · dsimp only at g2; omega
      · dsimp only at g2 ⊢
        have : i = a := by omega
        subst this
        rw [h4.1]
        exact NZ.set_ne (by omega) (by omega) (by omega) (h3.2 i (le_refl _) (by omega))
    · exact SafeZ.pure ⟨hr1, h3.1, ho1, ho2, fun i g1 g2 => ho3 i (by omega) g2,
        fun _ => ⟨by dsimp only; omega, fun i g1 g2 => h3.2 i g1 (by dsimp only at g2; omega), fun h => absurd h ha⟩, by simp⟩

theorem revLoopF_nz {jm : ℤ} (h0 : 0 ≤ a) (hjm : a ≤ jm) (hn : b < n) : ∀ (N : ℕ) (j : ℤ) (rf : List ℝ),
    (j - (jm - 1)).toNat = N → jm - 1 ≤ j → j < b → rf.length = n → (∀ i, a < i → i < jm → NZ rf i) → (∀ i, j < i → i ≤ b → NZ rf i) →
    SafeZ (revLoopF G X Y Z (pyRangeDown j (jm - 1)) rf) fun r => r.1.length = n ∧
      ((r.2 = none ∧ ∀ i, a < i → i ≤ b → NZ r.1 i) ∨
        ∃ k, r.2 = some k ∧ jm < k ∧ k ≤ b ∧ ∀ i, k ≤ i → i ≤ b → NZ r.1 i) := by
  intro N
  induction N with
  | zero =>
    intro j rf hN h1 h2 hl hz hz'
    have : j = jm - 1 := by omega
    subst this
    rw [pyRangeDown_nil (le_refl _)]
    refine SafeZ.pure ⟨hl, Or.inl ⟨rfl, fun i g1 g2 => ?_⟩⟩
    by_cases h : i < jm
    · exact hz i g1 h
    · exact hz' i (by omega) g2
  | succ N ih =>
    intro j rf hN h1 h2 hl hz hz'
    rw [pyRangeDown_cons (by omega)]
    unfold revLoopF
    refine (zsafe_rdv hl (by omega) (by omega)).bind fun s _ => ?_
    dsimp only
    split
    · exact SafeZ.pure ⟨hl, Or.inr ⟨j + 1, rfl, by omega, by omega, fun i g1 g2 => hz' i (by omega) g2⟩⟩
    · rename_i hbr
      refine (zsafe_fDiv hG _ _).bind fun v hv => ?_
      refine (zsafe_wrv hl (by omega) (by omega)).bind fun rf' hl' => ?_
      have hZj : Z j ≠ 0 := by
        intro h
        apply hbr
        right; right
        rw [h, hG.zero_mul]
      refine ih (j - 1) rf' (by omega) (by omega) (by omega) hl'.2 (fun i g1 g2 => ?_) (fun i g1 g2 => ?_)
      · rw [hl'.1]
        exact NZ.set_ne (by omega) (by omega) (by omega) (hz i g1 g2)
      · rw [hl'.1]
        exact NZ.set (by omega) (by omega) (by omega) (hv.2.2 (neg_ne_zero.2 hZj)) fun _ => hz' i (by omega) g2

theorem revPhaseF_nz (h0 : 0 ≤ a) (hab : a < b) (hn : b < n) (hZ : ∀ j, a < j → j ≤ b → Z j ≠ 0) {m1 m2 m3 jm : ℤ} (hjm : a ≤ jm) (hjb : jm < b)
    {rf F : List ℝ} (hs : rf.length = n) (hF : F.length = n) (hz : ∀ i, a < i → i < jm → NZ rf i) :
    SafeZ (revPhaseF G X Y Z m1 m2 m3 a b jm rf F) fun r => r.1.length = n ∧ r.2.1.length = n ∧ a ≤ r.2.2.1 ∧ r.2.2.1 ≤ b ∧
      (r.2.2.2 = false → r.2.2.1 ≤ b - 1 ∧ NZ r.2.1 b ∧ (m1 = 0 ∧ m2 = 0 ∧ m3 = 0 → r.2.2.1 = b - 1)) ∧
      r.2.2.2 = false := by
  unfold revPhaseF
  split
  · refine (zsafe_wrv hF (by omega) (by omega)).bind fun F1 h1 => (zsafe_wrv h1.2 (by omega) (by omega)).bind fun F2 h2 => ?_
    refine SafeZ.pure ⟨hs, h2.2, by simp; omega, by simp, fun _ => ⟨le_refl _, ?_, fun _ => rfl⟩, rfl⟩
    dsimp only
    rw [h2.1]
    refine NZ.set_ne (by omega) (by omega) (by omega) ?_
    rw [h1.1]
    exact NZ.set_self (by omega) (by omega) one_ne_zero
  rename_i hm
  have K : SafeZ (do
      let F_plus ← wr F b 1
      let v ← fDiv G (-Y b) (Z b)
      let F_plus ← wr F_plus (b - 1) v
      return (rf, F_plus, b - 1, false) : Py (List ℝ × List ℝ × ℤ × Bool)) fun r => r.1.length = n ∧ r.2.1.length = n ∧ a ≤ r.2.2.1 ∧ r.2.2.1 ≤ b ∧
      (r.2.2.2 = false → r.2.2.1 ≤ b - 1 ∧ NZ r.2.1 b ∧ (m1 = 0 ∧ m2 = 0 ∧ m3 = 0 → r.2.2.1 = b - 1)) ∧
      r.2.2.2 = false := by
    refine (zsafe_wrv hF (by omega) (by omega)).bind fun F1 h1 => (zsafe_fDiv hG _ _).bind fun v _ =>
      (zsafe_wrv h1.2 (by omega) (by omega)).bind fun F2 h2 => ?_
    refine SafeZ.pure ⟨hs, h2.2, by simp; omega, by simp, fun _ => ⟨le_refl _, ?_, fun _ => rfl⟩, rfl⟩
    dsimp only
    rw [h2.1]
    refine NZ.set_ne (by omega) (by omega) (by omega) ?_
    rw [h1.1]
    exact NZ.set_self (by omega) (by omega) one_ne_zero
  split
  · split
    · rename_i hZb; exact absurd hZb (hZ b hab (le_refl _))
    · exact K
  split
  · exact K
  · refine (zsafe_fDiv hG _ _).bind fun v hv => (zsafe_wrv hs (by omega) (by omega)).bind fun sf1 h1 => ?_
    refine (revLoopF_nz hG (jm := jm) h0 hjm hn _ (b - 1) sf1 rfl (by omega) (by omega) h1.2 (fun i g1 g2 => ?_)
      (fun i g1 g2 => ?_)).bind fun r hr => ?_
    · rw [h1.1]
      exact NZ.set_ne (by omega) (by omega) (by omega) (hz i g1 g2)
    · have : i = b := by omega
      subst this
      rw [h1.1]
      exact NZ.set_self (by omega) (by omega) (hv.2.2 (neg_ne_zero.2 (hZ _ hab (le_refl _))))
    obtain ⟨sf2, o⟩ := r
    obtain ⟨hr1, hr2⟩ := hr
    dsimp only at hr1 hr2 ⊢
    have ho : a ≤ o.getD a ∧ o.getD a ≤ b ∧ ∀ i, o.getD a < i → i ≤ b → NZ sf2 i := by
      rcases hr2 with ⟨rfl, h⟩ | ⟨k, rfl, g1, g2, g3⟩
      · exact ⟨by simp, by simp; omega, fun i g1 g2 => h i (by simpa using g1) g2⟩
      · exact ⟨by simp; omega, by simpa using g2, fun i g4 g5 => g3 i (by simp at g4; omega) g5⟩
    generalize o.getD a = jp at ho
    obtain ⟨ho1, ho2, ho3⟩ := ho
    refine (zsafe_wrv hF (by omega) (by omega)).bind fun F1 h2 => ?_
    have L : SafeZ (forL (pyRange 1 (b - jp + 1)) F1 fun k F_plus => do
        let a ← rd F_plus (jp + k - 1)
        let b ← rd sf2 (jp + k)
        wr F_plus (jp + k) (G.mul a b)) fun F => F.length = n ∧ ∀ i, jp ≤ i → i ≤ b → NZ F i := by
      have aux : ∀ (N : ℕ) (k : ℤ) (F : List ℝ), (b - jp + 1 - k).toNat = N → 1 ≤ k → k ≤ b - jp + 1 → F.length = n →
          (∀ i, jp ≤ i → i < jp + k → NZ F i) → SafeZ (forL (pyRange k (b - jp + 1)) F fun k F_plus => do
        let a ← rd F_plus (jp + k - 1)
        let b ← rd sf2 (jp + k)
        wr F_plus (jp + k) (G.mul a b)) fun F => F.length = n ∧ ∀ i, jp ≤ i → i ≤ b → NZ F i := by
        intro N
        induction N with
        | zero =>
          intro k F hN hk1 hk2 hl hz
          rw [pyRange_empty (by omega)]
          exact SafeZ.pure ⟨hl, fun i g1 g2 => hz i g1 (by omega)⟩
        | succ N ih =>
          intro k F hN hk1 hk2 hl hz
          rw [pyRange_cons (by omega), forL_cons]
          refine SafeZ.bind (Q := fun F => F.length = n ∧ ∀ i, jp ≤ i → i < jp + (k + 1) → NZ F i) ?_
            fun F' hF' => ih (k + 1) F' (by omega) (by omega) (by omega) hF'.1 hF'.2
          refine (zsafe_rdv hl (by omega) (by omega)).bind fun x hx => (zsafe_rdv hr1 (by omega) (by omega)).bind fun y hy => ?_
          refine (zsafe_wrv hl (by omega) (by omega)).mono fun F' hF' => ⟨hF'.2, fun i g1 g2 => ?_⟩
          rw [hF'.1]
          refine NZ.set (by omega) (by omega) (by omega) (hG.mul_ne ?_ ?_) fun _ => hz i g1 (by omega)
          · rw [hx]; exact hz (jp + k - 1) (by omega) (by omega)
          · rw [hy]; exact ho3 (jp + k) (by omega) (by omega)
      refine aux _ 1 F1 rfl (le_refl _) (by omega) h2.2 fun i g1 g2 => ?_
      have : i = jp := by omega
      subst this
      rw [h2.1]
      exact NZ.set_self (by omega) (by omega) one_ne_zero
    refine L.bind fun F2 h3 => ?_
    split
    · rename_i hjp
      refine (zsafe_fDiv hG _ _).bind fun v _ => (zsafe_wrv h3.1 (by omega) (by omega)).bind fun F3 h4 => ?_
      refine SafeZ.pure ⟨hr1, h4.2, by simp; omega, by simp, fun _ => ⟨le_refl _, ?_, fun h => absurd h hm⟩, rfl⟩
      dsimp only
      rw [h4.1]
      exact NZ.set_ne (by omega) (by omega) (by omega) (h3.2 b (by omega) (le_refl _))
    · exact SafeZ.pure ⟨hr1, h3.1, ho1, ho2, fun _ => ⟨by dsimp only; omega, h3.2 b ho2 (le_refl _), fun h => absurd h hm⟩, rfl⟩

theorem downStepF_nz {j c : ℤ} (h1 : 1 ≤ j) (h2 : j + 1 < n) {F : List ℝ} (hF : F.length = n) :
    SafeZ (downStepF G X Y Z c j F) fun F' => F'.length = n ∧ ∀ i, j ≤ i → NZ F i → NZ F' i := by
  unfold downStepF
  refine (zsafe_rdv hF (by omega) (by omega)).bind fun _ _ => (zsafe_rdv hF (by omega) (by omega)).bind fun _ _ =>
    (zsafe_fDiv hG _ _).bind fun _ _ => (zsafe_wrv hF (by omega) (by omega)).bind fun F1 h3 =>
    (zsafe_rdv h3.2 (by omega) (by omega)).bind fun _ _ => SafeZ.pure ?_
  have key : ∀ i, j ≤ i → NZ F i → NZ F1 i := fun i g1 g2 => by
    rw [h3.1]; exact NZ.set_ne (by omega) (by omega) (by omega) g2
  split
  · exact ⟨by rw [mapSlice_length]; exact h3.2, fun i g1 g2 => (key i g1 g2).map hG.scale_ne⟩
  · exact ⟨h3.2, key⟩

/-- After the upward iteration, not both of the last two entries vanish. -/
theorem midLoopF_nz {c mid jm : ℤ} (h0 : 0 ≤ a) (hjm : a < jm) (hmid : mid < n) (hmb : mid ≤ b) (hZ : ∀ j, a < j → j ≤ b → Z j ≠ 0) :
    ∀ (N : ℕ) (j : ℤ) (F : List ℝ), (mid - j).toNat = N → jm ≤ j → j ≤ mid → F.length = n → (NZ F j ∨ NZ F (j - 1)) →
    SafeZ (midLoopF G X Y Z c (pyRange j mid) F mid) fun r => r.1.length = n ∧ r.2 ≤ mid ∧ jm ≤ r.2 ∧ (NZ r.1 r.2 ∨ NZ r.1 (r.2 - 1)) := by
  intro N
  induction N with
  | zero =>
    intro j F hN h1 h2 hl hz
    have : j = mid := by omega
    subst this
    rw [pyRange_empty (le_refl _)]
    exact SafeZ.pure ⟨hl, by simp, by simpa using h1, hz⟩
  | succ N ih =>
    intro j F hN h1 h2 hl hz
    rw [pyRange_cons (by omega)]
    unfold midLoopF
    refine (zsafe_rdv hl (by omega) (by omega)).bind fun y hy => (zsafe_rdv hl (by omega) (by omega)).bind fun z hz0 =>
      (zsafe_fDiv hG _ _).bind fun v hv => (zsafe_wrv hl (by omega) (by omega)).bind fun F1 h3 =>
      (zsafe_rdv h3.2 (by omega) (by omega)).bind fun c1 _ => ?_
    dsimp only
    have e1 : NZ F1 (j + 1) ∨ NZ F1 j := by
      by_cases hj : NZ F j
      · right; rw [h3.1]; exact NZ.set_ne (by omega) (by omega) (by omega) hj
      · left
        have hj1 := hz.resolve_left hj
        rw [h3.1]
        refine NZ.set_self (by omega) (by omega) (hv.2.2 (neg_ne_zero.2 (hG.add_ne ?_)))
        unfold NZ at hj hj1
        push Not at hj
        rw [hy, hj, hG.mul_zero, zero_add, hz0]
        exact hG.mul_ne (hZ j (by omega) (by omega)) hj1
    have h4 : (if |c1| > 1 then mapSlice F1 c (j + 1 + 1) (fun v => G.div v 1000) else F1).length = n ∧
        (NZ (if |c1| > 1 then mapSlice F1 c (j + 1 + 1) (fun v => G.div v 1000) else F1) (j + 1) ∨
          NZ (if |c1| > 1 then mapSlice F1 c (j + 1 + 1) (fun v => G.div v 1000) else F1) j) := by
      split
      · exact ⟨by rw [mapSlice_length]; exact h3.2, e1.imp (fun h => h.map hG.scale_ne) (fun h => h.map hG.scale_ne)⟩
      · exact ⟨h3.2, e1⟩
    generalize (if |c1| > 1 then mapSlice F1 c (j + 1 + 1) (fun v => G.div v 1000) else F1) = F2 at h4
    refine (zsafe_rdv h4.1 (by omega) (by omega)).bind fun _ _ => (zsafe_rdv h4.1 (by omega) (by omega)).bind fun _ _ =>
      (zsafe_fDiv hG _ _).bind fun _ _ => ?_
    have e2 : NZ F2 (j + 1) ∨ NZ F2 (j + 1 - 1) := by rw [add_sub_cancel_right]; exact h4.2
    split
    · exact SafeZ.pure ⟨h4.1, by dsimp only; omega, by dsimp only; omega, e2⟩
    · exact ih (j + 1) F2 (by omega) (by omega) (by omega) h4.1 e2

theorem meetPhaseF_nz (h0 : 0 ≤ a) (hab : a < b) (hn : b < n) (hZ : ∀ j, a < j → j ≤ b → Z j ≠ 0) {jm jp : ℤ} (h1 : a + 1 ≤ jm) (h1' : jm < b) (h2 : a ≤ jp)
    (h3 : jp ≤ b - 1) (h4 : a = 0 → jp = b - 1) {f Fm Fp : List ℝ} (hf : f.length = n) (hm : Fm.length = n) (hp : Fp.length = n)
    (hmz : ∀ i, a ≤ i → i < jm → NZ Fm i) (hpz : NZ Fp b) :
    SafeZ (meetPhaseF G X Y Z a b jm jp f Fm Fp) fun r => r.1.length = n ∧ NZ r.1 b := by
  unfold meetPhaseF
  dsimp only
  have hmid0 : SafeZ (midLoopF G X Y Z a (pyRange jm ((jm + jp) / 2)) Fm ((jm + jp) / 2)) fun r => r.1.length = n ∧ r.2 ≤ b - 1 ∧ a ≤ r.2 ∧ 1 ≤ r.2 ∧
      (NZ r.1 r.2 ∨ NZ r.1 (r.2 - 1)) := by
    by_cases hlt : (jm + jp) / 2 < jm
    · rw [pyRange_empty (by omega)]
      exact SafeZ.pure ⟨hm, by dsimp only; omega, by dsimp only; omega, by dsimp only; omega, Or.inl (hmz _ (by dsimp only; omega) hlt)⟩
    · refine (midLoopF_nz hG h0 (by omega) (by omega) (b := b) (by omega) hZ _ jm Fm rfl (le_refl _) (by omega) hm
        (Or.inr (hmz _ (by omega) (by omega)))).mono fun r hr => ⟨hr.1, by omega, by omega, by omega, hr.2.2.2⟩
  refine hmid0.bind fun r hr => ?_
  obtain ⟨F1, mid⟩ := r
  dsimp only at hr ⊢
  obtain ⟨hl, hr1, hr2, hr3, hr4⟩ := hr
  refine (zsafe_rdv hl (by omega) (by omega)).bind fun x hx => (zsafe_rdv hl (by omega) (by omega)).bind fun p hp0 => ?_
  have K : ∀ small : Bool, NZ F1 (if small then mid - 1 else mid) → SafeZ (do
      let j_mid := if small then mid - 1 else mid
      let F_minus_j_mid ← rd F1 j_mid
      let F_plus ← forL (pyRangeDown jp j_mid) Fp (downStepF G X Y Z b)
      let F_plus_j_mid ← rd F_plus j_mid
      if j_mid = b then return (copySlice f F1 a (b + 1) id, F1, F_plus)
      else if j_mid = a then return (copySlice f F_plus a (b + 1) id, F1, F_plus)
      else
        arrayDivisor F_minus_j_mid
        let f := copySlice f F1 a (j_mid + 1) (fun v => G.div (G.mul v F_plus_j_mid) F_minus_j_mid)
        return (copySlice f F_plus (j_mid + 1) (b + 1) id, F1, F_plus) : Py (List ℝ × List ℝ × List ℝ))
      fun r => r.1.length = n ∧ NZ r.1 b := by
    intro small
    have hmid' : 0 ≤ (if small = true then mid - 1 else mid) ∧ (if small = true then mid - 1 else mid) ≤ b - 1 := by
      split <;> omega
    dsimp only
    generalize (if small = true then mid - 1 else mid) = mid' at hmid'
    intro hz
    refine (zsafe_rdv hl (by omega) (by omega)).bind fun y hy => ?_
    refine (zsafe_forL (I := fun F => F.length = n ∧ NZ F b) _ Fp ⟨hp, hpz⟩ (fun j hj F hF => ?_)).bind fun F2 h4 => ?_
    · have := mem_rangeDown hj
      exact (downStepF_nz hG (by omega) (by omega) hF.1).mono fun F' hF' => ⟨hF'.1, hF'.2 b (by omega) hF.2⟩
    refine (zsafe_rdv h4.1 (by omega) (by omega)).bind fun _ _ => ?_
    rw [if_neg (by omega)]
    split
    · exact SafeZ.pure ⟨by simp [copySlice_length, hf], NZ.copy (by omega) (by omega) (by omega) (by omega) h4.2⟩
    · have hy0 : y ≠ 0 := by rw [hy]; exact hz
      unfold arrayDivisor
      rw [if_neg hy0]
      exact SafeZ.pure ⟨by simp [copySlice_length, hf],
        NZ.copy (by omega) (by rw [copySlice_length]; omega) (by omega) (by omega) h4.2⟩
  split
  · rename_i hpne
    refine (zsafe_fDiv hG _ _).bind fun q hq => K (decide (|q| < 1 / 1000000)) ?_
    split
    · rw [hp0] at hpne; exact hpne
    · rename_i hs
      by_contra hzero
      apply hs
      unfold NZ at hzero
      push Not at hzero
      rw [decide_eq_true_iff, hq.2.1, hx, hzero, hG.zero_div hpne, abs_zero]
      norm_num
  · rename_i hpz'
    refine K false ?_
    rw [if_neg (by simp)]
    push Not at hpz'
    exact hr4.resolve_right fun h => h (by rw [← hp0]; exact hpz')

end

end SF
