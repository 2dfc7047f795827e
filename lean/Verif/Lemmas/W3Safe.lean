import Verif.Model.Wigner3j
import Verif.Lemmas.Tri2

/-!
# Memory safety of `Wigner3jCalculator.calculate`, whatever the values of the coefficients
-/

set_option autoImplicit false

namespace SF

/-- The computation returns a value satisfying `Q`, or raises `ZeroDivisionError` or `ValueError`; in particular it does not
access memory outside its arrays. -/
def Safe {α : Type} (p : Py α) (Q : α → Prop) : Prop :=
  (∃ v, p = .ok v ∧ Q v) ∨ p = .error .zeroDivision ∨ p = .error .valueError

theorem Safe.pure {α : Type} {v : α} {Q : α → Prop} (h : Q v) : Safe (Except.ok v) Q := Or.inl ⟨v, rfl, h⟩

theorem Safe.bind {α β : Type} {p : Py α} {k : α → Py β} {Q : α → Prop} {R : β → Prop} (h : Safe p Q)
    (hk : ∀ v, Q v → Safe (k v) R) : Safe (p >>= k) R := by
  rcases h with ⟨v, rfl, hv⟩ | rfl | rfl
  · exact hk v hv
  · exact Or.inr (Or.inl rfl)
  · exact Or.inr (Or.inr rfl)

theorem Safe.mono {α : Type} {p : Py α} {Q R : α → Prop} (h : Safe p Q) (hk : ∀ v, Q v → R v) : Safe p R := by
  rcases h with ⟨v, rfl, hv⟩ | rfl | rfl
  · exact Or.inl ⟨v, rfl, hk v hv⟩
  · exact Or.inr (Or.inl rfl)
  · exact Or.inr (Or.inr rfl)

theorem safe_rd {a : List ℝ} {n : ℕ} {i : ℤ} (hl : a.length = n) (h0 : -1 ≤ i ∧ 0 < n) (h1 : i < n) : Safe (rd a i) fun _ => True := by
  left
  by_cases h : 0 ≤ i
  · exact ⟨a[i.toNat]'(by omega), rd_ok h (List.getElem?_eq_getElem (by omega)), trivial⟩
  · have : i = -1 := by omega
    subst this
    have hlt : n - 1 < a.length := by omega
    have e : npIdx a.length (-1) = some (n - 1) := by
      unfold npIdx
      rw [if_neg (by norm_num), if_pos ⟨by omega, by norm_num⟩]
      congr 1; omega
    refine ⟨a[n - 1]'hlt, ?_, trivial⟩
    unfold rd
    rw [e]
    simp only
    rw [List.getElem?_eq_getElem hlt]

theorem safe_wr {a : List ℝ} {n : ℕ} {i : ℤ} {v : ℝ} (hl : a.length = n) (h0 : -1 ≤ i ∧ 0 < n) (h1 : i < n) :
    Safe (wr a i v) fun b => b.length = n := by
  left
  by_cases h : 0 ≤ i
  · exact ⟨_, wr_ok h (by omega), by simp [hl]⟩
  · have : i = -1 := by omega
    subst this
    have hlt : n - 1 < a.length := by omega
    have e : npIdx a.length (-1) = some (n - 1) := by
      unfold npIdx
      rw [if_neg (by norm_num), if_pos ⟨by omega, by norm_num⟩]
      congr 1; omega
    refine ⟨a.set (n - 1) v, ?_, by simp [hl]⟩
    unfold wr
    rw [e]

theorem safe_div (x y : ℝ) : Safe (pyDiv x y) fun _ => True := by
  by_cases h : y = 0
  · rw [h, pyDiv_zero]; exact Or.inr (Or.inl rfl)
  · rw [pyDiv_ok h]; exact Safe.pure trivial

theorem safe_forL {α σ : Type} {I : σ → Prop} {body : α → σ → Py σ} :
    ∀ (xs : List α) (st : σ), I st → (∀ x ∈ xs, ∀ s, I s → Safe (body x s) I) → Safe (forL xs st body) I := by
  intro xs
  induction xs with
  | nil => intro st h _; exact Safe.pure h
  | cons x xs ih =>
    intro st h hb
    rw [forL_cons]
    exact (hb x (by simp) st h).bind fun s hs => ih s hs fun y hy => hb y (by simp [hy])

theorem mem_rangeDown {a b i : ℤ} (h : i ∈ pyRangeDown a b) : b < i ∧ i ≤ a := by
  simp only [pyRangeDown, List.mem_map, List.mem_range] at h
  obtain ⟨k, hk, rfl⟩ := h
  omega

/-- The two arrays agree outside the positions `a..b`. -/
def SameOutside (f f' : List ℝ) (a b : ℤ) : Prop := ∀ i : ℕ, (i : ℤ) < a ∨ b < i → f'[i]? = f[i]?

theorem copy_same {f F : List ℝ} {a b : ℤ} {g : ℝ → ℝ} : SameOutside f (copySlice f F a (b + 1) g) a b :=
  fun _ hi => copy_other (by omega)

theorem map_same {f : List ℝ} {a b : ℤ} {g : ℝ → ℝ} : SameOutside f (mapSlice f a (b + 1) g) a b := by
  intro i hi
  rw [mapSlice_getElem?]
  cases f[i]? with
  | none => rfl
  | some x => simp only [Option.map_some]; rw [if_neg (by omega)]

theorem SameOutside.trans {f f' f'' : List ℝ} {a b : ℤ} (h : SameOutside f f' a b) (h' : SameOutside f' f'' a b) :
    SameOutside f f'' a b := fun i hi => by rw [h' i hi, h i hi]

section
variable {X Y Z : ℤ → ℝ} {a b : ℤ} {n : ℕ}

theorem fwdLoop_safe (h0 : 0 ≤ a) (hn : b < n) : ∀ (js : List ℤ) (sf : List ℝ), (∀ j ∈ js, a + 1 ≤ j ∧ j < b) → sf.length = n →
    Safe (fwdLoop X Y Z js sf) fun r => r.1.length = n ∧ ∀ k, r.2 = some k → a ≤ k ∧ k < b := by
  intro js
  induction js with
  | nil => intro sf _ hl; exact Safe.pure ⟨hl, by intro k h; cases h⟩
  | cons j js ih =>
    intro sf hj hl
    have hj0 := hj j (by simp)
    unfold fwdLoop
    refine (safe_rd hl (by omega) (by omega)).bind fun s _ => ?_
    dsimp only
    split
    · refine Safe.pure ⟨hl, ?_⟩
      intro k h; cases h; omega
    · refine (safe_div _ _).bind fun v _ => ?_
      exact (safe_wr hl (by omega) (by omega)).bind fun sf' hl' => ih sf' (fun x hx => hj x (by simp [hx])) hl'

theorem fwdPhase_safe (h0 : 0 ≤ a) (hab : a < b) (hn : b < n) {m1 m2 m3 : ℤ} {sf F : List ℝ} (hs : sf.length = n) (hF : F.length = n) :
    Safe (fwdPhase X Y Z m1 m2 m3 a b sf F) fun r => r.1.length = n ∧ r.2.1.length = n ∧ a ≤ r.2.2.1 ∧ r.2.2.1 ≤ b ∧
      (r.2.2.2 = false → a + 1 ≤ r.2.2.1) := by
  unfold fwdPhase
  split
  · refine (safe_wr hF (by omega) (by omega)).bind fun F1 h1 => (safe_wr h1 (by omega) (by omega)).bind fun F2 h2 => ?_
    exact Safe.pure ⟨hs, h2, by simp, by simp; omega, by simp⟩
  split
  · split
    · exact Safe.pure ⟨hs, hF, by simp, by simp; omega, by simp⟩
    · refine (safe_wr hF (by omega) (by omega)).bind fun F1 h1 => (safe_wr h1 (by omega) (by omega)).bind fun F2 h2 => ?_
      exact Safe.pure ⟨hs, h2, by simp, by simp; omega, by simp⟩
  split
  · refine (safe_wr hF (by omega) (by omega)).bind fun F1 h1 => (safe_div _ _).bind fun v _ =>
      (safe_wr h1 (by omega) (by omega)).bind fun F2 h2 => ?_
    exact Safe.pure ⟨hs, h2, by simp, by simp; omega, by simp⟩
  · refine (safe_div _ _).bind fun v _ => (safe_wr hs (by omega) (by omega)).bind fun sf1 h1 => ?_
    refine (fwdLoop_safe h0 hn _ sf1 (fun j hj => mem_pyRange.1 hj) h1).bind fun r hr => ?_
    obtain ⟨sf2, o⟩ := r
    obtain ⟨hr1, hr2⟩ := hr
    dsimp only at hr1 hr2 ⊢
    have ho : a ≤ o.getD b ∧ o.getD b ≤ b := by
      cases o with
      | none => simp; omega
      | some k => have := hr2 k rfl; simp; omega
    generalize o.getD b = jm at ho
    refine (safe_wr hF (by omega) (by omega)).bind fun F1 h2 => ?_
    refine (safe_forL (I := fun F => F.length = n) _ F1 h2 (fun k hk F hF => ?_)).bind fun F2 h3 => ?_
    · rw [mem_pyRange] at hk
      exact (safe_rd hF (by omega) (by omega)).bind fun x _ => (safe_rd hr1 (by omega) (by omega)).bind fun y _ =>
        safe_wr hF (by omega) (by omega)
    · split
      · refine (safe_div _ _).bind fun v _ => (safe_wr h3 (by omega) (by omega)).bind fun F3 h4 => ?_
        exact Safe.pure ⟨hr1, h4, by simp, by simp; omega, by simp⟩
      · exact Safe.pure ⟨hr1, h3, ho.1, ho.2, fun _ => by dsimp only; omega⟩

theorem revLoop_safe {jm : ℤ} (h0 : 0 ≤ jm) (hn : b < n) : ∀ (js : List ℤ) (rf : List ℝ), (∀ j ∈ js, jm ≤ j ∧ j ≤ b - 1) →
    rf.length = n → Safe (revLoop X Y Z js rf) fun r => r.1.length = n ∧ ∀ k, r.2 = some k → jm ≤ k ∧ k ≤ b := by
  intro js
  induction js with
  | nil => intro rf _ hl; exact Safe.pure ⟨hl, by intro k h; cases h⟩
  | cons j js ih =>
    intro rf hj hl
    have hj0 := hj j (by simp)
    unfold revLoop
    refine (safe_rd hl (by omega) (by omega)).bind fun s _ => ?_
    dsimp only
    split
    · refine Safe.pure ⟨hl, ?_⟩
      intro k h; cases h; omega
    · refine (safe_div _ _).bind fun v _ => ?_
      exact (safe_wr hl (by omega) (by omega)).bind fun rf' hl' => ih rf' (fun x hx => hj x (by simp [hx])) hl'

theorem revPhase_safe (h0 : 0 ≤ a) (hab : a < b) (hn : b < n) {m1 m2 m3 jm : ℤ} (hjm : a ≤ jm) {rf F : List ℝ}
    (hs : rf.length = n) (hF : F.length = n) :
    Safe (revPhase X Y Z m1 m2 m3 a b jm rf F) fun r => r.1.length = n ∧ r.2.1.length = n ∧ a ≤ r.2.2.1 ∧ r.2.2.1 ≤ b ∧
      (r.2.2.2 = false → r.2.2.1 ≤ b - 1) := by
  unfold revPhase
  split
  · refine (safe_wr hF (by omega) (by omega)).bind fun F1 h1 => (safe_wr h1 (by omega) (by omega)).bind fun F2 h2 => ?_
    exact Safe.pure ⟨hs, h2, by simp; omega, by simp, by simp⟩
  split
  · split
    · exact Safe.pure ⟨hs, hF, by simp; omega, by simp, by simp⟩
    · refine (safe_wr hF (by omega) (by omega)).bind fun F1 h1 => (safe_div _ _).bind fun v _ =>
        (safe_wr h1 (by omega) (by omega)).bind fun F2 h2 => ?_
      exact Safe.pure ⟨hs, h2, by simp; omega, by simp, by simp⟩
  split
  · refine (safe_wr hF (by omega) (by omega)).bind fun F1 h1 => (safe_div _ _).bind fun v _ =>
      (safe_wr h1 (by omega) (by omega)).bind fun F2 h2 => ?_
    exact Safe.pure ⟨hs, h2, by simp; omega, by simp, by simp⟩
  · refine (safe_div _ _).bind fun v _ => (safe_wr hs (by omega) (by omega)).bind fun sf1 h1 => ?_
    refine (revLoop_safe (jm := jm) (by omega) hn _ sf1 (fun j hj => by have := mem_rangeDown hj; omega) h1).bind fun r hr => ?_
    obtain ⟨sf2, o⟩ := r
    obtain ⟨hr1, hr2⟩ := hr
    dsimp only at hr1 hr2 ⊢
    have ho : a ≤ o.getD a ∧ o.getD a ≤ b := by
      cases o with
      | none => simp; omega
      | some k => have := hr2 k rfl; simp; omega
    generalize o.getD a = jp at ho
    refine (safe_wr hF (by omega) (by omega)).bind fun F1 h2 => ?_
    refine (safe_forL (I := fun F => F.length = n) _ F1 h2 (fun k hk F hF => ?_)).bind fun F2 h3 => ?_
    · rw [mem_pyRange] at hk
      exact (safe_rd hF (by omega) (by omega)).bind fun x _ => (safe_rd hr1 (by omega) (by omega)).bind fun y _ =>
        safe_wr hF (by omega) (by omega)
    · split
      · refine (safe_div _ _).bind fun v _ => (safe_wr h3 (by omega) (by omega)).bind fun F3 h4 => ?_
        exact Safe.pure ⟨hr1, h4, by simp; omega, by simp, by simp⟩
      · exact Safe.pure ⟨hr1, h3, ho.1, ho.2, fun _ => by dsimp only; omega⟩

theorem downStep_safe {j c : ℤ} (h1 : 0 ≤ j) (h2 : j + 1 < n) {F : List ℝ} (hF : F.length = n) :
    Safe (downStep X Y Z c j F) fun F => F.length = n := by
  unfold downStep
  refine (safe_rd hF (by omega) (by omega)).bind fun _ _ => (safe_rd hF (by omega) (by omega)).bind fun _ _ =>
    (safe_div _ _).bind fun _ _ => (safe_wr hF (by omega) (by omega)).bind fun F1 h3 =>
    (safe_rd h3 (by omega) (by omega)).bind fun _ _ => Safe.pure ?_
  split
  · rw [mapSlice_length]; exact h3
  · exact h3

theorem upStep_safe {j c : ℤ} (h1 : 0 ≤ j) (h2 : j + 1 < n) {F : List ℝ} (hF : F.length = n) :
    Safe (upStep X Y Z c j F) fun F => F.length = n := by
  unfold upStep
  refine (safe_rd hF (by omega) (by omega)).bind fun _ _ => (safe_rd hF (by omega) (by omega)).bind fun _ _ =>
    (safe_div _ _).bind fun _ _ => (safe_wr hF (by omega) (by omega)).bind fun F1 h3 =>
    (safe_rd h3 (by omega) (by omega)).bind fun _ _ => Safe.pure ?_
  split
  · rw [mapSlice_length]; exact h3
  · exact h3

theorem midLoop_safe {c mid jm : ℤ} (h0 : 0 ≤ jm) (hmid : mid < n) : ∀ (js : List ℤ) (F : List ℝ), (∀ j ∈ js, jm ≤ j ∧ j < mid) →
    F.length = n → Safe (midLoop X Y Z c js F mid) fun r => r.1.length = n ∧ r.2 ≤ mid ∧ (r.2 = mid ∨ jm ≤ r.2) := by
  intro js
  induction js with
  | nil => intro F _ hl; exact Safe.pure ⟨hl, by simp, Or.inl rfl⟩
  | cons j js ih =>
    intro F hj hl
    have hj0 := hj j (by simp)
    unfold midLoop
    refine (safe_rd hl (by omega) (by omega)).bind fun _ _ => (safe_rd hl (by omega) (by omega)).bind fun _ _ =>
      (safe_div _ _).bind fun _ _ => (safe_wr hl (by omega) (by omega)).bind fun F1 h3 =>
      (safe_rd h3 (by omega) (by omega)).bind fun c1 _ => ?_
    dsimp only
    have h4 : (if |c1| > 1 then mapSlice F1 c (j + 1 + 1) (fun v => v / 1000) else F1).length = n := by
      split
      · rw [mapSlice_length]; exact h3
      · exact h3
    generalize (if |c1| > 1 then mapSlice F1 c (j + 1 + 1) (fun v => v / 1000) else F1) = F2 at h4
    refine (safe_rd h4 (by omega) (by omega)).bind fun _ _ => (safe_rd h4 (by omega) (by omega)).bind fun _ _ =>
      (safe_div _ _).bind fun _ _ => ?_
    split
    · exact Safe.pure ⟨h4, by dsimp only; omega, Or.inr (by dsimp only; omega)⟩
    · exact ih F2 (fun x hx => hj x (by simp [hx])) h4

theorem meetPhase_safe (h0 : 0 ≤ a) (hn : b < n) {jm jp : ℤ} (h1 : a + 1 ≤ jm) (h1' : jm ≤ b) (h2 : a ≤ jp)
    (h3 : jp ≤ b - 1) {f Fm Fp : List ℝ} (hf : f.length = n) (hm : Fm.length = n) (hp : Fp.length = n) :
    Safe (meetPhase X Y Z a b jm jp f Fm Fp) fun r => (r.1.length = n ∧ SameOutside f r.1 a b) ∧ r.2.1.length = n ∧
      r.2.2.length = n := by
  unfold meetPhase
  dsimp only
  refine (midLoop_safe (jm := jm) (by omega) (by omega) _ Fm (fun j hj => mem_pyRange.1 hj) hm).bind fun r hr => ?_
  obtain ⟨F1, mid⟩ := r
  dsimp only at hr ⊢
  obtain ⟨hl, hr1, hr2⟩ := hr
  have hmid : a ≤ mid ∧ mid ≤ b := by omega
  refine (safe_rd hl (by omega) (by omega)).bind fun x _ => (safe_rd hl (by omega) (by omega)).bind fun p _ => ?_
  have K : ∀ small : Bool, Safe (do
      let j_mid := if small then mid - 1 else mid
      let F_minus_j_mid ← rd F1 j_mid
      let F_plus ← forL (pyRangeDown jp j_mid) Fp (downStep X Y Z b)
      let F_plus_j_mid ← rd F_plus j_mid
      if j_mid = b then return (copySlice f F1 a (b + 1) id, F1, F_plus)
      else if j_mid = a then return (copySlice f F_plus a (b + 1) id, F1, F_plus)
      else
        let f := copySlice f F1 a (j_mid + 1) (fun v => v * F_plus_j_mid / F_minus_j_mid)
        return (copySlice f F_plus (j_mid + 1) (b + 1) id, F1, F_plus) : Py (List ℝ × List ℝ × List ℝ))
      fun r => (r.1.length = n ∧ SameOutside f r.1 a b) ∧ r.2.1.length = n ∧ r.2.2.length = n := by
    intro small
    have hmid' : a - 1 ≤ (if small = true then mid - 1 else mid) ∧ (if small = true then mid - 1 else mid) ≤ b := by
      split <;> omega
    dsimp only
    generalize (if small = true then mid - 1 else mid) = mid' at hmid'
    refine (safe_rd hl (by omega) (by omega)).bind fun _ _ => ?_
    refine (safe_forL (I := fun F => F.length = n) _ Fp hp (fun j hj F hF => ?_)).bind fun F2 h4 => ?_
    · have := mem_rangeDown hj
      exact downStep_safe (by omega) (by omega) hF
    refine (safe_rd h4 (by omega) (by omega)).bind fun _ _ => ?_
    split
    · exact Safe.pure ⟨⟨by simp [copySlice_length, hf], copy_same⟩, hl, h4⟩
    split
    · exact Safe.pure ⟨⟨by simp [copySlice_length, hf], copy_same⟩, hl, h4⟩
    · refine Safe.pure ⟨⟨by simp [copySlice_length, hf], fun i hi => ?_⟩, hl, h4⟩
      dsimp only
      rw [copy_other (by omega), copy_other (by omega)]
  split
  · exact (safe_div _ _).bind fun q _ => K (decide (|q| < 1 / 1000000))
  · exact K false

end

theorem finish_safe {f f0 : List ℝ} {n : ℕ} {a b j2 j3 m2 m3 : ℤ} (h0 : 0 ≤ a) (hab : a ≤ b) (hn : b < n)
    (hf : f.length = n ∧ SameOutside f0 f a b) :
    Safe (w3normalize f a b) (fun f => f.length = n ∧ SameOutside f0 f a b) ∧
    Safe (w3signs f a b j2 j3 m2 m3) (fun f => f.length = n ∧ SameOutside f0 f a b) := by
  constructor
  · unfold w3normalize
    refine (safe_forL (I := fun _ => True) _ _ trivial fun j hj s _ => ?_).bind fun _ _ =>
      Safe.pure ⟨by rw [mapSlice_length]; exact hf.1, hf.2.trans map_same⟩
    rw [mem_pyRange] at hj
    exact (safe_rd hf.1 (by omega) (by omega)).bind fun _ _ => Safe.pure trivial
  · unfold w3signs
    refine (safe_rd hf.1 (by omega) (by omega)).bind fun _ _ => ?_
    split
    · exact Safe.pure ⟨by rw [mapSlice_length]; exact hf.1, hf.2.trans map_same⟩
    · exact Safe.pure hf

/-- Whatever the arguments (and even if the 32-bit coefficients overflow), the computation stays inside its arrays and
changes `f` only at the admissible positions. -/
theorem w3run_safe {w : W3Work} {n : ℕ} {j2 j3 m2 m3 : ℤ} (hn : j2 + j3 < n) (hf : w.f.length = n) (hsf : w.sf.length = n)
    (hFm : w.F_minus.length = n) (hFp : w.F_plus.length = n) :
    Safe (w3run w j2 j3 m2 m3) fun w' => (w'.f.length = n ∧ SameOutside w.f w'.f (max |j2 - j3| |m2 + m3|) (j2 + j3)) ∧
      (|m2| > j2 ∨ |m3| > j3 → w'.f = w.f) ∧ w'.sf.length = n ∧ w'.F_minus.length = n ∧ w'.F_plus.length = n := by
  have ha0 : 0 ≤ max |j2 - j3| |m2 + m3| := (abs_nonneg _).trans (le_max_left _ _)
  unfold w3run
  dsimp only
  generalize max |j2 - j3| |m2 + m3| = a at ha0
  have hff : w.f.length = n ∧ SameOutside w.f w.f a (j2 + j3) := ⟨hf, fun _ _ => rfl⟩
  split
  · exact Safe.pure ⟨hff, fun _ => rfl, hsf, hFm, hFp⟩
  rename_i hsel
  split
  · exact Safe.pure ⟨hff, fun h => absurd h hsel, hsf, hFm, hFp⟩
  split
  · have hset : ∀ (f f1 : List ℝ) (v : ℝ), wr f a v = .ok f1 → f.length = n → SameOutside f f1 a (j2 + j3) := by
      intro f f1 v h hl
      rw [wr_ok ha0 (by omega)] at h
      cases h
      intro i hi
      rw [List.getElem?_set_ne (by omega)]
    have hw : ∀ (f : List ℝ) (v : ℝ), f.length = n → Safe (wr f a v) fun f1 => f1.length = n ∧ SameOutside f f1 a (j2 + j3) := by
      intro f v hl
      refine Or.inl ⟨_, wr_ok ha0 (by omega), by simp [hl], ?_⟩
      exact hset _ _ v (wr_ok ha0 (by omega)) hl
    refine (safe_div _ _).bind fun v _ => (hw _ _ hf).bind fun f1 h1 =>
      (safe_rd h1.1 (by omega) (by omega)).bind fun x _ => ?_
    split
    · exact (hw _ _ h1.1).bind fun f2 h2 => Safe.pure ⟨⟨h2.1, h1.2.trans h2.2⟩, fun h => absurd h hsel, hsf, hFm, hFp⟩
    · exact Safe.pure ⟨h1, fun h => absurd h hsel, hsf, hFm, hFp⟩
  have hab : a < j2 + j3 := by omega
  refine (fwdPhase_safe ha0 hab hn hsf hFm).bind fun r hr => ?_
  obtain ⟨sf1, Fm1, jm, um⟩ := r
  dsimp only at hr ⊢
  obtain ⟨e1, e2, e3, e4, e5⟩ := hr
  have hcopy : ∀ F, (copySlice w.f F a (j2 + j3 + 1) id).length = n ∧ SameOutside w.f (copySlice w.f F a (j2 + j3 + 1) id) a (j2 + j3) :=
    fun F => ⟨by rw [copySlice_length, hf], copy_same⟩
  have K : ∀ (f1 rf1 Fm2 Fp2 : List ℝ), (f1.length = n ∧ SameOutside w.f f1 a (j2 + j3)) → rf1.length = n → Fm2.length = n →
      Fp2.length = n → Safe (do
      let f ← w3normalize f1 a (j2 + j3)
      let f ← w3signs f a (j2 + j3) j2 j3 m2 m3
      return (⟨f, rf1, Fm2, Fp2⟩ : W3Work))
      fun w' => (w'.f.length = n ∧ SameOutside w.f w'.f a (j2 + j3)) ∧
        (|m2| > j2 ∨ |m3| > j3 → w'.f = w.f) ∧ w'.sf.length = n ∧ w'.F_minus.length = n ∧ w'.F_plus.length = n := by
    intro f1 rf1 Fm2 Fp2 k1 g1 k2 k3
    refine (finish_safe (j2 := j2) (j3 := j3) (m2 := m2) (m3 := m3) ha0 hab.le hn k1).1.bind fun f1 h1 => ?_
    exact (finish_safe (j2 := j2) (j3 := j3) (m2 := m2) (m3 := m3) ha0 hab.le hn h1).2.bind fun f2 h2 =>
      Safe.pure ⟨h2, fun h => absurd h hsel, g1, k2, k3⟩
  split
  · exact K _ _ _ _ (hcopy _) e1 e2 hFp
  refine (revPhase_safe ha0 hab hn e3 e1 hFp).bind fun r hr => ?_
  obtain ⟨rf1, Fp1, jp, ux⟩ := r
  dsimp only at hr ⊢
  obtain ⟨g1, g2, g3, g4, g5⟩ := hr
  cases um <;> cases ux <;>
    simp only [Bool.false_eq_true, and_false, if_false, not_false_eq_true, and_self, if_true, not_true_eq_false, and_true]
  · exact (meetPhase_safe ha0 hn (e5 rfl) e4 g3 (g5 rfl) hf e2 g2).bind fun r hr => K r.1 _ r.2.1 r.2.2 hr.1 g1 hr.2.1 hr.2.2
  · refine (safe_forL (I := fun F => F.length = n) _ Fm1 e2 (fun j hj F hF => ?_)).bind fun F2 h4 =>
      K _ _ _ _ (hcopy _) g1 h4 g2
    rw [mem_pyRange] at hj
    exact upStep_safe (by omega) (by omega) hF
  · have := g5 rfl
    refine (safe_forL (I := fun F => F.length = n) _ Fp1 g2 (fun j hj F hF => ?_)).bind fun F2 h4 =>
      K _ _ _ _ (hcopy _) g1 e2 h4
    have := mem_rangeDown hj
    exact downStep_safe (by omega) (by omega) hF
  · exact Or.inr (Or.inr rfl)

end SF
