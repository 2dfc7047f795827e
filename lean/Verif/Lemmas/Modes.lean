import Verif.Model.Modes
import Verif.Lemmas.Index

/-! # Helper lemmas for the `Modes` class -/

set_option autoImplicit false

namespace SF

open ComplexConjugate

/-- Position of the `(ell, m)` mode. -/
def mpos (ell m : ℤ) : ℕ := (LM_index ell m 0).toNat

theorem LM_index_zero (ell m : ℤ) : LM_index ell m 0 = ell ^ 2 + ell + m := by unfold LM_index; ring

theorem mpos_cast {ell m : ℤ} (hm : |m| ≤ ell) : ((mpos ell m : ℕ) : ℤ) = ell ^ 2 + ell + m := by
  unfold mpos
  rw [LM_index_zero]
  have := abs_le.mp hm
  have h2 : 0 ≤ ell ^ 2 := sq_nonneg ell
  omega

theorem LM_index_nonneg {ell m : ℤ} (hm : |m| ≤ ell) : 0 ≤ LM_index ell m 0 := by
  rw [LM_index_zero]
  have := abs_le.mp hm
  have h2 : 0 ≤ ell ^ 2 := sq_nonneg ell
  omega

theorem mpos_lo {ell m : ℤ} (hm : |m| ≤ ell) : ell ^ 2 ≤ (mpos ell m : ℤ) := by
  rw [mpos_cast hm]; have := abs_le.mp hm; omega

theorem mpos_hi {ell m : ℤ} (hm : |m| ≤ ell) : (mpos ell m : ℤ) < (ell + 1) ^ 2 := by
  rw [mpos_cast hm]; have := abs_le.mp hm; nlinarith

theorem sq_le_of {a b : ℤ} (h0 : 0 ≤ a) (h : a ≤ b) : a ^ 2 ≤ b ^ 2 := by nlinarith

theorem sq_lt_of {a b : ℤ} (h0 : 0 ≤ a) (h : a < b) : a ^ 2 < b ^ 2 := by nlinarith

theorem mpos_inj {ell m ell' m' : ℤ} (hm : |m| ≤ ell) (hm' : |m'| ≤ ell') (h : mpos ell m = mpos ell' m') :
    ell = ell' ∧ m = m' := by
  have h1 := mpos_lo hm
  have h2 := mpos_hi hm
  have h3 := mpos_lo hm'
  have h4 := mpos_hi hm'
  rw [h] at h1 h2
  have n1 : 0 ≤ ell := (abs_nonneg m).trans hm
  have n2 : 0 ≤ ell' := (abs_nonneg m').trans hm'
  have e : ell = ell' := by
    rcases lt_trichotomy ell ell' with hl | hl | hl
    · have := sq_le_of (show 0 ≤ ell + 1 by omega) (show ell + 1 ≤ ell' by omega); omega
    · exact hl
    · have := sq_le_of (show 0 ≤ ell' + 1 by omega) (show ell' + 1 ≤ ell by omega); omega
  subst e
  refine ⟨rfl, ?_⟩
  have e1 := mpos_cast hm
  have e2 := mpos_cast hm'
  rw [h] at e1
  omega

theorem mpos_lt {ell m L : ℤ} (hm : |m| ≤ ell) (hl : ell ≤ L) {n : ℕ} (hn : (n : ℤ) = (L + 1) ^ 2) : mpos ell m < n := by
  have n1 : 0 ≤ ell := (abs_nonneg m).trans hm
  have h2 := mpos_hi hm
  have h3 := sq_le_of (show 0 ≤ ell + 1 by omega) (show ell + 1 ≤ L + 1 by omega)
  omega

theorem mpos_surj {L : ℤ} {n k : ℕ} (hn : (n : ℤ) = (L + 1) ^ 2) (hL : -1 ≤ L) (hk : k < n) :
    ∃ ell m : ℤ, 0 ≤ ell ∧ ell ≤ L ∧ |m| ≤ ell ∧ mpos ell m = k := by
  have h1 := Nat.sqrt_le' k
  have h2 := Nat.lt_succ_sqrt' k
  set l := Nat.sqrt k with hl
  have h1' : (l : ℤ) ^ 2 ≤ k := by exact_mod_cast h1
  have h2' : (k : ℤ) < ((l : ℤ) + 1) ^ 2 := by exact_mod_cast h2
  have hm : |(k : ℤ) - l ^ 2 - l| ≤ l := by rw [abs_le]; constructor <;> nlinarith
  refine ⟨l, k - l ^ 2 - l, by omega, ?_, hm, ?_⟩
  · by_contra hc
    have := sq_le_of (show 0 ≤ L + 1 by omega) (show L + 1 ≤ (l : ℤ) by omega)
    omega
  · have := mpos_cast hm
    omega

theorem rd_mpos {α : Type} {a : List α} {ell m : ℤ} (hm : |m| ≤ ell) {v : α} (h : a[mpos ell m]? = some v) :
    rd a (LM_index ell m 0) = .ok v := rd_ok (LM_index_nonneg hm) h

theorem wr_mpos {α : Type} {a : List α} {ell m : ℤ} (hm : |m| ≤ ell) (v : α) (h : mpos ell m < a.length) :
    wr a (LM_index ell m 0) v = .ok (a.set (mpos ell m) v) := by
  apply wr_ok (LM_index_nonneg hm)
  have := mpos_cast hm
  have e := LM_index_zero ell m
  omega

/-- A loop over `ell` whose body fills block `ell`. -/
theorem ellLoop {α : Type} {a L : ℤ} (h0 : 0 ≤ a) (c0 : List α) (body : ℤ → List α → Py (List α)) (T : ℤ → ℤ → α)
    (h : ∀ ell, a ≤ ell → ell ≤ L → ∀ c : List α, c.length = c0.length →
      (∀ m, |m| ≤ ell → c[mpos ell m]? = c0[mpos ell m]?) →
      ∃ c', body ell c = .ok c' ∧ c'.length = c0.length ∧ (∀ m, |m| ≤ ell → c'[mpos ell m]? = some (T ell m)) ∧
        (∀ k : ℕ, ((k : ℤ) < ell ^ 2 ∨ (ell + 1) ^ 2 ≤ (k : ℤ)) → c'[k]? = c[k]?)) :
    ∃ c', forL (pyRange a (L + 1)) c0 body = .ok c' ∧ c'.length = c0.length ∧
      ∀ ell m, 0 ≤ ell → ell ≤ L → |m| ≤ ell →
        c'[mpos ell m]? = if a ≤ ell then some (T ell m) else c0[mpos ell m]? := by
  by_cases haL : a ≤ L + 1
  swap
  · refine ⟨c0, by rw [pyRange_empty (by omega)]; rfl, rfl, ?_⟩
    intro ell m h1 h2 h3
    rw [if_neg (by omega)]
  obtain ⟨c', e1, e2, e3⟩ := forR_inv a (L + 1) haL
    (fun i (c : List α) => c.length = c0.length ∧ ∀ ell m, 0 ≤ ell → |m| ≤ ell →
      c[mpos ell m]? = if a ≤ ell ∧ ell < i then some (T ell m) else c0[mpos ell m]?) c0 body
    (by
      refine ⟨rfl, fun ell m _ _ => ?_⟩
      rw [if_neg (by omega)])
    (by
      rintro i c hi1 hi2 ⟨hc1, hc2⟩
      obtain ⟨c', b1, b2, b3, b4⟩ := h i hi1 (by omega) c hc1 (by
        intro m hm
        rw [hc2 i m (by omega) hm, if_neg (by omega)])
      refine ⟨c', b1, b2, ?_⟩
      intro ell m h1 h3
      by_cases he : ell = i
      · subst he
        rw [b3 m h3, if_pos (by omega)]
      · rw [b4, hc2 ell m h1 h3]
        · by_cases hc : a ≤ ell ∧ ell < i
          · rw [if_pos hc, if_pos (by omega)]
          · rw [if_neg hc, if_neg (by omega)]
        · rcases lt_or_gt_of_ne he with hlt | hgt
          · left
            have := mpos_hi h3
            have := sq_le_of (show 0 ≤ ell + 1 by omega) (show ell + 1 ≤ i by omega)
            omega
          · right
            have := mpos_lo h3
            have := sq_le_of (show 0 ≤ i + 1 by omega) (show i + 1 ≤ ell by omega)
            omega)
  refine ⟨c', e1, e2, ?_⟩
  intro ell m h1 h2 h3
  rw [e3 ell m h1 h3]
  by_cases hc : a ≤ ell
  · rw [if_pos hc, if_pos (by omega)]
  · rw [if_neg hc, if_neg (by omega)]

/-- A loop over `m` writing one slot of block `ell` per step. -/
theorem mLoop {α : Type} {ell a b : ℤ} (ha : -ell ≤ a) (hb : b ≤ ell + 1) (c0 : List α)
    (body : ℤ → List α → Py (List α)) (T : ℤ → α) (hlen : (ell + 1) ^ 2 ≤ (c0.length : ℤ))
    (h : ∀ m, a ≤ m → m < b → ∀ c : List α, c.length = c0.length → body m c = .ok (c.set (mpos ell m) (T m))) :
    ∃ c', forL (pyRange a b) c0 body = .ok c' ∧ c'.length = c0.length ∧
      (∀ m, |m| ≤ ell → c'[mpos ell m]? = if a ≤ m ∧ m < b then some (T m) else c0[mpos ell m]?) ∧
      (∀ k : ℕ, ((k : ℤ) < ell ^ 2 ∨ (ell + 1) ^ 2 ≤ (k : ℤ)) → c'[k]? = c0[k]?) := by
  by_cases hab : a ≤ b
  swap
  · refine ⟨c0, by rw [pyRange_empty (by omega)]; rfl, rfl, ?_, fun _ _ => rfl⟩
    intro m h1
    rw [if_neg (by omega)]
  refine forR_inv a b hab
    (fun i (c : List α) => c.length = c0.length ∧
      (∀ m, |m| ≤ ell → c[mpos ell m]? = if a ≤ m ∧ m < i then some (T m) else c0[mpos ell m]?) ∧
      (∀ k : ℕ, ((k : ℤ) < ell ^ 2 ∨ (ell + 1) ^ 2 ≤ (k : ℤ)) → c[k]? = c0[k]?)) c0 body ?_ ?_
  · refine ⟨rfl, fun m _ => ?_, fun _ _ => rfl⟩
    rw [if_neg (by omega)]
  · rintro i c hi1 hi2 ⟨hc1, hc2, hc3⟩
    have him : |i| ≤ ell := abs_le.mpr ⟨by omega, by omega⟩
    have hilt : mpos ell i < c.length := by have := mpos_hi him; omega
    refine ⟨_, h i hi1 hi2 c hc1, by rw [List.length_set]; exact hc1, ?_, ?_⟩
    · intro m hm
      by_cases he : m = i
      · subst he
        rw [List.getElem?_set_self hilt, if_pos (by omega)]
      · rw [List.getElem?_set_ne (fun hh => he (mpos_inj him hm hh).2.symm), hc2 m hm]
        by_cases hc : a ≤ m ∧ m < i
        · rw [if_pos hc, if_pos (by omega)]
        · rw [if_neg hc, if_neg (by omega)]
    · intro k hk
      rw [List.getElem?_set_ne, hc3 k hk]
      have := mpos_lo him
      have := mpos_hi him
      omega

/-- A loop over `m = 1..ell` writing the two slots `±m` of block `ell` per step, reading only slots `±m` not yet
written. -/
theorem pairLoop {α : Type} {ell : ℤ} (hl : 0 ≤ ell) (c0 : List α)
    (body : ℤ → List α → Py (List α)) (T : ℤ → α) (hlen : (ell + 1) ^ 2 ≤ (c0.length : ℤ))
    (h : ∀ m, 1 ≤ m → m ≤ ell → ∀ c : List α, c.length = c0.length →
      c[mpos ell m]? = c0[mpos ell m]? → c[mpos ell (-m)]? = c0[mpos ell (-m)]? →
      body m c = .ok ((c.set (mpos ell m) (T m)).set (mpos ell (-m)) (T (-m)))) :
    ∃ c', forL (pyRange 1 (ell + 1)) c0 body = .ok c' ∧ c'.length = c0.length ∧
      (∀ m, |m| ≤ ell → c'[mpos ell m]? = if m = 0 then c0[mpos ell m]? else some (T m)) ∧
      (∀ k : ℕ, ((k : ℤ) < ell ^ 2 ∨ (ell + 1) ^ 2 ≤ (k : ℤ)) → c'[k]? = c0[k]?) := by
  obtain ⟨c', e1, e2, e3, e4⟩ := forR_inv 1 (ell + 1) (by omega)
    (fun i (c : List α) => c.length = c0.length ∧
      (∀ m, |m| ≤ ell → c[mpos ell m]? = if m ≠ 0 ∧ |m| < i then some (T m) else c0[mpos ell m]?) ∧
      (∀ k : ℕ, ((k : ℤ) < ell ^ 2 ∨ (ell + 1) ^ 2 ≤ (k : ℤ)) → c[k]? = c0[k]?)) c0 body
    (by
      refine ⟨rfl, fun m _ => ?_, fun _ _ => rfl⟩
      rw [if_neg]
      rintro ⟨h1, h2⟩
      have := abs_pos.mpr h1
      omega)
    (by
      rintro i c hi1 hi2 ⟨hc1, hc2, hc3⟩
      have hip : |i| = i := abs_of_nonneg (by omega)
      have him : |i| ≤ ell := by omega
      have hin : |-i| ≤ ell := by rw [abs_neg]; exact him
      have hpl : mpos ell i < c.length := by have := mpos_hi him; omega
      have hnl : mpos ell (-i) < c.length := by have := mpos_hi hin; omega
      have hne : mpos ell i ≠ mpos ell (-i) := fun hh => by have := (mpos_inj him hin hh).2; omega
      refine ⟨_, h i hi1 (by omega) c hc1 ?_ ?_, by rw [List.length_set, List.length_set]; exact hc1, ?_, ?_⟩
      · rw [hc2 i him, if_neg (by omega)]
      · rw [hc2 (-i) hin, if_neg (by rw [abs_neg]; omega)]
      · intro m hm
        by_cases he : m = -i
        · subst he
          rw [List.getElem?_set_self (by rw [List.length_set]; exact hnl), if_pos (by rw [abs_neg]; omega)]
        · rw [List.getElem?_set_ne (fun hh => he (mpos_inj hin hm hh).2.symm)]
          by_cases he' : m = i
          · subst he'
            rw [List.getElem?_set_self hpl, if_pos (by omega)]
          · rw [List.getElem?_set_ne (fun hh => he' (mpos_inj him hm hh).2.symm), hc2 m hm]
            have : |m| ≠ i := by
              rcases abs_choice m with h' | h' <;> rw [h'] <;> omega
            by_cases hc : m ≠ 0 ∧ |m| < i
            · rw [if_pos hc, if_pos ⟨hc.1, by omega⟩]
            · rw [if_neg hc, if_neg (fun hh => hc ⟨hh.1, by omega⟩)]
      · intro k hk
        have := mpos_lo him
        have := mpos_hi him
        have := mpos_lo hin
        have := mpos_hi hin
        rw [List.getElem?_set_ne (by omega), List.getElem?_set_ne (by omega), hc3 k hk])
  refine ⟨c', e1, e2, ?_, e4⟩
  intro m hm
  rw [e3 m hm]
  by_cases hz : m = 0
  · rw [if_neg (by simp [hz]), if_pos hz]
  · rw [if_pos ⟨hz, by omega⟩, if_neg hz]

/-! ## Well-formed objects -/

/-- The mode weights `f[..., LM_index(ell, m, 0)]`. -/
def Modes.coef (f : Modes) (ell m : ℤ) : Slice := (f.dat[mpos ell m]?).getD fun _ => 0

/-- The class invariant: `(ell_max+1)²` modes, zero where `ell < |s|`. -/
structure Modes.WF (f : Modes) : Prop where
  ell_max_ge : -1 ≤ f.ell_max
  size : (f.dat.length : ℤ) = (f.ell_max + 1) ^ 2
  low : ∀ ell m : ℤ, ell < |f.s| → |m| ≤ ell → ell ≤ f.ell_max → f.coef ell m = fun _ => 0

/-- An array of `(ell_max+1)²` modes, with arbitrary contents. -/
structure Modes.Sized (f : Modes) : Prop where
  ell_max_ge : -1 ≤ f.ell_max
  size : (f.dat.length : ℤ) = (f.ell_max + 1) ^ 2

theorem Modes.WF.sized {f : Modes} (hf : f.WF) : f.Sized := ⟨hf.ell_max_ge, hf.size⟩

theorem Modes.Sized.get {f : Modes} (hf : f.Sized) {ell m : ℤ} (h1 : |m| ≤ ell) (h2 : ell ≤ f.ell_max) :
    f.dat[mpos ell m]? = some (f.coef ell m) := by
  have := mpos_lt h1 h2 hf.size
  unfold Modes.coef
  rw [List.getElem?_eq_getElem this]
  rfl

theorem Modes.WF.get {f : Modes} (hf : f.WF) {ell m : ℤ} (h1 : |m| ≤ ell) (h2 : ell ≤ f.ell_max) :
    f.dat[mpos ell m]? = some (f.coef ell m) := hf.sized.get h1 h2

theorem coef_of_get {f : Modes} {ell m : ℤ} {v : Slice} (h : f.dat[mpos ell m]? = some v) : f.coef ell m = v := by
  unfold Modes.coef; rw [h]; rfl

/-- Two well-formed objects with the same metadata and the same modes are equal. -/
theorem Modes.WF.ext {f g : Modes} (hf : f.WF) (hg : g.WF) (hlead : f.lead = g.lead) (hs : f.s = g.s)
    (hL : f.ell_max = g.ell_max) (ht : f.trunc = g.trunc)
    (h : ∀ ell m, |f.s| ≤ ell → ell ≤ f.ell_max → |m| ≤ ell → f.coef ell m = g.coef ell m) : f = g := by
  have hd : f.dat = g.dat := by
    apply List.ext_getElem?
    intro k
    have e : f.dat.length = g.dat.length := by
      have h1 := hf.size; have h2 := hg.size; rw [hL] at h1; omega
    by_cases hk : k < f.dat.length
    · obtain ⟨ell, m, h0, h1, h2, rfl⟩ := mpos_surj hf.size hf.ell_max_ge hk
      rw [hf.get h2 h1, hg.get h2 (by omega)]
      by_cases hsl : |f.s| ≤ ell
      · rw [h ell m hsl h1 h2]
      · rw [hf.low ell m (by omega) h2 h1, hg.low ell m (by rw [← hs]; omega) h2 (by omega)]
    · rw [List.getElem?_eq_none (by omega), List.getElem?_eq_none (by omega)]
  cases f; cases g
  simp_all

/-- Constructing from a data list whose length is that of modes `0..L`. -/
theorem LM_total_size_zero (L : ℤ) : LM_total_size 0 L = (L + 1) ^ 2 := by unfold LM_total_size; ring

theorem zeroPrefix_get {n : ℕ} {a : List Slice} {k : ℕ} (hk : k < a.length) :
    (zeroPrefix n a)[k]? = if k < n then some (fun _ => 0) else a[k]? := by
  unfold zeroPrefix
  by_cases h : k < n
  · rw [if_pos h, List.getElem?_append_left (by rw [List.length_replicate]; omega), List.getElem?_replicate,
      if_pos (by omega)]
  · rw [if_neg h, List.getElem?_append_right (by rw [List.length_replicate]; omega), List.length_replicate,
      List.getElem?_drop]
    congr 1
    omega

theorem zeroPrefix_length (n : ℕ) (a : List Slice) : (zeroPrefix n a).length = a.length := by
  unfold zeroPrefix
  rw [List.length_append, List.length_replicate, List.length_drop]
  omega

theorem abs_sub_one_sq (s : ℤ) : (LM_total_size 0 (|s| - 1)).toNat = (s ^ 2).toNat := by
  rw [LM_total_size_zero, sub_add_cancel, sq_abs]

theorem remake_ok (f : Modes) (lead : List ℕ) (dat : List Slice) (s L : ℤ) (hL : -1 ≤ L)
    (h : (dat.length : ℤ) = (L + 1) ^ 2) :
    ∃ g, f.remake lead dat s L = .ok g ∧ g.WF ∧ g.lead = lead ∧ g.s = s ∧ g.ell_max = L ∧
      g.trunc = f.trunc ∧ ∀ ell m, |m| ≤ ell → ell ≤ L →
        g.dat[mpos ell m]? = if |s| ≤ ell then dat[mpos ell m]? else some (fun _ => 0) := by
  have key : ∀ ell m, |m| ≤ ell → ell ≤ L →
      (zeroPrefix (s ^ 2).toNat dat)[mpos ell m]? = if |s| ≤ ell then dat[mpos ell m]? else some (fun _ => 0) := by
    intro ell m h1 h2
    have n1 : 0 ≤ ell := (abs_nonneg m).trans h1
    have hk := mpos_lt h1 h2 h
    rw [zeroPrefix_get hk]
    have lo := mpos_lo h1
    have hi := mpos_hi h1
    have e : s ^ 2 = |s| ^ 2 := (sq_abs s).symm
    have sn : 0 ≤ s ^ 2 := sq_nonneg s
    by_cases hs : |s| ≤ ell
    · have := sq_le_of (abs_nonneg s) hs
      rw [if_pos hs, if_neg (by omega)]
    · have := sq_le_of (show 0 ≤ ell + 1 by omega) (show ell + 1 ≤ |s| by omega)
      rw [if_neg hs, if_pos (by omega)]
  refine ⟨⟨lead, s, L, f.trunc, zeroPrefix (s ^ 2).toNat dat⟩, ?_, ⟨hL, ?_, ?_⟩, rfl, rfl, rfl, rfl, key⟩
  · unfold Modes.remake Modes.new
    simp only [List.length_nil, List.getElem?_nil, Option.none_or, Option.getD_none, bind_ok, gt_iff_lt,
      show ¬ (0 = 2 ∨ 3 < 0) by omega, if_false, ite_self, Option.or_none]
    rw [if_neg (by rw [LM_total_size_zero]; simpa using h), abs_sub_one_sq, if_pos trivial]
    cases f.trunc <;> rfl
  · rw [zeroPrefix_length]; exact h
  · intro ell m h1 h2 h3
    apply coef_of_get
    simp only
    rw [key ell m h2 h3, if_neg (by simp only at h1; omega)]

end SF
