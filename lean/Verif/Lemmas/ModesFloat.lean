import Verif.Lemmas.ModesOps
import Verif.Model.ModesFloat

/-! # What the floating-point operators of `Modes` do to the mode weights -/

set_option autoImplicit false

namespace SF

open ComplexConjugate

variable {F : ModesOps} {u : ℝ} {δ : ℕ → ℝ}

theorem relErr_zero {u v : ℝ} (h : RelErr u v 0) : v = 0 := by
  unfold RelErr at h
  rw [abs_zero, mul_zero, sub_zero] at h
  exact abs_eq_zero.1 (le_antisymm h (abs_nonneg _))

theorem mul_zeroF (hF : F.Std u δ) (c : ℝ) : F.mul c 0 = 0 := relErr_zero (by have := hF.mul c 0; rwa [mul_zero] at this)

theorem zero_mulF (hF : F.Std u δ) (c : ℝ) : F.mul 0 c = 0 := relErr_zero (by have := hF.mul 0 c; rwa [zero_mul] at this)

theorem mScale_zero (hF : F.Std u δ) (c : ℝ) : mScale F c 0 = 0 := by
  unfold mScale
  rw [Complex.zero_re, Complex.zero_im, mul_zeroF hF]
  rfl

theorem mAdd_zero (hF : F.Std u δ) (x : ℂ) : mAdd F x 0 = x := by
  unfold mAdd
  rw [Complex.zero_re, Complex.zero_im, hF.add_zero, hF.add_zero]

theorem mSub_zero (hF : F.Std u δ) (x : ℂ) : mSub F x 0 = x := by
  unfold mSub
  rw [Complex.zero_re, Complex.zero_im, neg_zero, hF.add_zero, hF.add_zero]

theorem blockStepG {f : Modes} (hf : f.WF) {d : List Slice} (hd : d.length = f.dat.length) {ell : ℤ} (h0 : 0 ≤ ell)
    (hl : ell ≤ f.ell_max) (φ : Slice → Slice) :
    ∃ d', setSlice d (LM_index ell (-ell) 0) (LM_index ell ell 0 + 1)
        ((getSlice f.dat (LM_index ell (-ell) 0) (LM_index ell ell 0 + 1)).map φ) = .ok d' ∧
      d'.length = f.dat.length ∧ (∀ m, |m| ≤ ell → d'[mpos ell m]? = some (φ (f.coef ell m))) ∧
      (∀ k : ℕ, ((k : ℤ) < ell ^ 2 ∨ (ell + 1) ^ 2 ≤ (k : ℤ)) → d'[k]? = d[k]?) := by
  obtain ⟨l, rfl⟩ := Int.eq_ofNat_of_zero_le h0
  have e1 : LM_index (l : ℤ) (-l) 0 = ((l ^ 2 : ℕ) : ℤ) := by rw [LM_index_zero]; push_cast; ring
  have e2 : LM_index (l : ℤ) l 0 + 1 = (((l + 1) ^ 2 : ℕ) : ℤ) := by rw [LM_index_zero]; push_cast; ring
  have hle : (l + 1) ^ 2 ≤ f.dat.length := by
    have h1 := sq_le_of (show 0 ≤ (l : ℤ) + 1 by omega) (show (l : ℤ) + 1 ≤ f.ell_max + 1 by omega)
    have := hf.size
    have h3 : (((l + 1) ^ 2 : ℕ) : ℤ) = ((l : ℤ) + 1) ^ 2 := by push_cast; ring
    omega
  have hij : l ^ 2 ≤ (l + 1) ^ 2 := by nlinarith
  rw [e1, e2]
  obtain ⟨b, b1, b2, b3⟩ := setSlice_ok (a := d) (vals := (getSlice f.dat ((l ^ 2 : ℕ) : ℤ)
    (((l + 1) ^ 2 : ℕ) : ℤ)).map φ) hij (by omega) (by rw [List.length_map, getSlice_length hle])
  refine ⟨b, b1, by omega, ?_, ?_⟩
  · intro m hm
    have lo := mpos_lo hm
    have hi := mpos_hi hm
    have lo' : l ^ 2 ≤ mpos l m := by exact_mod_cast lo
    have hi' : mpos l m < (l + 1) ^ 2 := by exact_mod_cast hi
    rw [b3, if_pos ⟨lo', hi'⟩, List.getElem?_map, getSlice_get (by omega)]
    rw [show l ^ 2 + (mpos l m - l ^ 2) = mpos l m by omega, hf.get hm hl]
    rfl
  · intro k hk
    rw [b3, if_neg]
    rintro ⟨g1, g2⟩
    have g1' : (l : ℤ) ^ 2 ≤ k := by exact_mod_cast g1
    have g2' : (k : ℤ) < ((l : ℤ) + 1) ^ 2 := by exact_mod_cast g2
    omega

theorem LsquaredF_ok {f : Modes} (hf : f.WF) :
    ∃ g, f.LsquaredF F = .ok g ∧ OpRes f g f.s fun ell m x => mScale F ((ell * (ell + 1) : ℤ) : ℝ) (f.coef ell m x) := by
  obtain ⟨c, e1, e2, e3⟩ := ellLoop (L := f.ell_max) (abs_nonneg f.s) f.dat
    (fun ell d => do
      let i ← f.index ell (-ell)
      let j ← f.index ell ell
      setSlice d i (j + 1) ((getSlice f.dat i (j + 1)).map (sscaleF F ((ell * (ell + 1) : ℤ) : ℝ))))
    (fun ell m x => mScale F ((ell * (ell + 1) : ℤ) : ℝ) (f.coef ell m x))
    (by
      intro ell h1 h2 d hd _
      have h0 : 0 ≤ ell := (abs_nonneg _).trans h1
      rw [index_ok h1 (by rw [abs_neg, abs_of_nonneg h0]) h2, bind_ok, index_ok h1 (by rw [abs_of_nonneg h0]) h2, bind_ok]
      exact blockStepG hf hd h0 h2 _)
  unfold Modes.LsquaredF
  rw [e1, bind_ok]
  exact ⟨_, rfl, OpRes.of_loop hf (low_dat hf) e2 e3⟩

theorem LzF_ok {f : Modes} (hf : f.WF) :
    ∃ g, f.LzF F = .ok g ∧ OpRes f g f.s fun ell m x => mScale F (m : ℝ) (f.coef ell m x) := by
  obtain ⟨c, e1, e2, e3⟩ := ellLoop (L := f.ell_max) (abs_nonneg f.s) f.dat
    (fun ell d => forL (pyRange (-ell) (ell + 1)) d fun m d => do
      let i ← f.index ell m
      let v ← rd f.dat i
      wr d i (sscaleF F (m : ℝ) v))
    (fun ell m x => mScale F (m : ℝ) (f.coef ell m x))
    (by
      intro ell h1 h2 d hd _
      have h0 : 0 ≤ ell := (abs_nonneg _).trans h1
      have hlen : (ell + 1) ^ 2 ≤ (d.length : ℤ) := by
        rw [hd, hf.size]; exact sq_le_of (by omega) (by omega)
      obtain ⟨c', g1, g2, g3, g4⟩ := mLoop (a := -ell) (b := ell + 1) le_rfl le_rfl d
        (fun m d => do
          let i ← f.index ell m
          let v ← rd f.dat i
          wr d i (sscaleF F (m : ℝ) v)) (fun m => sscaleF F (m : ℝ) (f.coef ell m)) hlen
        (by
          intro m hm1 hm2 c hc
          have hm : |m| ≤ ell := abs_le.mpr ⟨by omega, by omega⟩
          rw [index_ok h1 hm h2, bind_ok, rd_mpos hm (hf.get hm h2), bind_ok,
            wr_mpos hm _ (mpos_lt hm h2 (by rw [hc, hd]; exact hf.size))])
      refine ⟨c', g1, by omega, ?_, g4⟩
      intro m hm
      have := abs_le.mp hm
      rw [g3 m hm, if_pos (by omega)]
      rfl)
  unfold Modes.LzF
  rw [e1, bind_ok]
  exact ⟨_, rfl, OpRes.of_loop hf (low_dat hf) e2 e3⟩

theorem LplusF_ok {f : Modes} (hf : f.WF) :
    ∃ g, f.LplusF F = .ok g ∧ OpRes f g f.s fun ell m x =>
      if m = -ell then 0 else mScale F (isqrtF F ((ell + m) * (ell - m + 1))) (f.coef ell (m - 1) x) := by
  obtain ⟨c, e1, e2, e3⟩ := ellLoop (L := f.ell_max) (abs_nonneg f.s) (zerosLike f.dat)
    (fun ell d => do
      let i ← f.index ell (-ell)
      let d ← wr d i (fun _ => 0)
      forL (pyRange (-ell + 1) (ell + 1)) d fun m d => do
        let j ← f.index ell (m - 1)
        let v ← rd f.dat j
        let i ← f.index ell m
        wr d i (sscaleF F (isqrtF F ((ell + m) * (ell - m + 1))) v))
    (fun ell m x => if m = -ell then 0 else mScale F (isqrtF F ((ell + m) * (ell - m + 1))) (f.coef ell (m - 1) x))
    (by
      intro ell h1 h2 d hd _
      rw [zerosLike_length] at hd ⊢
      have h0 : 0 ≤ ell := (abs_nonneg _).trans h1
      have hnl : |-ell| ≤ ell := by rw [abs_neg, abs_of_nonneg h0]
      have hlen : (ell + 1) ^ 2 ≤ (d.length : ℤ) := by
        rw [hd, hf.size]; exact sq_le_of (by omega) (by omega)
      have hp : mpos ell (-ell) < d.length := mpos_lt hnl h2 (by rw [hd]; exact hf.size)
      rw [index_ok h1 hnl h2, bind_ok, wr_mpos hnl _ hp, bind_ok]
      obtain ⟨c', g1, g2, g3, g4⟩ := mLoop (ell := ell) (a := -ell + 1) (b := ell + 1) (by omega) le_rfl
        (d.set (mpos ell (-ell)) (fun _ => 0))
        (fun m d => do
          let j ← f.index ell (m - 1)
          let v ← rd f.dat j
          let i ← f.index ell m
          wr d i (sscaleF F (isqrtF F ((ell + m) * (ell - m + 1))) v))
        (fun m => sscaleF F (isqrtF F ((ell + m) * (ell - m + 1))) (f.coef ell (m - 1)))
        (by rw [List.length_set]; exact hlen)
        (by
          intro m hm1 hm2 c hc
          rw [List.length_set] at hc
          have hm : |m| ≤ ell := abs_le.mpr ⟨by omega, by omega⟩
          have hm' : |m - 1| ≤ ell := abs_le.mpr ⟨by omega, by omega⟩
          rw [index_ok h1 hm' h2, bind_ok, rd_mpos hm' (hf.get hm' h2), bind_ok, index_ok h1 hm h2, bind_ok,
            wr_mpos hm _ (mpos_lt hm h2 (by rw [hc, hd]; exact hf.size))])
      refine ⟨c', g1, by rw [g2, List.length_set, hd], ?_, ?_⟩
      · intro m hm
        have := abs_le.mp hm
        rw [g3 m hm]
        by_cases he : m = -ell
        · rw [if_neg (by omega)]
          subst he
          rw [List.getElem?_set_self hp]
          simp
        · rw [if_pos (by omega)]
          simp only [he, if_false]
          rfl
      · intro k hk
        rw [g4 k hk, List.getElem?_set_ne]
        have := mpos_lo hnl
        have := mpos_hi hnl
        omega)
  unfold Modes.LplusF
  rw [e1, bind_ok]
  rw [zerosLike_length] at e2
  exact ⟨_, rfl, OpRes.of_loop hf (low_zeros hf) e2 e3⟩

theorem LminusF_ok {f : Modes} (hf : f.WF) :
    ∃ g, f.LminusF F = .ok g ∧ OpRes f g f.s fun ell m x =>
      if m = ell then 0 else mScale F (isqrtF F ((ell - m) * (ell + m + 1))) (f.coef ell (m + 1) x) := by
  obtain ⟨c, e1, e2, e3⟩ := ellLoop (L := f.ell_max) (abs_nonneg f.s) (zerosLike f.dat)
    (fun ell d => do
      let d ← forL (pyRange (-ell) ell) d fun m d => do
        let j ← f.index ell (m + 1)
        let v ← rd f.dat j
        let i ← f.index ell m
        wr d i (sscaleF F (isqrtF F ((ell - m) * (ell + m + 1))) v)
      let i ← f.index ell ell
      wr d i (fun _ => 0))
    (fun ell m x => if m = ell then 0 else mScale F (isqrtF F ((ell - m) * (ell + m + 1))) (f.coef ell (m + 1) x))
    (by
      intro ell h1 h2 d hd _
      rw [zerosLike_length] at hd ⊢
      have h0 : 0 ≤ ell := (abs_nonneg _).trans h1
      have hnl : |ell| ≤ ell := by rw [abs_of_nonneg h0]
      have hlen : (ell + 1) ^ 2 ≤ (d.length : ℤ) := by
        rw [hd, hf.size]; exact sq_le_of (by omega) (by omega)
      have hp : mpos ell ell < d.length := mpos_lt hnl h2 (by rw [hd]; exact hf.size)
      obtain ⟨c', g1, g2, g3, g4⟩ := mLoop (ell := ell) (a := -ell) (b := ell) (by omega) (by omega) d
        (fun m d => do
          let j ← f.index ell (m + 1)
          let v ← rd f.dat j
          let i ← f.index ell m
          wr d i (sscaleF F (isqrtF F ((ell - m) * (ell + m + 1))) v))
        (fun m => sscaleF F (isqrtF F ((ell - m) * (ell + m + 1))) (f.coef ell (m + 1)))
        hlen
        (by
          intro m hm1 hm2 c hc
          have hm : |m| ≤ ell := abs_le.mpr ⟨by omega, by omega⟩
          have hm' : |m + 1| ≤ ell := abs_le.mpr ⟨by omega, by omega⟩
          rw [index_ok h1 hm' h2, bind_ok, rd_mpos hm' (hf.get hm' h2), bind_ok, index_ok h1 hm h2, bind_ok,
            wr_mpos hm _ (mpos_lt hm h2 (by rw [hc, hd]; exact hf.size))])
      rw [g1, bind_ok, index_ok h1 hnl h2, bind_ok, wr_mpos hnl _ (by omega)]
      refine ⟨_, rfl, by rw [List.length_set, g2, hd], ?_, ?_⟩
      · intro m hm
        have := abs_le.mp hm
        by_cases he : m = ell
        · subst he
          rw [List.getElem?_set_self (by omega)]
          simp
        · rw [List.getElem?_set_ne (fun hh => he (mpos_inj hnl hm hh).2.symm), g3 m hm, if_pos (by omega)]
          simp only [he, if_false]
          rfl
      · intro k hk
        rw [List.getElem?_set_ne, g4 k hk]
        have := mpos_lo hnl
        have := mpos_hi hnl
        omega)
  unfold Modes.LminusF
  rw [e1, bind_ok]
  rw [zerosLike_length] at e2
  exact ⟨_, rfl, OpRes.of_loop hf (low_zeros hf) e2 e3⟩

theorem RLoopF_ok (hF : F.Std u δ) {f d : Modes} (hf : f.WF) (hd : d.WF) (hL : d.ell_max = f.ell_max)
    (hz : ∀ ell m, |m| ≤ ell → ell ≤ f.ell_max → d.dat[mpos ell m]? = some (fun _ => 0)) (hlead : d.lead = f.lead)
    (ht : d.trunc = f.trunc) (fac : ℤ → ℤ) :
    ∃ g, RLoopF F f d fac = .ok g ∧ OpRes f g d.s fun ell m x => mScale F (isqrtF F (fac ell)) (f.coef ell m x) := by
  have hlen : d.dat.length = f.dat.length := by
    have h1 := hf.size; have h2 := hd.size; rw [hL] at h2; omega
  obtain ⟨c, e1, e2, e3⟩ := ellLoop (L := d.ell_max) ((abs_nonneg d.s).trans (le_max_left |d.s| |f.s|)) d.dat
    (fun ell dat =>
      if ell ≥ 0 then do
        let i ← d.index ell (-ell)
        let j ← d.index ell ell
        let i' ← f.index ell (-ell)
        let j' ← f.index ell ell
        setSlice dat i (j + 1) ((getSlice f.dat i' (j' + 1)).map (sscaleF F (isqrtF F (fac ell))))
      else .ok dat)
    (fun ell m x => mScale F (isqrtF F (fac ell)) (f.coef ell m x))
    (by
      intro ell h1 h2 c hc _
      have h1d : |d.s| ≤ ell := (le_max_left _ _).trans h1
      have h1f : |f.s| ≤ ell := (le_max_right _ _).trans h1
      have h0 : 0 ≤ ell := (abs_nonneg _).trans h1f
      have hn : |-ell| ≤ ell := by rw [abs_neg, abs_of_nonneg h0]
      have hp : |ell| ≤ ell := by rw [abs_of_nonneg h0]
      rw [if_pos h0, index_ok h1d hn h2, bind_ok, index_ok h1d hp h2, bind_ok, index_ok h1f hn (by omega), bind_ok,
        index_ok h1f hp (by omega), bind_ok]
      rw [hlen] at hc ⊢
      exact blockStepG hf hc h0 (by omega) _)
  unfold RLoopF
  rw [e1, bind_ok]
  have hcoef : ∀ ell m, |d.s| ≤ ell → |m| ≤ ell → ell ≤ f.ell_max →
      c[mpos ell m]? = some (fun x => mScale F (isqrtF F (fac ell)) (f.coef ell m x)) := by
    intro ell m h1 h2 h3
    rw [e3 ell m ((abs_nonneg _).trans h1) (by omega) h2]
    by_cases hfs : |f.s| ≤ ell
    · rw [if_pos (max_le h1 hfs)]
    · rw [if_neg (by rw [max_le_iff]; omega), hz ell m h2 h3, hf.low ell m (by omega) h2 h3]
      congr 1
      funext x
      exact (mScale_zero hF _).symm
  refine ⟨_, rfl, ⟨⟨hd.ell_max_ge, ?_, ?_⟩, hlead, rfl, hL, ht, ?_⟩⟩
  · simp only; rw [e2]; exact hd.size
  · intro ell m h1 h2 h3
    apply coef_of_get
    simp only at h1 h3 ⊢
    rw [e3 ell m ((abs_nonneg _).trans h2) h3 h2, if_neg (by rw [max_le_iff]; omega), hz ell m h2 (by omega)]
  · intro ell m h1 h2 h3
    exact coef_of_get (hcoef ell m h1 h2 h3)

theorem RplusF_ok (hF : F.Std u δ) {f : Modes} (hf : f.WF) :
    ∃ g, f.RplusF F = .ok g ∧ OpRes f g (f.s - 1) fun ell m x =>
      mScale F (isqrtF F ((ell - (f.s - 1)) * (ell + (f.s - 1) + 1))) (f.coef ell m x) := by
  unfold Modes.RplusF
  rw [min_abs_zero, new_ell_min_zero]
  obtain ⟨d, e1, e2, e3, e4, e5, e6, e7⟩ := remake_ok f f.lead (zerosLike f.dat) (f.s - 1) f.ell_max hf.ell_max_ge
    (by rw [zerosLike_length]; exact hf.size)
  rw [e1, bind_ok]
  obtain ⟨g, g1, g2⟩ := RLoopF_ok hF hf e2 e5 (fun ell m h1 h2 => by
    rw [e7 ell m h1 h2, zerosLike_get (mpos_lt h1 h2 hf.size), ite_self]) e3 e6
    (fun ell => (ell - d.s) * (ell + d.s + 1))
  rw [e4] at g2
  rw [e4] at g1 ⊢
  exact ⟨g, g1, g2⟩

theorem RminusF_ok (hF : F.Std u δ) {f : Modes} (hf : f.WF) :
    ∃ g, f.RminusF F = .ok g ∧ OpRes f g (f.s + 1) fun ell m x =>
      mScale F (isqrtF F ((ell + (f.s + 1)) * (ell - (f.s + 1) + 1))) (f.coef ell m x) := by
  unfold Modes.RminusF
  rw [min_abs_zero, new_ell_min_zero]
  obtain ⟨d, e1, e2, e3, e4, e5, e6, e7⟩ := remake_ok f f.lead (zerosLike f.dat) (f.s + 1) f.ell_max hf.ell_max_ge
    (by rw [zerosLike_length]; exact hf.size)
  rw [e1, bind_ok]
  obtain ⟨g, g1, g2⟩ := RLoopF_ok hF hf e2 e5 (fun ell m h1 h2 => by
    rw [e7 ell m h1 h2, zerosLike_get (mpos_lt h1 h2 hf.size), ite_self]) e3 e6
    (fun ell => (ell + d.s) * (ell - d.s + 1))
  rw [e4] at g2
  rw [e4] at g1 ⊢
  exact ⟨g, g1, g2⟩

theorem ethbarF_ok (hF : F.Std u δ) {f : Modes} (hf : f.WF) :
    ∃ g, f.ethbarF F = .ok g ∧ OpRes f g (f.s - 1) fun ell m x =>
      -mScale F (isqrtF F ((ell - (f.s - 1)) * (ell + (f.s - 1) + 1))) (f.coef ell m x) := by
  obtain ⟨d, d1, d2⟩ := RplusF_ok hF hf
  obtain ⟨g, g1, g2⟩ := negative_ok d2.wf
  unfold Modes.ethbarF
  rw [d1, bind_ok]
  refine ⟨g, g1, g2.wf, g2.lead.trans d2.lead, g2.hs.trans d2.hs, g2.hL.trans d2.hL, g2.trunc.trans d2.trunc, ?_⟩
  intro ell m h1 h2 h3
  rw [g2.coef ell m (by rw [d2.hs]; exact h1) h2 (by rw [d2.hL]; exact h3), d2.coef ell m h1 h2 h3]

theorem RzF_ok {f : Modes} (hf : f.WF) :
    ∃ g, f.RzF F = .ok g ∧ OpRes f g f.s fun ell m x => mScale F ((-f.s : ℤ) : ℝ) (f.coef ell m x) := by
  unfold Modes.RzF
  apply OpRes.of_remake hf (by simp)
  intro ell m h1 h2 h3
  rw [List.getElem?_map, hf.get h2 h3]
  simp only [Option.map_some]
  rfl

theorem addF_ok (hF : F.Std u δ) {f g : Modes} (hf : f.WF) (hg : g.WF) (hs : f.s = g.s) (hfL : 0 ≤ f.ell_max) (hgL : 0 ≤ g.ell_max)
    {lead : List ℕ} (hb : bcastShape f.lead g.lead = some lead) (sub : Bool) :
    ∃ h, f.addF F g sub = .ok h ∧ h.WF ∧ h.lead = lead ∧ h.s = f.s ∧ h.ell_max = max f.ell_max g.ell_max ∧
      h.trunc = f.trunc ∧ ∀ ell m, |f.s| ≤ ell → |m| ≤ ell → ell ≤ max f.ell_max g.ell_max →
        h.coef ell m = fun x => if sub then mSub F (f.coefIn lead ell m x) (g.coefIn lead ell m x)
          else mAdd F (f.coefIn lead ell m x) (g.coefIn lead ell m x) := by
  unfold Modes.addF
  rw [if_neg (by simpa using hs)]
  have hlead : bcastLeads f g = .ok lead := by
    unfold bcastLeads
    rw [if_neg (by have := hf.dat_ne_nil hfL; have := hg.dat_ne_nil hgL; tauto), hb]
  simp only
  rw [hlead, bind_ok]
  set M := max f.ell_max g.ell_max with hM
  have hM0 : 0 ≤ M := hfL.trans (le_max_left _ _)
  obtain ⟨N, hN⟩ : ∃ N : ℕ, (N : ℤ) = (M + 1) ^ 2 := ⟨((M + 1) ^ 2).toNat, by have := sq_nonneg (M + 1); omega⟩
  have hz : npZeros (α := Slice) (LM_total_size 0 M) = .ok (List.replicate N (0 : Slice)) := by
    unfold npZeros
    rw [LM_total_size_zero, ← hN, npEmpty_ok (by omega), Int.toNat_natCast]
    congr 1
    exact List.ext_getElem (by simp) (by simp)
  rw [hz, bind_ok]
  have hfl : f.dat.length ≤ N := by
    have := hf.size
    have := sq_le_of (show 0 ≤ f.ell_max + 1 by omega) (show f.ell_max + 1 ≤ M + 1 by omega)
    omega
  have hgl : g.dat.length ≤ N := by
    have := hg.size
    have := sq_le_of (show 0 ≤ g.ell_max + 1 by omega) (show g.ell_max + 1 ≤ M + 1 by omega)
    omega
  set op : ℂ → ℂ → ℂ := if sub = true then mSub F else mAdd F with hop
  have key : ∃ r, addSlices op lead f.lead g.lead f.ell_max g.ell_max (fun _ => f.dat) (fun _ => g.dat)
      (List.replicate N (0 : Slice)) = .ok r ∧ r.length = N ∧
      ∀ ell m, |m| ≤ ell → ell ≤ M →
        r[mpos ell m]? = some fun x => op (f.coefIn lead ell m x) (g.coefIn lead ell m x) := by
    have z0 : LM_total_size 0 (0 - 1) = ((0 : ℕ) : ℤ) := by rw [LM_total_size_zero]; simp
    have zf : ((0 : ℕ) : ℤ) + LM_total_size 0 f.ell_max = ((f.dat.length : ℕ) : ℤ) := by
      rw [LM_total_size_zero, hf.size]; simp
    have zg : ((0 : ℕ) : ℤ) + LM_total_size 0 g.ell_max = ((g.dat.length : ℕ) : ℤ) := by
      rw [LM_total_size_zero, hg.size]; simp
    unfold addSlices
    simp only
    rw [z0, zf, zg]
    obtain ⟨r1, a1, a2, a3⟩ := setSlice_ok (a := List.replicate N (0 : Slice)) (i := 0) (j := f.dat.length)
      (vals := f.dat.map (bcTo f.lead lead)) (by omega) (by rw [List.length_replicate]; exact hfl) (by simp)
    rw [List.length_replicate] at a2
    rw [a1, bind_ok]
    have lc := getSlice_length (a := r1) (i := 0) (j := g.dat.length) (by omega)
    rw [if_neg (by rw [lc]; simp)]
    obtain ⟨r2, b1, b2, b3⟩ := setSlice_ok (a := r1) (i := 0) (j := g.dat.length)
      (vals := List.zipWith (fun u v x => op (u x) (v x)) (getSlice r1 ((0 : ℕ) : ℤ) ((g.dat.length : ℕ) : ℤ))
        (g.dat.map (bcTo g.lead lead))) (by omega) (by omega) (by rw [List.length_zipWith, lc]; simp)
    refine ⟨r2, b1, by omega, ?_⟩
    have hr1 : ∀ ell m, |m| ≤ ell → ell ≤ M → r1[mpos ell m]? = some (f.coefIn lead ell m) := by
      intro ell m h1 h2
      have hlt := mpos_lt h1 h2 hN
      rw [a3]
      by_cases hk : ell ≤ f.ell_max
      · rw [if_pos ⟨by omega, mpos_lt h1 hk hf.size⟩, Nat.sub_zero, List.getElem?_map, hf.get h1 hk]
        rfl
      · have hlo := mpos_lo h1
        have := sq_le_of (show 0 ≤ f.ell_max + 1 by omega) (show f.ell_max + 1 ≤ ell by omega)
        have := hf.size
        rw [if_neg (by omega), List.getElem?_replicate, if_pos hlt]
        unfold Modes.coefIn
        rw [hf.sized.coef_of_gt h1 (by omega), bcTo_zero]
        rfl
    intro ell m h1 h2
    have hlt := mpos_lt h1 h2 hN
    rw [b3]
    by_cases hk : ell ≤ g.ell_max
    · have hgk := mpos_lt h1 hk hg.size
      rw [if_pos ⟨by omega, hgk⟩, Nat.sub_zero, List.getElem?_zipWith, getSlice_get (by omega), Nat.zero_add,
        hr1 ell m h1 h2, List.getElem?_map, hg.get h1 hk]
      rfl
    · have hlo := mpos_lo h1
      have := sq_le_of (show 0 ≤ g.ell_max + 1 by omega) (show g.ell_max + 1 ≤ ell by omega)
      have := hg.size
      rw [if_neg (by omega), hr1 ell m h1 h2]
      congr 1
      funext x
      unfold Modes.coefIn
      rw [hg.sized.coef_of_gt h1 (by omega), bcTo_zero, hop]
      cases sub
      · exact (mAdd_zero hF _).symm
      · exact (mSub_zero hF _).symm
  obtain ⟨r, k1, k2, k3⟩ := key
  rw [k1, bind_ok]
  obtain ⟨h, e1, e2, e3, e4, e5, e6, e7⟩ := remake_ok f lead r f.s M (by omega) (by rw [k2]; exact hN)
  refine ⟨h, e1, e2, e3, e4, e5, e6, ?_⟩
  intro ell m h1 h2 h3
  apply coef_of_get
  rw [e7 ell m h2 h3, if_pos h1, k3 ell m h2 h3, hop]
  cases sub <;> rfl

/-- Modes computed for the real part. -/
noncomputable def realTF (F : ModesOps) (G : ℤ → ℤ → Slice) (ell m : ℤ) : Slice :=
  fun x => if m % 2 = 0 then mAdd F (G ell m x) (conj (G ell (-m) x)) / 2 else mSub F (G ell m x) (conj (G ell (-m) x)) / 2

/-- Modes computed for the imaginary part. -/
noncomputable def imagTF (F : ModesOps) (G : ℤ → ℤ → Slice) (ell m : ℤ) : Slice :=
  fun x => if m % 2 = 0 then -Complex.I * mSub F (G ell m x) (conj (G ell (-m) x)) / 2
    else -Complex.I * mAdd F (G ell m x) (conj (G ell (-m) x)) / 2

theorem mAdd_conj (hF : F.Std u δ) (z : ℂ) : mAdd F z (conj z) / 2 = (z.re : ℂ) := by
  unfold mAdd
  rw [Complex.conj_re, Complex.conj_im, hF.double, relErr_zero (v := F.add z.im (-z.im)) (u := u) (by
    have := hF.add z.im (-z.im); rwa [add_neg_cancel] at this)]
  apply Complex.ext <;> simp

theorem mSub_conj (hF : F.Std u δ) (z : ℂ) : -Complex.I * mSub F z (conj z) / 2 = (z.im : ℂ) := by
  unfold mSub
  rw [Complex.conj_re, Complex.conj_im, neg_neg, hF.double, relErr_zero (v := F.add z.re (-z.re)) (u := u) (by
    have := hF.add z.re (-z.re); rwa [add_neg_cancel] at this)]
  apply Complex.ext <;> simp

theorem conj_mAdd (hF : F.Std u δ) (a b : ℂ) : conj (mAdd F a (conj b)) = mAdd F b (conj a) := by
  unfold mAdd
  apply Complex.ext
  · simp only [Complex.conj_re]; exact hF.add_comm _ _
  · simp only [Complex.conj_im]
    rw [← hF.add_neg, neg_neg, hF.add_comm]

theorem conj_mSub (hF : F.Std u δ) (a b : ℂ) : -conj (mSub F a (conj b)) = mSub F b (conj a) := by
  unfold mSub
  apply Complex.ext
  · simp only [Complex.neg_re, Complex.conj_re]; rw [← hF.add_neg, neg_neg, hF.add_comm]
  · simp only [Complex.neg_im, Complex.conj_im, neg_neg]
    exact hF.add_comm _ _

theorem realLoopF_ok (hF : F.Std u δ) {s L : ℤ} {src : List Slice → List Slice} {c0 : List Slice} {G : ℤ → ℤ → Slice}
    (hlen : (c0.length : ℤ) = (L + 1) ^ 2) (hr : Reads L src c0 G) :
    ∃ c', realLoopF F s L src c0 = .ok c' ∧ c'.length = c0.length ∧
      ∀ ell m, 0 ≤ ell → ell ≤ L → |m| ≤ ell →
        c'[mpos ell m]? = if |s| ≤ ell then some (realTF F G ell m) else c0[mpos ell m]? := by
  unfold realLoopF
  refine symEll (abs_nonneg s) c0 _ (realPairF F src) (realTF F G) hlen ?_ ?_
  · intro ell h1 h2 c hc1 hc2
    have hl0 : 0 ≤ ell := (abs_nonneg s).trans h1
    have habs0 : |(0 : ℤ)| ≤ ell := by simpa using hl0
    have hz : mpos ell 0 < c.length := mpos_lt habs0 h2 (by rw [hc1]; exact hlen)
    simp only
    rw [rd_mpos habs0 (hr c hc1 ell 0 habs0 h2 (hc2 0 habs0)), bind_ok, wr_mpos habs0 _ hz, bind_ok]
    congr 2
    unfold realTF
    funext x
    rw [neg_zero, if_pos (by norm_num), mAdd_conj hF]
  · intro ell m h1 h2 hm1 hm2 c hc1 hp hn
    have hma : |m| ≤ ell := by rw [abs_of_nonneg (by omega)]; exact hm2
    have hna : |-m| ≤ ell := by rw [abs_neg]; exact hma
    have hpl : mpos ell m < c.length := mpos_lt hma h2 (by rw [hc1]; exact hlen)
    have hnl : mpos ell (-m) < c.length := mpos_lt hna h2 (by rw [hc1]; exact hlen)
    unfold realPairF
    simp only
    rw [rd_mpos hma (hr c hc1 ell m hma h2 hp), bind_ok, rd_mpos hna (hr c hc1 ell (-m) hna h2 hn), bind_ok]
    have hpar : (-m) % 2 = 0 ↔ m % 2 = 0 := by omega
    unfold realTF
    by_cases he : m % 2 = 0
    · rw [if_pos he, wr_mpos hma _ hpl, bind_ok, rd_mpos hma (List.getElem?_set_self hpl), bind_ok,
        wr_mpos hna _ (by rw [List.length_set]; exact hnl)]
      congr 2
      · congr 1; funext x; rw [if_pos he]
      · funext x
        rw [if_pos (hpar.mpr he), neg_neg, map_div₀, conj_mAdd hF, map_ofNat]
    · rw [if_neg he, wr_mpos hma _ hpl, bind_ok, rd_mpos hma (List.getElem?_set_self hpl), bind_ok,
        wr_mpos hna _ (by rw [List.length_set]; exact hnl)]
      congr 2
      · congr 1; funext x; rw [if_neg he]
      · funext x
        rw [if_neg (fun h => he (hpar.mp h)), neg_neg, map_div₀, map_ofNat, ← neg_div, conj_mSub hF]

theorem realF_ok (hF : F.Std u δ) {f : Modes} (hf : f.WF) (hs : f.s = 0) (inplace : Bool) :
    ∃ g, f.realF F inplace = .ok g ∧ OpRes f g 0 (realTF F f.coef) := by
  unfold Modes.realF
  rw [if_neg (by simpa using hs)]
  cases inplace
  · rw [if_neg (by simp)]
    obtain ⟨c, e1, e2, e3⟩ := realLoopF_ok hF (s := f.s) (by rw [zerosLike_length]; exact hf.size)
      (reads_copy hf (zerosLike f.dat))
    rw [e1, bind_ok]
    rw [zerosLike_length] at e2
    rw [hs] at e3 ⊢
    exact OpRes.of_remake hf e2 (fun ell m h1 h2 h3 => by rw [e3 ell m ((abs_nonneg _).trans h1) h3 h2, if_pos h1])
  · rw [if_pos rfl]
    obtain ⟨c, e1, e2, e3⟩ := realLoopF_ok hF (s := f.s) hf.size (reads_inplace hf)
    rw [e1, bind_ok]
    rw [hs] at e3
    have he : ({ f with dat := c } : Modes) = { f with dat := c, s := 0 } := by rw [← hs]
    refine ⟨_, rfl, he ▸ OpRes.of_data hf e2 ?_ ?_⟩
    · intro ell m h1 h2 h3
      have := (abs_nonneg m).trans h2
      simp at h1
      omega
    · intro ell m h1 h2 h3
      rw [e3 ell m ((abs_nonneg _).trans h1) h3 h2, if_pos h1]

theorem imagLoopF_ok (hF : F.Std u δ) {s L : ℤ} {src : List Slice → List Slice} {c0 : List Slice} {G : ℤ → ℤ → Slice}
    (hlen : (c0.length : ℤ) = (L + 1) ^ 2) (hr : Reads L src c0 G) :
    ∃ c', imagLoopF F s L src c0 = .ok c' ∧ c'.length = c0.length ∧
      ∀ ell m, 0 ≤ ell → ell ≤ L → |m| ≤ ell →
        c'[mpos ell m]? = if |s| ≤ ell then some (imagTF F G ell m) else c0[mpos ell m]? := by
  unfold imagLoopF
  refine symEll (abs_nonneg s) c0 _ (imagPairF F src) (imagTF F G) hlen ?_ ?_
  · intro ell h1 h2 c hc1 hc2
    have hl0 : 0 ≤ ell := (abs_nonneg s).trans h1
    have habs0 : |(0 : ℤ)| ≤ ell := by simpa using hl0
    have hz : mpos ell 0 < c.length := mpos_lt habs0 h2 (by rw [hc1]; exact hlen)
    simp only
    rw [rd_mpos habs0 (hr c hc1 ell 0 habs0 h2 (hc2 0 habs0)), bind_ok, wr_mpos habs0 _ hz, bind_ok]
    congr 2
    unfold imagTF
    funext x
    rw [neg_zero, if_pos (by norm_num), mSub_conj hF]
  · intro ell m h1 h2 hm1 hm2 c hc1 hp hn
    have hma : |m| ≤ ell := by rw [abs_of_nonneg (by omega)]; exact hm2
    have hna : |-m| ≤ ell := by rw [abs_neg]; exact hma
    have hpl : mpos ell m < c.length := mpos_lt hma h2 (by rw [hc1]; exact hlen)
    have hnl : mpos ell (-m) < c.length := mpos_lt hna h2 (by rw [hc1]; exact hlen)
    unfold imagPairF
    simp only
    rw [rd_mpos hma (hr c hc1 ell m hma h2 hp), bind_ok, rd_mpos hna (hr c hc1 ell (-m) hna h2 hn), bind_ok]
    have hpar : (-m) % 2 = 0 ↔ m % 2 = 0 := by omega
    unfold imagTF
    by_cases he : m % 2 = 0
    · rw [if_pos he, wr_mpos hma _ hpl, bind_ok, rd_mpos hma (List.getElem?_set_self hpl), bind_ok,
        wr_mpos hna _ (by rw [List.length_set]; exact hnl)]
      congr 2
      · congr 1; funext x; rw [if_pos he]
      · funext x
        rw [if_pos (hpar.mpr he), neg_neg, map_div₀, map_mul, map_ofNat, map_neg, Complex.conj_I, neg_neg,
          ← conj_mSub hF (G ell m x) (G ell (-m) x), neg_mul_neg]
    · rw [if_neg he, wr_mpos hma _ hpl, bind_ok, rd_mpos hma (List.getElem?_set_self hpl), bind_ok,
        wr_mpos hna _ (by rw [List.length_set]; exact hnl)]
      congr 2
      · congr 1; funext x; rw [if_neg he]
      · funext x
        rw [if_neg (fun h => he (hpar.mp h)), neg_neg, map_div₀, map_mul, conj_mAdd hF, map_ofNat, map_neg, Complex.conj_I]
        ring

theorem imagF_ok (hF : F.Std u δ) {f : Modes} (hf : f.WF) (hs : f.s = 0) (inplace : Bool) :
    ∃ g, f.imagF F inplace = .ok g ∧ OpRes f g 0 (imagTF F f.coef) := by
  unfold Modes.imagF
  rw [if_neg (by simpa using hs)]
  cases inplace
  · rw [if_neg (by simp)]
    obtain ⟨c, e1, e2, e3⟩ := imagLoopF_ok hF (s := f.s) (by rw [zerosLike_length]; exact hf.size)
      (reads_copy hf (zerosLike f.dat))
    rw [e1, bind_ok]
    rw [zerosLike_length] at e2
    rw [hs] at e3 ⊢
    exact OpRes.of_remake hf e2 (fun ell m h1 h2 h3 => by rw [e3 ell m ((abs_nonneg _).trans h1) h3 h2, if_pos h1])
  · rw [if_pos rfl]
    obtain ⟨c, e1, e2, e3⟩ := imagLoopF_ok hF (s := f.s) hf.size (reads_inplace hf)
    rw [e1, bind_ok]
    rw [hs] at e3
    have he : ({ f with dat := c } : Modes) = { f with dat := c, s := 0 } := by rw [← hs]
    refine ⟨_, rfl, he ▸ OpRes.of_data hf e2 ?_ ?_⟩
    · intro ell m h1 h2 h3
      have := (abs_nonneg m).trans h2
      simp at h1
      omega
    · intro ell m h1 h2 h3
      rw [e3 ell m ((abs_nonneg _).trans h1) h3 h2, if_pos h1]

end SF
