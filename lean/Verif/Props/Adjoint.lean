import Verif.Props.ModesOperators

/-!
# C101: adjoints, conjugates and kernels of the operators of `Modes`
-/

set_option autoImplicit false

namespace SF

open Finset ComplexConjugate

/-- The scalar product `Σ conj(f(ell,m)) g(ell,m)` of the functions at the leading indices `i` of `f` and `j` of `g`. -/
noncomputable def scalarProduct (f g : Modes) (i j : MIdx) : ℂ :=
  ∑ l ∈ Icc 0 (min f.ell_max g.ell_max), ∑ m ∈ Icc (-l) l, conj (f.coef l m i) * g.coef l m j

/-! ## Adjoints -/

theorem isqrtC_conj (n : ℤ) : conj (isqrtC n) = isqrtC n := by
  unfold isqrtC; exact Complex.conj_ofReal _

/-- Operators that multiply each mode by a number. -/
theorem adjoint_factor {f f' g g' : Modes} {t : ℤ} {c d : ℤ → ℤ → ℂ} (hf : f.WF) (hg : g.WF) (hs : g.s = t)
    (a : OpRes f f' t fun l m x => c l m * f.coef l m x) (b : OpRes g g' f.s fun l m x => d l m * g.coef l m x)
    (h : ∀ l m, |f.s| ≤ l → |t| ≤ l → conj (c l m) = d l m) (i j : MIdx) : scalarProduct f' g i j = scalarProduct f g' i j := by
  unfold scalarProduct
  rw [a.hL, b.hL]
  refine sum_congr rfl fun l hl => sum_congr rfl fun m hm => ?_
  rw [mem_Icc] at hl hm
  have hm' : |m| ≤ l := abs_le.mpr hm
  have hlf : l ≤ f.ell_max := hl.2.trans (min_le_left _ _)
  have hlg : l ≤ g.ell_max := hl.2.trans (min_le_right _ _)
  by_cases h1 : |f.s| ≤ l
  · by_cases h2 : |t| ≤ l
    · rw [a.coef l m h2 hm' hlf, b.coef l m h1 hm' hlg, map_mul, h l m h1 h2]; ring
    · rw [a.wf.low l m (by rw [a.hs]; omega) hm' (by rw [a.hL]; exact hlf), b.coef l m h1 hm' hlg, hg.low l m (by rw [hs]; omega) hm' hlg]
      simp
  · by_cases h2 : |t| ≤ l
    · rw [a.coef l m h2 hm' hlf, b.wf.low l m (by rw [b.hs]; omega) hm' (by rw [b.hL]; exact hlg), hf.low l m (by omega) hm' hlf]
      simp
    · rw [a.wf.low l m (by rw [a.hs]; omega) hm' (by rw [a.hL]; exact hlf), b.wf.low l m (by rw [b.hs]; omega) hm' (by rw [b.hL]; exact hlg)]
      simp

theorem adjoint_shift {f f' g g' : Modes} (hs : g.s = f.s) (a : f.Lplus = .ok f') (b : g.Lminus = .ok g') (hf : f.WF) (hg : g.WF)
    (i j : MIdx) : scalarProduct f' g i j = scalarProduct f g' i j := by
  obtain ⟨_, a1, a2⟩ := Lplus_ok hf
  obtain rfl := Except.ok.inj (a.symm.trans a1)
  obtain ⟨_, b1, b2⟩ := Lminus_ok hg
  obtain rfl := Except.ok.inj (b.symm.trans b1)
  unfold scalarProduct
  rw [a2.hL, b2.hL]
  refine sum_congr rfl fun l hl => ?_
  rw [mem_Icc] at hl
  have hlf : l ≤ f.ell_max := hl.2.trans (min_le_left _ _)
  have hlg : l ≤ g.ell_max := hl.2.trans (min_le_right _ _)
  by_cases h1 : |f.s| ≤ l
  swap
  · rw [sum_eq_zero, sum_eq_zero]
    · intro m hm
      rw [mem_Icc] at hm
      rw [hf.low l m (by omega) (abs_le.mpr hm) hlf]; simp
    · intro m hm
      rw [mem_Icc] at hm
      rw [hg.low l m (by rw [hs]; omega) (abs_le.mpr hm) hlg]; simp
  have e1 : ∑ m ∈ Icc (-l) l, conj (f'.coef l m i) * g.coef l m j
      = ∑ m ∈ Icc (-l + 1) l, isqrtC ((l + m) * (l - m + 1)) * conj (f.coef l (m - 1) i) * g.coef l m j := by
    rw [← sum_subset (s₁ := Icc (-l + 1) l) (by intro m; simp only [mem_Icc]; omega)]
    · refine sum_congr rfl fun m hm => ?_
      rw [mem_Icc] at hm
      rw [a2.coef l m h1 (abs_le.mpr (by omega)) hlf]; beta_reduce; rw [if_neg (by omega), map_mul, isqrtC_conj]
    · intro m hm hn
      rw [mem_Icc] at hm hn
      rw [a2.coef l m h1 (abs_le.mpr (by omega)) hlf]; beta_reduce; rw [if_pos (by omega)]; simp
  have e2 : ∑ m ∈ Icc (-l) l, conj (f.coef l m i) * g'.coef l m j
      = ∑ m ∈ Icc (-l) (l - 1), isqrtC ((l - m) * (l + m + 1)) * conj (f.coef l m i) * g.coef l (m + 1) j := by
    rw [← sum_subset (s₁ := Icc (-l) (l - 1)) (by intro m; simp only [mem_Icc]; omega)]
    · refine sum_congr rfl fun m hm => ?_
      rw [mem_Icc] at hm
      rw [b2.coef l m (by rw [hs]; exact h1) (abs_le.mpr (by omega)) hlg]; beta_reduce; rw [if_neg (by omega)]; ring
    · intro m hm hn
      rw [mem_Icc] at hm hn
      rw [b2.coef l m (by rw [hs]; exact h1) (abs_le.mpr (by omega)) hlg]; beta_reduce; rw [if_pos (by omega)]; simp
  rw [e1, e2]
  apply Finset.sum_nbij' (fun n => n - 1) (fun n => n + 1)
  · intro n hn; rw [mem_Icc] at hn ⊢; omega
  · intro n hn; rw [mem_Icc] at hn ⊢; omega
  · intro n _; ring
  · intro n _; ring
  · intro n _
    rw [show l - (n - 1) = l - n + 1 by ring, show l + (n - 1) + 1 = l + n by ring, show n - 1 + 1 = n by ring, mul_comm (l - n + 1)]

theorem scalarProduct_conj (f g : Modes) (i j : MIdx) : conj (scalarProduct f g i j) = scalarProduct g f j i := by
  unfold scalarProduct
  rw [map_sum, min_comm]
  refine sum_congr rfl fun l _ => ?_
  rw [map_sum]
  refine sum_congr rfl fun m _ => ?_
  rw [map_mul, Complex.conj_conj]; ring

/-- The operators and their adjoints. -/
noncomputable def adjointPairs : List ((Modes → Py Modes) × (Modes → Py Modes)) :=
  [(Modes.Lsquared, Modes.Lsquared), (Modes.Lz, Modes.Lz), (Modes.Lplus, Modes.Lminus), (Modes.Lminus, Modes.Lplus),
   (Modes.Rz, Modes.Rz), (Modes.Rplus, Modes.Rminus), (Modes.Rminus, Modes.Rplus)]

/-- **C101 (adjoints).** `Lsquared` (`Rsquared`), `Lz` and `Rz` are self-adjoint; `Lplus` and `Lminus`, and `Rplus` and `Rminus`, are adjoint
to each other: `⟨T f, g⟩ = ⟨f, T† g⟩` whenever `T f` and `g` have the same spin weight. -/
theorem C101_adjoint (T T' : Modes → Py Modes) (hT : (T, T') ∈ adjointPairs) (f g f' g' : Modes) (hf : f.WF) (hg : g.WF) (e : T f = .ok f')
    (e' : T' g = .ok g') (hs : f'.s = g.s) (i j : MIdx) : scalarProduct f' g i j = scalarProduct f g' i j := by
  simp only [adjointPairs, List.mem_cons, List.not_mem_nil, or_false, Prod.mk.injEq] at hT
  rcases hT with ⟨rfl, rfl⟩ | ⟨rfl, rfl⟩ | ⟨rfl, rfl⟩ | ⟨rfl, rfl⟩ | ⟨rfl, rfl⟩ | ⟨rfl, rfl⟩ | ⟨rfl, rfl⟩
  · obtain ⟨_, a1, a2⟩ := Lsquared_ok hf
    obtain rfl := Except.ok.inj (e.symm.trans a1)
    obtain ⟨_, b1, b2⟩ := Lsquared_ok hg
    obtain rfl := Except.ok.inj (e'.symm.trans b1)
    rw [a2.hs] at hs
    rw [← hs] at b2
    exact adjoint_factor hf hg hs.symm a2 b2 (fun l m _ _ => map_intCast _ _) i j
  · obtain ⟨_, a1, a2⟩ := Lz_ok hf
    obtain rfl := Except.ok.inj (e.symm.trans a1)
    obtain ⟨_, b1, b2⟩ := Lz_ok hg
    obtain rfl := Except.ok.inj (e'.symm.trans b1)
    rw [a2.hs] at hs
    rw [← hs] at b2
    exact adjoint_factor hf hg hs.symm a2 b2 (fun l m _ _ => map_intCast _ _) i j
  · obtain ⟨_, a1, a2⟩ := Lplus_ok hf
    obtain rfl := Except.ok.inj (e.symm.trans a1)
    rw [a2.hs] at hs
    exact adjoint_shift hs.symm e e' hf hg i j
  · obtain ⟨_, a1, a2⟩ := Lminus_ok hf
    obtain rfl := Except.ok.inj (e.symm.trans a1)
    rw [a2.hs] at hs
    rw [← scalarProduct_conj, ← scalarProduct_conj g', adjoint_shift hs e' e hg hf j i]
  · obtain ⟨_, a1, a2⟩ := Rz_ok hf
    obtain rfl := Except.ok.inj (e.symm.trans a1)
    obtain ⟨_, b1, b2⟩ := Rz_ok hg
    obtain rfl := Except.ok.inj (e'.symm.trans b1)
    rw [a2.hs] at hs
    rw [← hs] at b2
    exact adjoint_factor (c := fun _ _ => -(f.s : ℂ)) (d := fun _ _ => -(f.s : ℂ)) hf hg hs.symm a2 b2
      (fun l m _ _ => by rw [map_neg, map_intCast]) i j
  · obtain ⟨_, a1, a2⟩ := Rplus_ok hf
    obtain rfl := Except.ok.inj (e.symm.trans a1)
    obtain ⟨_, b1, b2⟩ := Rminus_ok hg
    obtain rfl := Except.ok.inj (e'.symm.trans b1)
    rw [a2.hs] at hs
    simp only [← hs, sub_add_cancel] at b2
    exact adjoint_factor (c := fun l _ => isqrtC ((l - (f.s - 1)) * (l + (f.s - 1) + 1))) (d := fun l _ => isqrtC ((l + f.s) * (l - f.s + 1)))
      hf hg hs.symm a2 b2
      (fun l m _ _ => by rw [isqrtC_conj, show (l - (f.s - 1)) * (l + (f.s - 1) + 1) = (l + f.s) * (l - f.s + 1) by ring]) i j
  · obtain ⟨_, a1, a2⟩ := Rminus_ok hf
    obtain rfl := Except.ok.inj (e.symm.trans a1)
    obtain ⟨_, b1, b2⟩ := Rplus_ok hg
    obtain rfl := Except.ok.inj (e'.symm.trans b1)
    rw [a2.hs] at hs
    simp only [← hs, add_sub_cancel_right] at b2
    exact adjoint_factor (c := fun l _ => isqrtC ((l + (f.s + 1)) * (l - (f.s + 1) + 1))) (d := fun l _ => isqrtC ((l - f.s) * (l + f.s + 1)))
      hf hg hs.symm a2 b2
      (fun l m _ _ => by rw [isqrtC_conj, show (l + (f.s + 1)) * (l - (f.s + 1) + 1) = (l - f.s) * (l + f.s + 1) by ring]) i j

/-- **C101 (integration by parts).** `⟨eth f, g⟩ = -⟨f, ethbar g⟩` and `⟨ethbar f, g⟩ = -⟨f, eth g⟩`. -/
theorem C101_eth_adjoint (f g f' g' : Modes) (hf : f.WF) (hg : g.WF) (hs : f'.s = g.s) (i j : MIdx) :
    (f.eth = .ok f' → g.ethbar = .ok g' → scalarProduct f' g i j = -scalarProduct f g' i j) ∧
    (f.ethbar = .ok f' → g.eth = .ok g' → scalarProduct f' g i j = -scalarProduct f g' i j) := by
  have neg : ∀ (f g f' g' : Modes), f.WF → g.WF → f'.s = g.s → ∀ i j, f.eth = .ok f' → g.ethbar = .ok g' →
      scalarProduct f' g i j = -scalarProduct f g' i j := by
    intro f g f' g' hf hg hs i j e1 e2
    obtain ⟨_, b1, b2⟩ := ethbar_ok hg
    obtain rfl := Except.ok.inj (e2.symm.trans b1)
    obtain ⟨k, c1, c2⟩ := Rplus_ok hg
    rw [C101_adjoint Modes.Rminus Modes.Rplus (by simp [adjointPairs]) f g f' k hf hg e1 c1 hs i j]
    unfold scalarProduct
    rw [c2.hL, b2.hL, ← sum_neg_distrib]
    refine sum_congr rfl fun l hl => ?_
    rw [← sum_neg_distrib]
    refine sum_congr rfl fun m hm => ?_
    rw [mem_Icc] at hl hm
    have hlg : l ≤ g.ell_max := hl.2.trans (min_le_right _ _)
    by_cases h : |g.s - 1| ≤ l
    · rw [c2.coef l m h (abs_le.mpr hm) hlg, b2.coef l m h (abs_le.mpr hm) hlg]; ring
    · rw [c2.wf.low l m (by rw [c2.hs]; omega) (abs_le.mpr hm) (by rw [c2.hL]; exact hlg),
        b2.wf.low l m (by rw [b2.hs]; omega) (abs_le.mpr hm) (by rw [b2.hL]; exact hlg)]
      simp
  refine ⟨neg f g f' g' hf hg hs i j, fun e1 e2 => ?_⟩
  obtain ⟨_, a1, a2⟩ := ethbar_ok hf
  obtain rfl := Except.ok.inj (e1.symm.trans a1)
  obtain ⟨_, b1, b2⟩ := Rminus_ok hg
  obtain rfl := Except.ok.inj (e2.symm.trans b1)
  have := neg g f g' f' hg hf (by rw [b2.hs, ← hs, a2.hs]; ring) j i e2 e1
  rw [← scalarProduct_conj, ← scalarProduct_conj g', this, map_neg, neg_neg]

/-! ## Conjugates -/

/-- **C101 (conjugates).** `conj(T f) = -T†(conj f)` for `Lz`, `Lplus`, `Lminus`, `Rz`, `Rplus` and `Rminus`. -/
theorem C101_conjugate (T T' : Modes → Py Modes) (hT : (T, T') ∈ adjointPairs.tail) (f f' c a b : Modes) (hf : f.WF) (x y : Bool)
    (e1 : T f = .ok f') (e2 : f'.conjugate x = .ok a) (e3 : f.conjugate y = .ok c) (e4 : T' c = .ok b) :
    a.s = b.s ∧ a.ell_max = b.ell_max ∧ a.lead = b.lead ∧ a.trunc = b.trunc ∧
      ∀ l m idx, |m| ≤ l → l ≤ f.ell_max → a.coef l m idx = -b.coef l m idx := by
  obtain ⟨_, c1, c2⟩ := conjugate_ok hf y
  obtain rfl := Except.ok.inj (e3.symm.trans c1)
  have key : ∀ {t : ℤ} {F G : ℤ → ℤ → Slice}, OpRes f f' t F → OpRes c b (-t) G →
      (∀ l m idx, |t| ≤ l → |m| ≤ l → l ≤ f.ell_max → (-1 : ℂ) ^ (t + m) * conj (F l (-m) idx) = -G l m idx) →
      a.s = b.s ∧ a.ell_max = b.ell_max ∧ a.lead = b.lead ∧ a.trunc = b.trunc ∧
        ∀ l m idx, |m| ≤ l → l ≤ f.ell_max → a.coef l m idx = -b.coef l m idx := by
    intro t F G o p h
    obtain ⟨_, d1, d2⟩ := conjugate_ok o.wf x
    obtain rfl := Except.ok.inj (e2.symm.trans d1)
    have hL : a.ell_max = f.ell_max := d2.hL.trans o.hL
    have hL' : b.ell_max = f.ell_max := p.hL.trans c2.hL
    refine ⟨by rw [d2.hs, p.hs, o.hs], hL.trans hL'.symm, by rw [d2.lead, p.lead, o.lead, c2.lead],
      by rw [d2.trunc, p.trunc, o.trunc, c2.trunc], fun l m idx hm hl => ?_⟩
    by_cases k : |t| ≤ l
    · rw [d2.coef l m (by rw [o.hs, abs_neg]; exact k) hm (by rw [o.hL]; exact hl), p.coef l m (by rwa [abs_neg]) hm (by rw [c2.hL]; exact hl)]
      beta_reduce
      rw [o.coef l (-m) k (by rwa [abs_neg]) hl, o.hs]
      exact h l m idx k hm hl
    · rw [d2.wf.low l m (by rw [d2.hs, o.hs, abs_neg]; omega) hm (by omega), p.wf.low l m (by rw [p.hs, abs_neg]; omega) hm (by omega)]
      simp
  have cc : ∀ l m idx, |m| ≤ l → l ≤ f.ell_max → c.coef l m idx = (-1 : ℂ) ^ (f.s + m) * conj (f.coef l (-m) idx) := by
    intro l m idx hm hl
    by_cases k : |f.s| ≤ l
    · rw [c2.coef l m (by rwa [abs_neg]) hm hl]
    · rw [c2.wf.low l m (by rw [c2.hs, abs_neg]; omega) hm (by rw [c2.hL]; exact hl), hf.low l (-m) (by omega) (by rwa [abs_neg]) hl]
      simp
  have z : (-1 : ℂ) ≠ 0 := by norm_num
  simp only [adjointPairs, List.tail_cons, List.mem_cons, List.not_mem_nil, or_false, Prod.mk.injEq] at hT
  rcases hT with ⟨rfl, rfl⟩ | ⟨rfl, rfl⟩ | ⟨rfl, rfl⟩ | ⟨rfl, rfl⟩ | ⟨rfl, rfl⟩ | ⟨rfl, rfl⟩
  · obtain ⟨_, a1, a2⟩ := Lz_ok hf
    obtain rfl := Except.ok.inj (e1.symm.trans a1)
    obtain ⟨_, b1, b2⟩ := Lz_ok c2.wf
    obtain rfl := Except.ok.inj (e4.symm.trans b1)
    rw [c2.hs] at b2
    refine key a2 b2 fun l m idx _ hm hl => ?_
    rw [cc l m idx hm hl, map_mul, map_intCast]; push_cast; ring
  · obtain ⟨_, a1, a2⟩ := Lplus_ok hf
    obtain rfl := Except.ok.inj (e1.symm.trans a1)
    obtain ⟨_, b1, b2⟩ := Lminus_ok c2.wf
    obtain rfl := Except.ok.inj (e4.symm.trans b1)
    rw [c2.hs] at b2
    refine key a2 b2 fun l m idx _ hm hl => ?_
    have := abs_le.mp hm
    by_cases k : m = l
    · rw [if_pos k, if_pos (by omega)]; simp
    · rw [if_neg k, if_neg (by omega), cc l (m + 1) idx (abs_le.mpr (by omega)) hl, map_mul, isqrtC_conj,
        show l + -m = l - m by ring, show l - -m = l + m by ring, show -m - 1 = -(m + 1) by ring, show f.s + (m + 1) = f.s + m + 1 by ring,
        zpow_add₀ z _ 1, zpow_one]
      ring
  · obtain ⟨_, a1, a2⟩ := Lminus_ok hf
    obtain rfl := Except.ok.inj (e1.symm.trans a1)
    obtain ⟨_, b1, b2⟩ := Lplus_ok c2.wf
    obtain rfl := Except.ok.inj (e4.symm.trans b1)
    rw [c2.hs] at b2
    refine key a2 b2 fun l m idx _ hm hl => ?_
    have := abs_le.mp hm
    by_cases k : m = -l
    · rw [if_pos k, if_pos (by omega)]; simp
    · rw [if_neg k, if_neg (by omega), cc l (m - 1) idx (abs_le.mpr (by omega)) hl, map_mul, isqrtC_conj,
        show l + -m + 1 = l - m + 1 by ring, show l - -m = l + m by ring, show -m + 1 = -(m - 1) by ring,
        show f.s + m = f.s + (m - 1) + 1 by ring, zpow_add₀ z _ 1, zpow_one]
      ring
  · obtain ⟨_, a1, a2⟩ := Rz_ok hf
    obtain rfl := Except.ok.inj (e1.symm.trans a1)
    obtain ⟨_, b1, b2⟩ := Rz_ok c2.wf
    obtain rfl := Except.ok.inj (e4.symm.trans b1)
    simp only [c2.hs] at b2
    refine key a2 b2 fun l m idx _ hm hl => ?_
    rw [cc l m idx hm hl, map_mul, map_neg, map_intCast]; push_cast; ring
  · obtain ⟨_, a1, a2⟩ := Rplus_ok hf
    obtain rfl := Except.ok.inj (e1.symm.trans a1)
    obtain ⟨_, b1, b2⟩ := Rminus_ok c2.wf
    obtain rfl := Except.ok.inj (e4.symm.trans b1)
    simp only [c2.hs, show -f.s + 1 = -(f.s - 1) by ring] at b2
    refine key a2 b2 fun l m idx _ hm hl => ?_
    rw [cc l m idx hm hl, map_mul, isqrtC_conj, show l + -(f.s - 1) = l - (f.s - 1) by ring, show l - -(f.s - 1) = l + (f.s - 1) by ring,
      show f.s + m = f.s - 1 + m + 1 by ring, zpow_add₀ z _ 1, zpow_one]
    ring
  · obtain ⟨_, a1, a2⟩ := Rminus_ok hf
    obtain rfl := Except.ok.inj (e1.symm.trans a1)
    obtain ⟨_, b1, b2⟩ := Rplus_ok c2.wf
    obtain rfl := Except.ok.inj (e4.symm.trans b1)
    simp only [c2.hs, show -f.s - 1 = -(f.s + 1) by ring] at b2
    refine key a2 b2 fun l m idx _ hm hl => ?_
    rw [cc l m idx hm hl, map_mul, isqrtC_conj, show l - -(f.s + 1) = l + (f.s + 1) by ring, show l + -(f.s + 1) = l - (f.s + 1) by ring,
      show f.s + 1 + m = f.s + m + 1 by ring, zpow_add₀ z _ 1, zpow_one]
    ring

/-! ## Kernels -/

/-- The function at the leading index `idx` is zero. -/
def IsZeroAt (f : Modes) (idx : MIdx) : Prop := ∀ l m : ℤ, |m| ≤ l → l ≤ f.ell_max → f.coef l m idx = 0

theorem isqrtC_ne {n : ℤ} (h : 0 < n) : isqrtC n ≠ 0 := by
  unfold isqrtC
  have : (0 : ℝ) < n := by exact_mod_cast h
  exact_mod_cast (Real.sqrt_pos.mpr this).ne'

/-- **C101 (kernels).** The functions that an operator sends to zero: `Lz`, those with modes `m = 0` only; `Lplus`, `m = ell` only; `Lminus`,
`m = -ell` only; `Lsquared`, `ell = 0` only; `eth`, `ell = s` only; `ethbar`, `ell = -s` only. -/
theorem C101_kernel (f f' : Modes) (hf : f.WF) (idx : MIdx) (T : Modes → Py Modes) (K : ℤ → ℤ → Prop)
    (hT : (T, K) ∈ [(Modes.Lz, fun _ m => m = 0), (Modes.Lplus, fun l m => m = l), (Modes.Lminus, fun l m => m = -l),
      (Modes.Lsquared, fun l _ => l = 0), (Modes.eth, fun l _ => l = f.s), (Modes.ethbar, fun l _ => l = -f.s)]) (e : T f = .ok f') :
    IsZeroAt f' idx ↔ ∀ l m : ℤ, |m| ≤ l → l ≤ f.ell_max → ¬ K l m → f.coef l m idx = 0 := by
  have key : ∀ {t : ℤ} {F : ℤ → ℤ → Slice}, OpRes f f' t F → (IsZeroAt f' idx ↔ ∀ l m : ℤ, |t| ≤ l → |m| ≤ l → l ≤ f.ell_max → F l m idx = 0) := by
    intro t F o
    unfold IsZeroAt
    constructor
    · intro h l m h1 h2 h3
      rw [← o.coef l m h1 h2 h3, h l m h2 (by rw [o.hL]; exact h3)]
    · intro h l m h2 h3
      rw [o.hL] at h3
      by_cases k : |t| ≤ l
      · rw [o.coef l m k h2 h3, h l m k h2 h3]
      · rw [o.wf.low l m (by rw [o.hs]; omega) h2 (by rw [o.hL]; exact h3)]
  have low : ∀ l m, l < |f.s| → |m| ≤ l → l ≤ f.ell_max → f.coef l m idx = 0 := fun l m h1 h2 h3 => by rw [hf.low l m h1 h2 h3]
  simp only [List.mem_cons, List.not_mem_nil, or_false, Prod.mk.injEq] at hT
  rcases hT with ⟨rfl, rfl⟩ | ⟨rfl, rfl⟩ | ⟨rfl, rfl⟩ | ⟨rfl, rfl⟩ | ⟨rfl, rfl⟩ | ⟨rfl, rfl⟩
  · obtain ⟨_, a1, a2⟩ := Lz_ok hf
    obtain rfl := Except.ok.inj (e.symm.trans a1)
    rw [key a2]
    constructor
    · intro h l m h1 h2 h3
      by_cases k : |f.s| ≤ l
      · exact (mul_eq_zero.mp (h l m k h1 h2)).resolve_left (by exact_mod_cast h3)
      · exact low l m (by omega) h1 h2
    · intro h l m _ h1 h2
      by_cases k : m = 0
      · subst k; simp
      · rw [h l m h1 h2 k, mul_zero]
  · obtain ⟨_, a1, a2⟩ := Lplus_ok hf
    obtain rfl := Except.ok.inj (e.symm.trans a1)
    rw [key a2]
    constructor
    · intro h l m h1 h2 h3
      have := abs_le.mp h1
      by_cases k : |f.s| ≤ l
      · have := h l (m + 1) k (abs_le.mpr (by omega)) h2
        rw [if_neg (by omega), show m + 1 - 1 = m by ring] at this
        exact (mul_eq_zero.mp this).resolve_left (isqrtC_ne (mul_pos (by omega) (by omega)))
      · exact low l m (by omega) h1 h2
    · intro h l m _ h1 h2
      have := abs_le.mp h1
      split_ifs with k
      · rfl
      · rw [h l (m - 1) (abs_le.mpr (by omega)) h2 (by omega), mul_zero]
  · obtain ⟨_, a1, a2⟩ := Lminus_ok hf
    obtain rfl := Except.ok.inj (e.symm.trans a1)
    rw [key a2]
    constructor
    · intro h l m h1 h2 h3
      have := abs_le.mp h1
      by_cases k : |f.s| ≤ l
      · have := h l (m - 1) k (abs_le.mpr (by omega)) h2
        rw [if_neg (by omega), show m - 1 + 1 = m by ring] at this
        exact (mul_eq_zero.mp this).resolve_left (isqrtC_ne (mul_pos (by omega) (by omega)))
      · exact low l m (by omega) h1 h2
    · intro h l m _ h1 h2
      have := abs_le.mp h1
      split_ifs with k
      · rfl
      · rw [h l (m + 1) (abs_le.mpr (by omega)) h2 (by omega), mul_zero]
  · obtain ⟨_, a1, a2⟩ := Lsquared_ok hf
    obtain rfl := Except.ok.inj (e.symm.trans a1)
    rw [key a2]
    constructor
    · intro h l m h1 h2 h3
      have h0 := (abs_nonneg _).trans h1
      by_cases k : |f.s| ≤ l
      · refine (mul_eq_zero.mp (h l m k h1 h2)).resolve_left ?_
        have : l * (l + 1) ≠ 0 := mul_ne_zero h3 (by omega)
        exact_mod_cast this
      · exact low l m (by omega) h1 h2
    · intro h l m _ h1 h2
      by_cases k : l = 0
      · subst k; simp
      · rw [h l m h1 h2 k, mul_zero]
  · obtain ⟨_, a1, a2⟩ := Rminus_ok hf
    obtain rfl := Except.ok.inj (e.symm.trans a1)
    rw [key a2]
    constructor
    · intro h l m h1 h2 h3
      by_cases k : |f.s| ≤ l
      · have k' := abs_le.mp k
        have := h l m (abs_le.mpr (by omega)) h1 h2
        exact (mul_eq_zero.mp this).resolve_left (isqrtC_ne (mul_pos (by omega) (by omega)))
      · exact low l m (by omega) h1 h2
    · intro h l m k h1 h2
      have k' := abs_le.mp k
      rw [h l m h1 h2 (by omega), mul_zero]
  · obtain ⟨_, a1, a2⟩ := ethbar_ok hf
    obtain rfl := Except.ok.inj (e.symm.trans a1)
    rw [key a2]
    constructor
    · intro h l m h1 h2 h3
      by_cases k : |f.s| ≤ l
      · have k' := abs_le.mp k
        have := neg_eq_zero.mp (h l m (abs_le.mpr (by omega)) h1 h2)
        exact (mul_eq_zero.mp this).resolve_left (isqrtC_ne (mul_pos (by omega) (by omega)))
      · exact low l m (by omega) h1 h2
    · intro h l m k h1 h2
      have k' := abs_le.mp k
      rw [h l m h1 h2 (by omega), mul_zero, neg_zero]

/-! ## Concrete cases -/

/-- Integration by parts for two sample functions, and the adjoint of `Lplus`. -/
example : ∃ f' g g' k, exModes.eth = .ok f' ∧ f'.eth = .ok g ∧ g.ethbar = .ok g' ∧ exModes.s + 2 = g.s ∧
    scalarProduct g g [1] [0] = -scalarProduct f' g' [1] [0] ∧
    exModes.Lplus = .ok k ∧ (∃ k', k.Lminus = .ok k' ∧ scalarProduct k k [0] [1] = scalarProduct exModes k' [0] [1]) := by
  obtain ⟨f', a1, a2⟩ := Rminus_ok exModes_WF
  obtain ⟨g, b1, b2⟩ := Rminus_ok a2.wf
  obtain ⟨g', c1, c2⟩ := ethbar_ok b2.wf
  obtain ⟨k, d1, d2⟩ := Lplus_ok exModes_WF
  obtain ⟨k', k1, k2⟩ := Lminus_ok d2.wf
  exact ⟨f', g, g', k, a1, b1, c1, by rw [b2.hs, a2.hs]; ring, (C101_eth_adjoint f' g g g' a2.wf b2.wf rfl [1] [0]).1 b1 c1, d1, k', k1,
    C101_adjoint Modes.Lplus Modes.Lminus (by simp [adjointPairs]) exModes k k k' exModes_WF d2.wf d1 k1 rfl [0] [1]⟩

/-- The conjugate of `Lplus f`, and a function that `ethbar` does not send to zero. -/
example : ∃ f' c a b, exModes.Lplus = .ok f' ∧ f'.conjugate true = .ok a ∧ exModes.conjugate false = .ok c ∧ c.Lminus = .ok b ∧
    a.coef 2 1 [1] = -b.coef 2 1 [1] ∧ ∃ g, exModes.ethbar = .ok g ∧ ¬ IsZeroAt g [0] := by
  obtain ⟨f', a1, a2⟩ := Lplus_ok exModes_WF
  obtain ⟨a, b1, b2⟩ := conjugate_ok a2.wf true
  obtain ⟨c, c1, c2⟩ := conjugate_ok exModes_WF false
  obtain ⟨b, d1, d2⟩ := Lminus_ok c2.wf
  obtain ⟨g, g1, g2⟩ := ethbar_ok exModes_WF
  refine ⟨f', c, a, b, a1, b1, c1, d1, (C101_conjugate Modes.Lplus Modes.Lminus (by simp [adjointPairs]) exModes f' c a b exModes_WF true false
    a1 b1 c1 d1).2.2.2.2 2 1 [1] (by norm_num) (by decide), g, g1, fun h => ?_⟩
  have := (C101_kernel exModes g exModes_WF [0] Modes.ethbar (fun l _ => l = -exModes.s) (by simp) g1).mp h 2 (-1) (by norm_num) (by decide) (by decide)
  have h2 : exModes.coef 2 (-1) [0] = 5 * Complex.I := by
    have : mpos 2 (-1) = 5 := by unfold mpos; norm_num [LM_index]; rfl
    unfold Modes.coef
    rw [this]
    simp [exModes]
    norm_num
  rw [h2] at this
  exact (mul_ne_zero (by norm_num) Complex.I_ne_zero) this

end SF
