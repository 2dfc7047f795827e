import Verif.Lemmas.ModesEval

/-! # Composition of `Modes` operations -/

set_option autoImplicit false

namespace SF

open Finset ComplexConjugate

theorem bcRev_self (a : List ℕ) : bcRev a a = some a := by
  induction a with
  | nil => rfl
  | cons x a ih => simp [bcRev, ih]

theorem bcastShape_self (a : List ℕ) : bcastShape a a = some a := by
  simp [bcastShape, bcRev_self]

theorem bcRev_nil (a : List ℕ) : bcRev a [] = some a := by
  cases a <;> rfl

theorem bcastShape_nil (a : List ℕ) : bcastShape a [] = some a := by
  simp [bcastShape, bcRev_nil]

theorem bcIdx_self {sh : List ℕ} {idx : MIdx} (h : ValidIdx sh idx) : bcIdx sh idx = idx := by
  unfold bcIdx
  unfold ValidIdx at h
  have key : ∀ a b : List ℕ, List.Forall₂ (· < ·) b a →
      List.zipWith (fun d i => if d = 1 then 0 else i) a b = b := by
    intro a b hab
    induction hab with
    | nil => rfl
    | cons h _ ih => rw [List.zipWith_cons_cons, ih]; congr 1; split <;> omega
  rw [key _ _ (List.rel_reverse h), List.reverse_reverse]

theorem bcTo_valid {src dst : List ℕ} (v : Slice) {idx : MIdx} (h : ValidIdx dst idx) :
    bcTo src dst v idx = v (bcIdx src idx) := by
  unfold bcTo
  by_cases he : src = dst
  · subst he; rw [if_pos rfl, bcIdx_self h]
  · rw [if_neg he]

theorem coefIn_self (f : Modes) (ell m : ℤ) : f.coefIn f.lead ell m = f.coef ell m := by
  unfold Modes.coefIn bcTo; rw [if_pos rfl]

theorem coefIn_eq {f : Modes} {lead : List ℕ} (h : f.lead = lead) (ell m : ℤ) : f.coefIn lead ell m = f.coef ell m := by
  subst h; exact coefIn_self f ell m

theorem OpRes.refl {f : Modes} (hf : f.WF) : OpRes f f f.s f.coef := ⟨hf, rfl, rfl, rfl, rfl, fun _ _ _ _ _ => rfl⟩

theorem OpRes.eq {f g h : Modes} {s : ℤ} {T T' : ℤ → ℤ → Slice} (hg : OpRes f g s T) (hh : OpRes f h s T')
    (hT : ∀ ell m x, |s| ≤ ell → |m| ≤ ell → ell ≤ f.ell_max → T ell m x = T' ell m x) : g = h := by
  refine hg.wf.ext hh.wf (hg.lead.trans hh.lead.symm) (hg.hs.trans hh.hs.symm) (hg.hL.trans hh.hL.symm)
    (hg.trunc.trans hh.trunc.symm) ?_
  intro ell m h1 h2 h3
  rw [hg.hs] at h1
  rw [hg.hL] at h2
  rw [hg.coef ell m h1 h3 h2, hh.coef ell m h1 h3 h2]
  funext x
  exact hT ell m x h1 h3 h2

theorem OpRes.trans {f g h : Modes} {s s' : ℤ} {T T' T'' : ℤ → ℤ → Slice} (hg : OpRes f g s T) (hh : OpRes g h s' T')
    (hT : ∀ ell m x, |s'| ≤ ell → |m| ≤ ell → ell ≤ f.ell_max → T' ell m x = T'' ell m x) : OpRes f h s' T'' := by
  refine ⟨hh.wf, hh.lead.trans hg.lead, hh.hs, hh.hL.trans hg.hL, hh.trunc.trans hg.trunc, ?_⟩
  intro ell m h1 h2 h3
  rw [hh.coef ell m h1 h2 (by rw [hg.hL]; exact h3)]
  funext x
  exact hT ell m x h1 h2 h3

theorem OpRes.coef_if {f g : Modes} {s : ℤ} {T : ℤ → ℤ → Slice} (hg : OpRes f g s T) {ell m : ℤ} (h2 : |m| ≤ ell)
    (h3 : ell ≤ f.ell_max) (x : MIdx) : g.coef ell m x = if |s| ≤ ell then T ell m x else 0 := by
  by_cases h : |s| ≤ ell
  · rw [if_pos h, hg.coef ell m h h2 h3]
  · rw [if_neg h, hg.wf.low ell m (by rw [hg.hs]; omega) h2 (by rw [hg.hL]; exact h3)]

variable {f g : Modes} {s : ℤ} {T : ℤ → ℤ → Slice}

theorem OpRes.Lz (h : OpRes f g s T) :
    ∃ k, g.Lz = .ok k ∧ OpRes f k s fun ell m x => (m : ℂ) * T ell m x := by
  obtain ⟨k, k1, k2⟩ := Lz_ok h.wf
  rw [h.hs] at k2
  exact ⟨k, k1, h.trans k2 fun ell m x h1 h2 h3 => by rw [h.coef ell m h1 h2 h3]⟩

theorem OpRes.Lsquared (h : OpRes f g s T) :
    ∃ k, g.Lsquared = .ok k ∧ OpRes f k s fun ell m x => ((ell * (ell + 1) : ℤ) : ℂ) * T ell m x := by
  obtain ⟨k, k1, k2⟩ := Lsquared_ok h.wf
  rw [h.hs] at k2
  exact ⟨k, k1, h.trans k2 fun ell m x h1 h2 h3 => by rw [h.coef ell m h1 h2 h3]⟩

theorem OpRes.Lplus (h : OpRes f g s T) :
    ∃ k, g.Lplus = .ok k ∧ OpRes f k s fun ell m x =>
      if m = -ell then 0 else isqrtC ((ell + m) * (ell - m + 1)) * T ell (m - 1) x := by
  obtain ⟨k, k1, k2⟩ := Lplus_ok h.wf
  rw [h.hs] at k2
  refine ⟨k, k1, h.trans k2 fun ell m x h1 h2 h3 => ?_⟩
  by_cases he : m = -ell
  · rw [if_pos he, if_pos he]
  · have := abs_le.mp h2
    rw [if_neg he, if_neg he, h.coef ell (m - 1) h1 (abs_le.mpr (by omega)) h3]

theorem OpRes.Lminus (h : OpRes f g s T) :
    ∃ k, g.Lminus = .ok k ∧ OpRes f k s fun ell m x =>
      if m = ell then 0 else isqrtC ((ell - m) * (ell + m + 1)) * T ell (m + 1) x := by
  obtain ⟨k, k1, k2⟩ := Lminus_ok h.wf
  rw [h.hs] at k2
  refine ⟨k, k1, h.trans k2 fun ell m x h1 h2 h3 => ?_⟩
  by_cases he : m = ell
  · rw [if_pos he, if_pos he]
  · have := abs_le.mp h2
    rw [if_neg he, if_neg he, h.coef ell (m + 1) h1 (abs_le.mpr (by omega)) h3]

theorem OpRes.Rz (h : OpRes f g s T) :
    ∃ k, g.Rz = .ok k ∧ OpRes f k s fun ell m x => -(s : ℂ) * T ell m x := by
  obtain ⟨k, k1, k2⟩ := Rz_ok h.wf
  rw [h.hs] at k2
  exact ⟨k, k1, h.trans k2 fun ell m x h1 h2 h3 => by rw [h.coef ell m h1 h2 h3]⟩

theorem OpRes.Rplus (h : OpRes f g s T) :
    ∃ k, g.Rplus = .ok k ∧ OpRes f k (s - 1) fun ell m x =>
      isqrtC ((ell - (s - 1)) * (ell + (s - 1) + 1)) * if |s| ≤ ell then T ell m x else 0 := by
  obtain ⟨k, k1, k2⟩ := Rplus_ok h.wf
  rw [h.hs] at k2
  exact ⟨k, k1, h.trans k2 fun ell m x h1 h2 h3 => by rw [h.coef_if h2 h3]⟩

theorem OpRes.Rminus (h : OpRes f g s T) :
    ∃ k, g.Rminus = .ok k ∧ OpRes f k (s + 1) fun ell m x =>
      isqrtC ((ell + (s + 1)) * (ell - (s + 1) + 1)) * if |s| ≤ ell then T ell m x else 0 := by
  obtain ⟨k, k1, k2⟩ := Rminus_ok h.wf
  rw [h.hs] at k2
  exact ⟨k, k1, h.trans k2 fun ell m x h1 h2 h3 => by rw [h.coef_if h2 h3]⟩

theorem OpRes.eth (h : OpRes f g s T) :
    ∃ k, g.eth = .ok k ∧ OpRes f k (s + 1) fun ell m x =>
      isqrtC ((ell + (s + 1)) * (ell - (s + 1) + 1)) * if |s| ≤ ell then T ell m x else 0 := h.Rminus

theorem OpRes.ethbar (h : OpRes f g s T) :
    ∃ k, g.ethbar = .ok k ∧ OpRes f k (s - 1) fun ell m x =>
      -(isqrtC ((ell - (s - 1)) * (ell + (s - 1) + 1)) * if |s| ≤ ell then T ell m x else 0) := by
  obtain ⟨k, k1, k2⟩ := ethbar_ok h.wf
  rw [h.hs] at k2
  exact ⟨k, k1, h.trans k2 fun ell m x h1 h2 h3 => by rw [h.coef_if h2 h3]⟩

theorem OpRes.conjugate (h : OpRes f g s T) (inplace : Bool) :
    ∃ k, g.conjugate inplace = .ok k ∧ OpRes f k (-s) fun ell m x => (-1 : ℂ) ^ (s + m) * conj (T ell (-m) x) := by
  obtain ⟨k, k1, k2⟩ := conjugate_ok h.wf inplace
  rw [h.hs] at k2
  exact ⟨k, k1, h.trans k2 fun ell m x h1 h2 h3 => by
    rw [h.coef ell (-m) (by rwa [abs_neg] at h1) (by rwa [abs_neg]) h3]⟩

theorem OpRes.negative (h : OpRes f g s T) :
    ∃ k, g.negative = .ok k ∧ OpRes f k s fun ell m x => -T ell m x := by
  obtain ⟨k, k1, k2⟩ := negative_ok h.wf
  rw [h.hs] at k2
  exact ⟨k, k1, h.trans k2 fun ell m x h1 h2 h3 => by rw [h.coef ell m h1 h2 h3]⟩

theorem OpRes.addM {g' : Modes} {T' : ℤ → ℤ → Slice} (h : OpRes f g s T) (h' : OpRes f g' s T') (hL : 0 ≤ f.ell_max)
    (sub : Bool) :
    ∃ k, g.addM g' sub = .ok k ∧ OpRes f k s fun ell m x =>
      if sub then T ell m x - T' ell m x else T ell m x + T' ell m x := by
  obtain ⟨k, k1, k2, k3, k4, k5, k6, k7⟩ := addM_ok (lead := f.lead) h.wf h'.wf (h.hs.trans h'.hs.symm)
    (by rw [h.hL]; exact hL) (by rw [h'.hL]; exact hL) (by rw [h.lead, h'.lead]; exact bcastShape_self _) sub
  have hmax : max g.ell_max g'.ell_max = f.ell_max := by rw [h.hL, h'.hL, max_self]
  rw [hmax] at k5 k7
  rw [h.hs] at k4 k7
  refine ⟨k, k1, k2, k3, k4, k5, k6.trans h.trunc, ?_⟩
  intro ell m h1 h2 h3
  rw [k7 ell m h1 h2 h3]
  funext x
  rw [coefIn_eq h.lead, coefIn_eq h'.lead, h.coef ell m h1 h2 h3, h'.coef ell m h1 h2 h3]

/-- A Python number as an operand. -/
def num (z : ℂ) : Scalars := ⟨[], fun _ => z⟩

theorem check_num {g : Modes} (hg : g.dat ≠ []) (z : ℂ) : g.check_broadcasting (num z) = .ok true := by
  unfold Modes.check_broadcasting num
  rw [if_neg (by simp), if_neg hg]
  simp only
  rw [bcastShape_nil]
  rfl

theorem OpRes.scalar (h : OpRes f g s T) (hL : 0 ≤ f.ell_max) (op : ℂ → ℂ → ℂ) (z : ℂ) :
    ∃ k, g.ufuncMulScalar op (num z) = .ok k ∧ OpRes f k s fun ell m x => op (T ell m x) z := by
  unfold Modes.ufuncMulScalar
  rw [check_num (h.wf.dat_ne_nil (by rw [h.hL]; exact hL)), bind_ok, if_pos rfl]
  obtain ⟨k, k1, k2, k3, k4, k5, k6, k7⟩ := scalarUfunc_ok (lead := f.lead) h.wf op (num z)
    (by rw [h.lead]; exact bcastShape_nil _)
  rw [h.hs] at k4 k7
  rw [h.hL] at k5 k7
  refine ⟨k, k1, k2, k3, k4, k5, k6.trans h.trunc, ?_⟩
  intro ell m h1 h2 h3
  rw [k7 ell m h1 h2 h3]
  funext x
  rw [coefIn_eq h.lead, h.coef ell m h1 h2 h3]
  rfl

theorem isqrtC_mul_self {n : ℤ} (h : 0 ≤ n) : isqrtC n * isqrtC n = (n : ℂ) := by
  unfold isqrtC
  rw [← Complex.ofReal_mul, Real.mul_self_sqrt (by exact_mod_cast h)]
  simp

theorem isqrtC_congr {n n' : ℤ} (h : n = n') : isqrtC n = isqrtC n' := by rw [h]

theorem isqrtC_zero : isqrtC 0 = 0 := by unfold isqrtC; simp

/-- Sum of a function of the slices of a well-formed object. -/
theorem sum_dat_sized {M : Type} [AddCommMonoid M] {f : Modes} (hf : f.Sized) (g : Slice → M) :
    (f.dat.map g).sum = ∑ ell ∈ Icc 0 f.ell_max, ∑ m ∈ Icc (-ell) ell, g (f.coef ell m) := by
  rw [← sum_LMlist]
  congr 1
  have hlen : ((LMlist 0 f.ell_max).length : ℤ) = (f.dat.length : ℤ) := by
    rw [LMlist_length le_rfl (by have := hf.ell_max_ge; omega), hf.size, LM_total_size_zero]
  apply List.ext_getElem?
  intro k
  rw [List.getElem?_map, List.getElem?_map]
  by_cases hk : k < f.dat.length
  · obtain ⟨ell, m, h0, h1, h2, rfl⟩ := mpos_surj hf.size hf.ell_max_ge hk
    have := abs_le.mp h2
    have hg := (LMlist_index (a := 0) (b := f.ell_max) le_rfl h0 h1 this.1 this.2).2
    unfold mpos
    rw [hg]
    have := hf.get h2 h1
    unfold mpos at this
    rw [this]
    rfl
  · rw [List.getElem?_eq_none (by omega), List.getElem?_eq_none (by omega)]; rfl

theorem sum_dat {M : Type} [AddCommMonoid M] {f : Modes} (hf : f.WF) (g : Slice → M) :
    (f.dat.map g).sum = ∑ ell ∈ Icc 0 f.ell_max, ∑ m ∈ Icc (-ell) ell, g (f.coef ell m) :=
  sum_dat_sized hf.sized g

end SF
