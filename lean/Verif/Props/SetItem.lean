import Verif.Lemmas.Garbage

/-!
# C75: assignment to modes, and data in the modes with `ell < |s|`
-/

set_option autoImplicit false

namespace SF

open Finset Spec ComplexConjugate Quaternion

/-- `c` is the well-formed object (zeros for `ell < |s|`) with the metadata of `g` and its modes with `|s| ≤ ell`. -/
structure Cleaned (g c : Modes) : Prop where
  wf : c.WF
  lead : c.lead = g.lead
  hs : c.s = g.s
  hL : c.ell_max = g.ell_max
  trunc : c.trunc = g.trunc
  coef : ∀ ell m, |g.s| ≤ ell → |m| ≤ ell → ell ≤ g.ell_max → c.coef ell m = g.coef ell m

theorem Cleaned.of_clean {g : Modes} (hg : g.Sized) : Cleaned g g.clean :=
  ⟨clean_wf hg, rfl, rfl, rfl, rfl, fun _ _ h1 h2 _ => clean_coef h1 h2⟩

theorem Cleaned.eq {g c : Modes} (h : Cleaned g c) (hg : g.Sized) : c = g.clean := by
  refine h.wf.ext (clean_wf hg) h.lead h.hs h.hL h.trunc fun ell m h1 h2 h3 => ?_
  rw [h.hs] at h1
  rw [h.hL] at h2
  rw [h.coef ell m h1 h3 h2, clean_coef h1 h3]

/-! ## Assignment -/

theorem setItem_eq {f : Modes} (hf : f.Sized) (sel : MIdx → Bool) {l m : ℤ} (h1 : |m| ≤ l) (h2 : l ≤ f.ell_max) (value : Slice) :
    f.setItem sel (LM_index l m 0) value = .ok { f with dat := f.dat.set (mpos l m) (overwrite sel value (f.coef l m)) } := by
  unfold Modes.setItem
  have hlt := mpos_lt h1 h2 hf.size
  have h0 := LM_index_nonneg h1
  rw [npIdx_of_nonneg h0 (by unfold mpos at hlt; omega)]
  have := hf.get h1 h2
  unfold mpos at this ⊢
  simp only [this]

theorem set_coef {f : Modes} (hf : f.Sized) {l m : ℤ} (h1 : |m| ≤ l) (h2 : l ≤ f.ell_max) (v : Slice) (l' m' : ℤ) (h3 : |m'| ≤ l') :
    Modes.coef { f with dat := f.dat.set (mpos l m) v } l' m' = if l' = l ∧ m' = m then v else f.coef l' m' := by
  have hlt := mpos_lt h1 h2 hf.size
  unfold Modes.coef
  simp only
  rw [List.getElem?_set]
  by_cases he : l' = l ∧ m' = m
  · obtain ⟨rfl, rfl⟩ := he
    rw [if_pos rfl, if_pos hlt, if_pos ⟨rfl, rfl⟩]
    rfl
  · rw [if_neg he, if_neg]
    intro hc
    obtain ⟨rfl, rfl⟩ := mpos_inj h1 h3 hc
    exact he ⟨rfl, rfl⟩

/-- **C75 (assignment through `index`).** `f[key, f.index(l, m)] = value` changes the `(l, m)` mode of the selected functions,
and nothing else; the result is well-formed again, and its value at each rotor changes by the change of that mode times the
harmonic. -/
theorem C75_assign (f : Modes) (hf : f.WF) (sel : MIdx → Bool) (l m i : ℤ) (hi : f.index l m = .ok i) (value : Slice) :
    ∃ g, f.setItem sel i value = .ok g ∧ g.WF ∧ g.lead = f.lead ∧ g.s = f.s ∧ g.ell_max = f.ell_max ∧ g.trunc = f.trunc ∧
      (∀ x, g.coef l m x = if sel x then value x else f.coef l m x) ∧
      (∀ l' m', |m'| ≤ l' → ¬ (l' = l ∧ m' = m) → g.coef l' m' = f.coef l' m') ∧
      ∀ (L : ℤ) (table : List ℝ) (_ : IsWignerTable L table) (junk : ℕ → ℤ × ℤ) (_ : f.ell_max ≤ L) (qs : List ℍ[ℝ]) (_ : qs ≠ [])
        (_ : ∀ q ∈ qs, GenericQ q), ∃ vf vg, f.evaluate table junk (qs.map comps) = .ok vf ∧
          g.evaluate table junk (qs.map comps) = .ok vg ∧ vf.length = qs.length ∧ vg.length = qs.length ∧
          ∀ (k : ℕ) (q : ℍ[ℝ]) (a b : Slice), qs[k]? = some q → vf[k]? = some a → vg[k]? = some b → ∀ x,
            b x = a x + (if sel x then value x - f.coef l m x else 0) * sYlm (partA q) (partB q) f.s l m := by
  have hidx : |f.s| ≤ l ∧ |m| ≤ l ∧ l ≤ f.ell_max ∧ i = LM_index l m 0 := by
    unfold Modes.index at hi
    split at hi
    · cases hi
    split at hi
    · cases hi
    rename_i h1 h2
    cases hi
    push Not at h1 h2
    exact ⟨h1.1, h1.2, h2.2, rfl⟩
  obtain ⟨h1, h2, h3, rfl⟩ := hidx
  have hc := set_coef hf.sized h2 h3 (overwrite sel value (f.coef l m))
  set g : Modes := { f with dat := f.dat.set (mpos l m) (overwrite sel value (f.coef l m)) } with hgdef
  have hg : g.WF := by
    refine ⟨hf.ell_max_ge, by rw [hgdef]; simpa using hf.size, fun l' m' k1 k2 k3 => ?_⟩
    rw [hc l' m' k2, if_neg, hf.low l' m' k1 k2 k3]
    rintro ⟨rfl, rfl⟩
    have : l' < |f.s| := k1
    omega
  have hlm : ∀ x, g.coef l m x = if sel x then value x else f.coef l m x := by
    intro x
    rw [hc l m h2, if_pos ⟨rfl, rfl⟩]
    rfl
  have hother : ∀ l' m', |m'| ≤ l' → ¬ (l' = l ∧ m' = m) → g.coef l' m' = f.coef l' m' := fun l' m' k1 k2 => by
    rw [hc l' m' k1, if_neg k2]
  refine ⟨g, setItem_eq hf.sized sel h2 h3 value, hg, rfl, rfl, rfl, rfl, hlm, hother, ?_⟩
  intro L table ht junk hL qs hne hq
  refine ⟨_, _, evaluate_ok ht junk hf hL qs hq, evaluate_ok ht junk hg hL qs hq, by simp, by simp, ?_⟩
  intro k q a b e1 e2 e3 x
  rw [List.getElem?_map, e1] at e2 e3
  simp only [Option.map_some, Option.some.injEq] at e2 e3
  subst e2 e3
  simp only
  rw [show g.s = f.s from rfl, show g.ell_max = f.ell_max from rfl]
  unfold fieldValue
  have key : ∀ l' ∈ Icc |f.s| f.ell_max, ∑ m' ∈ Icc (-l') l', g.coef l' m' x * sYlm (partA q) (partB q) f.s l' m'
      = (∑ m' ∈ Icc (-l') l', f.coef l' m' x * sYlm (partA q) (partB q) f.s l' m')
        + if l' = l then (if sel x then value x - f.coef l m x else 0) * sYlm (partA q) (partB q) f.s l m else 0 := by
    intro l' _
    have t : ∀ m' ∈ Icc (-l') l', g.coef l' m' x * sYlm (partA q) (partB q) f.s l' m'
        = f.coef l' m' x * sYlm (partA q) (partB q) f.s l' m'
          + if m' = m then (if l' = l then (if sel x then value x - f.coef l m x else 0) * sYlm (partA q) (partB q) f.s l m else 0) else 0 := by
      intro m' hm'
      rw [mem_Icc] at hm'
      by_cases hll : l' = l
      · by_cases hmm : m' = m
        · subst hll hmm
          rw [hlm x, if_pos rfl, if_pos rfl]
          split <;> ring
        · rw [hother l' m' (abs_le.mpr hm') (fun h => hmm h.2), if_neg hmm, add_zero]
      · rw [hother l' m' (abs_le.mpr hm') (fun h => hll h.1), if_neg hll, ite_self, add_zero]
    rw [sum_congr rfl t, sum_add_distrib, sum_ite_eq']
    congr 1
    by_cases hll : l' = l
    · subst hll
      rw [if_pos (mem_Icc.mpr (abs_le.mp h2))]
    · rw [if_neg hll, ite_self]
  rw [sum_congr rfl key, sum_add_distrib, sum_ite_eq', if_pos (mem_Icc.mpr ⟨h1, h3⟩)]

/-- **C75 (any assignment).** An assignment to any position, or slice of positions, of the last axis keeps the shape and the
metadata; so do arbitrarily many of them. -/
theorem C75_shape (f : Modes) (hf : f.Sized) :
    (∀ sel i value g, f.setItem sel i value = .ok g → g.Sized ∧ g.lead = f.lead ∧ g.s = f.s ∧ g.ell_max = f.ell_max ∧ g.trunc = f.trunc) ∧
    (∀ i j values g, f.setItems i j values = .ok g → g.Sized ∧ g.lead = f.lead ∧ g.s = f.s ∧ g.ell_max = f.ell_max ∧ g.trunc = f.trunc) ∧
    (∀ sel (i : ℤ) value, (∃ g, f.setItem sel i value = .ok g) ↔ -(f.ell_max + 1) ^ 2 ≤ i ∧ i < (f.ell_max + 1) ^ 2) := by
  have hsz := hf.size
  refine ⟨?_, ?_, ?_⟩
  · intro sel i value g h
    unfold Modes.setItem at h
    split at h
    · cases h
    split at h
    · cases h
    cases h
    exact ⟨⟨hf.ell_max_ge, by simpa using hf.size⟩, rfl, rfl, rfl, rfl⟩
  · intro i j values g h
    unfold Modes.setItems at h
    cases e : setSlice f.dat i j values with
    | error _ => rw [e] at h; cases h
    | ok d =>
      rw [e, bind_ok] at h
      cases h
      refine ⟨⟨hf.ell_max_ge, ?_⟩, rfl, rfl, rfl, rfl⟩
      show (d.length : ℤ) = _
      rw [← hf.size]
      unfold setSlice at e
      simp only at e
      split at e
      · cases e
        rename_i hl
        simp only [List.length_append, List.length_take, List.length_drop]
        omega
      · split at e
        · cases e
          simp only [List.length_append, List.length_take, List.length_drop, List.length_replicate]
          omega
        · cases e
  · intro sel i value
    unfold Modes.setItem npIdx
    by_cases h1 : 0 ≤ i ∧ i < f.dat.length
    · rw [if_pos h1]
      simp only
      rw [List.getElem?_eq_getElem (by omega)]
      exact ⟨fun _ => by omega, fun _ => ⟨_, rfl⟩⟩
    · rw [if_neg h1]
      by_cases h2 : -(f.dat.length : ℤ) ≤ i ∧ i < 0
      · rw [if_pos h2]
        simp only
        rw [List.getElem?_eq_getElem (by omega)]
        exact ⟨fun _ => by omega, fun _ => ⟨_, rfl⟩⟩
      · rw [if_neg h2]
        constructor
        · rintro ⟨g, hg⟩; cases hg
        · intro h; omega

/-- **C75 (assignment below `|s|`).** Writing into a mode with `l < |s|` is accepted, breaks the invariant when something
non-zero is written, and `+g` is the original object. -/
theorem C75_below (f : Modes) (hf : f.WF) (sel : MIdx → Bool) (l m : ℤ) (h1 : |m| ≤ l) (h2 : l < |f.s|) (h3 : l ≤ f.ell_max) (value : Slice) :
    ∃ g, f.setItem sel (LM_index l m 0) value = .ok g ∧ g.Sized ∧ Cleaned g f ∧ g.positive = .ok f ∧
      (∀ x, g.coef l m x = if sel x then value x else 0) ∧ ((∃ x, sel x = true ∧ value x ≠ 0) → ¬ g.WF) := by
  have hc := set_coef hf.sized h1 h3 (overwrite sel value (f.coef l m))
  have e := setItem_eq hf.sized sel h1 h3 value
  set g : Modes := { f with dat := f.dat.set (mpos l m) (overwrite sel value (f.coef l m)) } with hgdef
  have hg : g.Sized := ((C75_shape f hf.sized).1 _ _ _ _ e).1
  have hcl : Cleaned g f := ⟨hf, rfl, rfl, rfl, rfl, fun l' m' k1 k2 k3 => by
    rw [hc l' m' k2, if_neg]
    rintro ⟨rfl, rfl⟩
    have : |f.s| ≤ l' := k1
    omega⟩
  have hv : ∀ x, g.coef l m x = if sel x then value x else 0 := by
    intro x
    rw [hc l m h1, if_pos ⟨rfl, rfl⟩, hf.low l m h2 h1 h3]
    rfl
  refine ⟨g, e, hg, hcl, ?_, hv, ?_⟩
  · rw [positive_clean hg, hcl.eq hg]
  · rintro ⟨x, hx, hne⟩ hw
    have := congrFun (hw.low l m h2 h1 h3) x
    rw [hv x, if_pos hx] at this
    exact hne this

/-! ## What the methods do with such data -/

/-- **C75 (the cleaned object).** `+g` is the well-formed object with the modes of `g` above `|s|`. -/
theorem C75_positive (g : Modes) (hg : g.Sized) : ∃ c, g.positive = .ok c ∧ Cleaned g c :=
  ⟨g.clean, positive_clean hg, Cleaned.of_clean hg⟩

/-- **C75 (methods that ignore such data).** These give exactly — result or exception — what they give for the cleaned object. -/
theorem C75_ignored (g c : Modes) (hg : g.Sized) (h : Cleaned g c) :
    g.positive = c.positive ∧ g.negative = c.negative ∧ g.conjugate false = c.conjugate false ∧
    g.real_func false = c.real_func false ∧ g.imag_func false = c.imag_func false ∧
    g.Lplus = c.Lplus ∧ g.Lminus = c.Lminus ∧ g.Rz = c.Rz ∧ g.Rplus = c.Rplus ∧ g.Rminus = c.Rminus ∧ g.eth = c.eth ∧ g.ethbar = c.ethbar ∧
    ∀ a : Scalars, g.multiplyScalar a = c.multiplyScalar a ∧ g.divideScalar a = c.divideScalar a ∧
      ∀ b, g.addScalar a b = c.addScalar a b := by
  obtain rfl := h.eq hg
  have hr : g.real_func false = g.clean.real_func false := by
    by_cases h0 : g.s = 0
    · rw [clean_of_zero g h0]
    · unfold Modes.real_func
      rw [if_pos h0, if_pos (show g.clean.s ≠ 0 from h0)]
  have hi : g.imag_func false = g.clean.imag_func false := by
    by_cases h0 : g.s = 0
    · rw [clean_of_zero g h0]
    · unfold Modes.imag_func
      rw [if_pos h0, if_pos (show g.clean.s ≠ 0 from h0)]
  exact ⟨(clean_positive g).symm, (clean_negative g).symm, (clean_conjugate g).symm, hr, hi, (clean_Lplus g).symm, (clean_Lminus g).symm,
    (clean_Rz g).symm, (clean_Rplus g).symm, (clean_Rminus g).symm, (clean_eth g).symm, (clean_ethbar g).symm, fun a =>
      ⟨(clean_multiplyScalar g a).symm, (clean_divideScalar g a).symm, fun b => (clean_addScalar g a b).symm⟩⟩

/-- **C75 (sums).** The same for sums and differences of two objects, whatever the outcome. -/
theorem C75_add (g c g' c' : Modes) (hg : g.Sized) (hg' : g'.Sized) (h : Cleaned g c) (h' : Cleaned g' c') (subtraction : Bool) :
    g.addM g' subtraction = c.addM c' subtraction := by
  obtain rfl := h.eq hg
  obtain rfl := h'.eq hg'
  by_cases hs : g.s = g'.s
  swap
  · unfold Modes.addM
    rw [if_pos hs, if_pos (show g.clean.s ≠ g'.clean.s from hs)]
  by_cases hn : g.dat = [] ∨ g'.dat = []
  · have e1 : bcastLeads g g' = .error .indexError := by unfold bcastLeads; rw [if_pos hn]
    have e2 : bcastLeads g.clean g'.clean = .error .indexError := by
      unfold bcastLeads; rw [if_pos (by rwa [clean_dat_nil, clean_dat_nil])]
    unfold Modes.addM
    rw [if_neg (by simpa using hs), if_neg (show ¬ g.clean.s ≠ g'.clean.s from fun hc => hc hs)]
    simp only
    rw [e1, e2]
    rfl
  have pos : ∀ k : Modes, k.Sized → k.dat ≠ [] → 0 ≤ k.ell_max := by
    intro k hk hne
    by_contra hc
    have h1 := hk.ell_max_ge
    have h2 := hk.size
    rw [show k.ell_max = -1 by omega] at h2
    exact hne (List.eq_nil_of_length_eq_zero (by omega))
  push Not at hn
  cases hb : bcastShape g.lead g'.lead with
  | none =>
    have e1 : bcastLeads g g' = .error .valueError := by unfold bcastLeads; rw [if_neg (by tauto), hb]
    have e2 : bcastLeads g.clean g'.clean = .error .valueError := by
      unfold bcastLeads
      rw [if_neg (by rw [clean_dat_nil, clean_dat_nil]; tauto), show bcastShape g.clean.lead g'.clean.lead = none from hb]
    unfold Modes.addM
    rw [if_neg (by simpa using hs), if_neg (show ¬ g.clean.s ≠ g'.clean.s from fun hc => hc hs)]
    simp only
    rw [e1, e2]
    rfl
  | some lead =>
    have p1 := pos g hg hn.1
    have p2 := pos g' hg' hn.2
    obtain ⟨k, e1, e2, e3, e4, e5, e6, e7⟩ := addM_sized hg hg' hs p1 p2 hb subtraction
    obtain ⟨k', d1, d2, d3, d4, d5, d6, d7⟩ := addM_ok (clean_wf hg) (clean_wf hg') hs p1 p2 hb subtraction
    rw [e1, d1]
    congr 1
    refine e2.ext d2 (e3.trans d3.symm) (e4.trans d4.symm) (e5.trans d5.symm) (e6.trans d6.symm) fun ell m h1 h2 h3 => ?_
    rw [e4] at h1
    rw [e5] at h2
    rw [e7 ell m h1 h3 h2, d7 ell m h1 h3 h2]
    unfold Modes.coefIn
    rw [clean_coef h1 h3, clean_coef (hs ▸ h1) h3]
    rfl

/-- **C75 (products).** The same for products, away from the exception of the 3-j recursion. -/
theorem C75_multiply (junk junk' : ℕ → ℝ) (g c g' c' : Modes) (hg : g.Sized) (hg' : g'.Sized) (h : Cleaned g c) (h' : Cleaned g' c')
    (hg0 : 0 ≤ g.ell_max) (hg0' : 0 ≤ g'.ell_max) (hq : g.ell_max + g'.ell_max ≤ 151) (truncator : Option Trunc) (L : ℤ)
    (hL : ProductEllMax g g' truncator L) (hL1 : -1 ≤ L) (lead : List ℕ) (hb : bcastShape g.lead g'.lead = some lead)
    (hz : ¬ ProductZero g g') :
    ∃ k, k.WF ∧ g.multiplyM junk junk' g' truncator = .ok k ∧ c.multiplyM junk junk' c' truncator = .ok k := by
  obtain rfl := h.eq hg
  obtain rfl := h'.eq hg'
  rcases multiplyM_sized (junk := junk) (junk' := junk') hg hg' hg0 hg0' hq hL hL1 hb with ⟨k, e1, e2, e3, e4, e5, e6, e7⟩ | ⟨_, hz'⟩
  swap
  · exact absurd hz' hz
  rcases multiplyM_sized (junk := junk) (junk' := junk') h.wf.sized h'.wf.sized hg0 hg0' hq (truncator := truncator) (L := L) hL hL1 hb with
    ⟨k', d1, d2, d3, d4, d5, d6, d7⟩ | ⟨_, hz'⟩
  swap
  · exact absurd hz' hz
  have hk : k' = k := by
    refine d2.ext e2 (d3.trans e3.symm) (d4.trans e4.symm) (d5.trans e5.symm) (d6.trans e6.symm) fun l m h1 h2 h3 => ?_
    rw [d4] at h1
    rw [d5] at h2
    rw [e7 l m h1 h3 h2, d7 l m h1 h3 h2]
    funext x
    rw [mulSum_eq _ _ h2 h3, mulSum_eq _ _ h2 h3]
    unfold productMode
    refine sum_congr rfl fun l1 k1 => sum_congr rfl fun m1 k2 => sum_congr rfl fun l2 k3 => sum_congr rfl fun m2 k4 => ?_
    rw [mem_Icc] at k1 k2 k3 k4
    by_cases hlow : |g.s| ≤ l1 ∧ |g'.s| ≤ l2
    · unfold Modes.coefIn
      simp only
      rw [clean_coef hlow.1 (abs_le.mpr k2), clean_coef hlow.2 (abs_le.mpr k4)]
      rfl
    · have : threeJ l1 l2 l g.s g'.s (-g.s - g'.s) = 0 := by
        apply threeJ_eq_zero
        rintro ⟨_, a1, a2, _⟩
        exact hlow ⟨a1, a2⟩
      rw [show g.clean.s = g.s from rfl, show g'.clean.s = g'.s from rfl, this]
      simp
  rw [hk] at d1
  exact ⟨k, e2, e1, d1⟩

/-- **C75 (values).** `evaluate` ignores such data, at every unit rotor. -/
theorem C75_evaluate (g c : Modes) (hg : g.Sized) (h : Cleaned g c) (L : ℤ) (table : List ℝ) (ht : IsWignerTable L table)
    (junk : ℕ → ℤ × ℤ) (hL : g.ell_max ≤ L) (qs : List ℍ[ℝ]) (hq : ∀ q ∈ qs, normSq q = 1) :
    g.evaluate table junk (qs.map comps) = c.evaluate table junk (qs.map comps) := by
  obtain rfl := h.eq hg
  by_cases hne : qs = []
  · subst hne
    unfold Modes.evaluate
    rw [List.map_nil, C19_SWSH_grid_empty _ _ _ _ hg.ell_max_ge, C19_SWSH_grid_empty _ _ _ _ h.wf.ell_max_ge]
    rfl
  rw [evaluate_sized ht junk hg hL qs hq, evaluate_sized ht junk h.wf.sized hL qs hq]
  congr 1
  refine List.map_congr_left fun q _ => funext fun x => ?_
  refine sum_congr rfl fun l k1 => sum_congr rfl fun m k2 => ?_
  rw [mem_Icc] at k1 k2
  by_cases hl : |g.s| ≤ l
  · rw [clean_coef hl (abs_le.mpr k2)]
    rfl
  · have : ∀ s, |s| = |g.s| → Yret (partA q) (partB q) s l m = 0 := fun s hs => by
      unfold Yret
      rw [if_neg (by rw [hs]; tauto)]
    rw [this g.s rfl, this g.clean.s rfl, mul_zero, mul_zero]

/-- **C75 (methods that keep such data).** `Lsquared`, `Lz`, in-place conjugation and truncation keep it where it is; above `|s|`
they give what they give for the cleaned object. -/
theorem C75_kept (g c : Modes) (hg : g.Sized) (h : Cleaned g c) (op : Modes → Py Modes)
    (hop : op = Modes.Lsquared ∨ op = Modes.Lz ∨ (op = fun f => f.conjugate true) ∨ ∃ L, |g.s| ≤ L ∧ op = fun f => f.truncate_ell L) :
    ∃ r r', op g = .ok r ∧ op c = .ok r' ∧ r.Sized ∧ Cleaned r r' ∧
      ∀ l m, |m| ≤ l → l < |g.s| → l ≤ r.ell_max → r.coef l m = g.coef l m := by
  obtain rfl := h.eq hg
  have fin : op g.clean = (op g).map Modes.clean → (∃ r', op g.clean = .ok r' ∧ r'.WF) →
      (∀ r, op g = .ok r → ∀ l m, |m| ≤ l → l < |g.s| → l ≤ r.ell_max → r.coef l m = g.coef l m) →
      ∃ r r', op g = .ok r ∧ op g.clean = .ok r' ∧ r.Sized ∧ Cleaned r r' ∧
        ∀ l m, |m| ≤ l → l < |g.s| → l ≤ r.ell_max → r.coef l m = g.coef l m := by
    rintro h1 ⟨r', h2, h3⟩ h4
    cases e : op g with
    | error _ => rw [e, h2] at h1; cases h1
    | ok r =>
      rw [e, h2] at h1
      cases h1
      have hr : r.Sized := ⟨h3.ell_max_ge, by
        have := h3.size
        rw [show r.clean.dat.length = r.dat.length from zeroPrefix_length _ _] at this
        exact this⟩
      exact ⟨r, _, rfl, h2, hr, Cleaned.of_clean hr, h4 r e⟩
  rcases hop with rfl | rfl | rfl | ⟨L, hL, rfl⟩
  · obtain ⟨r', e1, e2⟩ := Lsquared_ok h.wf
    exact fin (clean_Lsquared g) ⟨r', e1, e2.wf⟩ fun r e l m h1 h2 _ => keep_coef g (Lsquared_keep g e) h1 h2
  · obtain ⟨r', e1, e2⟩ := Lz_ok h.wf
    exact fin (clean_Lz g) ⟨r', e1, e2.wf⟩ fun r e l m h1 h2 _ => keep_coef g (Lz_keep g e) h1 h2
  · obtain ⟨r', e1, e2⟩ := conjugate_ok h.wf true
    exact fin (clean_conjugate_inplace g) ⟨r', e1, e2.wf⟩ fun r e l m h1 h2 _ => keep_coef g (conjugate_keep g e) h1 h2
  · by_cases hle : L < g.ell_max
    · obtain ⟨r', e1, e2, -⟩ := truncate_ok h.wf (L := L) hL hle
      refine fin (clean_truncate g L) ⟨r', e1, e2⟩ fun r e l m h1 h2 h3 => ?_
      replace e : g.truncate_ell L = .ok r := e
      unfold Modes.truncate_ell at e
      rw [if_neg (by omega), index_ok hL (by rw [abs_of_nonneg ((abs_nonneg _).trans hL)]) (by omega), bind_ok] at e
      cases e
      unfold Modes.coef getSlice
      simp only [Int.toNat_zero, List.drop_zero, List.getElem?_take]
      rw [if_pos]
      have h3' : l ≤ L := h3
      have hi := mpos_hi h1
      have n1 : 0 ≤ l := (abs_nonneg m).trans h1
      have := sq_le_of (show 0 ≤ l + 1 by omega) (show l + 1 ≤ L + 1 by omega)
      rw [LM_index_zero]
      have : L ^ 2 + L + L + 1 = (L + 1) ^ 2 := by ring
      omega
    · refine fin (clean_truncate g L) ⟨g.clean, ?_, h.wf⟩ fun r e l m h1 h2 h3 => ?_
      · show g.clean.truncate_ell L = _
        unfold Modes.truncate_ell
        rw [if_pos (show L ≥ g.clean.ell_max from by show L ≥ g.ell_max; omega)]
      · replace e : g.truncate_ell L = .ok r := e
        unfold Modes.truncate_ell at e
        rw [if_pos (by omega)] at e
        cases e
        rfl

/-- **C75 (the norm does not ignore such data).** -/
theorem C75_norm (g c : Modes) (hg : g.Sized) (h : Cleaned g c) (idx : MIdx) :
    g.norm idx ^ 2 = c.norm idx ^ 2 + ∑ l ∈ Icc 0 (min g.ell_max (|g.s| - 1)), ∑ m ∈ Icc (-l) l, ‖g.coef l m idx‖ ^ 2 := by
  rw [(C34_norm g idx).2.1, (C34_norm c idx).2.1, sum_dat_sized hg, sum_dat_sized h.wf.sized, h.hL]
  have h0 := abs_nonneg g.s
  have key : ∀ F : ℤ → ℝ, ∑ l ∈ Icc 0 g.ell_max, F l
      = ∑ l ∈ Icc 0 g.ell_max, (if |g.s| ≤ l then F l else 0) + ∑ l ∈ Icc 0 (min g.ell_max (|g.s| - 1)), F l := by
    intro F
    have : ∑ l ∈ Icc 0 (min g.ell_max (|g.s| - 1)), F l = ∑ l ∈ Icc 0 g.ell_max, (if |g.s| ≤ l then 0 else F l) := by
      rw [← sum_filter_add_sum_filter_not (Icc 0 g.ell_max) (fun l => |g.s| ≤ l) (fun l => if |g.s| ≤ l then 0 else F l),
        sum_eq_zero (s := (Icc 0 g.ell_max).filter _) fun l hl => if_pos (mem_filter.mp hl).2, zero_add]
      refine sum_congr ?_ fun l hl => ?_
      · ext l
        simp only [mem_Icc, mem_filter]
        omega
      · rw [mem_filter] at hl
        rw [if_neg hl.2]
    rw [this, ← sum_add_distrib]
    refine sum_congr rfl fun l _ => ?_
    split <;> simp
  rw [key fun l => ∑ m ∈ Icc (-l) l, ‖g.coef l m idx‖ ^ 2]
  congr 1
  refine sum_congr rfl fun l k1 => ?_
  rw [mem_Icc] at k1
  split
  · rename_i hl
    refine sum_congr rfl fun m hm => ?_
    rw [mem_Icc] at hm
    rw [h.coef l m hl (abs_le.mpr hm) k1.2]
  · rename_i hl
    symm
    refine sum_eq_zero fun m hm => ?_
    rw [mem_Icc] at hm
    rw [h.wf.low l m (by rw [h.hs]; omega) (abs_le.mpr hm) (by rw [h.hL]; exact k1.2)]
    simp

/-! ## Concrete cases -/

/-- An object of spin weight -1 with a non-zero number in its `(0, 0)` slot. -/
def exDirty : Modes := { exModes with dat := exModes.dat.set 0 fun _ => 7 }

theorem exDirty_sized : exDirty.Sized := ⟨by simp [exDirty, exModes], by simp [exDirty, exModes]⟩

/-- Non-vacuity of C75: the assignment `f[..., 0] = 7` gives this object, which is not well-formed and differs from the cleaned
one in its norm. -/
example : exModes.setItem (fun _ => true) 0 (fun _ => 7) = .ok exDirty ∧ ¬ exDirty.WF ∧ Cleaned exDirty exModes ∧
    exDirty.norm [0] ^ 2 = exModes.norm [0] ^ 2 + 49 := by
  obtain ⟨g, e1, e2, e3, -, e4, e5⟩ := C75_below exModes exModes_WF (fun _ => true) 0 0 (by norm_num) (by simp [exModes]) (by simp [exModes]) (fun _ => 7)
  have e : exModes.setItem (fun _ => true) 0 (fun _ => 7) = .ok exDirty := rfl
  have e1' : exModes.setItem (fun _ => true) 0 (fun _ => 7) = .ok g := by
    simpa [LM_index] using e1
  rw [e] at e1'
  obtain rfl : exDirty = g := by injection e1'
  refine ⟨e, e5 ⟨[], rfl, by norm_num⟩, e3, ?_⟩
  rw [C75_norm exDirty exModes e2 e3]
  congr 1
  have : min exDirty.ell_max (|exDirty.s| - 1) = 0 := by simp [exDirty, exModes]
  rw [this]
  simp only [Icc_self, sum_singleton, neg_zero]
  rw [e4]
  norm_num

/-- Non-vacuity of C75: writing the `(2, -1)` mode of the second function only. -/
example : ∃ g, exModes.setItem (fun x => x == [1]) 5 (fun _ => 7) = .ok g ∧ g.WF ∧ g.coef 2 (-1) [1] = 7 ∧
    g.coef 2 (-1) [0] = exModes.coef 2 (-1) [0] := by
  obtain ⟨g, e1, e2, -, -, -, -, e3, -⟩ := C75_assign exModes exModes_WF (fun x => x == [1]) 2 (-1) 5 (by
    unfold Modes.index; norm_num [exModes, LM_index]) (fun _ => 7)
  exact ⟨g, e1, e2, by rw [e3]; rfl, by rw [e3]; rfl⟩

/-- Non-vacuity of C75 (products): the hypotheses hold for a product of two such objects. -/
example (junk junk' : ℕ → ℝ) : ∃ k, k.WF ∧ exDirty.multiplyM junk junk' exDirty none = .ok k ∧ exModes.multiplyM junk junk' exModes none = .ok k := by
  have hc : Cleaned exDirty exModes := by
    obtain ⟨g, e1, _, e3, -⟩ := C75_below exModes exModes_WF (fun _ => true) 0 0 (by norm_num) (by simp [exModes]) (by simp [exModes]) (fun _ => 7)
    have e1' : exModes.setItem (fun _ => true) 0 (fun _ => 7) = .ok g := by simpa [LM_index] using e1
    obtain rfl : exDirty = g := by injection e1'
    exact e3
  exact C75_multiply junk junk' exDirty exModes exDirty exModes exDirty_sized exDirty_sized hc hc (by simp [exDirty, exModes])
    (by simp [exDirty, exModes]) (by simp [exDirty, exModes]) none 4 ((C32_default_ell_max rfl rfl 4).2 (by simp [exDirty, exModes])) (by norm_num) [2]
    rfl (C32_no_exception (.inl (by simp [exDirty, exModes])))

end SF
