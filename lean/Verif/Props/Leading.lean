import Verif.Lemmas.Leading
import Verif.Props.Modes
import Verif.Props.GridModes

/-!
# Properties C71–C72: indexing of `Modes` objects

A `Modes` object with leading axes is a whole array of functions on the sphere.  C71: every operation treats the functions of the array
independently.  C72: indexing that touches the mode axis keeps metadata that no longer describe the data.
-/

set_option autoImplicit false

namespace SF

open ComplexConjugate Quaternion

/-! ## C71: operations act on each function of an array independently -/

/-- **C71.** Selecting functions from an array of functions gives a well-formed object with the same spin weight, `ell_max` and truncator,
whose mode weights are those of the selected functions. -/
theorem C71_select (f : Modes) (hf : f.WF) (lead : List ℕ) (φ : MIdx → MIdx) :
    (f.select lead φ).WF ∧ (f.select lead φ).s = f.s ∧ (f.select lead φ).ell_max = f.ell_max ∧ (f.select lead φ).trunc = f.trunc ∧
    (f.select lead φ).lead = lead ∧
    ∀ ell m, |m| ≤ ell → ell ≤ f.ell_max → ∀ idx, (f.select lead φ).coef ell m idx = f.coef ell m (φ idx) := by
  have hc : ∀ ell m, |m| ≤ ell → ell ≤ f.ell_max → (f.select lead φ).coef ell m = fun idx => f.coef ell m (φ idx) := by
    intro ell m h1 h2
    apply coef_of_get
    rw [select_dat, List.getElem?_map, hf.get h1 h2]
    rfl
  refine ⟨⟨hf.ell_max_ge, ?_, ?_⟩, rfl, rfl, rfl, rfl, fun ell m h1 h2 idx => by rw [hc ell m h1 h2]⟩
  · rw [select_dat, List.length_map]; exact hf.size
  · intro ell m h1 h2 h3
    rw [hc ell m h2 h3, hf.low ell m h1 h2 h3]

/-- **C71.** `f[i]` on an object with leading axes: `IndexError` exactly when `i` is outside `-n..n-1`, otherwise the object of the functions
at index `i` (`i+n` for negative `i`) of the first axis. -/
theorem C71_getitem (f : Modes) (n : ℕ) (rest : List ℕ) (h : f.lead = n :: rest) (i : ℤ) :
    (f.getitem i = .error .indexError ↔ ¬ (-(n : ℤ) ≤ i ∧ i < n)) ∧
    (∀ k : ℕ, k < n → (f.getitem k = .ok (.inr (f.select rest fun idx => k :: idx)) ∧
      f.getitem ((k : ℤ) - n) = .ok (.inr (f.select rest fun idx => k :: idx)))) := by
  unfold Modes.getitem
  rw [h]
  simp only
  constructor
  · unfold npIdx
    by_cases h1 : 0 ≤ i ∧ i < n
    · rw [if_pos h1]; simp; omega
    · rw [if_neg h1]
      by_cases h2 : -(n : ℤ) ≤ i ∧ i < 0
      · rw [if_pos h2]; simp; omega
      · rw [if_neg h2]; simp; omega
  · intro k hk
    constructor
    · unfold npIdx
      rw [if_pos (by omega)]
      simp
    · unfold npIdx
      rw [if_neg (by omega), if_pos (by omega)]
      simp

/-- **C71.** Every method of one object gives the same whether it is applied to the array of functions or to a selection of them: the same
exception, or the corresponding selection of the result.  No hypothesis on `f`. -/
theorem C71_methods (f : Modes) (lead : List ℕ) (φ : MIdx → MIdx) :
    (∀ op ∈ [Method1.conjugate, .real, .imag, .Lsquared, .Lz, .Lplus, .Lminus, .Rz, .Rplus, .Rminus, .eth, .ethbar, .copy, .pickle],
      op.run (f.select lead φ) = (op.run f).map fun g => g.select lead φ) ∧
    (∀ op : MethodIn, op.run (f.select lead φ) = (op.run f).map fun g => g.select lead φ) ∧
    (f.select lead φ).negative = (f.negative.map fun g => g.select lead φ) ∧
    (f.select lead φ).positive = (f.positive.map fun g => g.select lead φ) ∧
    (∀ L, (f.select lead φ).truncate_ell L = (f.truncate_ell L).map fun g => g.select lead φ) ∧
    (∀ ell m, (f.select lead φ).index ell m = f.index ell m) ∧
    (∀ idx, (f.select lead φ).norm idx = f.norm (φ idx)) ∧
    ∀ (table : List ℝ) (junk : ℕ → ℤ × ℤ) (Rs : List (ℝ × ℝ × ℝ × ℝ)),
      (f.select lead φ).evaluate table junk Rs = (f.evaluate table junk Rs).map fun vs => vs.map fun v idx => v (φ idx) := by
  refine ⟨?_, ?_, negative_nat φ lead f, positive_nat φ lead f, truncate_nat φ lead f, fun _ _ => rfl, norm_select φ lead f,
    evaluate_nat φ lead f⟩
  · intro op hop
    simp only [List.mem_cons, List.not_mem_nil, or_false] at hop
    rcases hop with rfl | rfl | rfl | rfl | rfl | rfl | rfl | rfl | rfl | rfl | rfl | rfl | rfl | rfl
    · exact conjugate_nat φ lead f false
    · exact real_nat φ lead f false
    · exact imag_nat φ lead f false
    · exact Lsquared_nat φ lead f
    · exact Lz_nat φ lead f
    · exact Lplus_nat φ lead f
    · exact Lminus_nat φ lead f
    · exact Rz_nat φ lead f
    · exact Rplus_nat φ lead f
    · exact Rminus_nat φ lead f
    · exact Rminus_nat φ lead f
    · exact ethbar_nat φ lead f
    · rfl
    · have : ∀ g : Modes, Method1.pickle.run g = .ok g := by
        intro g
        simp [Method1.run, pickleCopy, Modes_reduce, Modes_setstate, ndarray_reduce, ndarray_setstate, reconstruct, bind_ok, Modes.raw,
          RawModes.toModes]
      rw [this, this]
      rfl
  · intro op
    cases op
    · exact conjugate_nat φ lead f true
    · exact real_nat φ lead f true
    · exact imag_nat φ lead f true

/-- **C71.** `f + g`, `f - g`, `f * g`, `f / g` for two arrays of functions with the same leading shape: selecting commutes with the
operation. -/
theorem C71_two_objects (junk junk' : ℕ → ℝ) (f g : Modes) (h : f.lead = g.lead) (lead : List ℕ) (φ : MIdx → MIdx) (op : Method2) :
    op.run junk junk' (f.select lead φ) (g.select lead φ) = (op.run junk junk' f g).map fun k => k.select lead φ := by
  have cf : Compat f.lead lead f.lead lead φ φ := compat_self _ _ _
  have cg : Compat g.lead lead f.lead lead φ φ := by rw [h]; exact compat_self _ _ _
  have hb : bcastShape f.lead g.lead = some f.lead := by rw [← h]; exact bcastShape_self _
  cases op with
  | add => exact addM_nat f g cf cg hb (bcastShape_self _) false
  | subtract => exact addM_nat f g cf cg hb (bcastShape_self _) true
  | multiply t => exact multiplyM_nat junk junk' f g cf cg hb (bcastShape_self _) t
  | divide => rfl

/-- **C71.** `f + g`, `f - g`, `f * g`, `f / g` for two arrays of functions whose leading shapes broadcast to `lead`: at every index the result
is what the operation gives for the two single functions that broadcasting puts at that index. -/
theorem C71_broadcast (junk junk' : ℕ → ℝ) (f g : Modes) (lead : List ℕ) (hb : bcastShape f.lead g.lead = some lead) (idx : MIdx)
    (hv : ValidIdx lead idx) (op : Method2) :
    op.run junk junk' (f.at (bcIdx f.lead idx)) (g.at (bcIdx g.lead idx)) = (op.run junk junk' f g).map fun h => h.at idx := by
  have cf := compat_at (leadf := f.lead) hv
  have cg := compat_at (leadf := g.lead) hv
  cases op with
  | add => exact addM_nat f g cf cg hb rfl false
  | subtract => exact addM_nat f g cf cg hb rfl true
  | multiply t => exact multiplyM_nat junk junk' f g cf cg hb rfl t
  | divide => rfl

/-- **C71.** Multiplication and division of an array of functions by an array of numbers: at every index the result is that of the single
function and the single number that broadcasting puts there. -/
theorem C71_numbers (f : Modes) (a : Scalars) (lead : List ℕ) (hd : a.shape.length ≤ f.lead.length)
    (hb : bcastShape f.lead a.shape = some lead) (idx : MIdx) (hv : ValidIdx lead idx) :
    (f.at (bcIdx f.lead idx)).multiplyScalar (a.at (bcIdx a.shape idx)) = (f.multiplyScalar a).map (fun h => h.at idx) ∧
    (f.at (bcIdx f.lead idx)).divideScalar (a.at (bcIdx a.shape idx)) = (f.divideScalar a).map fun h => h.at idx :=
  ⟨multiplyScalar_nat f a (a.at _) (compat_at hv) (fun _ => rfl) hd (le_refl _) hb rfl,
    ufuncMulScalar_nat (· / ·) f a (a.at _) (compat_at hv) (fun _ => rfl) hd (le_refl _) hb rfl⟩

/-- **C71.** Addition and subtraction of an array of numbers, whenever the call returns. -/
theorem C71_add_numbers (f : Modes) (a : Scalars) (sub : Bool) (h : Modes) (e : f.addScalar a sub = .ok h) (idx : MIdx)
    (hv : ValidIdx h.lead idx) :
    (f.at (bcIdx f.lead idx)).addScalar (a.at (bcIdx a.shape idx)) sub = .ok (h.at idx) := by
  unfold Modes.addScalar at e ⊢
  generalize (if sub = true then ((· - ·) : ℂ → ℂ → ℂ) else (· + ·)) = op at e ⊢
  split at e
  · cases e
  rename_i ha
  unfold Modes.ufuncAddScalar at e ⊢
  rw [if_neg ha] at e
  have hd : a.shape.length ≤ f.lead.length := by
    by_contra hc
    unfold Modes.check_broadcasting at e
    rw [if_pos (by omega)] at e
    cases e
  cases hb : bcastShape f.lead a.shape with
  | none =>
    unfold Modes.check_broadcasting at e
    rw [if_neg (by omega), hb] at e
    split at e <;> cases e
  | some lead =>
    have hl : h.lead = lead := by
      unfold Modes.check_broadcasting at e
      rw [if_neg (by omega), hb] at e
      split at e
      · cases e
      · simp only [Option.isSome_some, bind_ok, if_true] at e
        unfold Modes.scalarUfunc at e
        rw [hb] at e
        simp only at e
        unfold Modes.remake Modes.new at e
        simp only [List.length_nil, List.getElem?_nil, Option.none_or, gt_iff_lt, show ¬ (0 = 2 ∨ 3 < 0) by omega, if_false, ite_self,
          Option.or_none, bind_ok] at e
        split at e
        · cases e
        · cases e; rfl
    rw [hl] at hv
    have hz : (a.at (bcIdx a.shape idx)).any = false := by
      unfold Scalars.any at ha ⊢
      simp only [decide_eq_true_eq, not_exists, not_and, not_not, decide_eq_false_iff_not] at ha ⊢
      intro x _
      exact ha _ (bcIdx_valid hb hv).2
    rw [hz]
    simp only [Bool.false_eq_true, if_false]
    have hh : (a.at (bcIdx a.shape idx)).shape.length ≤ ([] : List ℕ).length := le_refl _
    unfold Modes.at
    rw [check_nat (lead := lead) (lead' := []) hd hh hb rfl]
    cases hc : f.check_broadcasting a with
    | error er => rw [hc] at e; cases e
    | ok b =>
      rw [hc, bind_ok] at e
      rw [bind_ok]
      split at e
      · rename_i hb1
        rw [if_pos hb1, scalarUfunc_nat _ f a (a.at (bcIdx a.shape idx)) (compat_at hv) (fun _ => rfl) hb rfl, e]
        rfl
      · cases e

/-! ## C72: indexing the mode axis -/

/-- **C72.** A part `f[..., i:j]` of the mode axis still says it has all modes up to `ell_max`: unless the slice is the whole axis it is not a
consistent object; its `index` still gives the positions in the whole array, so that a slice with `i > 0` is read at the wrong modes; and every
operation that constructs a new object (negation, `Rz`, a product or quotient with a number) raises `ValueError`. -/
theorem C72_mode_slice (f : Modes) (hf : f.WF) (i j : ℕ) (hij : i ≤ j) (hj : j ≤ f.dat.length) :
    ((f.modeSlice i j).WF ↔ i = 0 ∧ j = f.dat.length ∨ f.dat.length = 0) ∧
    (∀ ell m, (f.modeSlice i j).index ell m = f.index ell m) ∧
    (∀ k : ℕ, i + k < j → (f.modeSlice i j).dat[k]? = f.dat[i + k]?) ∧
    (¬ (i = 0 ∧ j = f.dat.length) → i < j →
      (f.modeSlice i j).negative = .error .valueError ∧ (f.modeSlice i j).positive = .error .valueError ∧
      (f.modeSlice i j).Rz = .error .valueError ∧
      (∀ z, (f.modeSlice i j).multiplyScalar (num z) = .error .valueError ∧ (f.modeSlice i j).divideScalar (num z) = .error .valueError)) := by
  have hlen : (f.modeSlice i j).dat.length = j - i := getSlice_length hj
  have hr : ∀ (lead : List ℕ) (d : List Slice), d.length ≠ f.dat.length →
      (f.modeSlice i j).remake lead d (f.modeSlice i j).s (f.modeSlice i j).ell_max = .error .valueError := by
    intro lead d hd
    unfold Modes.remake Modes.new
    simp only [List.length_nil, List.getElem?_nil, Option.none_or, gt_iff_lt, show ¬ (0 = 2 ∨ 3 < 0) by omega, if_false, ite_self,
      Option.or_none, bind_ok]
    rw [if_pos]
    show (d.length : ℤ) ≠ LM_total_size 0 f.ell_max
    rw [LM_total_size_zero, ← hf.size]
    exact_mod_cast hd
  refine ⟨⟨?_, ?_⟩, fun _ _ => rfl, fun k hk => ?_, ?_⟩
  · intro h
    have h1 := h.size
    rw [hlen, show (f.modeSlice i j).ell_max = f.ell_max from rfl, ← hf.size] at h1
    omega
  · rintro (⟨rfl, rfl⟩ | h)
    · have : f.modeSlice ((0 : ℕ) : ℤ) (f.dat.length : ℤ) = f := by
        unfold Modes.modeSlice getSlice
        simp
      rw [this]; exact hf
    · have h1 : f.dat = [] := List.length_eq_zero_iff.mp h
      have : f.modeSlice (i : ℤ) (j : ℤ) = f := by
        unfold Modes.modeSlice getSlice
        rw [h1]
        cases f
        simp_all
      rw [this]; exact hf
  · exact getSlice_get hk
  · intro hn hlt
    have hne : j - i ≠ f.dat.length := by omega
    have hm : ∀ (op : ℂ → ℂ → ℂ) z, (f.modeSlice i j).ufuncMulScalar op (num z) = .error .valueError := by
      intro op z
      unfold Modes.ufuncMulScalar
      rw [check_num (by intro hc; rw [hc] at hlen; simp at hlen; omega), bind_ok, if_pos rfl]
      unfold Modes.scalarUfunc
      rw [show (num z).shape = [] from rfl, bcastShape_nil]
      exact hr _ _ (by rw [List.length_map, hlen]; exact hne)
    refine ⟨hr _ _ ?_, hr _ _ ?_, hr _ _ ?_, fun z => ⟨?_, hm _ z⟩⟩
    · rw [List.length_map, hlen]; exact hne
    · rw [hlen]; exact hne
    · rw [List.length_map, hlen]; exact hne
    · unfold Modes.multiplyScalar
      rw [check_num (by intro hc; rw [hc] at hlen; simp at hlen; omega), bind_ok, if_pos rfl]
      exact hm _ z

/-- **C72.** Evaluating a proper part of the mode axis at unit rotors raises `ValueError`. -/
theorem C72_evaluate {L : ℤ} {table : List ℝ} (ht : IsWignerTable L table) (junk : ℕ → ℤ × ℤ) (f : Modes) (hf : f.WF)
    (hL : f.ell_max ≤ L) (i j : ℕ) (hij : i ≤ j) (hj : j ≤ f.dat.length) (hn : ¬ (i = 0 ∧ j = f.dat.length)) (hne : f.dat.length ≠ 0)
    (q : ℍ[ℝ]) (qs : List ℍ[ℝ]) (hq : ∀ r ∈ q :: qs, Quaternion.normSq r = 1) :
    (f.modeSlice i j).evaluate table junk ((q :: qs).map comps) = .error .valueError := by
  have hge := hf.ell_max_ge
  have hlen : (f.modeSlice i j).dat.length = j - i := getSlice_length hj
  unfold Modes.evaluate
  rw [show (f.modeSlice i j).s = f.s from rfl, show (f.modeSlice i j).ell_max = f.ell_max from rfl,
    SWSH_grid_any ht junk (q :: qs) hq f.s f.ell_max hge hL, bind_ok, List.map_cons, List.mapM_cons]
  have hl : ((LMlist 0 f.ell_max).length : ℤ) = (f.dat.length : ℤ) := by
    rw [LMlist_length le_rfl (by omega), hf.size, LM_total_size_zero]
  simp only
  have hs : ∀ row : List ℂ, row.length = f.dat.length →
      (getSlice row (LM_index 0 (-0) 0) (LM_index f.ell_max f.ell_max 0 + 1)).length = f.dat.length := by
    intro row hr
    have e1 : LM_index 0 (-0) 0 = 0 := by rw [LM_index_zero]; simp
    have e2 : LM_index f.ell_max f.ell_max 0 + 1 = (row.length : ℤ) := by
      rw [LM_index_zero, hr, hf.size]; ring
    unfold getSlice
    rw [e1, e2]
    simp [hr]
  rw [if_pos (by rw [hs _ (by rw [List.length_map]; exact_mod_cast hl), hlen]; omega)]
  rfl

/-- **C72.** `f[..., f.index(ell, m)]`, the recommended way of extracting one mode weight (SWSH_modes/utilities.py:12-17), for an object of
leading shape `lead0 + (n,)`: the values are the weights of that mode, but the result is again a `Modes` object with the spin weight and
`ell_max` of `f`, whose `n` entries along the last leading axis are taken for modes.  If `n ≠ (ell_max+1)²`, negating it or
multiplying it by a number raises `ValueError`; if `n = (ell_max+1)²` that succeeds, and sets to zero the first `s²` entries. -/
theorem C72_one_mode (f : Modes) (hf : f.WF) (lead0 : List ℕ) (n : ℕ) (hl : f.lead = lead0 ++ [n]) (hn : 0 < n) (ell m : ℤ)
    (h1 : |f.s| ≤ ell) (h2 : |m| ≤ ell) (h3 : ell ≤ f.ell_max) :
    ∃ i g, f.index ell m = .ok i ∧ f.column lead0 n i = .ok g ∧ g.s = f.s ∧ g.ell_max = f.ell_max ∧ g.dat.length = n ∧
      (∀ k : ℕ, k < n → ∃ v, g.dat[k]? = some v ∧ ∀ idx, v idx = f.coef ell m (idx ++ [k])) ∧
      ((n : ℤ) ≠ (f.ell_max + 1) ^ 2 → g.negative = .error .valueError ∧ ∀ z, g.multiplyScalar (num z) = .error .valueError) ∧
      ((n : ℤ) = (f.ell_max + 1) ^ 2 → ∃ h, g.negative = .ok h ∧ h.dat.length = n ∧ ∀ k : ℕ, k < n →
        ∃ v, h.dat[k]? = some v ∧ ∀ idx, v idx = if (k : ℤ) < f.s ^ 2 then 0 else -f.coef ell m (idx ++ [k])) := by
  have hi : f.index ell m = .ok (LM_index ell m 0) := index_ok h1 h2 h3
  have hrd : rd f.dat (LM_index ell m 0) = .ok (f.coef ell m) := rd_mpos h2 (hf.get h2 h3)
  refine ⟨_, ⟨lead0, f.s, f.ell_max, f.trunc, (List.range n).map fun k idx => f.coef ell m (idx ++ [k])⟩, hi,
    by unfold Modes.column; rw [hrd, bind_ok]; rfl, rfl, rfl, by simp, ?_, ?_, ?_⟩
  · intro k hk
    refine ⟨_, by rw [List.getElem?_map, List.getElem?_range hk]; rfl, fun _ => rfl⟩
  · intro hne
    have hr : ∀ (g : Modes) (lead : List ℕ) (d : List Slice), g.ell_max = f.ell_max → d.length = n →
        g.remake lead d g.s g.ell_max = .error .valueError := by
      intro g lead d hg hd
      unfold Modes.remake Modes.new
      simp only [List.length_nil, List.getElem?_nil, Option.none_or, gt_iff_lt, show ¬ (0 = 2 ∨ 3 < 0) by omega, if_false, ite_self,
        Option.or_none, bind_ok]
      rw [if_pos]
      rw [Option.getD_none, LM_total_size_zero, hg, hd]
      exact hne
    refine ⟨hr _ _ _ rfl (by simp), fun z => ?_⟩
    have hc : ∀ g : Modes, g.dat.length = n → g.check_broadcasting (num z) = .ok true := fun g hg =>
      check_num (by intro hc; rw [hc] at hg; simp at hg; omega) z
    unfold Modes.multiplyScalar
    rw [hc _ (by simp), bind_ok, if_pos rfl]
    unfold Modes.ufuncMulScalar
    rw [hc _ (by simp), bind_ok, if_pos rfl]
    unfold Modes.scalarUfunc
    rw [show (num z).shape = [] from rfl, bcastShape_nil]
    exact hr _ _ _ rfl (by simp)
  · intro he
    unfold Modes.negative Modes.remake Modes.new
    simp only [List.length_nil, List.getElem?_nil, Option.none_or, gt_iff_lt, show ¬ (0 = 2 ∨ 3 < 0) by omega, if_false, ite_self,
      Option.or_none, bind_ok, List.length_map, List.length_range, Option.getD_none]
    rw [if_neg (by rw [LM_total_size_zero]; simpa using he)]
    refine ⟨_, rfl, ?_, ?_⟩
    · simp only [if_true]
      rw [zeroPrefix_length]
      simp
    · intro k hk
      simp only [if_true]
      rw [zeroPrefix_get (by simpa using hk), abs_sub_one_sq]
      have sn : 0 ≤ f.s ^ 2 := sq_nonneg f.s
      by_cases hks : (k : ℤ) < f.s ^ 2
      · rw [if_pos (by omega)]
        exact ⟨_, rfl, fun _ => by rw [if_pos hks]⟩
      · rw [if_neg (by omega), List.getElem?_map, List.getElem?_map, List.getElem?_range hk]
        exact ⟨_, rfl, fun _ => by rw [if_neg hks]⟩

/-! ## Non-vacuity -/

theorem exModes_coef : exModes.coef 1 0 = fun idx => 2 * Complex.I + (idx.headD 0 : ℂ) := by
  apply coef_of_get
  rw [show mpos 1 0 = 2 from rfl]
  show some (fun idx : MIdx => (((1 : ℕ) : ℂ) + 1) * Complex.I + (idx.headD 0 : ℂ)) = _
  congr 1
  funext idx
  push_cast
  norm_num

/-- C71: the second of the two functions of `exModes`, and its conjugate. -/
example : ∃ g h, exModes.getitem (-1) = .ok (.inr g) ∧ exModes.conjugate false = .ok h ∧ g.conjugate false = .ok (h.at [1]) ∧
    g.coef 1 0 [] = 2 * Complex.I + 1 := by
  have h1 := ((C71_getitem exModes 2 [] rfl (-1)).2 1 (by norm_num)).2
  obtain ⟨h, h2, -⟩ := conjugate_ok exModes_WF false
  refine ⟨exModes.select [] fun idx => 1 :: idx, h, h1, h2, ?_, ?_⟩
  · have e : ∀ v ∈ exModes.dat, pre (fun idx => 1 :: idx) v = pre (fun _ => [1]) v := by
      intro v hv
      simp only [exModes, List.mem_cons, List.mem_map] at hv
      rcases hv with rfl | ⟨k, _, rfl⟩ <;> rfl
    have : exModes.select [] (fun idx => 1 :: idx) = exModes.at [1] := by
      unfold Modes.at Modes.select
      rw [List.map_congr_left e]
    rw [this]
    have := (C71_methods exModes [] fun _ => [1]).1 .conjugate (by simp)
    simp only [Method1.run] at this
    rw [show exModes.at [1] = exModes.select [] fun _ => [1] from rfl, this, h2]
    rfl
  · rw [(C71_select exModes exModes_WF [] fun idx => 1 :: idx).2.2.2.2.2 1 0 (by norm_num) (by simp [exModes]), exModes_coef]
    simp

/-- C71: broadcasting the two functions of `exModes` against a single function. -/
example : bcastShape exModes.lead (exModes.at [0]).lead = some [2] ∧ ValidIdx [2] [1] := by
  refine ⟨rfl, ?_⟩
  unfold ValidIdx
  simp

/-- C72: the first four modes of `exModes`, whose `ell_max` is still 2. -/
example : (exModes.modeSlice 0 4).ell_max = 2 ∧ ¬ (exModes.modeSlice 0 4).WF ∧ (exModes.modeSlice 0 4).negative = .error .valueError := by
  obtain ⟨h1, -, -, h4⟩ := C72_mode_slice exModes exModes_WF 0 4 (by norm_num) (by simp [exModes])
  refine ⟨rfl, ?_, (h4 (by simp [exModes]) (by norm_num)).1⟩
  intro h
  have := h1.mp h
  simp [exModes] at this

/-- Nine functions of spin weight -1 with modes up to `ell = 2`. -/
def exModes9 : Modes := exModes.select [9] fun idx => idx

/-- C72: the weights of the mode (1, 0) of nine functions, negated: the first one becomes zero. -/
example : ∃ i g h v w, exModes9.index 1 0 = .ok i ∧ exModes9.column [] 9 i = .ok g ∧ g.negative = .ok h ∧ g.dat[0]? = some v ∧
    h.dat[0]? = some w ∧ v [] ≠ 0 ∧ w [] = 0 := by
  have hw := (C71_select exModes exModes_WF [9] fun idx => idx).1
  obtain ⟨i, g, h1, h2, -, -, -, h6, -, h8⟩ := C72_one_mode exModes9 hw [] 9 rfl (by norm_num) 1 0 (by simp [exModes9, exModes, Modes.select])
    (by norm_num) (by simp [exModes9, exModes, Modes.select])
  obtain ⟨h, k1, -, k3⟩ := h8 (by simp [exModes9, exModes, Modes.select])
  obtain ⟨v, v1, v2⟩ := h6 0 (by norm_num)
  obtain ⟨w, w1, w2⟩ := k3 0 (by norm_num)
  refine ⟨i, g, h, v, w, h1, h2, k1, v1, w1, ?_, ?_⟩
  · rw [v2, show exModes9.coef 1 0 ([] ++ [0]) = exModes.coef 1 0 [0] from
      (C71_select exModes exModes_WF [9] fun idx => idx).2.2.2.2.2 1 0 (by norm_num) (by simp [exModes]) [0], exModes_coef]
    simp
  · rw [w2, if_pos (by simp [exModes9, exModes, Modes.select])]

end SF
