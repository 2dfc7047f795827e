import Verif.Props.ModesHeap
import Verif.Props.Multiplication

/-!
# Property C40: the argument `out` of Modes ufuncs
-/

set_option autoImplicit false

namespace SF

open ComplexConjugate Finset Spec

/-! ## Results written to `out` -/

/-- The state and result after a ufunc has put `vals` into the array `r` of `out` and given it spin weight `s`, `ell_max = L` and
truncator `t`: the returned object shares the memory of `out`. -/
def World.outRes (w : World) (out : OutArg) (r : ArrRef) (s L : ℤ) (t : TruncKey) (vals : List Slice) : World × URes :=
  (⟨w.heap.store r vals, (w.setMeta out s L t).objs ++ [⟨r, s, L, t⟩]⟩, .obj w.objs.length)

theorem setMeta_length (w : World) (out : OutArg) (s L : ℤ) (t : TruncKey) : (w.setMeta out s L t).objs.length = w.objs.length := by
  unfold World.setMeta
  split
  · simp
  · rfl

theorem setMeta_heap (h h' : Heap) (objs : List MObj) (out : OutArg) (s L : ℤ) (t : TruncKey) :
    ((⟨h, objs⟩ : World).setMeta out s L t) = ⟨h, ((⟨h', objs⟩ : World).setMeta out s L t).objs⟩ := by
  unfold World.setMeta
  split <;> rfl

/-- What `outRes` means: `out` holds `vals`; if `out` is a Modes object, it and the returned object have the value
`⟨r.lead, s, L, t, vals⟩`; disjoint memory is unchanged. -/
theorem outRes_spec {w : World} {out : OutArg} {r : ArrRef} (hr : r.Valid w.heap) (ho : out.ref w = .ok (some r)) {vals : List Slice}
    (hv : vals.length = r.len) (s L : ℤ) (t : TruncKey) :
    (w.outRes out r s L t vals).1.heap.load r = vals
    ∧ (∀ r' : ArrRef, r.Disjoint r' → (w.outRes out r s L t vals).1.heap.load r' = w.heap.load r')
    ∧ (∃ o, (w.outRes out r s L t vals).1.objs[w.objs.length]? = some o ∧ o.val (w.outRes out r s L t vals).1.heap = ⟨r.lead, s, L, t, vals⟩)
    ∧ (∀ k, out = .modes k → ∃ o, (w.outRes out r s L t vals).1.objs[k]? = some o
        ∧ o.val (w.outRes out r s L t vals).1.heap = ⟨r.lead, s, L, t, vals⟩) := by
  have e := load_store_self hr hv
  refine ⟨e, fun r' hd => load_store_disjoint hr hv hd, ⟨⟨r, s, L, t⟩, ?_, ?_⟩, ?_⟩
  · simp only [World.outRes]
    rw [List.getElem?_append_right (by rw [setMeta_length]), setMeta_length, Nat.sub_self]
    rfl
  · simp only [World.outRes, MObj.val]; rw [e]
  · rintro k rfl
    simp only [OutArg.ref, World.obj] at ho
    cases hk : w.objs[k]? with
    | none => rw [hk] at ho; cases ho
    | some o =>
      rw [hk] at ho
      injection ho with ho
      injection ho with ho
      subst ho
      refine ⟨{ o with s := s, ell_max := L, trunc := t }, ?_, ?_⟩
      · have hlt := (List.getElem?_eq_some_iff.1 hk).1
        simp only [World.outRes]
        rw [List.getElem?_append_left (by rw [setMeta_length]; exact hlt)]
        simp only [World.setMeta]
        rw [List.getElem?_modify, hk]
        simp
      · simp only [World.outRes, MObj.val]; rw [e]

theorem store_store {h : Heap} {r : ArrRef} (hr : r.Valid h) {a b : List Slice} (ha : a.length = r.len) : (h.store r a).store r b = h.store r b := by
  obtain ⟨x, e, hx⟩ := hr
  apply List.ext_getElem?
  intro k
  by_cases hk : k = r.buf
  · subst hk
    rw [store_get_self, store_get_self, store_get_self, e]
    simp only [Option.map_some, Option.some.injEq]
    have l1 : (List.take r.off x).length = r.off := by rw [List.length_take]; omega
    rw [List.append_assoc, List.append_assoc, List.take_append_of_le_length (by omega), List.take_of_length_le (by omega), List.append_assoc]
    congr 2
    rw [← List.append_assoc, List.drop_append_of_le_length (by rw [List.length_append]; omega), List.drop_of_length_le (by rw [List.length_append]; omega)]
    rfl
  · rw [store_get_ne _ _ _ hk, store_get_ne _ _ _ hk, store_get_ne _ _ _ hk]

theorem ufuncFinish_out {w : World} {out : OutArg} {r : ArrRef} (hr : r.Valid w.heap) {d : List Slice} (hd : d.length = r.len) {s L : ℤ}
    (hL : (r.len : ℤ) = (L + 1) ^ 2) (t : TruncKey) :
    ufuncFinish w (w.heap.store r d) r {} out s L t = .ok (w.outRes out r s L t (zeroPrefix (s ^ 2).toNat d)) := by
  unfold ufuncFinish
  have hr' := valid_store hr hd hr
  rw [newH_eq hr', load_store_self hr hd]
  simp only [show ctorEllMin [] { spin_weight := some s, ell_max := some L, trunc := t } = 0 from by simp [ctorEllMin], if_true]
  have := remake_eq ⟨[], 0, 0, t, []⟩ r.lead d s L
  rw [if_neg (by rw [hd]; simpa using hL)] at this
  unfold Modes.remake at this
  simp only at this
  rw [this]
  simp only [Except.map, bind_ok]
  rw [store_store hr hd, setMeta_heap _ w.heap]
  simp only [World.outRes, pure, Except.pure, setMeta_length]

/-- A wrong size of `out` is an error. -/
theorem ufuncFinish_size {w : World} {out : OutArg} {r : ArrRef} (hr : r.Valid w.heap) {d : List Slice} (hd : d.length = r.len) {s L : ℤ}
    (hL : (r.len : ℤ) ≠ (L + 1) ^ 2) (t : TruncKey) : ufuncFinish w (w.heap.store r d) r {} out s L t = .error .valueError := by
  unfold ufuncFinish
  have hr' := valid_store hr hd hr
  rw [newH_eq hr', load_store_self hr hd]
  have := remake_eq ⟨[], 0, 0, t, []⟩ r.lead d s L
  rw [if_pos (by rw [hd]; exact hL)] at this
  unfold Modes.remake at this
  simp only at this
  rw [this]
  rfl

/-! ## Sums -/

/-- The two assignments of `np.add`, with operands read from the current memory. -/
theorem addSlices_out {op : ℂ → ℂ → ℂ} {lead leadf leadg : List ℕ} {Lf Lg M : ℤ} {rf rg : List Slice → List Slice} {a : List Slice}
    (hLf : -1 ≤ Lf) (hLg : -1 ≤ Lg) (hfM : Lf ≤ M) (hgM : Lg ≤ M) (ha : (a.length : ℤ) = (M + 1) ^ 2) (hu : ((rf a).length : ℤ) = (Lf + 1) ^ 2)
    (hv : ∀ c, c.length = a.length → ((rg c).length : ℤ) = (Lg + 1) ^ 2) :
    ∃ c d, addSlices op lead leadf leadg Lf Lg rf rg a = .ok d ∧ c.length = a.length ∧ d.length = a.length ∧
      (∀ k : ℕ, c[k]? = if k < (rf a).length then ((rf a)[k]?).map (bcTo leadf lead) else a[k]?) ∧
      (∀ (k : ℕ) (p q : Slice), c[k]? = some p → (rg c)[k]? = some q → d[k]? = some fun x => op (p x) (bcTo leadg lead q x)) ∧
      ∀ k : ℕ, (rg c).length ≤ k → d[k]? = c[k]? := by
  have sq1 := sq_le_of (show 0 ≤ Lf + 1 by omega) (show Lf + 1 ≤ M + 1 by omega)
  have sq2 := sq_le_of (show 0 ≤ Lg + 1 by omega) (show Lg + 1 ≤ M + 1 by omega)
  have z0 : LM_total_size 0 (0 - 1) = ((0 : ℕ) : ℤ) := by rw [LM_total_size_zero]; simp
  have zf : ((0 : ℕ) : ℤ) + LM_total_size 0 Lf = (((rf a).length : ℕ) : ℤ) := by
    rw [LM_total_size_zero, hu]; simp
  unfold addSlices
  simp only
  rw [z0, zf]
  obtain ⟨c, a1, a2, a3⟩ := setSlice_ok (a := a) (i := 0) (j := (rf a).length)
    (vals := (rf a).map (bcTo leadf lead)) (by omega) (by omega) (by simp)
  have hl := hv c a2
  have zg : ((0 : ℕ) : ℤ) + LM_total_size 0 Lg = (((rg c).length : ℕ) : ℤ) := by
    rw [LM_total_size_zero, hl]; simp
  rw [a1, bind_ok, zg]
  have lc := getSlice_length (a := c) (i := 0) (j := (rg c).length) (by omega)
  rw [if_neg (by rw [lc]; simp)]
  obtain ⟨d, b1, b2, b3⟩ := setSlice_ok (a := c) (i := 0) (j := (rg c).length)
    (vals := List.zipWith (fun u v x => op (u x) (v x)) (getSlice c ((0 : ℕ) : ℤ) (((rg c).length : ℕ) : ℤ))
      ((rg c).map (bcTo leadg lead))) (by omega) (by omega) (by rw [List.length_zipWith, lc]; simp)
  refine ⟨c, d, b1, a2, by omega, ?_, ?_, ?_⟩
  · intro k
    rw [a3]
    by_cases hk : k < (rf a).length
    · rw [if_pos ⟨by omega, hk⟩, if_pos hk, Nat.sub_zero, List.getElem?_map]
    · rw [if_neg (by omega), if_neg hk]
  · intro k p q hp hq
    have hk : k < (rg c).length := (List.getElem?_eq_some_iff.1 hq).1
    rw [b3, if_pos ⟨by omega, hk⟩, Nat.sub_zero, List.getElem?_zipWith, getSlice_get (by omega), Nat.zero_add, hp, List.getElem?_map, hq]
    rfl
  · intro k hk
    rw [b3, if_neg (by omega)]

/-- The ufunc of `f + g` and `f - g`. -/
def addU (sub : Bool) : Ufunc := if sub then .subtract else .add

/-- `+` or `-`. -/
def addOp (sub : Bool) : ℂ → ℂ → ℂ := if sub then (· - ·) else (· + ·)

section

variable {junk junk' : ℕ → ℝ} {w : World} {i j : ℕ} {f g : MObj} {out : OutArg} {r : ArrRef}

theorem addOut_core (sub : Bool) (hf : w.objs[i]? = some f) (hg : w.objs[j]? = some g) (hs : f.s = g.s) (hfw : (f.val w.heap).WF)
    (hgw : (g.val w.heap).WF) (hf0 : 0 ≤ f.ell_max) (hg0 : 0 ≤ g.ell_max) (hr : r.Valid w.heap) (ho : out.ref w = .ok (some r))
    {lead : List ℕ} (hb : bcastShape f.ref.lead g.ref.lead = some lead)
    (hbf : bcastShape f.ref.lead r.lead = some r.lead) (hbg : bcastShape g.ref.lead r.lead = some r.lead)
    (hlen : (r.len : ℤ) = (max f.ell_max g.ell_max + 1) ^ 2) {d : List Slice} (hd : d.length = r.len)
    (e : addSlices (addOp sub) r.lead f.ref.lead g.ref.lead f.ell_max g.ell_max
      (fun c => (w.heap.store r c).load f.ref) (fun c => (w.heap.store r c).load g.ref) (w.heap.load r) = .ok d) :
    ufuncCall junk junk' w (addU sub) [.modes i, .modes j] out false
      = .ok (w.outRes out r f.s (max f.ell_max g.ell_max) f.trunc (zeroPrefix (f.s ^ 2).toNat d)) := by
  have hlead : bcastLeads (f.val w.heap) (g.val w.heap) = .ok lead := by
    unfold bcastLeads
    rw [if_neg (by have := hfw.dat_ne_nil hf0; have := hgw.dat_ne_nil hg0; tauto)]
    change (match bcastShape f.ref.lead g.ref.lead with | some sh => _ | none => _) = _
    rw [hb]
  have key : ufuncAddModes w (addOp sub) f f g out
      = .ok (w.outRes out r f.s (max f.ell_max g.ell_max) f.trunc (zeroPrefix (f.s ^ 2).toNat d)) := by
    unfold ufuncAddModes
    rw [if_neg (not_not.2 hs)]
    simp only
    rw [hlead, bind_ok, ho, bind_ok]
    unfold ufuncTarget
    simp only
    rw [if_pos ⟨hbf, hbg⟩, bind_ok]
    simp only
    rw [e, bind_ok]
    exact ufuncFinish_out hr hd hlen f.trunc
  cases sub <;>
    simpa only [addU, addOp, ufuncCall, firstModes, arrayUfunc, Ufunc.nin, Ufunc.passed, Ufunc.supported, World.obj_ok hf, World.obj_ok hg, bind_ok, List.length_cons,
      List.length_nil, List.mem_cons, List.not_mem_nil, or_false, reduceCtorEq, true_or, or_true, not_true_eq_false, if_false, ne_eq,
      Bool.false_eq_true, if_true] using key

theorem zeroPrefix_mpos {d : List Slice} {s L ell m : ℤ} (hd : (d.length : ℤ) = (L + 1) ^ 2) (hm : |m| ≤ ell) (hl : ell ≤ L) {v : Slice}
    (hv : d[mpos ell m]? = some v) : (zeroPrefix (s ^ 2).toNat d)[mpos ell m]? = some fun x => if ell < |s| then 0 else v x := by
  have hlt := mpos_lt hm hl hd
  have lo := mpos_lo hm
  have hi := mpos_hi hm
  have n1 : 0 ≤ ell := (abs_nonneg m).trans hm
  rw [zeroPrefix_get hlt]
  by_cases h : ell < |s|
  · have := sq_le_of (show 0 ≤ ell + 1 by omega) (show ell + 1 ≤ |s| by omega)
    rw [sq_abs] at this
    rw [if_pos (by omega)]
    simp only [if_pos h]
  · have := sq_le_of (abs_nonneg s) (show |s| ≤ ell by omega)
    rw [sq_abs] at this
    rw [if_neg (by omega), hv]
    simp only [if_neg h]

/-- **C40, sums into other memory.**  `np.add(f, g, out=h)`, `np.subtract(f, g, out=h)` for an `h` (Modes or array) of the right size
that shares no memory with `f` and `g`: in `h` is `f ± g` for `ell ≤ ell_max_f`, but for `ell_max_f < ell ≤ ell_max_g` the old contents
of `h`, plus or minus `g`. -/
theorem C40_add_disjoint (sub : Bool) (hf : w.objs[i]? = some f) (hg : w.objs[j]? = some g) (hs : f.s = g.s) (hfw : (f.val w.heap).WF)
    (hgw : (g.val w.heap).WF) (hf0 : 0 ≤ f.ell_max) (hg0 : 0 ≤ g.ell_max) (hfv : f.ref.Valid w.heap) (hgv : g.ref.Valid w.heap)
    (hr : r.Valid w.heap) (ho : out.ref w = .ok (some r)) (hdf : r.Disjoint f.ref) (hdg : r.Disjoint g.ref)
    {lead : List ℕ} (hb : bcastShape f.ref.lead g.ref.lead = some lead)
    (hbf : bcastShape f.ref.lead r.lead = some r.lead) (hbg : bcastShape g.ref.lead r.lead = some r.lead)
    (hlen : (r.len : ℤ) = (max f.ell_max g.ell_max + 1) ^ 2) :
    ∃ vals, ufuncCall junk junk' w (addU sub) [.modes i, .modes j] out false
        = .ok (w.outRes out r f.s (max f.ell_max g.ell_max) f.trunc vals) ∧ vals.length = r.len ∧
      ∀ ell m, |f.s| ≤ ell → |m| ≤ ell → ell ≤ max f.ell_max g.ell_max → ∀ old, (w.heap.load r)[mpos ell m]? = some old →
        vals[mpos ell m]? = some fun x => addOp sub
          (if ell ≤ f.ell_max then (f.val w.heap).coefIn r.lead ell m x else old x)
          ((g.val w.heap).coefIn r.lead ell m x) := by
  have hl := load_length hr
  have rf : ∀ c : List Slice, c.length = r.len → (w.heap.store r c).load f.ref = w.heap.load f.ref :=
    fun c hc => load_store_disjoint hr hc hdf
  have rg : ∀ c : List Slice, c.length = r.len → (w.heap.store r c).load g.ref = w.heap.load g.ref :=
    fun c hc => load_store_disjoint hr hc hdg
  obtain ⟨c, d, e, hc, hd, h1, h2, h3⟩ := addSlices_out (op := addOp sub) (lead := r.lead) (leadf := f.ref.lead) (leadg := g.ref.lead)
    (Lf := f.ell_max) (Lg := g.ell_max) (M := max f.ell_max g.ell_max) (rf := fun c => (w.heap.store r c).load f.ref)
    (rg := fun c => (w.heap.store r c).load g.ref) (a := w.heap.load r) (by omega) (by omega) (le_max_left _ _) (le_max_right _ _)
    (by rw [hl]; exact hlen) (by rw [rf _ hl]; exact hfw.size) (fun c hc => by rw [rg c (by omega)]; exact hgw.size)
  rw [hl] at hc hd
  simp only [rf _ hl] at h1
  simp only [rg _ hc] at h2 h3
  refine ⟨_, addOut_core sub hf hg hs hfw hgw hf0 hg0 hr ho hb hbf hbg hlen hd e, by rw [zeroPrefix_length, hd], ?_⟩
  intro ell m k1 k2 k3 old hold
  have hcv : c[mpos ell m]? = some fun x => if ell ≤ f.ell_max then (f.val w.heap).coefIn r.lead ell m x else old x := by
    rw [h1]
    by_cases hk : ell ≤ f.ell_max
    · rw [if_pos (show mpos ell m < (w.heap.load f.ref).length from mpos_lt k2 hk hfw.size)]
      have := hfw.get k2 hk
      simp only [MObj.val] at this
      rw [this]
      simp only [hk, if_true]
      rfl
    · have lo := mpos_lo k2
      have := sq_le_of (show 0 ≤ f.ell_max + 1 by omega) (show f.ell_max + 1 ≤ ell by omega)
      have hsz := hfw.size
      simp only [MObj.val] at hsz
      rw [if_neg (by omega), hold]
      simp only [hk, if_false]
  have hdv : d[mpos ell m]? = some fun x => addOp sub
          (if ell ≤ f.ell_max then (f.val w.heap).coefIn r.lead ell m x else old x)
          ((g.val w.heap).coefIn r.lead ell m x) := by
    by_cases hk : ell ≤ g.ell_max
    · have := hgw.get k2 hk
      simp only [MObj.val] at this
      rw [h2 _ _ _ hcv this]
      rfl
    · have lo := mpos_lo k2
      have := sq_le_of (show 0 ≤ g.ell_max + 1 by omega) (show g.ell_max + 1 ≤ ell by omega)
      have hsz := hgw.size
      simp only [MObj.val] at hsz
      rw [h3 _ (by omega), hcv]
      congr 1
      funext x
      unfold Modes.coefIn
      rw [coef_of_gt hgw k2 (by simp only [MObj.val]; omega), bcTo_zero]
      cases sub <;> simp [addOp]
  rw [zeroPrefix_mpos (by rw [hd]; exact hlen) k2 k3 hdv]
  simp only [if_neg (show ¬ ell < |f.s| by omega)]

/-- **C40.**  `f += g`, `f -= g` (`np.add(f, g, out=f)`), with `ell_max_g ≤ ell_max_f` and the leading axes of `g` broadcasting to those
of `f`: correct. -/
theorem C40_iadd (sub : Bool) (hf : w.objs[i]? = some f) (hg : w.objs[j]? = some g) (hs : f.s = g.s) (hfw : (f.val w.heap).WF)
    (hgw : (g.val w.heap).WF) (hf0 : 0 ≤ f.ell_max) (hg0 : 0 ≤ g.ell_max) (hfv : f.ref.Valid w.heap) (hLg : g.ell_max ≤ f.ell_max)
    (hdg : f.ref.Disjoint g.ref ∨ g.ref = f.ref) (hb : bcastShape g.ref.lead f.ref.lead = some f.ref.lead) (hb' : bcastShape f.ref.lead g.ref.lead = some f.ref.lead)
    (hbf : bcastShape f.ref.lead f.ref.lead = some f.ref.lead) :
    ∃ vals, ufuncCall junk junk' w (addU sub) [.modes i, .modes j] (.modes i) false
        = .ok (w.outRes (.modes i) f.ref f.s f.ell_max f.trunc vals) ∧ vals.length = f.ref.len ∧
      (∀ ell m, |f.s| ≤ ell → |m| ≤ ell → ell ≤ f.ell_max →
        vals[mpos ell m]? = some fun x => addOp sub ((f.val w.heap).coefIn f.ref.lead ell m x) ((g.val w.heap).coefIn f.ref.lead ell m x)) ∧
      ∀ ell m, ell < |f.s| → |m| ≤ ell → ell ≤ f.ell_max → vals[mpos ell m]? = some fun _ => 0 := by
  have hl := load_length hfv
  have hmax : max f.ell_max g.ell_max = f.ell_max := max_eq_left hLg
  have hlen : (f.ref.len : ℤ) = (f.ell_max + 1) ^ 2 := by rw [← hl]; exact hfw.size
  have ho : OutArg.ref w (.modes i) = .ok (some f.ref) := by simp [OutArg.ref, World.obj_ok hf, bind_ok, pure, Except.pure]
  obtain ⟨c, d, e, hc, hd, h1, h2, h3⟩ := addSlices_out (op := addOp sub) (lead := f.ref.lead) (leadf := f.ref.lead) (leadg := g.ref.lead)
    (Lf := f.ell_max) (Lg := g.ell_max) (M := max f.ell_max g.ell_max) (rf := fun c => (w.heap.store f.ref c).load f.ref)
    (rg := fun c => (w.heap.store f.ref c).load g.ref) (a := w.heap.load f.ref) (by omega) (by omega) (le_max_left _ _) (le_max_right _ _)
    (by rw [hl, hmax]; exact hlen) (by rw [load_store_self hfv hl]; exact hfw.size) (fun c hc => by
      rcases hdg with h | h
      · rw [load_store_disjoint hfv (by omega) h]; exact hgw.size
      · rw [h, load_store_self hfv (by omega), hc]
        have := hgw.size
        simp only [MObj.val] at this
        rw [h] at this
        exact this)
  rw [hl] at hc hd
  simp only [load_store_self hfv hl] at h1
  have hca : c = w.heap.load f.ref := by
    apply List.ext_getElem?
    intro k
    rw [h1]
    split
    · have : bcTo f.ref.lead f.ref.lead = id := by funext v; simp [bcTo]
      rw [this]; simp
    · rfl
  have hrg : (w.heap.store f.ref c).load g.ref = w.heap.load g.ref := by rw [hca, store_load hfv]
  simp only [hrg] at h2 h3
  have e1 := addOut_core (junk := junk) (junk' := junk') sub hf hg hs hfw hgw hf0 hg0 hfv ho hb' hbf hb (by rw [hmax]; exact hlen) hd e
  rw [hmax] at e1
  have key : ∀ ell m, |m| ≤ ell → ell ≤ f.ell_max → (zeroPrefix (f.s ^ 2).toNat d)[mpos ell m]? = some fun x => if ell < |f.s| then 0 else
      addOp sub ((f.val w.heap).coefIn f.ref.lead ell m x) ((g.val w.heap).coefIn f.ref.lead ell m x) := by
   intro ell m k2 k3
   have hcv : c[mpos ell m]? = some ((f.val w.heap).coefIn f.ref.lead ell m) := by
     have := hfw.get k2 k3
     simp only [MObj.val] at this
     rw [hca, this]
     congr 1
     unfold Modes.coefIn
     funext x
     simp [bcTo, MObj.val]
   have hdv : d[mpos ell m]? = some fun x => addOp sub ((f.val w.heap).coefIn f.ref.lead ell m x) ((g.val w.heap).coefIn f.ref.lead ell m x) := by
     by_cases hk : ell ≤ g.ell_max
     · have := hgw.get k2 hk
       simp only [MObj.val] at this
       rw [h2 _ _ _ hcv this]
       rfl
     · have lo := mpos_lo k2
       have := sq_le_of (show 0 ≤ g.ell_max + 1 by omega) (show g.ell_max + 1 ≤ ell by omega)
       have hsz := hgw.size
       simp only [MObj.val] at hsz
       rw [h3 _ (by omega), hcv]
       congr 1
       funext x
       unfold Modes.coefIn
       rw [coef_of_gt hgw k2 (by simp only [MObj.val]; omega), bcTo_zero]
       cases sub <;> simp [addOp]
   exact zeroPrefix_mpos (by rw [hd]; exact hlen) k2 k3 hdv
  refine ⟨_, e1, by rw [zeroPrefix_length, hd], fun ell m k1 k2 k3 => ?_, fun ell m k1 k2 k3 => ?_⟩
  · rw [key ell m k2 k3]
    simp only [if_neg (show ¬ ell < |f.s| by omega)]
  · rw [key ell m k2 k3]
    simp only [if_pos k1]

/-- **C40 (defect).**  `np.add(f, g, out=g)` and `np.subtract(f, g, out=g)`, with `f`, `g` not sharing memory, `ell_max_f ≤ ell_max_g`:
the memory of `g` is overwritten by `f` before it is read.  The result is `f + f` resp. `f - f = 0` for `ell ≤ ell_max_f`, and `g + g` resp.
`0` above. -/
theorem C40_add_out_second (sub : Bool) (hf : w.objs[i]? = some f) (hg : w.objs[j]? = some g) (hs : f.s = g.s) (hfw : (f.val w.heap).WF)
    (hgw : (g.val w.heap).WF) (hf0 : 0 ≤ f.ell_max) (hg0 : 0 ≤ g.ell_max) (hgv : g.ref.Valid w.heap) (hLf : f.ell_max ≤ g.ell_max)
    (hd : g.ref.Disjoint f.ref) (hb : bcastShape f.ref.lead g.ref.lead = some g.ref.lead)
    (hbg : bcastShape g.ref.lead g.ref.lead = some g.ref.lead) :
    ∃ vals, ufuncCall junk junk' w (addU sub) [.modes i, .modes j] (.modes j) false
        = .ok (w.outRes (.modes j) g.ref g.s g.ell_max f.trunc vals) ∧ vals.length = g.ref.len ∧
      ∀ ell m, |f.s| ≤ ell → |m| ≤ ell → ell ≤ g.ell_max →
        vals[mpos ell m]? = some fun x => if ell ≤ f.ell_max
          then addOp sub ((f.val w.heap).coefIn g.ref.lead ell m x) ((f.val w.heap).coefIn g.ref.lead ell m x)
          else addOp sub ((g.val w.heap).coef ell m x) ((g.val w.heap).coef ell m x) := by
  have hl := load_length hgv
  have hmax : max f.ell_max g.ell_max = g.ell_max := max_eq_right hLf
  have hlen : (g.ref.len : ℤ) = (g.ell_max + 1) ^ 2 := by rw [← hl]; exact hgw.size
  have ho : OutArg.ref w (.modes j) = .ok (some g.ref) := by simp [OutArg.ref, World.obj_ok hg, bind_ok, pure, Except.pure]
  obtain ⟨c, d, e, hc, hd, h1, h2, h3⟩ := addSlices_out (op := addOp sub) (lead := g.ref.lead) (leadf := f.ref.lead) (leadg := g.ref.lead)
    (Lf := f.ell_max) (Lg := g.ell_max) (M := max f.ell_max g.ell_max) (rf := fun c => (w.heap.store g.ref c).load f.ref)
    (rg := fun c => (w.heap.store g.ref c).load g.ref) (a := w.heap.load g.ref) (by omega) (by omega) (le_max_left _ _) (le_max_right _ _)
    (by rw [hl, hmax]; exact hlen) (by rw [load_store_disjoint hgv hl hd]; exact hfw.size) (fun c hc => by
      rw [load_store_self hgv (by omega), hc, hl]; exact hlen)
  rw [hl] at hc hd
  simp only [load_store_disjoint hgv hl ‹_›] at h1
  simp only [load_store_self hgv hc] at h2 h3
  have e1 := addOut_core (junk := junk) (junk' := junk') sub hf hg hs hfw hgw hf0 hg0 hgv ho hb hb hbg (by rw [hmax]; exact hlen) hd e
  rw [hmax, hs] at e1
  refine ⟨_, e1, by rw [zeroPrefix_length, hd], fun ell m k1 k2 k3 => ?_⟩
  have hcv : c[mpos ell m]? = some fun x => if ell ≤ f.ell_max then (f.val w.heap).coefIn g.ref.lead ell m x else (g.val w.heap).coef ell m x := by
    rw [h1]
    by_cases hk : ell ≤ f.ell_max
    · rw [if_pos (show mpos ell m < (w.heap.load f.ref).length from mpos_lt k2 hk hfw.size)]
      have := hfw.get k2 hk
      simp only [MObj.val] at this
      rw [this]
      simp only [hk, if_true]
      rfl
    · have lo := mpos_lo k2
      have := sq_le_of (show 0 ≤ f.ell_max + 1 by omega) (show f.ell_max + 1 ≤ ell by omega)
      have hsz := hfw.size
      simp only [MObj.val] at hsz
      rw [if_neg (by omega)]
      have := hgw.get k2 k3
      simp only [MObj.val] at this
      rw [this]
      simp only [hk, if_false]
      rfl
  have hbc : bcTo g.ref.lead g.ref.lead = id := by funext v; simp [bcTo]
  have hdv := h2 _ _ _ hcv hcv
  rw [hbc] at hdv
  rw [zeroPrefix_mpos (by rw [hd]; exact hlen) k2 k3 hdv]
  congr 1
  funext x
  rw [if_neg (show ¬ ell < |g.s| by rw [← hs]; omega)]
  simp only [id]
  split <;> rfl

/-- **C40.**  Sums of Modes with an `out` of the wrong size never return. -/
theorem C40_add_size (sub : Bool) (hf : w.objs[i]? = some f) (hg : w.objs[j]? = some g) (hr : r.Valid w.heap) (ho : out.ref w = .ok (some r))
    (hlen : (r.len : ℤ) ≠ (max f.ell_max g.ell_max + 1) ^ 2) (res : World × URes) :
    ufuncCall junk junk' w (addU sub) [.modes i, .modes j] out false ≠ .ok res := by
  intro h
  have h' : ufuncAddModes w (addOp sub) f f g out = .ok res := by
    cases sub <;>
    simpa only [addU, addOp, ufuncCall, firstModes, arrayUfunc, Ufunc.nin, Ufunc.passed, Ufunc.supported, World.obj_ok hf, World.obj_ok hg, bind_ok, List.length_cons,
      List.length_nil, List.mem_cons, List.not_mem_nil, or_false, reduceCtorEq, true_or, or_true, not_true_eq_false, if_false, ne_eq,
      Bool.false_eq_true, if_true] using h
  unfold ufuncAddModes at h'
  split at h'
  · cases h'
  simp only at h'
  obtain ⟨_, -, h'⟩ := bind_eq_ok h'
  rw [ho, bind_ok] at h'
  unfold ufuncTarget at h'
  simp only at h'
  split at h'
  swap
  · cases h'
  rw [bind_ok] at h'
  simp only at h'
  obtain ⟨d, hd, h'⟩ := bind_eq_ok h'
  rw [ufuncFinish_size hr (by rw [addSlices_length hd, load_length hr]) hlen] at h'
  cases h'

/-! ## Products -/

theorem mulU_eq (hf : w.objs[i]? = some f) (hg : w.objs[j]? = some g) :
    ufuncCall junk junk' w .multiply [.modes i, .modes j] out false = ufuncMulModes junk junk' w f f g out := by
  simp only [ufuncCall, firstModes, arrayUfunc, Ufunc.nin, Ufunc.passed, Ufunc.supported, World.obj_ok hf, World.obj_ok hg, bind_ok, List.length_cons,
      List.length_nil, List.mem_cons, List.not_mem_nil, or_false, reduceCtorEq, true_or, or_true, not_true_eq_false, if_false, ne_eq,
      Bool.false_eq_true, if_true]

/-- **C40 (defect), products into other memory.**  `np.multiply(f, g, out=h)` for an `h` of the right size sharing no memory with `f` and
`g` adds the product to the old contents of `h` (or raises the ZeroDivisionError of C32). -/
theorem C40_mul_disjoint (hf : w.objs[i]? = some f) (hg : w.objs[j]? = some g) (hfw : (f.val w.heap).WF)
    (hgw : (g.val w.heap).WF) (hf0 : 0 ≤ f.ell_max) (hg0 : 0 ≤ g.ell_max) (hq : f.ell_max + g.ell_max ≤ 151)
    (hr : r.Valid w.heap) (ho : out.ref w = .ok (some r)) (hdf : r.Disjoint f.ref) (hdg : r.Disjoint g.ref)
    {lead : List ℕ} (hb : bcastShape f.ref.lead g.ref.lead = some lead)
    (hbf : bcastShape f.ref.lead r.lead = some r.lead) (hbg : bcastShape g.ref.lead r.lead = some r.lead)
    {L : ℤ} (hL : ProductEllMax (f.val w.heap) (g.val w.heap) none L) (hlen : (r.len : ℤ) = (L + 1) ^ 2) :
    (∃ vals, ufuncCall junk junk' w .multiply [.modes i, .modes j] out false = .ok (w.outRes out r (f.s + g.s) L f.trunc vals) ∧
      vals.length = r.len ∧
      ∀ ell m, |f.s + g.s| ≤ ell → |m| ≤ ell → ell ≤ L → ∀ old, (w.heap.load r)[mpos ell m]? = some old → ∃ v, vals[mpos ell m]? = some v ∧
        ∀ idx, ValidIdx r.lead idx → v idx = old idx
          + productMode f.s f.ell_max (fun l m => (f.val w.heap).coef l m (bcIdx f.ref.lead idx)) g.s g.ell_max
              (fun l m => (g.val w.heap).coef l m (bcIdx g.ref.lead idx)) ell m) ∨
    (ufuncCall junk junk' w .multiply [.modes i, .modes j] out false = .error .zeroDivision ∧ ProductZero (f.val w.heap) (g.val w.heap)) := by
  have hl := load_length hr
  have hlead : bcastLeads (f.val w.heap) (g.val w.heap) = .ok lead := by
    unfold bcastLeads
    rw [if_neg (by have := hfw.dat_ne_nil hf0; have := hgw.dat_ne_nil hg0; tauto)]
    change (match bcastShape f.ref.lead g.ref.lead with | some sh => _ | none => _) = _
    rw [hb]
  have hrd : ∀ h : MObj, (h.val w.heap).WF → r.Disjoint h.ref → ∀ c : List Slice, c.length = (w.heap.load r).length → ∀ l m, 0 ≤ l → l ≤ h.ell_max → |m| ≤ l →
      ∃ v, rd ((w.heap.store r c).load h.ref) (LM_index l m 0) = .ok v ∧ ∀ x, bcTo h.ref.lead r.lead v x = (h.val w.heap).coefIn r.lead l m x := by
    intro h hh hd c hc l m _ h2 h3
    rw [load_store_disjoint hr (by omega) hd]
    refine ⟨(h.val w.heap).coef l m, ?_, fun _ => rfl⟩
    have lo := mpos_lo h3
    have hm := abs_le.1 h3
    have : 0 ≤ LM_index l m 0 := by rw [LM_index_zero]; nlinarith
    exact rd_ok this (hh.get h3 h2)
  obtain ⟨a, b, ha, hb', rfl⟩ := hL
  have tc : ∀ (h : Modes) (v : ℤ), (match h.trunc with
      | .absent => some ((f.val w.heap).ell_max + (g.val w.heap).ell_max)
      | .fn t => some (t (f.val w.heap).ell_max (g.val w.heap).ell_max)
      | .isNone => none) = some v → h.trunc.call f.ell_max g.ell_max = .ok v := by
    intro h v hv
    cases ht : h.trunc <;> rw [ht] at hv <;> simp_all [TruncKey.call, MObj.val]
  have ta := tc (f.val w.heap) a ha
  have tb := tc (g.val w.heap) b hb'
  simp only [MObj.val] at ta tb
  rw [mulU_eq hf hg]
  unfold ufuncMulModes
  simp only
  rw [ta, bind_ok, tb, bind_ok, hlead, bind_ok, ho, bind_ok]
  unfold ufuncTarget
  simp only
  rw [if_pos ⟨hbf, hbg⟩, bind_ok]
  simp only
  rcases mulHelper_spec (junk := junk) (junk' := junk') (leadf := f.ref.lead) (leadg := g.ref.lead) (lead := r.lead) (fg := w.heap.load r) (L := max a b) (s_f := f.s) (s_g := g.s)
    (ellmax_f := f.ell_max) (ellmax_g := g.ell_max) le_rfl le_rfl (by omega) (by omega) (by omega) hq
    (fun c hc => hrd f hfw hdf c hc) (fun c hc => hrd g hgw hdg c hc) (by rw [hl]; exact hlen) with ⟨d, e, k2, k3⟩ | ⟨er, he, h1, h2⟩
  · left
    have hd : d.length = r.len := by rw [k2, hl]
    rw [e, bind_ok, ufuncFinish_out hr hd hlen]
    refine ⟨_, rfl, by rw [zeroPrefix_length, hd], fun ell m h1 h2 h3 old hold => ?_⟩
    refine ⟨_, zeroPrefix_mpos (by rw [hd]; exact hlen) h2 h3 (k3 ell m h2 h3 old hold), fun idx hv => ?_⟩
    rw [if_neg (by omega), mulSum_eq _ _ h3 h2]
    unfold Modes.coefIn
    simp only [bcTo_valid _ hv]
    rfl
  · right
    rw [he, h1]
    exact ⟨rfl, h2⟩

/-- **C40 (defect).**  Products of Modes with an `out` of the wrong size never return. -/
theorem C40_mul_size (hf : w.objs[i]? = some f) (hg : w.objs[j]? = some g) (hr : r.Valid w.heap) (ho : out.ref w = .ok (some r))
    (hlen : ∀ L, ProductEllMax (f.val w.heap) (g.val w.heap) none L → (r.len : ℤ) ≠ (L + 1) ^ 2) (res : World × URes) :
    ufuncCall junk junk' w .multiply [.modes i, .modes j] out false ≠ .ok res := by
  intro h
  rw [mulU_eq hf hg] at h
  unfold ufuncMulModes at h
  simp only at h
  obtain ⟨a, ha, h⟩ := bind_eq_ok h
  obtain ⟨b, hb, h⟩ := bind_eq_ok h
  obtain ⟨_, -, h⟩ := bind_eq_ok h
  rw [ho, bind_ok] at h
  unfold ufuncTarget at h
  simp only at h
  split at h
  swap
  · cases h
  rw [bind_ok] at h
  simp only at h
  obtain ⟨d, hd, h⟩ := bind_eq_ok h
  rw [ufuncFinish_size hr (by rw [mulHelper_length hd, load_length hr]) (hlen (max a b) ?_)] at h
  · cases h
  · refine ⟨a, b, ?_, ?_, rfl⟩
    · simp only [MObj.val]
      cases ht : f.trunc <;> rw [ht] at ha <;> simp_all [TruncKey.call]
    · simp only [MObj.val]
      cases ht : g.trunc <;> rw [ht] at hb <;> simp_all [TruncKey.call]

/-- **C40 (defect).**  `f *= g` with the default truncators never returns for a `g` with `ell_max ≥ 1`. -/
theorem C40_imul_fails (hf : w.objs[i]? = some f) (hg : w.objs[j]? = some g) (hfv : f.ref.Valid w.heap) (hfw : (f.val w.heap).WF)
    (hft : f.trunc = .absent) (hgt : g.trunc = .absent) (hg1 : 1 ≤ g.ell_max) (res : World × URes) :
    ufuncCall junk junk' w .multiply [.modes i, .modes j] (.modes i) false ≠ .ok res := by
  refine C40_mul_size hf hg hfv (by simp [OutArg.ref, World.obj_ok hf, bind_ok, pure, Except.pure]) (fun L hL => ?_) res
  rw [C32_default_ell_max hft hgt] at hL
  have h1 := hfw.size
  have h2 := hfw.ell_max_ge
  simp only [MObj.val] at h1 h2 hL
  rw [load_length hfv] at h1
  rw [h1, hL]
  nlinarith

/-! ## Numbers and arrays -/

/-- **C40 (defect).**  `f *= a`, `f /= a`, `f += 0`, `f -= 0`, and all ufuncs of a Modes object and a number or array with a Modes
object as `out`, fail: the result never returns, and for operands that are accepted without `out` the exception is TypeError. -/
theorem C40_scalar_out_fails (u : Ufunc) (hu : u = .add ∨ u = .subtract ∨ u = .multiply ∨ u = .divide) (hf : w.objs[i]? = some f) (a : Scalars) (k : ℕ) :
    (∀ res, ufuncCall junk junk' w u [.modes i, .arr a] (.modes k) false ≠ .ok res) ∧
    ((f.val w.heap).check_broadcasting a = .ok true → ufuncCall junk junk' w u [.modes i, .arr a] (.modes k) false = .error .typeError) := by
  have key : ∀ op, (∀ res, ufuncScalar w op f f a (.modes k) ≠ .ok res) ∧
      ((f.val w.heap).check_broadcasting a = .ok true → ufuncScalar w op f f a (.modes k) = .error .typeError) := by
    intro op
    unfold ufuncScalar
    cases (f.val w.heap).check_broadcasting a with
    | error _ => exact ⟨fun res h => (by cases h), fun h => (by cases h)⟩
    | ok b => cases b <;> exact ⟨fun res h => (by cases h), fun h => (by first | rfl | cases h)⟩
  rcases hu with rfl | rfl | rfl | rfl <;>
    simp only [ufuncCall, firstModes, arrayUfunc, Ufunc.nin, Ufunc.passed, Ufunc.supported, World.obj_ok hf, bind_ok, List.length_cons,
      List.length_nil, List.mem_cons, List.not_mem_nil, or_false, reduceCtorEq, true_or, or_true, not_true_eq_false, if_false, ne_eq,
      Bool.false_eq_true, if_true]
  · cases a.any with
    | true => exact ⟨fun res h => (by cases h), fun _ => rfl⟩
    | false => exact key (· + ·)
  · cases a.any with
    | true => exact ⟨fun res h => (by cases h), fun _ => rfl⟩
    | false => exact key (· - ·)
  · exact key (· * ·)
  · exact key (· / ·)

/-! ## Signs -/

/-- **C40 (defect).**  `np.negative(a, out=f)` for a plain array or number `a` ignores `a` and negates the modes of `f`. -/
theorem C40_negative_plain (hf : w.objs[i]? = some f) (hfw : (f.val w.heap).WF) (hfv : f.ref.Valid w.heap)
    (hbf : bcastShape f.ref.lead f.ref.lead = some f.ref.lead) (a : Scalars) :
    ∃ vals, ufuncCall junk junk' w .negative [.arr a] (.modes i) false = .ok (w.outRes (.modes i) f.ref f.s f.ell_max f.trunc vals) ∧
      vals.length = f.ref.len ∧
      ∀ ell m, |f.s| ≤ ell → |m| ≤ ell → ell ≤ f.ell_max → vals[mpos ell m]? = some fun x => -(f.val w.heap).coef ell m x := by
  have hl := load_length hfv
  have hlen : (f.ref.len : ℤ) = (f.ell_max + 1) ^ 2 := by rw [← hl]; exact hfw.size
  have hbc : bcTo f.ref.lead f.ref.lead = id := by funext v; simp [bcTo]
  set d : List Slice := (w.heap.load f.ref).map fun v x => -v x with hd
  have hdl : d.length = f.ref.len := by rw [hd, List.length_map, hl]
  refine ⟨zeroPrefix (f.s ^ 2).toNat d, ?_, by rw [zeroPrefix_length, hdl], ?_⟩
  · simp only [ufuncCall, firstModes, arrayUfunc, Ufunc.nin, Ufunc.passed, Ufunc.supported, World.obj_ok hf, bind_ok, List.length_cons,
      List.length_nil, List.mem_cons, List.not_mem_nil, or_false, reduceCtorEq, true_or, or_true, not_true_eq_false, if_false, ne_eq,
      Bool.false_eq_true, if_true]
    unfold ufuncSign
    simp only [OutArg.ref, World.obj_ok hf, bind_ok, pure, Except.pure, ufuncResult, bcInto]
    rw [← hd, hbf, if_neg (by simp), if_pos hdl, bind_ok, hbc, List.map_id, bind_ok]
    exact ufuncFinish_out hfv hdl hlen f.trunc
  · intro ell m k1 k2 k3
    have := hfw.get k2 k3
    simp only [MObj.val] at this
    have hdv : d[mpos ell m]? = some fun x => -(f.val w.heap).coef ell m x := by
      rw [hd, List.getElem?_map, this]
      rfl
    rw [zeroPrefix_mpos (by rw [hdl]; exact hlen) k2 k3 hdv]
    simp only [if_neg (show ¬ ell < |f.s| by omega)]

end

/-! ## Examples -/

/-- Memory of two arrays. -/
def exHeap : Heap := [[fun _ => 1, fun _ => 2, fun _ => 3, fun _ => 4], [fun _ => 10, fun _ => 20, fun _ => 30, fun _ => 40]]

/-- Two Modes objects with `s = 0`, `ell_max = 1`. -/
def exObj (b : ℕ) : MObj := ⟨⟨b, [], 0, 4⟩, 0, 1, .absent⟩

/-- The state with these two. -/
def exWorld : World := ⟨exHeap, [exObj 0, exObj 1]⟩

theorem exObj_valid {b : ℕ} (hb : b < 2) : (exObj b).ref.Valid exHeap := by
  obtain rfl | rfl : b = 0 ∨ b = 1 := by omega
  · exact ⟨_, rfl, by simp [exObj]⟩
  · exact ⟨_, rfl, by simp [exObj]⟩

theorem exObj_wf {b : ℕ} (hb : b < 2) : ((exObj b).val exHeap).WF := by
  refine ⟨by simp [exObj, MObj.val], ?_, ?_⟩
  · have := load_length (exObj_valid hb)
    simp only [MObj.val]
    rw [this]
    simp [exObj]
  · intro ell m h1 h2 h3
    have := abs_nonneg m
    simp only [exObj, MObj.val, abs_zero] at h1
    omega

theorem construct_same {h : Heap} {r : ArrRef} (hr : r.Valid h) {s L : ℤ} (hL : (r.len : ℤ) = (L + 1) ^ 2) {vals : List Slice}
    (hz : zeroPrefix (s ^ 2).toNat (h.load r) = vals) :
    newH h r {} [] ⟨some s, none, some L, .absent⟩ = .ok (h.store r vals, ⟨r, s, L, .absent⟩) := by
  rw [newH_eq hr]
  have := remake_eq ⟨[], 0, 0, .absent, []⟩ r.lead (h.load r) s L
  rw [if_neg (by rw [load_length hr]; simpa using hL), hz] at this
  unfold Modes.remake at this
  simp only at this
  rw [this]
  simp [Except.map, ctorEllMin]

theorem zeroPrefix_zero (a : List Slice) : zeroPrefix ((0 : ℤ) ^ 2).toNat a = a := by simp [zeroPrefix]

/-- The example state is reachable. -/
theorem exWorld_reachable (junk junk' : ℕ → ℝ) : Reachable junk junk' exWorld := by
  have h1 : Reachable junk junk' ⟨[[fun _ => 1, fun _ => 2, fun _ => 3, fun _ => 4]], []⟩ :=
    .step .start (.array ⟨[], []⟩ [] [fun _ => 1, fun _ => 2, fun _ => 3, fun _ => 4])
  have h2 : Reachable junk junk' ⟨[[fun _ => 1, fun _ => 2, fun _ => 3, fun _ => 4]], [exObj 0]⟩ := by
    have hv : (exObj 0).ref.Valid [[fun _ => 1, fun _ => 2, fun _ => 3, fun _ => 4]] := ⟨_, rfl, by simp [exObj]⟩
    refine .step h1 (PyStep.construct _ (exObj 0).ref hv rfl [] ⟨some 0, none, some 1, .absent⟩ _ _ ?_)
    rw [construct_same hv (by simp [exObj]) (zeroPrefix_zero _), store_load hv]
    rfl
  have h3 : Reachable junk junk' ⟨exHeap, [exObj 0]⟩ :=
    .step h2 (.array ⟨[[fun _ => 1, fun _ => 2, fun _ => 3, fun _ => 4]], [exObj 0]⟩ [] [fun _ => 10, fun _ => 20, fun _ => 30, fun _ => 40])
  have hv := exObj_valid (b := 1) (by omega)
  refine .step h3 (PyStep.construct _ (exObj 1).ref hv rfl [] ⟨some 0, none, some 1, .absent⟩ _ _ ?_)
  rw [construct_same hv (by simp [exObj]) (zeroPrefix_zero _), store_load hv]
  rfl

/-- Non-vacuity of C24 and C25: `Modes(a, 1)` of the array of an existing Modes object with `s = 0` is reachable, and the `(0, 0)` mode of
the old object, which was 1, is then 0. -/
example (junk junk' : ℕ → ℝ) : ∃ (h : Heap) (o : MObj), newH exWorld.heap (exObj 0).ref {} [] ⟨some 1, none, some 1, .absent⟩ = .ok (h, o)
    ∧ Reachable junk junk' ⟨h, exWorld.objs ++ [o]⟩ ∧ ((exObj 0).val exWorld.heap).coef 0 0 [] = 1 ∧ ((exObj 0).val h).coef 0 0 [] = 0
    ∧ ((exObj 0).val h).coef 1 0 [] = 3 := by
  have hv := exObj_valid (b := 0) (by omega)
  have e := construct_same hv (s := 1) (L := 1) (by simp [exObj]) rfl
  refine ⟨_, _, e, .step (exWorld_reachable junk junk') (.construct _ _ hv rfl _ _ _ _ e), ?_, ?_, ?_⟩ <;>
    simp [exObj, MObj.val, Modes.coef, exWorld, exHeap, Heap.load, Heap.store, zeroPrefix, mpos, LM_index, LM_total_size]

/-- Non-vacuity of C40 (defect): for the example objects, `np.add(f, g, out=g)` leaves `2 * 3` in the mode `(1, 0)` of `g`, where `f + g` is
`3 + 30`. -/
example (junk junk' : ℕ → ℝ) : ∃ (w' : World) (o : MObj) (res : URes),
    ufuncCall junk junk' exWorld .add [.modes 0, .modes 1] (.modes 1) false = .ok (w', res)
    ∧ w'.objs[1]? = some o ∧ (o.val w'.heap).coef 1 0 [] = 3 + 3
    ∧ ((exObj 0).val exHeap).coef 1 0 [] + ((exObj 1).val exHeap).coef 1 0 [] = 3 + 30 := by
  obtain ⟨vals, e, hl, h⟩ := C40_add_out_second (junk := junk) (junk' := junk') (w := exWorld) (i := 0) (j := 1) (f := exObj 0) (g := exObj 1) false rfl rfl rfl
    (exObj_wf (by omega)) (exObj_wf (by omega)) (by simp [exObj]) (by simp [exObj]) (exObj_valid (by omega)) le_rfl (.inl (by simp [exObj]))
    rfl rfl
  have ho : OutArg.ref exWorld (.modes 1) = .ok (some (exObj 1).ref) := rfl
  obtain ⟨-, -, -, h4⟩ := outRes_spec (w := exWorld) (exObj_valid (b := 1) (by omega)) ho hl (exObj 1).s (exObj 1).ell_max (exObj 0).trunc
  obtain ⟨o, h5, h6⟩ := h4 1 rfl
  have hc : ((exObj 0).val exHeap).coef 1 0 [] = 3 ∧ ((exObj 1).val exHeap).coef 1 0 [] = 30 := by
    constructor <;> simp [exObj, MObj.val, Modes.coef, exHeap, Heap.load, mpos, LM_index, LM_total_size]
  refine ⟨_, o, _, e, h5, ?_, by rw [hc.1, hc.2]⟩
  refine (congrArg (fun M : Modes => M.coef 1 0 []) h6).trans ?_
  have := h 1 0 (by simp [exObj]) (by simp) (by simp [exObj])
  rw [coef_of_get (f := ⟨(exObj 1).ref.lead, (exObj 1).s, (exObj 1).ell_max, (exObj 0).trunc, vals⟩) this]
  simp only
  rw [if_pos (by simp [exObj])]
  simp only [addOp, Modes.coefIn, Bool.false_eq_true, if_false]
  have : bcTo ((exObj 0).val exWorld.heap).lead (exObj 1).ref.lead = id := by funext v; simp [bcTo, exObj, MObj.val]
  rw [this]
  exact congrArg₂ (· + ·) hc.1 hc.1

/-- Memory of one array. -/
def exHeap10 : Heap := [[fun _ => 0, fun _ => 0, fun _ => 0, fun _ => 0, fun _ => 1, fun _ => 0, fun _ => 0, fun _ => 0, fun _ => 0, fun _ => 0]]

/-- **C25 (limit).**  Objects made from views that do not start at the same slot (`A = Modes(a[..., 0:9], s=2)`,
`B = Modes(a[..., 1:10], s=0)`) do not keep the property: `B.conjugate(inplace=True)` puts a nonzero number into a slot of `A` with
`ell < |s|`.  (The step `construct` therefore asks for `off = 0`.) -/
theorem C25_misaligned_views : ∃ (A B : MObj) (g : Modes),
    newH exHeap10 ⟨0, [], 0, 9⟩ {} [] ⟨some 2, none, some 2, .absent⟩ = .ok (exHeap10, A)
    ∧ newH exHeap10 ⟨0, [], 1, 9⟩ {} [] ⟨some 0, none, some 2, .absent⟩ = .ok (exHeap10, B)
    ∧ (B.val exHeap10).conjugate true = .ok g ∧ A.s = 2 ∧ ((A.val (exHeap10.store B.ref g.dat)).coef 1 0 []) ≠ 0 := by
  have hA : (⟨0, [], 0, 9⟩ : ArrRef).Valid exHeap10 := ⟨_, rfl, by simp⟩
  have hB : (⟨0, [], 1, 9⟩ : ArrRef).Valid exHeap10 := ⟨_, rfl, by simp⟩
  set B : MObj := ⟨⟨0, [], 1, 9⟩, 0, 2, .absent⟩ with hBdef
  have eA := construct_same hA (s := 2) (L := 2) (by norm_num) (vals := exHeap10.load ⟨0, [], 0, 9⟩)
    (by simp [zeroPrefix, exHeap10, Heap.load, List.replicate])
  have eB := construct_same hB (s := 0) (L := 2) (by norm_num) (zeroPrefix_zero _)
  rw [store_load hA] at eA
  rw [store_load hB] at eB
  have hBw : (B.val exHeap10).WF := by
    refine ⟨by simp [B, MObj.val], ?_, ?_⟩
    · have := load_length hB
      simp only [MObj.val, B]
      rw [this]
      norm_num
    · intro ell m h1 h2 h3
      have := abs_nonneg m
      simp only [B, MObj.val, abs_zero] at h1
      omega
  obtain ⟨g, e, hg⟩ := conjugate_ok hBw true
  refine ⟨_, B, g, eA, eB, e, rfl, ?_⟩
  have hlen : g.dat.length = 9 := by
    have := hg.wf.size
    rw [hg.hL] at this
    simp only [B, MObj.val] at this
    omega
  have hc := hg.coef 1 (-1) (by simp [B, MObj.val]) (by simp) (by simp [B, MObj.val])
  have hget : g.dat[1]? = some (g.coef 1 (-1)) := by
    have := hg.wf.get (ell := 1) (m := -1) (by simp) (by rw [hg.hL]; simp [B, MObj.val])
    simpa [mpos, LM_index, LM_total_size] using this
  have hB1 : (B.val exHeap10).coef 1 1 [] = 1 := by
    simp [B, MObj.val, Modes.coef, exHeap10, Heap.load, mpos, LM_index, LM_total_size]
  have hslot : ((exHeap10.store B.ref g.dat).load ⟨0, [], 0, 9⟩)[2]? = some (g.coef 1 (-1)) := by
    rw [slot_load, if_pos (by norm_num), slot_store (r := B.ref) hB (by rw [hlen]), if_pos (by simp [B]), ← hget]
    rfl
  have : (MObj.val ⟨⟨0, [], 0, 9⟩, 2, 2, .absent⟩ (exHeap10.store B.ref g.dat)).coef 1 0 = g.coef 1 (-1) := by
    apply coef_of_get
    simp only [MObj.val]
    rw [← hslot]
    congr 1
  rw [this, hc]
  simp only [neg_neg, hB1]
  simp [B, MObj.val]

end SF
