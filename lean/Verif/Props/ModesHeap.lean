import Verif.Lemmas.ModesUfunc

/-!
# Properties C24, C25, C39, C40: memory behind `Modes` objects

The semantics of programs (`PyStep`, `Reachable`), the heap and `__array_ufunc__` are in `Verif.Model.ModesHeap`.
-/

set_option autoImplicit false

namespace SF

open ComplexConjugate

/-! ## C24: the constructor and the caller's array -/

/-- **C24.**  `Modes(arr, ...)` (plain `arr`) without `ell_min`, or with `ell_min = 0`, returns an object whose memory is that of
`arr`.  The caller's array changes: all its slots with `ell < |s|` (the first `s²`) become 0, the others stay; nothing else
in the memory changes. -/
theorem C24_view_zeroes_caller {h : Heap} {r : ArrRef} (hr : r.Valid h) {args : List ℤ} {kw : Kw} (h0 : ctorEllMin args kw = 0)
    {h' : Heap} {o : MObj} (e : newH h r {} args kw = .ok (h', o)) :
    o.ref = r
    ∧ (∀ k : ℕ, k < r.len → (h'.load r)[k]? = if (k : ℤ) < o.s ^ 2 then some (fun _ => 0) else (h.load r)[k]?)
    ∧ (∀ r' : ArrRef, r.Disjoint r' → h'.load r' = h.load r') := by
  rw [newH_eq hr] at e
  cases hn : Modes.new (.array r.lead (h.load r)) {} args kw with
  | error _ => rw [hn] at e; cases e
  | ok f =>
    rw [hn] at e
    simp only [Except.map, if_pos h0] at e
    injection e with e
    injection e with e1 e2
    subst e1 e2
    have hz := (new_zero hn h0).2
    have hlen : f.dat.length = r.len := by rw [hz, zeroPrefix_length, load_length hr]
    refine ⟨rfl, fun k hk => ?_, fun r' hd => load_store_disjoint hr hlen hd⟩
    rw [load_store_self hr hlen, hz, zeroPrefix_get (by rw [load_length hr]; exact hk)]
    have := sq_nonneg f.s
    simp only [show k < (f.s ^ 2).toNat ↔ (k : ℤ) < f.s ^ 2 by omega]

/-- **C24.**  With `ell_min ≠ 0` the object has memory of its own and the caller's array (like all memory) is unchanged. -/
theorem C24_copy {h : Heap} {r : ArrRef} (hr : r.Valid h) {args : List ℤ} {kw : Kw} (h0 : ctorEllMin args kw ≠ 0)
    {h' : Heap} {o : MObj} (e : newH h r {} args kw = .ok (h', o)) :
    o.ref.buf ≠ r.buf ∧ ∀ r' : ArrRef, r'.Valid h → h'.load r' = h.load r' := by
  rw [newH_eq hr] at e
  cases hn : Modes.new (.array r.lead (h.load r)) {} args kw with
  | error _ => rw [hn] at e; cases e
  | ok f =>
    rw [hn] at e
    simp only [Except.map, if_neg h0] at e
    injection e with e
    injection e with e1 e2
    subst e1 e2
    have := valid_lt hr
    refine ⟨by simp only [Heap.alloc]; omega, fun r' hr' => load_alloc_old hr' _ _⟩

/-! ## C25: closure -/

/-- What every reachable state satisfies: each object starts at the beginning of a buffer, has `(ell_max+1)²` modes, and
zeros in every slot with `ell < |s|` (the first `s²` slots). -/
structure World.Good (w : World) : Prop where
  valid : w.Valid
  off : ∀ o ∈ w.objs, o.ref.off = 0
  inv : ∀ o ∈ w.objs, (o.val w.heap).Inv

theorem World.Good.append {w : World} (hw : w.Good) {o : MObj} (h1 : o.ref.Valid w.heap) (h2 : o.ref.off = 0) (h3 : (o.val w.heap).Inv) :
    World.Good ⟨w.heap, w.objs ++ [o]⟩ := by
  constructor <;> intro o' ho' <;> rw [List.mem_append, List.mem_singleton] at ho'
  · rcases ho' with h | rfl
    · exact hw.valid _ h
    · exact h1
  · rcases ho' with h | rfl
    · exact hw.off _ h
    · exact h2
  · rcases ho' with h | rfl
    · exact hw.inv _ h
    · exact h3

theorem World.Good.alloc {w : World} (hw : w.Good) (lead : List ℕ) (dat : List Slice) : World.Good ⟨(w.heap.alloc lead dat).1, w.objs⟩ := by
  refine ⟨fun o ho => valid_alloc_old (hw.valid o ho) lead dat, hw.off, fun o ho => ?_⟩
  have := hw.inv o ho
  unfold MObj.val at this ⊢
  simp only at this ⊢
  rw [load_alloc_old (hw.valid o ho)]
  exact this

theorem World.Good.push {w : World} (hw : w.Good) {f : Modes} (hf : f.Inv) : (w.push f).Good := by
  refine (hw.alloc f.lead f.dat).append (valid_alloc_new _ _ _) rfl ?_
  have e := load_alloc_new w.heap f.lead f.dat
  refine ⟨?_, ?_⟩
  · change (((w.heap.alloc f.lead f.dat).1.load (w.heap.alloc f.lead f.dat).2).length : ℤ) = _
    rw [e]; exact hf.size
  · intro k h1 h2
    change ((w.heap.alloc f.lead f.dat).1.load (w.heap.alloc f.lead f.dat).2)[k]? = _
    change k < ((w.heap.alloc f.lead f.dat).1.load (w.heap.alloc f.lead f.dat).2).length at h2
    rw [e] at h2 ⊢
    exact hf.low k h1 h2

/-- Adding zeros anywhere, with the same shape, keeps the property. -/
theorem Modes.Inv.of_zeros {f g : Modes} (hf : f.Inv) (hs : g.s = f.s ∨ g.s = -f.s) (hL : g.ell_max = f.ell_max) (hlen : g.dat.length = f.dat.length)
    (h : ∀ k : ℕ, g.dat[k]? = f.dat[k]? ∨ g.dat[k]? = some fun _ => 0) : g.Inv := by
  refine ⟨by rw [hlen, hL]; exact hf.size, fun k h1 h2 => ?_⟩
  have h1 : (k : ℤ) < f.s ^ 2 := by
    rcases hs with e | e <;> rw [e] at h1
    · exact h1
    · rwa [neg_sq] at h1
  rcases h k with e | e
  · rw [e]; exact hf.low k h1 (by omega)
  · exact e

theorem World.Good.store {w : World} (hw : w.Good) {r : ArrRef} (hr : r.Valid w.heap) {vals : List Slice} (hv : vals.length = r.len)
    (h : ∀ o ∈ w.objs, (o.val (w.heap.store r vals)).Inv) : World.Good ⟨w.heap.store r vals, w.objs⟩ :=
  ⟨fun o ho => valid_store hr hv (hw.valid o ho), hw.off, h⟩

/-- The constructor keeps the property of all objects, those sharing the array included. -/
theorem World.Good.new {w : World} (hw : w.Good) {r : ArrRef} (hr : r.Valid w.heap) (h0 : r.off = 0) {inMeta : Kw} {args : List ℤ} {kw : Kw}
    {h : Heap} {o : MObj} (e : newH w.heap r inMeta args kw = .ok (h, o)) : World.Good ⟨h, w.objs ++ [o]⟩ := by
  rw [newH_eq hr] at e
  cases hn : Modes.new (.array r.lead (w.heap.load r)) inMeta args kw with
  | error _ => rw [hn] at e; cases e
  | ok f =>
    rw [hn] at e
    simp only [Except.map] at e
    by_cases hm : ctorEllMin args kw = 0
    · rw [if_pos hm] at e
      injection e with e
      injection e with e1 e2
      subst e1 e2
      obtain ⟨hl, hz⟩ := new_zero hn hm
      have hlen : f.dat.length = r.len := by rw [hz, zeroPrefix_length, load_length hr]
      have hst := hw.store hr hlen fun o ho => (hw.inv o ho).of_zeros (g := o.val (w.heap.store r f.dat)) (.inl rfl) rfl
        (by simp only [MObj.val]; rw [load_length (valid_store hr hlen (hw.valid o ho)), load_length (hw.valid o ho)])
        (fun k => by
          simp only [MObj.val]
          rw [slot_load, slot_load]
          split
          · rw [slot_store hr hlen]
            split
            · rename_i hc
              obtain ⟨hb, h1, h2⟩ := hc
              rw [hz, zeroPrefix_get (by rw [load_length hr]; omega)]
              split
              · exact .inr rfl
              · rw [slot_load, if_pos (by omega), hb]
                exact .inl (by congr 1; omega)
            · exact .inl rfl
          · exact .inl rfl)
      refine hst.append (valid_store hr hlen hr) h0 ?_
      have hi := new_inv hn
      have e := load_store_self hr hlen
      refine ⟨?_, fun k h1 h2 => ?_⟩
      · simp only [MObj.val]; rw [e]; exact hi.size
      · simp only [MObj.val] at h2 ⊢
        rw [e] at h2 ⊢
        exact hi.low k h1 h2
    · rw [if_neg hm] at e
      injection e with e
      injection e with e1 e2
      subst e1 e2
      exact hw.push (new_inv hn)

/-- Working in place on one object keeps the property of all objects sharing its memory. -/
theorem World.Good.inplace {w : World} (hw : w.Good) {i : ℕ} {f : MObj} (hf : w.objs[i]? = some f) {op : MethodIn} {g : Modes}
    (e : op.run (f.val w.heap) = .ok g) : World.Good ⟨w.heap.store f.ref g.dat, w.objs.set i { f with s := g.s }⟩ := by
  have hmem := List.mem_of_getElem? hf
  have hr := hw.valid f hmem
  have hg := MethodIn.run_spec (hw.inv f hmem) e
  have hlen : g.dat.length = f.ref.len := by rw [hg.len]; exact load_length hr
  have key : ∀ o ∈ w.objs, (o.val (w.heap.store f.ref g.dat)).Inv := by
    intro o ho
    have hv := hw.valid o ho
    have hi := hw.inv o ho
    have hl : (w.heap.load o.ref).length = o.ref.len := load_length hv
    have hl' := load_length (valid_store hr hlen hv)
    have hsz := hi.size
    simp only [MObj.val] at hsz
    rw [hl] at hsz
    refine ⟨by simp only [MObj.val]; rw [hl']; exact hsz, fun k h1 h2 => ?_⟩
    simp only [MObj.val] at h1 h2 ⊢
    rw [hl'] at h2
    have old : ∀ k : ℕ, (k : ℤ) < o.s ^ 2 → k < o.ref.len → w.heap.slot o.ref.buf k = some fun _ => 0 := by
      intro k h1 h2
      have := hi.low k h1 (by simp only [MObj.val]; rw [hl]; exact h2)
      simp only [MObj.val] at this
      rw [slot_load, if_pos h2, hw.off o ho, Nat.zero_add] at this
      exact this
    rw [slot_load, if_pos h2, hw.off o ho, Nat.zero_add, slot_store hr hlen]
    split
    · rename_i hc
      rw [hw.off f hmem] at hc ⊢
      simp only [MObj.val] at hg
      have hlf : (w.heap.load f.ref).length = f.ref.len := load_length hr
      set n := min o.s.natAbs (o.ell_max + 1).natAbs with hn
      have hn2 : ∀ k : ℕ, k < n ^ 2 ↔ (k : ℤ) < o.s ^ 2 ∧ k < o.ref.len := by
        intro k
        have e1 : ((o.s.natAbs ^ 2 : ℕ) : ℤ) = o.s ^ 2 := by push_cast; exact sq_abs _
        have e2 : (((o.ell_max + 1).natAbs ^ 2 : ℕ) : ℤ) = (o.ell_max + 1) ^ 2 := by push_cast; exact sq_abs _
        rcases le_total o.s.natAbs (o.ell_max + 1).natAbs with hle | hle
        · have := Nat.pow_le_pow_left hle 2
          rw [hn, min_eq_left hle]; omega
        · have := Nat.pow_le_pow_left hle 2
          rw [hn, min_eq_right hle]; omega
      refine hg.zero n (fun k hk hk' => ?_) _ ((hn2 _).2 ⟨by simpa using h1, by simpa using h2⟩) (by simp only; omega)
      simp only at hk' ⊢
      rw [hlf] at hk'
      rw [slot_load, if_pos hk', hw.off f hmem, Nat.zero_add, ← hc.1]
      exact old k ((hn2 k).1 hk).1 ((hn2 k).1 hk).2
    · exact old k h1 h2
  refine ⟨fun o ho => ?_, fun o ho => ?_, fun o ho => ?_⟩
  · rcases List.mem_or_eq_of_mem_set ho with h | rfl
    · exact valid_store hr hlen (hw.valid o h)
    · exact valid_store hr hlen hr
  · rcases List.mem_or_eq_of_mem_set ho with h | rfl
    · exact hw.off o h
    · exact hw.off f hmem
  · rcases List.mem_or_eq_of_mem_set ho with h | rfl
    · exact key o h
    · exact (key f hmem).of_zeros hg.hs rfl rfl fun k => .inl rfl

/-- A truncated view has the property. -/
theorem World.Good.truncate {w : World} (hw : w.Good) {i : ℕ} {f : MObj} (hf : w.objs[i]? = some f) {L : ℤ} (hL : L < f.ell_max) {g : Modes}
    (e : (f.val w.heap).truncate_ell L = .ok g) :
    World.Good ⟨w.heap, w.objs ++ [⟨{ f.ref with len := g.dat.length }, g.s, g.ell_max, g.trunc⟩]⟩ := by
  have hmem := List.mem_of_getElem? hf
  have hr := hw.valid f hmem
  have hi := hw.inv f hmem
  have hlf : (w.heap.load f.ref).length = f.ref.len := load_length hr
  have hbnd : |f.s| ≤ L := by
    by_contra hc
    unfold Modes.truncate_ell Modes.index at e
    rw [if_neg (by simp only [MObj.val]; omega), if_pos (Or.inl (by simp only [MObj.val]; omega))] at e
    cases e
  have h0 : 0 ≤ L := (abs_nonneg _).trans hbnd
  obtain ⟨g', e', hg, h2, h3, h4, h5, h6⟩ := truncate_ok (hi.wf (by simp only [MObj.val]; omega)) (f := f.val w.heap) hbnd hL
  rw [e] at e'
  injection e' with e'
  subst e'
  have hsz := hg.size
  have hsz' := hi.size
  simp only [MObj.val] at hsz'
  rw [hlf] at hsz'
  have hle : g.dat.length ≤ f.ref.len := by
    have := sq_le_of (show 0 ≤ L + 1 by omega) (show L + 1 ≤ f.ell_max + 1 by omega)
    rw [h4] at hsz
    omega
  have hload : w.heap.load { f.ref with len := g.dat.length } = g.dat := by
    apply List.ext_getElem?
    intro k
    rw [slot_load]
    simp only
    split
    · rename_i hk
      obtain ⟨ell, m, k0, k1, k2, rfl⟩ := mpos_surj hg.size hg.ell_max_ge hk
      have hc := h6 ell m k2 (by omega)
      rw [hg.get k2 k1, hc]
      have := (hi.wf (by simp only [MObj.val]; omega)).get k2 (by simp only [MObj.val]; omega)
      rw [← this]
      simp only [MObj.val]
      rw [slot_load, if_pos (by omega)]
    · rw [List.getElem?_eq_none (by omega)]
  obtain ⟨b, hb, hb'⟩ := hr
  refine hw.append ⟨b, hb, by simp only; omega⟩ (hw.off f hmem) ?_
  refine ⟨?_, fun k k1 k2 => ?_⟩
  · simp only [MObj.val]; rw [hload]; exact hsz
  · simp only [MObj.val] at k1 k2 ⊢
    rw [hload] at k2 ⊢
    exact hg.inv.low k k1 k2

/-! ## C39: ufunc dispatch

The state after a successful call with a new object `G` is `w.push G`: the memory and the objects of `w`, and one new object with
value `G` in memory of its own (`push_old`, `push_new`); the call returns that object. -/

theorem push_old {w : World} (g : Modes) :
    (∀ r : ArrRef, r.Valid w.heap → (w.push g).heap.load r = w.heap.load r) ∧ ∀ k < w.objs.length, (w.push g).objs[k]? = w.objs[k]? :=
  ⟨fun _ hr => load_alloc_old hr g.lead g.dat, fun k hk => by simp only [World.push]; rw [List.getElem?_append_left hk]⟩

theorem push_new {w : World} (g : Modes) : ∃ o, (w.push g).objs[w.objs.length]? = some o ∧ o.val (w.push g).heap = g
    ∧ ∀ r : ArrRef, r.Valid w.heap → o.ref.buf ≠ r.buf := by
  refine ⟨_, by simp only [World.push]; rw [List.getElem?_append_right (le_refl _), Nat.sub_self]; rfl, ?_, fun r hr => ?_⟩
  · have e := load_alloc_new w.heap g.lead g.dat
    simp only [MObj.val]
    change (⟨g.lead, g.s, g.ell_max, g.trunc, (w.heap.alloc g.lead g.dat).1.load (w.heap.alloc g.lead g.dat).2⟩ : Modes) = g
    rw [e]
  · have := valid_lt hr
    simp only [Heap.alloc]
    omega

variable (junk junk' : ℕ → ℝ)

/-- **C39, one operand.**  `+f`, `-f`, `np.conj(f)`, `np.abs(f)`. -/
theorem C39_unary {w : World} (hw : w.Valid) {i : ℕ} {f : MObj} (hf : w.objs[i]? = some f) :
    ufuncCall junk junk' w .positive [.modes i] .none false = (f.val w.heap).positive.map w.pushRes
    ∧ ufuncCall junk junk' w .negative [.modes i] .none false = (f.val w.heap).negative.map w.pushRes
    ∧ ufuncCall junk junk' w .conjugate [.modes i] .none false = ((f.val w.heap).conjugate false).map w.pushRes
    ∧ ufuncCall junk junk' w .absolute [.modes i] .none false
      = .ok (w, .reals f.ref.lead ((w.heap.load f.ref).map fun v x => ‖v x‖)) := by
  refine ⟨?_, ?_, ?_, ?_⟩ <;>
    simp [ufuncCall, firstModes, arrayUfunc, Ufunc.nin, Ufunc.passed, Ufunc.supported, World.obj_ok hf, bind_ok]
  · rw [ufuncSign_none]
    have : (List.map (fun (v : Slice) x => id (v x)) (w.heap.load f.ref)) = w.heap.load f.ref := List.map_id _
    rw [this]
    rfl
  · rw [ufuncSign_none]
    rfl
  · rw [ufuncConj_none (hw.get hf)]
  · rfl

/-- **C39, two Modes.**  `f + g`, `f - g` act as the methods, except that for different spin weights the exception is TypeError;
`f * g` acts as `f.multiply(g)`; `f / g` is refused. -/
theorem C39_modes_modes {w : World} (hw : w.Valid) {i j : ℕ} {f g : MObj} (hf : w.objs[i]? = some f) (hg : w.objs[j]? = some g) :
    ufuncCall junk junk' w .add [.modes i, .modes j] .none false
      = (if f.s ≠ g.s then .error .typeError else ((f.val w.heap).addM (g.val w.heap) false).map w.pushRes)
    ∧ ufuncCall junk junk' w .subtract [.modes i, .modes j] .none false
      = (if f.s ≠ g.s then .error .typeError else ((f.val w.heap).addM (g.val w.heap) true).map w.pushRes)
    ∧ ufuncCall junk junk' w .multiply [.modes i, .modes j] .none false
      = ((f.val w.heap).multiplyM junk junk' (g.val w.heap) none).map w.pushRes
    ∧ ufuncCall junk junk' w .divide [.modes i, .modes j] .none false = .error .typeError := by
  refine ⟨?_, ?_, ?_, ?_⟩ <;>
    simp only [ufuncCall, firstModes, arrayUfunc, Ufunc.nin, Ufunc.passed, Ufunc.supported, World.obj_ok hf, World.obj_ok hg, bind_ok, List.length_cons,
      List.length_nil, List.mem_cons, List.not_mem_nil, or_false, reduceCtorEq, false_or, true_or, or_true, not_true_eq_false, if_false, ne_eq,
      Bool.false_eq_true]
  · exact ufuncAddModes_none (sub := false) (hw.get hf) (hw.get hg)
  · exact ufuncAddModes_none (sub := true) (hw.get hf) (hw.get hg)
  · exact ufuncMulModes_none (hw.get hf) (hw.get hg)

/-- **C39, Modes and something else.**  `f + a`, `f - a` act as the methods, except that for nonzero `a` the exception is TypeError;
`f * a` acts as `f.multiply(a)`, except that for an `a` that does not broadcast to the leading axes the exception is TypeError;
`f / a` acts as `f.divide(a)`. -/
theorem C39_modes_array {w : World} {i : ℕ} {f : MObj} (hf : w.objs[i]? = some f) (a : Scalars) :
    ufuncCall junk junk' w .add [.modes i, .arr a] .none false
      = (if a.any then .error .typeError else ((f.val w.heap).addScalar a false).map w.pushRes)
    ∧ ufuncCall junk junk' w .subtract [.modes i, .arr a] .none false
      = (if a.any then .error .typeError else ((f.val w.heap).addScalar a true).map w.pushRes)
    ∧ ufuncCall junk junk' w .multiply [.modes i, .arr a] .none false
      = (if (f.val w.heap).check_broadcasting a = .ok false then .error .typeError else ((f.val w.heap).multiplyScalar a).map w.pushRes)
    ∧ ufuncCall junk junk' w .divide [.modes i, .arr a] .none false = ((f.val w.heap).divideScalar a).map w.pushRes := by
  have hadd : ∀ b, a.any = false → (f.val w.heap).addScalar a b = (f.val w.heap).ufuncMulScalar (if b then (· - ·) else (· + ·)) a := by
    intro b ha
    unfold Modes.addScalar Modes.ufuncAddScalar Modes.ufuncMulScalar
    rw [ha]
    simp
  refine ⟨?_, ?_, ?_, ?_⟩ <;>
    simp only [ufuncCall, firstModes, arrayUfunc, Ufunc.nin, Ufunc.passed, Ufunc.supported, World.obj_ok hf, bind_ok, List.length_cons,
      List.length_nil, List.mem_cons, List.not_mem_nil, or_false, reduceCtorEq, false_or, true_or, or_true, not_true_eq_false, if_false, ne_eq,
      Bool.false_eq_true]
  · cases ha : a.any with
    | true => rfl
    | false => rw [hadd false ha]; exact ufuncScalar_none a
  · cases ha : a.any with
    | true => rfl
    | false => rw [hadd true ha]; exact ufuncScalar_none a
  · rw [ufuncScalar_none]
    unfold Modes.multiplyScalar Modes.ufuncMulScalar
    cases (f.val w.heap).check_broadcasting a with
    | error _ => rfl
    | ok b => cases b <;> rfl
  · rw [ufuncScalar_none]
    rfl

/-- **C39, something else and Modes.**  `a + f` acts as `f + a`; `a - f` (zero `a`) is the elementwise difference; `a * f` acts as
`f * a`; `a / f` is refused. -/
theorem C39_array_modes {w : World} {i : ℕ} {f : MObj} (hf : w.objs[i]? = some f) (a : Scalars) :
    ufuncCall junk junk' w .add [.arr a, .modes i] .none false = ufuncCall junk junk' w .add [.modes i, .arr a] .none false
    ∧ ufuncCall junk junk' w .subtract [.arr a, .modes i] .none false
      = (if a.any then .error .typeError else ((f.val w.heap).ufuncMulScalar (fun x y => y - x) a).map w.pushRes)
    ∧ ufuncCall junk junk' w .multiply [.arr a, .modes i] .none false = ufuncCall junk junk' w .multiply [.modes i, .arr a] .none false
    ∧ ufuncCall junk junk' w .divide [.arr a, .modes i] .none false = .error .typeError := by
  have e1 : (fun x y : ℂ => y + x) = fun x y => x + y := by funext x y; ring
  have e2 : (fun x y : ℂ => y * x) = fun x y => x * y := by funext x y; ring
  refine ⟨?_, ?_, ?_, ?_⟩ <;>
    simp only [ufuncCall, firstModes, arrayUfunc, Ufunc.nin, Ufunc.passed, Ufunc.supported, World.obj_ok hf, bind_ok, List.length_cons,
      List.length_nil, List.mem_cons, List.not_mem_nil, or_false, reduceCtorEq, false_or, true_or, or_true, not_true_eq_false, if_false, ne_eq,
      Bool.false_eq_true, e1, e2]
  rw [ufuncScalar_none]

/-- **C39, comparisons and finiteness tests.**  The arguments are handed to numpy as plain arrays; nothing changes. -/
theorem C39_passed {w : World} {u : Ufunc} (hu : u = .isfinite ∨ u = .isinf ∨ u = .isnan) {v : Ufunc}
    (hv : v = .equal ∨ v = .not_equal ∨ v = .logical_and ∨ v = .logical_or) {i j : ℕ} {f g : MObj} (hf : w.objs[i]? = some f)
    (hg : w.objs[j]? = some g) (a : Scalars) (kwargs : Bool) :
    ufuncCall junk junk' w u [.modes i] .none kwargs = .ok (w, .plain u [.nd f.ref.lead (w.heap.load f.ref)])
    ∧ ufuncCall junk junk' w v [.modes i, .modes j] .none kwargs
      = .ok (w, .plain v [.nd f.ref.lead (w.heap.load f.ref), .nd g.ref.lead (w.heap.load g.ref)])
    ∧ ufuncCall junk junk' w v [.modes i, .arr a] .none kwargs = .ok (w, .plain v [.nd f.ref.lead (w.heap.load f.ref), .arr a])
    ∧ ufuncCall junk junk' w v [.arr a, .modes i] .none kwargs = .ok (w, .plain v [.arr a, .nd f.ref.lead (w.heap.load f.ref)]) := by
  refine ⟨?_, ?_, ?_, ?_⟩
  · rcases hu with rfl | rfl | rfl <;>
      simp [ufuncCall, firstModes, arrayUfunc, Ufunc.nin, Ufunc.passed, UArg.plain, World.obj_ok hf, bind_ok, pure, Except.pure]
  all_goals
    rcases hv with rfl | rfl | rfl | rfl <;>
      simp [ufuncCall, firstModes, arrayUfunc, Ufunc.nin, Ufunc.passed, UArg.plain, World.obj_ok hf, World.obj_ok hg, bind_ok, pure, Except.pure]

/-- **C39, all other ufuncs** (`np.exp`, `np.power`, ...) raise TypeError, whatever the arguments and `out`. -/
theorem C39_other {w : World} (name : String) (nin : ℕ) (args : List UArg)
    (out : OutArg) (kwargs : Bool) (hobj : ∀ i, firstModes args out = some i → i < w.objs.length) :
    ufuncCall junk junk' w (.other name nin) args out kwargs = .error .typeError := by
  unfold ufuncCall
  split
  · rfl
  cases h : firstModes args out with
  | none => rfl
  | some i =>
    have := hobj i h
    simp [World.obj_ok (List.getElem?_eq_getElem this), bind_ok, arrayUfunc, Ufunc.passed, Ufunc.supported]

/-- **C39, keyword arguments** (`where=`, `dtype=`, ...) of the supported ufuncs raise NotImplementedError. -/
theorem C39_kwargs {w : World} {u : Ufunc} (hu : u ∈ [Ufunc.positive, .negative, .add, .subtract, .multiply, .divide, .conjugate, .absolute])
    {args : List UArg} (hn : args.length = u.nin) {out : OutArg} {i : ℕ} (hi : firstModes args out = some i) (hobj : i < w.objs.length) :
    ufuncCall junk junk' w u args out true = .error .notImplementedError := by
  unfold ufuncCall
  rw [if_neg (by simpa using hn), hi]
  simp only [World.obj_ok (List.getElem?_eq_getElem hobj), bind_ok]
  unfold arrayUfunc
  have h1 : u ∉ Ufunc.passed := by
    simp only [List.mem_cons, List.not_mem_nil, or_false] at hu
    rcases hu with rfl | rfl | rfl | rfl | rfl | rfl | rfl | rfl <;> decide
  rw [if_neg h1, if_neg (show ¬ u ∉ Ufunc.supported from not_not.2 hu), if_pos rfl]

/-- What a ufunc without `out` does to the state: nothing, or it adds one object with memory of its own. -/
theorem ufunc_none_cases {junk junk' : ℕ → ℝ} {w w' : World} (hw : w.Valid) {u : Ufunc} {args : List UArg} {kwargs : Bool} {res : URes}
    (e : ufuncCall junk junk' w u args .none kwargs = .ok (w', res)) : w' = w ∨ ∃ g : Modes, g.Inv ∧ w' = w.push g ∧ res = .obj w.objs.length := by
  have K : ∀ {x : Py Modes}, (∀ g, x = .ok g → g.Inv) → x.map w.pushRes = .ok (w', res) →
      w' = w ∨ ∃ g : Modes, g.Inv ∧ w' = w.push g ∧ res = .obj w.objs.length := by
    intro x hx e
    cases x with
    | error _ => cases e
    | ok g =>
      injection e with e
      injection e with e1 e2
      exact .inr ⟨g, hx g rfl, e1.symm, e2.symm⟩
  have hn : args.length = u.nin := by
    by_contra hc
    unfold ufuncCall at e
    rw [if_pos hc] at e
    cases e
  obtain ⟨i, f, hi, hf⟩ : ∃ (i : ℕ) (f : MObj), firstModes args .none = some i ∧ w.objs[i]? = some f := by
    unfold ufuncCall at e
    rw [if_neg (not_not.2 hn)] at e
    cases h : firstModes args .none with
    | none => rw [h] at e; cases e
    | some i =>
      rw [h] at e
      cases h2 : w.objs[i]? with
      | none => simp only [World.obj, h2] at e; cases e
      | some f => exact ⟨i, f, rfl, h2⟩
  by_cases hp : u ∈ Ufunc.passed
  · unfold ufuncCall at e
    rw [if_neg (not_not.2 hn), hi] at e
    simp only [World.obj_ok hf, bind_ok] at e
    unfold arrayUfunc at e
    rw [if_pos hp] at e
    obtain ⟨_, -, e⟩ := bind_eq_ok e
    injection e with e
    injection e with e1 e2
    exact .inl e1.symm
  by_cases hs : u ∈ Ufunc.supported
  swap
  · unfold ufuncCall at e
    rw [if_neg (not_not.2 hn), hi] at e
    simp only [World.obj_ok hf, bind_ok] at e
    unfold arrayUfunc at e
    rw [if_neg hp, if_pos hs] at e
    cases e
  cases kwargs with
  | true => rw [C39_kwargs junk junk' hs hn hi (List.getElem?_eq_some_iff.1 hf).1] at e; cases e
  | false =>
    have un : args.length = 1 → args = [.modes i] := by
      intro h
      obtain ⟨x, rfl⟩ := List.length_eq_one_iff.1 h
      cases x with
      | modes k => simp only [firstModes, Option.some.injEq] at hi; rw [hi]
      | arr a => simp [firstModes] at hi
    have bin : args.length = 2 → (∃ j, args = [.modes i, .modes j]) ∨ (∃ a, args = [.modes i, .arr a]) ∨ ∃ a, args = [.arr a, .modes i] := by
      intro h
      obtain ⟨x, y, rfl⟩ := List.length_eq_two.1 h
      cases x with
      | modes k =>
        simp only [firstModes, Option.some.injEq] at hi
        subst hi
        cases y with
        | modes j => exact .inl ⟨j, rfl⟩
        | arr a => exact .inr (.inl ⟨a, rfl⟩)
      | arr a =>
        cases y with
        | modes k =>
          simp only [firstModes, Option.some.injEq] at hi
          subst hi
          exact .inr (.inr ⟨a, rfl⟩)
        | arr b => simp [firstModes] at hi
    have hadd : ∀ {a : Scalars} {b : Bool} (g : Modes), (f.val w.heap).addScalar a b = .ok g → g.Inv := fun g h => addScalar_inv h
    have hmm : ∀ {j : ℕ}, ufuncCall junk junk' w u [.modes i, .modes j] .none false = .ok (w', res) → ∃ g, w.objs[j]? = some g ∨ u = .divide := by
      intro j e
      by_cases hd : u = .divide
      · exact ⟨f, .inr hd⟩
      cases h2 : w.objs[j]? with
      | some g => exact ⟨g, .inl rfl⟩
      | none =>
        exfalso
        have ho : w.obj j = .error .nameError := by unfold World.obj; rw [h2]
        simp only [Ufunc.supported, List.mem_cons, List.not_mem_nil, or_false] at hs
        rcases hs with rfl | rfl | rfl | rfl | rfl | rfl | rfl | rfl <;>
          first
          | exact hd rfl
          | (simp [ufuncCall, firstModes, arrayUfunc, Ufunc.nin, Ufunc.passed, Ufunc.supported, World.obj_ok hf, ho, bind, Except.bind] at e; done)
    simp only [Ufunc.supported, List.mem_cons, List.not_mem_nil, or_false] at hs
    rcases hs with rfl | rfl | rfl | rfl | rfl | rfl | rfl | rfl
    · rw [un hn, (C39_unary junk junk' hw hf).1] at e
      exact K (fun g h => remake_inv (f := f.val w.heap) h) e
    · rw [un hn, (C39_unary junk junk' hw hf).2.1] at e
      exact K (fun g h => remake_inv (f := f.val w.heap) h) e
    · rcases bin hn with ⟨j, rfl⟩ | ⟨a, rfl⟩ | ⟨a, rfl⟩
      · obtain ⟨g, hg | hg⟩ := hmm e
        · rw [(C39_modes_modes junk junk' hw hf hg).1] at e
          split at e
          · cases e
          · exact K (fun g h => Method2.run_inv (junk := junk) (junk' := junk') (op := .add) h) e
        · cases hg
      · rw [(C39_modes_array junk junk' hf a).1] at e
        split at e
        · cases e
        · exact K hadd e
      · rw [(C39_array_modes junk junk' hf a).1, (C39_modes_array junk junk' hf a).1] at e
        split at e
        · cases e
        · exact K hadd e
    · rcases bin hn with ⟨j, rfl⟩ | ⟨a, rfl⟩ | ⟨a, rfl⟩
      · obtain ⟨g, hg | hg⟩ := hmm e
        · rw [(C39_modes_modes junk junk' hw hf hg).2.1] at e
          split at e
          · cases e
          · exact K (fun g h => Method2.run_inv (junk := junk) (junk' := junk') (op := .subtract) h) e
        · cases hg
      · rw [(C39_modes_array junk junk' hf a).2.1] at e
        split at e
        · cases e
        · exact K hadd e
      · rw [(C39_array_modes junk junk' hf a).2.1] at e
        split at e
        · cases e
        · exact K (fun g h => ufuncMulScalar_inv h) e
    · rcases bin hn with ⟨j, rfl⟩ | ⟨a, rfl⟩ | ⟨a, rfl⟩
      · obtain ⟨g, hg | hg⟩ := hmm e
        · rw [(C39_modes_modes junk junk' hw hf hg).2.2.1] at e
          exact K (fun g h => Method2.run_inv (junk := junk) (junk' := junk') (op := .multiply none) h) e
        · cases hg
      · rw [(C39_modes_array junk junk' hf a).2.2.1] at e
        split at e
        · cases e
        · exact K (fun g h => multiplyScalar_inv h) e
      · rw [(C39_array_modes junk junk' hf a).2.2.1, (C39_modes_array junk junk' hf a).2.2.1] at e
        split at e
        · cases e
        · exact K (fun g h => multiplyScalar_inv h) e
    · rcases bin hn with ⟨j, rfl⟩ | ⟨a, rfl⟩ | ⟨a, rfl⟩
      · simp [ufuncCall, firstModes, arrayUfunc, Ufunc.nin, Ufunc.passed, Ufunc.supported, World.obj_ok hf, bind_ok] at e
      · rw [(C39_modes_array junk junk' hf a).2.2.2] at e
        exact K (fun g h => ufuncMulScalar_inv h) e
      · rw [(C39_array_modes junk junk' hf a).2.2.2] at e
        cases e
    · rw [un hn, (C39_unary junk junk' hw hf).2.2.1] at e
      refine K (fun g h => ?_) e
      unfold Modes.conjugate at h
      rw [if_neg (by simp)] at h
      obtain ⟨c, -, h⟩ := bind_eq_ok h
      exact new_inv h
    · rw [un hn, (C39_unary junk junk' hw hf).2.2.2] at e
      injection e with e
      injection e with e1 e2
      exact .inl e1.symm

theorem World.Good.ufunc {junk junk' : ℕ → ℝ} {w w' : World} (hw : w.Good) {u : Ufunc} {args : List UArg} {kwargs : Bool} {res : URes}
    (e : ufuncCall junk junk' w u args .none kwargs = .ok (w', res)) : w'.Good := by
  rcases ufunc_none_cases hw.valid e with rfl | ⟨g, hg, rfl, -⟩
  · exact hw
  · exact hw.push hg

/-- One step keeps the property. -/
theorem World.Good.step {junk junk' : ℕ → ℝ} {w w' : World} {t : Option ℕ} (hw : w.Good) (h : PyStep junk junk' w t w') : w'.Good := by
  cases h with
  | array lead dat => exact hw.alloc lead dat
  | construct r hr h0 args kw h o e => exact hw.new hr h0 e
  | reconstruct i f hf args kw h o e =>
    have := List.mem_of_getElem? hf
    exact hw.new (hw.valid f this) (hw.off f this) e
  | method1 i f hf op g e => exact hw.push (Method1.run_inv (hw.inv f (List.mem_of_getElem? hf)) e)
  | method2 i j f g hf hg op k e => exact hw.push (Method2.run_inv e)
  | inplace i f hf op g e => exact hw.inplace hf e
  | truncate i f hf L hL g e => exact hw.truncate hf hL e
  | ufunc u args kwargs w' res e => exact hw.ufunc e

/-- Every reachable state is good. -/
theorem Reachable.good {junk junk' : ℕ → ℝ} {w : World} (h : Reachable junk junk' w) : w.Good := by
  induction h with
  | start => exact ⟨fun _ h => by simp at h, fun _ h => by simp at h, fun _ h => by simp at h⟩
  | step _ h ih => exact ih.step h

/-- **C25.**  After any sequence of operations — creation of arrays, `Modes(...)` of arrays, of views `a[..., :n]` and of other Modes
objects, all methods, in-place methods, `truncate_ell`, and ufuncs without `out`, on objects that may share memory — every object has
`(ell_max+1)²` modes and a zero in every slot `(ell, m)` with `ell < |s|`. -/
theorem C25_closure {w : World} (h : Reachable junk junk' w) {o : MObj} (ho : o ∈ w.objs) :
    ((w.heap.load o.ref).length : ℤ) = (o.ell_max + 1) ^ 2 ∧
    ∀ ell m : ℤ, |m| ≤ ell → ell < |o.s| → (ell * (ell + 1) + m).toNat < (w.heap.load o.ref).length →
      (w.heap.load o.ref)[(ell * (ell + 1) + m).toNat]? = some fun _ => 0 := by
  have hi := h.good.inv o ho
  refine ⟨hi.size, fun ell m h1 h2 h3 => hi.low _ ?_ h3⟩
  have n1 : 0 ≤ ell := (abs_nonneg m).trans h1
  have := sq_le_of (show 0 ≤ ell + 1 by omega) (show ell + 1 ≤ |o.s| by omega)
  rw [sq_abs] at this
  have := abs_le.1 h1
  have : 0 ≤ ell * (ell + 1) + m := by nlinarith
  rw [Int.toNat_of_nonneg this]
  change _ < o.s ^ 2
  nlinarith

/-- **C25.**  With `ell_max ≥ -1` (that is, unless `Modes` was called with an explicit `ell_max < -1`) every reachable object is
well formed in the sense of all theorems about values. -/
theorem C25_wf {w : World} (h : Reachable junk junk' w) {o : MObj} (ho : o ∈ w.objs) (hL : -1 ≤ o.ell_max) : (o.val w.heap).WF :=
  (h.good.inv o ho).wf hL

end SF
