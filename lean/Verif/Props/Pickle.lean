import Verif.Props.ModesOut

/-!
# Property C65: pickling and copying of `Modes`; what an operation leaves alone
-/

set_option autoImplicit false

namespace SF

/-- **C65.** Unpickling gives the array and the metadata back, for every object of the class that has metadata — also for one that
violates the class invariant, such as a slice `f[..., 2:5]`. -/
theorem C65_round_trip (f : RawModes) (m : Metadata) (h : f.metadata = some m) : pickleCopy f = .ok f := by
  obtain ⟨lead, dat, md⟩ := f
  simp only at h
  subst h
  simp [pickleCopy, Modes_reduce, Modes_setstate, ndarray_reduce, ndarray_setstate, reconstruct, bind_ok]

/-- **C65 (states).** `__setstate__` accepts exactly the complete states: five items for the array, with as many entries as its shape says,
followed by the metadata; whatever the object held before, it then holds exactly that array and that metadata.  Every other state raises. -/
theorem C65_setstate (f g : RawModes) (state : List StateItem) : Modes_setstate f state = .ok g ↔
    ∃ v b dat m, state = [.version v, .shape g.lead dat.length, .dtype, .isFortran b, .rawdata dat, .dict m] ∧ g.dat = dat ∧ g.metadata = some m := by
  constructor
  · intro h
    unfold Modes_setstate at h
    split at h
    · rename_i m hm
      unfold ndarray_setstate at h
      split at h
      · rename_i v lead n b dat hd
        split at h
        · rename_i hn
          obtain rfl := Except.ok.inj h
          refine ⟨v, b, dat, m, ?_, rfl, rfl⟩
          have hne : state ≠ [] := by rintro rfl; simp at hm
          rw [← List.dropLast_append_getLast hne, hd]
          rw [List.getLast?_eq_getLast_of_ne_nil hne] at hm
          rw [Option.some.inj hm, hn]
          rfl
        · cases h
      · cases h
    · cases h
    · cases h
  · rintro ⟨v, b, dat, m, rfl, h1, h2⟩
    obtain ⟨lead, d, md⟩ := g
    simp only at h1 h2
    subst h1 h2
    simp [Modes_setstate, ndarray_setstate]

/-- **C65.** Copies have the same array and the same metadata; a plain array viewed as `Modes` has neither spin weight nor `ell_max`. -/
theorem C65_view (f : RawModes) : (∀ m, f.metadata = some m → viewCopy f = f) ∧
    (f.metadata = none → ∃ m, (viewCopy f).metadata = some m ∧ m.spin_weight = none ∧ m.ell_max = none ∧ (viewCopy f).toModes = .error .typeError) := by
  obtain ⟨lead, dat, md⟩ := f
  refine ⟨fun m h => ?_, fun h => ?_⟩ <;> simp only at h <;> subst h
  · rfl
  · exact ⟨_, rfl, rfl, rfl, rfl⟩

/-- The operations that duplicate an object. -/
inductive Duplicates : Method1 → Prop
  | copy : Duplicates .copy
  | pickle : Duplicates .pickle

theorem Duplicates.run {op : Method1} (h : Duplicates op) (f : Modes) : op.run f = .ok f := by
  cases h
  · rfl
  · simp only [Method1.run]
    rw [C65_round_trip f.raw _ rfl, bind_ok]; rfl

variable {junk junk' : ℕ → ℝ}

theorem newH_frame {h h' : Heap} {r : ArrRef} (hr : r.Valid h) {inMeta : Kw} {args : List ℤ} {kw : Kw} {o : MObj}
    (e : newH h r inMeta args kw = .ok (h', o)) {r' : ArrRef} (hr' : r'.Valid h) (hne : r.buf ≠ r'.buf) : h'.load r' = h.load r' := by
  rw [newH_eq hr] at e
  cases hn : Modes.new (.array r.lead (h.load r)) inMeta args kw with
  | error _ => rw [hn] at e; cases e
  | ok f =>
    rw [hn] at e
    simp only [Except.map] at e
    split at e <;> obtain ⟨rfl, -⟩ := Prod.mk.inj (Except.ok.inj e)
    · exact load_store_ne hne.symm
    · exact load_alloc_old hr' _ _

/-- **C65 (frame).** One operation changes neither the data nor the metadata of an object, unless the object lies in the memory block that
the operation overwrites. -/
theorem C65_frame {w w' : World} {t : Option ℕ} (hw : Reachable junk junk' w) (h : PyStep junk junk' w t w') {k : ℕ} {o : MObj}
    (ho : w.objs[k]? = some o) (ht : t ≠ some o.ref.buf) : w'.objs[k]? = some o ∧ o.val w'.heap = o.val w.heap := by
  have hg := hw.good
  have hv := hg.valid o (List.mem_of_getElem? ho)
  have hlt : k < w.objs.length := (List.getElem?_eq_some_iff.1 ho).1
  have app : ∀ (l : List MObj), (w.objs ++ l)[k]? = some o := fun l => by rw [List.getElem?_append_left hlt, ho]
  have val : ∀ {h' : Heap}, h'.load o.ref = w.heap.load o.ref → o.val h' = o.val w.heap := fun e => by unfold MObj.val; rw [e]
  have psh : ∀ g : Modes, (w.push g).objs[k]? = some o ∧ o.val (w.push g).heap = o.val w.heap := fun g =>
    ⟨by rw [(push_old g).2 k hlt, ho], val ((push_old g).1 _ hv)⟩
  cases h with
  | array lead dat => exact ⟨ho, val (load_alloc_old hv lead dat)⟩
  | construct r hr h0 args kw h' o' e => exact ⟨app _, val (newH_frame hr e hv fun hc => ht (by rw [hc]))⟩
  | reconstruct i f hf args kw h' o' e =>
    exact ⟨app _, val (newH_frame (hg.valid f (List.mem_of_getElem? hf)) e hv fun hc => ht (by rw [hc]))⟩
  | method1 i f hf op g e => exact psh g
  | method2 i j f g hf hg' op k' e => exact psh k'
  | inplace i f hf op g e =>
    have hne : i ≠ k := by
      rintro rfl
      rw [hf] at ho
      exact ht (by rw [Option.some.inj ho])
    refine ⟨by simp only; rw [List.getElem?_set_ne hne, ho], val ?_⟩
    exact load_store_ne fun hc => ht (by rw [hc])
  | truncate i f hf L hL g e => exact ⟨app _, rfl⟩
  | ufunc u args kwargs w' res e =>
    rcases ufunc_none_cases hg.valid e with rfl | ⟨g, -, rfl, -⟩
    · exact ⟨ho, rfl⟩
    · exact psh g

/-- A sequence of operations, with the memory blocks that they overwrite. -/
inductive History (junk junk' : ℕ → ℝ) : World → List (Option ℕ) → World → Prop
  | nil (w : World) : History junk junk' w [] w
  | cons {w w1 w2 : World} {t : Option ℕ} {ts : List (Option ℕ)} (h : PyStep junk junk' w t w1) (hs : History junk junk' w1 ts w2) :
      History junk junk' w (t :: ts) w2

/-- **C65 (frame, histories).** -/
theorem C65_history {w w' : World} {ts : List (Option ℕ)} (hw : Reachable junk junk' w) (h : History junk junk' w ts w') {k : ℕ} {o : MObj}
    (ho : w.objs[k]? = some o) (ht : some o.ref.buf ∉ ts) : w'.objs[k]? = some o ∧ o.val w'.heap = o.val w.heap := by
  induction h with
  | nil w => exact ⟨ho, rfl⟩
  | cons h hs ih =>
    obtain ⟨e1, e2⟩ := C65_frame hw h ho fun hc => ht (by rw [hc]; exact List.mem_cons_self)
    obtain ⟨e3, e4⟩ := ih (.step hw h) e1 fun hc => ht (List.mem_cons_of_mem _ hc)
    exact ⟨e3, e4.trans e2⟩

/-- **C65 (independence).** A copy (made by `copy` or by pickling) of an object of any reachable program state has memory of its own.  Whatever
happens afterwards, as long as nothing is done in place to the copy or to objects in its memory, it keeps the value that the original had
when it was copied; and as long as nothing is done in place to the original or to objects in its memory, the original keeps that value. -/
theorem C65_independent {w : World} (hw : Reachable junk junk' w) {i : ℕ} {f : MObj} (hf : w.objs[i]? = some f) {op : Method1}
    (hop : Duplicates op) :
    ∃ w1 c, PyStep junk junk' w none w1 ∧ w1.objs[w.objs.length]? = some c ∧ c.ref.buf ≠ f.ref.buf ∧ (∀ o ∈ w.objs, o.ref.buf ≠ c.ref.buf) ∧
      ∀ ts w', History junk junk' w1 ts w' →
        (some c.ref.buf ∉ ts → w'.objs[w.objs.length]? = some c ∧ c.val w'.heap = f.val w.heap) ∧
        (some f.ref.buf ∉ ts → w'.objs[i]? = some f ∧ f.val w'.heap = f.val w.heap) := by
  have hg := hw.good
  have st : PyStep junk junk' w none (w.push (f.val w.heap)) := .method1 w i f hf op _ (hop.run _)
  have hv := hg.valid f (List.mem_of_getElem? hf)
  obtain ⟨c, c1, c2, c3⟩ := push_new (w := w) (f.val w.heap)
  refine ⟨_, c, st, c1, c3 _ hv, fun o ho => (c3 _ (hg.valid o ho)).symm, fun ts w' hh => ⟨fun hn => ?_, fun hn => ?_⟩⟩
  · obtain ⟨e1, e2⟩ := C65_history (.step hw st) hh c1 hn
    exact ⟨e1, e2.trans c2⟩
  · obtain ⟨a1, a2⟩ := C65_frame hw st hf (by simp)
    obtain ⟨e1, e2⟩ := C65_history (.step hw st) hh a1 hn
    exact ⟨e1, e2.trans a2⟩

/-- Concrete instance: in the state `exWorld` object 0 is pickled; then the original is conjugated in place; the copy keeps the old value. -/
example (junk junk' : ℕ → ℝ) : ∃ w1 w2 c, PyStep junk junk' exWorld none w1 ∧ PyStep junk junk' w1 (some 0) w2 ∧
    w2.objs[2]? = some c ∧ c.val w2.heap = (exObj 0).val exHeap := by
  obtain ⟨w1, c, h1, h2, h3, h4, h5⟩ := C65_independent (exWorld_reachable junk junk') (i := 0) (f := exObj 0) rfl .pickle
  obtain ⟨b1, b2⟩ := C65_frame (exWorld_reachable junk junk') h1 (k := 0) (o := exObj 0) rfl (by simp)
  obtain ⟨g, g1, g2⟩ := conjugate_ok (exObj_wf (b := 0) (by omega)) true
  have st : PyStep junk junk' w1 (some 0) _ := .inplace w1 0 (exObj 0) b1 .conjugate g (by rw [b2]; exact g1)
  refine ⟨w1, _, c, h1, st, (h5 [some 0] _ (.cons st (.nil _))).1 ?_⟩
  simp only [List.mem_singleton, Option.some.injEq]
  exact h3

/-- A slice `f[..., 1:3]` keeps the metadata of `f`; it is pickled unchanged although it violates the invariant. -/
example : pickleCopy ⟨[], [fun _ => 2, fun _ => 3], some ⟨some 0, some 1, .absent⟩⟩
    = .ok ⟨[], [fun _ => 2, fun _ => 3], some ⟨some 0, some 1, .absent⟩⟩ := C65_round_trip _ _ rfl

end SF
