import Verif.Lemmas.ModesHeap

/-! # `__array_ufunc__`: helper lemmas -/

set_option autoImplicit false

namespace SF

open ComplexConjugate

theorem forL_ok_inv {α σ : Type} {xs : List α} {st st' : σ} {body : α → σ → Py σ} (P : σ → Prop) (h0 : P st)
    (h : ∀ x s s', P s → body x s = .ok s' → P s') (e : forL xs st body = .ok st') : P st' := by
  induction xs generalizing st with
  | nil => rw [forL_nil] at e; injection e with e; subst e; exact h0
  | cons x xs ih =>
    rw [forL_cons] at e
    obtain ⟨s, e1, e2⟩ := bind_eq_ok e
    exact ih (h x st s h0 e1) e2

theorem wr_length {α : Type} {a b : List α} {i : ℤ} {v : α} (e : wr a i v = .ok b) : b.length = a.length := by
  unfold wr at e
  split at e
  · cases e
  · injection e with e; subst e; simp

theorem setSlice_length {α : Type} {a b vals : List α} {i j : ℤ} (e : setSlice a i j vals = .ok b) : b.length = a.length := by
  unfold setSlice at e
  simp only at e
  split at e
  · injection e with e
    subst e
    simp only [List.length_append, List.length_take, List.length_drop]
    omega
  · split at e
    · injection e with e
      subst e
      simp only [List.length_append, List.length_take, List.length_drop, List.length_replicate]
      omega
    · cases e

theorem addSlices_length {op : ℂ → ℂ → ℂ} {lead leadf leadg : List ℕ} {Lf Lg : ℤ} {rf rg : List Slice → List Slice} {a b : List Slice}
    (e : addSlices op lead leadf leadg Lf Lg rf rg a = .ok b) : b.length = a.length := by
  unfold addSlices at e
  simp only at e
  obtain ⟨c, e1, e⟩ := bind_eq_ok e
  split at e
  · cases e
  · rw [setSlice_length e, setSlice_length e1]

theorem conjLoop_length {s L : ℤ} {src : List Slice → List Slice} {a b : List Slice} (e : conjLoop s L src a = .ok b) : b.length = a.length := by
  unfold conjLoop at e
  refine forL_ok_inv (fun c => c.length = a.length) rfl ?_ e
  intro ell c c' hc e
  simp only at e
  obtain ⟨v, -, e⟩ := bind_eq_ok e
  obtain ⟨d, e1, e⟩ := bind_eq_ok e
  refine forL_ok_inv (fun c => c.length = a.length) (by rw [wr_length e1, hc]) ?_ e
  intro m c c' hc e
  unfold conjPair at e
  simp only at e
  obtain ⟨_, -, e⟩ := bind_eq_ok e
  obtain ⟨_, -, e⟩ := bind_eq_ok e
  split at e <;>
  · obtain ⟨_, e1, e⟩ := bind_eq_ok e
    rw [wr_length e, wr_length e1, hc]

theorem mulHelper_length {junk junk' : ℕ → ℝ} {leadf leadg lead : List ℕ} {f g : List Slice → List Slice} {ellmin_f ellmax_f s_f ellmin_g ellmax_g s_g : ℤ}
    {a b : List Slice} {l0 L s : ℤ}
    (e : mulHelper junk junk' leadf leadg lead f ellmin_f ellmax_f s_f g ellmin_g ellmax_g s_g a l0 L s = .ok b) : b.length = a.length := by
  unfold mulHelper at e
  obtain ⟨_, -, e⟩ := bind_eq_ok e
  obtain ⟨_, -, e⟩ := bind_eq_ok e
  obtain ⟨st, e1, e2⟩ := bind_eq_ok e
  clear e
  injection e2 with e2
  subst e2
  refine forL_ok_inv (fun st : MulState => st.fg.length = a.length) rfl ?_ e1
  intro l1 st st' h e
  refine forL_ok_inv (fun st : MulState => st.fg.length = a.length) (by exact h) ?_ e
  intro m1 st st' h e
  obtain ⟨_, -, e⟩ := bind_eq_ok e
  refine forL_ok_inv (fun st : MulState => st.fg.length = a.length) (by exact h) ?_ e
  intro l2 st st' h e
  simp only at e
  obtain ⟨⟨_, _⟩, -, e⟩ := bind_eq_ok e
  refine forL_ok_inv (fun st : MulState => st.fg.length = a.length) (by exact h) ?_ e
  intro m2 st st' h e
  obtain ⟨⟨_, _⟩, -, e⟩ := bind_eq_ok e
  obtain ⟨_, -, e⟩ := bind_eq_ok e
  refine forL_ok_inv (fun st : MulState => st.fg.length = a.length) (by exact h) ?_ e
  intro l3 st st' h e
  unfold mulBody at e
  simp only at e
  obtain ⟨_, -, e⟩ := bind_eq_ok e
  obtain ⟨_, -, e⟩ := bind_eq_ok e
  obtain ⟨_, -, e⟩ := bind_eq_ok e
  obtain ⟨_, e1, e⟩ := bind_eq_ok e
  injection e with e
  subst e
  simp only
  rw [wr_length e1, h]

/-- The constructor with `ell_min = 0`. -/
theorem new_zero {lead : List ℕ} {dat : List Slice} {inMeta : Kw} {args : List ℤ} {kw : Kw} {f : Modes}
    (e : Modes.new (.array lead dat) inMeta args kw = .ok f) (h0 : ctorEllMin args kw = 0) :
    f.lead = lead ∧ f.dat = zeroPrefix (f.s ^ 2).toNat dat := by
  unfold Modes.new at e
  split at e
  · cases e
  simp only at e
  split at e
  · cases e
  rename_i s _
  unfold ctorEllMin at h0
  rw [h0] at e
  have K : ∀ L : ℤ, (if (dat.length : ℤ) ≠ LM_total_size 0 L then (Except.error .valueError : Py Modes) else
      Except.ok ⟨lead, s, L, kw.trunc.orElse inMeta.trunc, zeroPrefix (LM_total_size 0 (|s| - 1)).toNat
        (if (0 : ℤ) = 0 then dat else (List.replicate (LM_total_size 0 (0 - 1)).toNat fun _ => 0) ++ dat)⟩) = .ok f →
        f.lead = lead ∧ f.dat = zeroPrefix (f.s ^ 2).toNat dat := by
    intro L e
    split at e
    · cases e
    injection e with e
    subst e
    exact ⟨rfl, by simp only; rw [abs_sub_one_sq]; rfl⟩
  cases hx : ((if args.length = 3 then args[2]? else none).or kw.ell_max).or inMeta.ell_max with
  | some L => rw [hx] at e; exact K L e
  | none =>
    rw [hx] at e
    simp only at e
    cases hd : LM_deduce_ell_max dat.length 0 with
    | error _ => rw [hd] at e; cases e
    | ok L => rw [hd] at e; exact K L e

/-! ## Objects with memory of their own -/

/-- All objects lie in their buffers. -/
def World.Valid (w : World) : Prop := ∀ o ∈ w.objs, o.ref.Valid w.heap

theorem World.obj_ok {w : World} {i : ℕ} {o : MObj} (h : w.objs[i]? = some o) : w.obj i = .ok o := by
  unfold World.obj; rw [h]

theorem World.Valid.get {w : World} (hw : w.Valid) {i : ℕ} {o : MObj} (h : w.objs[i]? = some o) : o.ref.Valid w.heap :=
  hw o (List.mem_of_getElem? h)

theorem load_store_ne {h : Heap} {r r' : ArrRef} {vals : List Slice} (hd : r'.buf ≠ r.buf) : (h.store r vals).load r' = h.load r' := by
  unfold Heap.load
  rw [store_get_ne _ _ _ hd]

/-- A ufunc result with memory of its own. -/
def World.pushRes (w : World) (g : Modes) : World × URes := (w.push g, .obj w.objs.length)

theorem ufuncFinish_alloc (w : World) (lead : List ℕ) (dat : List Slice) (s L : ℤ) (f : Modes) :
    ufuncFinish w (w.heap.alloc lead dat).1 (w.heap.alloc lead dat).2 {} .none s L f.trunc
      = (f.remake lead dat s L).map w.pushRes := by
  unfold ufuncFinish
  rw [newH_eq (valid_alloc_new _ _ _), load_alloc_new]
  simp only [show ctorEllMin [] { spin_weight := some s, ell_max := some L, trunc := f.trunc } = 0 from by simp [ctorEllMin], if_true]
  change ((f.remake lead dat s L).map _ >>= _) = _
  rw [remake_eq]
  by_cases hl : (dat.length : ℤ) ≠ (L + 1) ^ 2
  · rw [if_pos hl]; rfl
  · rw [if_neg hl]
    have := store_alloc w.heap lead dat (zeroPrefix (s ^ 2).toNat dat) (zeroPrefix_length _ _)
    simp only [Except.map, bind_ok, World.setMeta, World.pushRes, World.push, this.1, pure, Except.pure]
    rw [← this.2]

theorem ufuncSign_none (w : World) (op : ℂ → ℂ) (self : MObj) :
    ufuncSign w op self .none = ((self.val w.heap).remake self.ref.lead ((w.heap.load self.ref).map fun v x => op (v x)) self.s self.ell_max).map
      w.pushRes := by
  unfold ufuncSign OutArg.ref ufuncResult
  simp only [bind_ok]
  exact ufuncFinish_alloc w _ _ _ _ (self.val w.heap)

theorem map_bind_ok {α β γ : Type} (x : Py α) (f : α → Py β) (g : β → γ) : (x >>= f).map g = x >>= fun a => (f a).map g := by
  cases x <;> rfl

/-- `np.add(f, g)` without `out`: as the method, except that different spin weights give TypeError. -/
theorem ufuncAddModes_none {w : World} {sub : Bool} {m1 m2 : MObj} (h1 : m1.ref.Valid w.heap) (h2 : m2.ref.Valid w.heap) :
    ufuncAddModes w (if sub then (· - ·) else (· + ·)) m1 m1 m2 .none
      = if m1.s ≠ m2.s then .error .typeError else ((m1.val w.heap).addM (m2.val w.heap) sub).map w.pushRes := by
  unfold ufuncAddModes Modes.addM
  by_cases hs : m1.s ≠ m2.s
  · rw [if_pos hs, if_pos hs]
  rw [if_neg hs, if_neg hs]
  simp only
  rw [if_neg (show ¬ (m1.val w.heap).s ≠ (m2.val w.heap).s from hs)]
  rw [map_bind_ok]
  congr 1
  funext lead
  simp only [OutArg.ref, ufuncTarget, bind_ok]
  rw [map_bind_ok]
  change ((npZeros (LM_total_size 0 (max m1.ell_max m2.ell_max)) >>= _) >>= _) = npZeros (LM_total_size 0 (max m1.ell_max m2.ell_max)) >>= _
  cases npZeros (α := Slice) (LM_total_size 0 (max m1.ell_max m2.ell_max)) with
  | error _ => rfl
  | ok z =>
    simp only [bind_ok]
    change (addSlices _ lead _ _ _ _ _ _ _ >>= _) = _
    have r1 : ∀ m : MObj, m.ref.Valid w.heap →
        (fun c => ((w.heap.alloc lead z).1.store (w.heap.alloc lead z).2 c).load m.ref) = fun _ => w.heap.load m.ref := by
      intro m hm
      have hlt := valid_lt hm
      funext c
      rw [load_store_ne (by simp [Heap.alloc]; omega), load_alloc_old hm]
    rw [r1 m1 h1, r1 m2 h2, load_alloc_new, map_bind_ok]
    change _ = addSlices _ lead m1.ref.lead m2.ref.lead m1.ell_max m2.ell_max (fun _ => w.heap.load m1.ref) (fun _ => w.heap.load m2.ref) z >>= _
    cases hd : addSlices (if sub = true then fun x1 x2 : ℂ => x1 - x2 else fun x1 x2 => x1 + x2) lead m1.ref.lead m2.ref.lead m1.ell_max m2.ell_max
      (fun _ => w.heap.load m1.ref) (fun _ => w.heap.load m2.ref) z with
    | error _ => rfl
    | ok d =>
      simp only [bind_ok]
      have e := store_alloc w.heap lead z d (addSlices_length hd)
      rw [e.1, e.2]
      exact ufuncFinish_alloc w _ _ _ _ (m1.val w.heap)

theorem ufuncMulModes_none {junk junk' : ℕ → ℝ} {w : World} {m1 m2 : MObj} (h1 : m1.ref.Valid w.heap) (h2 : m2.ref.Valid w.heap) :
    ufuncMulModes junk junk' w m1 m1 m2 .none = ((m1.val w.heap).multiplyM junk junk' (m2.val w.heap) none).map w.pushRes := by
  unfold ufuncMulModes Modes.multiplyM
  simp only
  change (m1.trunc.call m1.ell_max m2.ell_max >>= _) = Except.map _ (m1.trunc.call m1.ell_max m2.ell_max >>= _)
  cases m1.trunc.call m1.ell_max m2.ell_max with
  | error _ => rfl
  | ok a =>
    simp only [bind_ok]
    change (m2.trunc.call m1.ell_max m2.ell_max >>= _) = Except.map _ (m2.trunc.call m1.ell_max m2.ell_max >>= _)
    cases m2.trunc.call m1.ell_max m2.ell_max with
    | error _ => rfl
    | ok b =>
      simp only [bind_ok]
      change (bcastLeads (m1.val w.heap) (m2.val w.heap) >>= _) = Except.map _ (bcastLeads (m1.val w.heap) (m2.val w.heap) >>= _)
      cases bcastLeads (m1.val w.heap) (m2.val w.heap) with
      | error _ => rfl
      | ok lead =>
      simp only [OutArg.ref, ufuncTarget, bind_ok]
      rw [map_bind_ok]
      cases npZeros (α := Slice) (LM_total_size 0 (max a b)) with
      | error _ => rfl
      | ok z =>
        simp only [bind_ok]
        have r1 : ∀ m : MObj, m.ref.Valid w.heap →
            (fun c => ((w.heap.alloc lead z).1.store (w.heap.alloc lead z).2 c).load m.ref) = fun _ => w.heap.load m.ref := by
          intro m hm
          have hlt := valid_lt hm
          funext c
          rw [load_store_ne (by simp [Heap.alloc]; omega), load_alloc_old hm]
        simp only [pure, Except.pure, bind_ok]
        rw [r1 m1 h1, r1 m2 h2, load_alloc_new, map_bind_ok]
        change (mulHelper junk junk' m1.ref.lead m2.ref.lead lead (fun _ => w.heap.load m1.ref) 0 m1.ell_max m1.s (fun _ => w.heap.load m2.ref) 0
          m2.ell_max m2.s z 0 (max a b) (m1.s + m2.s) >>= _) = mulHelper junk junk' m1.ref.lead m2.ref.lead lead (fun _ => w.heap.load m1.ref) 0 m1.ell_max m1.s (fun _ => w.heap.load m2.ref) 0
          m2.ell_max m2.s z 0 (max a b) (m1.s + m2.s) >>= _
        cases hd : mulHelper junk junk' m1.ref.lead m2.ref.lead lead (fun _ => w.heap.load m1.ref) 0 m1.ell_max m1.s (fun _ => w.heap.load m2.ref) 0
          m2.ell_max m2.s z 0 (max a b) (m1.s + m2.s) with
        | error _ => rfl
        | ok d =>
          simp only [bind_ok]
          have e := store_alloc w.heap lead z d (mulHelper_length hd)
          rw [e.1, e.2]
          exact ufuncFinish_alloc w _ _ _ _ (m1.val w.heap)

theorem ufuncScalar_none {w : World} {op : ℂ → ℂ → ℂ} {m : MObj} (a : Scalars) :
    ufuncScalar w op m m a .none = ((m.val w.heap).ufuncMulScalar op a).map w.pushRes := by
  unfold ufuncScalar Modes.ufuncMulScalar
  rw [map_bind_ok]
  congr 1
  funext b
  cases b with
  | false => rfl
  | true =>
    simp only [Bool.not_true, Bool.false_eq_true, if_false, if_true, OutArg.ref, bind_ok]
    unfold Modes.scalarUfunc
    change (match bcastShape m.ref.lead a.shape with | none => _ | some lead => _)
      = Except.map _ (match bcastShape m.ref.lead a.shape with | none => _ | some lead => _)
    cases bcastShape m.ref.lead a.shape with
    | none => rfl
    | some lead =>
      simp only [ufuncResult, bind_ok]
      exact ufuncFinish_alloc w _ _ _ _ (m.val w.heap)

theorem ufuncConj_none {w : World} {m : MObj} (hm : m.ref.Valid w.heap) :
    ufuncConj w m .none = ((m.val w.heap).conjugate false).map w.pushRes := by
  unfold ufuncConj Modes.conjugate
  rw [if_neg (by simp), map_bind_ok]
  simp only [OutArg.ref, bind_ok]
  have hlt := valid_lt hm
  have r1 : (fun c => (((w.heap.alloc m.ref.lead (zerosLike (w.heap.load m.ref))).1.store
        (w.heap.alloc m.ref.lead (zerosLike (w.heap.load m.ref))).2 c).load m.ref).map
          (bcTo m.ref.lead (w.heap.alloc m.ref.lead (zerosLike (w.heap.load m.ref))).2.lead))
      = fun _ => w.heap.load m.ref := by
    funext c
    rw [load_store_ne (by simp [Heap.alloc]; omega), load_alloc_old hm]
    have : bcTo m.ref.lead (w.heap.alloc m.ref.lead (zerosLike (w.heap.load m.ref))).2.lead = id := by
      funext v; simp [bcTo, Heap.alloc]
    rw [this, List.map_id]
  rw [r1, load_alloc_new]
  change (conjLoop m.s m.ell_max (fun _ => w.heap.load m.ref) (zerosLike (w.heap.load m.ref)) >>= _)
    = conjLoop m.s m.ell_max (fun _ => w.heap.load m.ref) (zerosLike (w.heap.load m.ref)) >>= _
  cases hd : conjLoop m.s m.ell_max (fun _ => w.heap.load m.ref) (zerosLike (w.heap.load m.ref)) with
  | error _ => rfl
  | ok d =>
    simp only [bind_ok]
    have e := store_alloc w.heap m.ref.lead (zerosLike (w.heap.load m.ref)) d (conjLoop_length hd)
    rw [e.1, e.2]
    exact ufuncFinish_alloc w _ _ _ _ (m.val w.heap)

end SF
