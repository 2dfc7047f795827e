import Verif.Model.Views
import Verif.Props.Leading
import Verif.Props.ModesOut

/-!
# C76: writing to selections of functions
-/

set_option autoImplicit false

namespace SF

open ComplexConjugate

section

variable {v : View}

theorem View.write_mem (hv : v.Inj) (new old : Slice) {y : MIdx} (hy : ValidIdx v.lead y) : v.write new old (v.φ y) = new y := by
  have h : v.Mem (v.φ y) := ⟨y, hy, rfl⟩
  unfold View.write
  rw [dif_pos h, hv _ _ h.choose_spec.1 hy h.choose_spec.2]

theorem View.write_not_mem (new old : Slice) {x : MIdx} (hx : ¬ v.Mem x) : v.write new old x = old x := by
  unfold View.write
  rw [dif_neg hx]

theorem View.write_zero : v.write (fun _ => 0) (fun _ => 0) = fun _ => 0 := by
  funext x
  unfold View.write
  split <;> rfl

theorem writeView_length {f : Modes} {dat : List Slice} (h : dat.length = f.dat.length) : (f.writeView v dat).dat.length = f.dat.length := by
  unfold Modes.writeView
  rw [List.length_zipWith]
  omega

theorem writeView_get {f : Modes} (hf : f.Sized) {dat : List Slice} {l m : ℤ} (h1 : |m| ≤ l) (h2 : l ≤ f.ell_max) {u : Slice}
    (hu : dat[mpos l m]? = some u) : (f.writeView v dat).coef l m = v.write u (f.coef l m) := by
  apply coef_of_get
  unfold Modes.writeView
  rw [List.getElem?_zipWith, hu, hf.get h1 h2]

theorem item_inj (rest : List ℕ) (i : ℕ) : (View.item rest i).Inj := by
  intro y y' _ _ h
  exact (List.cons.inj h).2

theorem item_mem (rest : List ℕ) (i : ℕ) (x : MIdx) : (View.item rest i).Mem x ↔ ∃ y, ValidIdx rest y ∧ x = i :: y := by
  unfold View.Mem View.item
  constructor
  · rintro ⟨y, h1, rfl⟩; exact ⟨y, h1, rfl⟩
  · rintro ⟨y, h1, rfl⟩; exact ⟨y, h1, rfl⟩

/-- Writing the data of a well-formed object of spin weight `±s` and the same `ell_max`. -/
theorem writeView_modes {f g : Modes} (hf : f.WF) (hg : g.WF) (hv : v.Inj) (hs : |g.s| = |f.s|) (hL : g.ell_max = f.ell_max) :
    (f.writeView v g.dat).WF ∧ (∀ l m, |m| ≤ l → l ≤ f.ell_max → ∀ y, ValidIdx v.lead y → (f.writeView v g.dat).coef l m (v.φ y) = g.coef l m y) ∧
    ∀ l m, |m| ≤ l → l ≤ f.ell_max → ∀ x, ¬ v.Mem x → (f.writeView v g.dat).coef l m x = f.coef l m x := by
  have hlen : g.dat.length = f.dat.length := by
    have h1 := hf.size; have h2 := hg.size; rw [hL] at h2; omega
  refine ⟨⟨hf.ell_max_ge, ?_, fun l m h1 h2 h3 => ?_⟩, fun l m h1 h2 y hy => ?_, fun l m h1 h2 x hx => ?_⟩
  · rw [writeView_length hlen]; exact hf.size
  · rw [writeView_get hf.sized h2 h3 (hg.get h2 (by rw [hL]; exact h3)), hf.low l m h1 h2 h3, hg.low l m (by rw [hs]; exact h1) h2 (by rw [hL]; exact h3),
      View.write_zero]
  · rw [writeView_get hf.sized h1 h2 (hg.get h1 (by rw [hL]; exact h2)), View.write_mem hv _ _ hy]
  · rw [writeView_get hf.sized h1 h2 (hg.get h1 (by rw [hL]; exact h2)), View.write_not_mem _ _ hx]

end

/-! ## In-place methods of a view -/

/-- **C76 (in-place methods).** `g = f[key]; g.conjugate(inplace=True)` (or the in-place real or imaginary part) gives `g` the value that
the method gives for the selection; the selected functions of `f` get the same mode weights, the others keep theirs, and the spin
weight that `f` reports does not change. -/
theorem C76_inplace (f : Modes) (hf : f.WF) (v : View) (hv : v.Inj) (op : MethodIn) (hop : op = .conjugate ∨ f.s = 0) :
    ∃ f' g, f.viewInplace v op = .ok (f', g) ∧ op.run (f.select v.lead v.φ) = .ok g ∧ f'.WF ∧ g.WF ∧
      f'.lead = f.lead ∧ f'.s = f.s ∧ f'.ell_max = f.ell_max ∧ f'.trunc = f.trunc ∧
      (∀ l m, |m| ≤ l → l ≤ f.ell_max → ∀ y, ValidIdx v.lead y → f'.coef l m (v.φ y) = g.coef l m y) ∧
      ∀ l m, |m| ≤ l → l ≤ f.ell_max → ∀ x, ¬ v.Mem x → f'.coef l m x = f.coef l m x := by
  obtain ⟨hw, hs, hL, -, -, -⟩ := C71_select f hf v.lead v.φ
  have key : ∀ g, op.run (f.select v.lead v.φ) = .ok g → g.WF → |g.s| = |f.s| → g.ell_max = f.ell_max → _ := fun g e h1 h2 h3 => by
    have hwr := writeView_modes hf h1 hv h2 h3
    exact (⟨f.writeView v g.dat, g, by unfold Modes.viewInplace; rw [e, bind_ok]; rfl, e, hwr.1, h1, rfl, rfl, rfl, rfl, hwr.2.1, hwr.2.2⟩ :
      ∃ f' g, f.viewInplace v op = .ok (f', g) ∧ op.run (f.select v.lead v.φ) = .ok g ∧ f'.WF ∧ g.WF ∧
      f'.lead = f.lead ∧ f'.s = f.s ∧ f'.ell_max = f.ell_max ∧ f'.trunc = f.trunc ∧
      (∀ l m, |m| ≤ l → l ≤ f.ell_max → ∀ y, ValidIdx v.lead y → f'.coef l m (v.φ y) = g.coef l m y) ∧
      ∀ l m, |m| ≤ l → l ≤ f.ell_max → ∀ x, ¬ v.Mem x → f'.coef l m x = f.coef l m x)
  cases op with
  | conjugate =>
    obtain ⟨g, e1, e2⟩ := conjugate_ok hw true
    exact key g e1 e2.wf (by rw [e2.hs, abs_neg, hs]) (by rw [e2.hL, hL])
  | real =>
    have h0 : f.s = 0 := by simpa using hop
    obtain ⟨g, e1, e2⟩ := real_ok hw (hs.trans h0) true
    exact key g e1 e2.wf (by rw [e2.hs, h0]) (by rw [e2.hL, hL])
  | imag =>
    have h0 : f.s = 0 := by simpa using hop
    obtain ⟨g, e1, e2⟩ := imag_ok hw (hs.trans h0) true
    exact key g e1 e2.wf (by rw [e2.hs, h0]) (by rw [e2.hL, hL])

/-- **C76 (conjugation of a view).** The selected functions of `f` then have the mode weights of their conjugates, which have spin
weight `-s`, but are still labelled `s`. -/
theorem C76_conjugate (f : Modes) (hf : f.WF) (v : View) (hv : v.Inj) :
    ∃ f' g, f.viewInplace v .conjugate = .ok (f', g) ∧ f'.WF ∧ g.s = -f.s ∧ f'.lead = f.lead ∧ f'.s = f.s ∧ f'.ell_max = f.ell_max ∧ f'.trunc = f.trunc ∧
      (f.s ≠ 0 → f'.s ≠ g.s) ∧
      (∀ l m, |f.s| ≤ l → |m| ≤ l → l ≤ f.ell_max → ∀ y, ValidIdx v.lead y →
        f'.coef l m (v.φ y) = (-1) ^ (f.s + m) * conj (f.coef l (-m) (v.φ y))) ∧
      ∀ l m, |m| ≤ l → l ≤ f.ell_max → ∀ x, ¬ v.Mem x → f'.coef l m x = f.coef l m x := by
  obtain ⟨f', g, e1, e2, e3, e4, e5, e6, e7, e8, e9, e10⟩ := C76_inplace f hf v hv .conjugate (.inl rfl)
  obtain ⟨hw, hs, hL, -, -, hc⟩ := C71_select f hf v.lead v.φ
  obtain ⟨g', d1, d2⟩ := conjugate_ok hw true
  have hgg : g = g' := by
    have : (Except.ok g : Py Modes) = .ok g' := by rw [← e2, ← d1]; rfl
    injection this
  subst hgg
  have hgs : g.s = -f.s := by rw [d2.hs, hs]
  refine ⟨f', g, e1, e3, hgs, e5, e6, e7, e8, fun h0 => by rw [e6, hgs]; omega, fun l m h1 h2 h3 y hy => ?_, e10⟩
  rw [e9 l m h2 h3 y hy, d2.coef l m (by rw [hs, abs_neg]; exact h1) h2 (by rw [hL]; exact h3)]
  simp only
  rw [hs, hc l (-m) (by rw [abs_neg]; exact h2) h3]

/-- **C76 (conjugating in a loop).** `for g in f: g.conjugate(inplace=True)` replaces the mode weights of all functions by those of their
conjugates, and `f` still reports the spin weight `s`. -/
theorem C76_loop (f : Modes) (hf : f.WF) (n : ℕ) (rest : List ℕ) (hlead : f.lead = n :: rest) :
    ∃ f', f.conjugateEach n rest = .ok f' ∧ f'.WF ∧ f'.lead = f.lead ∧ f'.s = f.s ∧ f'.ell_max = f.ell_max ∧ f'.trunc = f.trunc ∧
      ∀ l m, |f.s| ≤ l → |m| ≤ l → l ≤ f.ell_max → ∀ x, ValidIdx f.lead x →
        f'.coef l m x = (-1) ^ (f.s + m) * conj (f.coef l (-m) x) := by
  unfold Modes.conjugateEach
  obtain ⟨f', e1, e2, e3, e4, e5, e6, e7⟩ := forL_inv
    (I := fun pre (g : Modes) => g.WF ∧ g.lead = f.lead ∧ g.s = f.s ∧ g.ell_max = f.ell_max ∧ g.trunc = f.trunc ∧
      ∀ l m, |f.s| ≤ l → |m| ≤ l → l ≤ f.ell_max → ∀ k y, ValidIdx rest y →
        g.coef l m (k :: y) = if k ∈ pre then (-1) ^ (f.s + m) * conj (f.coef l (-m) (k :: y)) else f.coef l m (k :: y))
    (List.range n) f (fun i f => do
      let p ← f.viewInplace (View.item rest i) .conjugate
      return p.1) ⟨hf, rfl, rfl, rfl, rfl, fun l m _ _ _ k y _ => by simp⟩ (by
    rintro pre i post g hsplit ⟨h1, h2, h3, h4, h5, h6⟩
    have hnot : i ∉ pre := by
      have := List.nodup_range (n := n)
      rw [hsplit, List.nodup_append] at this
      intro hc
      exact this.2.2 i hc i (by simp) rfl
    obtain ⟨g', g'', d1, d2, -, d4, d5, d6, d7, -, d8, d9⟩ := C76_conjugate g h1 (View.item rest i) (item_inj rest i)
    refine ⟨g', by rw [d1, bind_ok]; rfl, d2, d4.trans h2, d5.trans h3, d6.trans h4, d7.trans h5, fun l m k1 k2 k3 k y hy => ?_⟩
    by_cases hk : k = i
    · subst hk
      rw [if_pos (by simp)]
      have := d8 l m (by rw [h3]; exact k1) k2 (by rw [h4]; exact k3) y hy
      rw [show (View.item rest k).φ y = k :: y from rfl] at this
      rw [this, h3, h6 l (-m) k1 (by rw [abs_neg]; exact k2) k3 k y hy, if_neg hnot]
    · rw [d9 l m k2 (by rw [h4]; exact k3) _ (by
        rw [item_mem]
        rintro ⟨_, _, hc⟩
        exact hk (List.cons.inj hc).1), h6 l m k1 k2 k3 k y hy]
      have : (k ∈ pre ++ [i]) ↔ k ∈ pre := by simp [hk]
      simp only [this])
  refine ⟨f', e1, e2, e3, e4, e5, e6, fun l m h1 h2 h3 x hx => ?_⟩
  rw [hlead] at hx
  cases hx with
  | cons hk hy =>
    rw [e7 l m h1 h2 h3 _ _ hy, if_pos (by simpa using hk)]

/-! ## Assignment of functions -/

/-- **C76 (assignment of functions).** `f[key] = g` with `g` of the same `ell_max` whose leading shape broadcasts to that of the selection:
the selected functions get the mode weights of `g`, whatever the spin weight of `g`, and `f` still reports its own; the result is
well-formed if the spin weights agree. -/
theorem C76_set (f : Modes) (hf : f.WF) (v : View) (hv : v.Inj) (g : Modes) (hg : g.WF) (hL : g.ell_max = f.ell_max)
    (hb : bcastShape g.lead v.lead = some v.lead) :
    ∃ f', f.setFunctions v g = .ok f' ∧ f'.Sized ∧ (|f.s| ≤ |g.s| → f'.WF) ∧ f'.lead = f.lead ∧ f'.s = f.s ∧ f'.ell_max = f.ell_max ∧ f'.trunc = f.trunc ∧
      (∀ l m, |m| ≤ l → l ≤ f.ell_max → ∀ y, ValidIdx v.lead y → f'.coef l m (v.φ y) = g.coef l m (bcIdx g.lead y)) ∧
      ∀ l m, |m| ≤ l → l ≤ f.ell_max → ∀ x, ¬ v.Mem x → f'.coef l m x = f.coef l m x := by
  have hlen : g.dat.length = f.dat.length := by
    have h1 := hf.size; have h2 := hg.size; rw [hL] at h2; omega
  set d := g.dat.map (bcTo g.lead v.lead) with hd
  have hdl : d.length = f.dat.length := by rw [hd, List.length_map, hlen]
  have e : f.setFunctions v g = .ok (f.writeView v d) := by
    unfold Modes.setFunctions bcInto
    simp only
    rw [if_neg (by simpa using hb), if_pos hlen, bind_ok]
    rfl
  have hget : ∀ l m, |m| ≤ l → l ≤ f.ell_max → d[mpos l m]? = some (bcTo g.lead v.lead (g.coef l m)) := fun l m h1 h2 => by
    rw [hd, List.getElem?_map, hg.get h1 (by rw [hL]; exact h2)]
    rfl
  have hsz : ((f.writeView v d).dat.length : ℤ) = (f.ell_max + 1) ^ 2 := by rw [writeView_length hdl]; exact hf.size
  refine ⟨_, e, ⟨hf.ell_max_ge, hsz⟩, fun hs => ⟨hf.ell_max_ge, hsz, fun l m h1 h2 h3 => ?_⟩, rfl, rfl, rfl, rfl,
    fun l m h1 h2 y hy => ?_, fun l m h1 h2 x hx => ?_⟩
  · have h1' : l < |f.s| := h1
    rw [writeView_get hf.sized h2 h3 (hget l m h2 h3), hf.low l m h1 h2 h3, hg.low l m (by omega) h2 (by rw [hL]; exact h3), bcTo_zero,
      View.write_zero]
  · rw [writeView_get hf.sized h1 h2 (hget l m h1 h2), View.write_mem hv _ _ hy, bcTo_valid _ hy]
  · rw [writeView_get hf.sized h1 h2 (hget l m h1 h2), View.write_not_mem _ _ hx]

/-- **C76 (assignment of a function with one mode).** `f[key] = g` with `ell_max_g = 0`: every mode of the selected functions becomes the
one mode of `g`. -/
theorem C76_set_single (f : Modes) (hf : f.WF) (v : View) (hv : v.Inj) (g : Modes) (hg : g.WF) (hL : g.ell_max = 0)
    (hb : bcastShape g.lead v.lead = some v.lead) :
    ∃ f', f.setFunctions v g = .ok f' ∧ f'.s = f.s ∧ f'.ell_max = f.ell_max ∧
      ∀ l m, |m| ≤ l → l ≤ f.ell_max → ∀ y, ValidIdx v.lead y → f'.coef l m (v.φ y) = g.coef 0 0 (bcIdx g.lead y) := by
  have h1 : g.dat.length = 1 := by have := hg.size; rw [hL] at this; simpa using this
  obtain ⟨u, hu⟩ := List.length_eq_one_iff.mp h1
  have hcu : g.coef 0 0 = u := coef_of_get (by rw [hu]; simp [mpos, LM_index])
  have e : f.setFunctions v g = .ok (f.writeView v (List.replicate f.dat.length (bcTo g.lead v.lead u))) := by
    unfold Modes.setFunctions bcInto
    simp only
    rw [if_neg (by simpa using hb)]
    by_cases hl : g.dat.length = f.dat.length
    · rw [if_pos hl, bind_ok, ← hl, h1, hu]
      rfl
    · rw [if_neg hl, hu]
      rfl
  refine ⟨_, e, rfl, rfl, fun l m k1 k2 y hy => ?_⟩
  rw [writeView_get hf.sized k1 k2 (u := bcTo g.lead v.lead u) (by
    rw [List.getElem?_replicate, if_pos (mpos_lt k1 k2 hf.size)]), View.write_mem hv _ _ hy, bcTo_valid _ hy, hcu]

/-- **C76 (assignments that are rejected).** With any other `ell_max`, or a leading shape that does not broadcast: ValueError. -/
theorem C76_set_rejected (f : Modes) (hf : f.WF) (v : View) (g : Modes) (hg : g.WF)
    (h : bcastShape g.lead v.lead ≠ some v.lead ∨ g.ell_max ≠ f.ell_max ∧ g.ell_max ≠ 0) : f.setFunctions v g = .error .valueError := by
  unfold Modes.setFunctions bcInto
  simp only
  by_cases hb : bcastShape g.lead v.lead = some v.lead
  swap
  · rw [if_pos hb]
    rfl
  · rw [if_neg (by simpa using hb)]
    rcases h with h | ⟨h1, h2⟩
    · exact absurd hb h
    have hfs := hf.size
    have hgs := hg.size
    have hf1 := hf.ell_max_ge
    have hg1 := hg.ell_max_ge
    have hne : g.dat.length ≠ f.dat.length := by
      intro hc
      rw [hc, hfs] at hgs
      rcases lt_or_gt_of_ne h1 with hlt | hlt
      · have := sq_lt_of (show 0 ≤ g.ell_max + 1 by omega) (show g.ell_max + 1 < f.ell_max + 1 by omega)
        omega
      · have := sq_lt_of (show 0 ≤ f.ell_max + 1 by omega) (show f.ell_max + 1 < g.ell_max + 1 by omega)
        omega
    have hne1 : g.dat.length ≠ 1 := by
      intro hc
      rw [hc] at hgs
      have : g.ell_max = -1 ∨ 1 ≤ g.ell_max := by omega
      rcases this with h | h
      · rw [h] at hgs; norm_num at hgs
      · have := sq_lt_of (show (0 : ℤ) ≤ 1 by omega) (show 1 < g.ell_max + 1 by omega)
        push_cast at hgs
        omega
    rw [if_neg hne]
    cases hd : g.dat with
    | nil => rfl
    | cons a t => cases t with
      | nil => rw [hd] at hne1; simp at hne1
      | cons b t => rfl

/-! ## Augmented assignment -/

/-- **C76 (`f[key] += h`).** With `h` of the same spin weight, `ell_max_h ≤ ell_max_f`, memory of its own, and a leading shape that
broadcasts to that of the selection: the selected functions become their sums (differences) with `h`, the others do not change. -/
theorem C76_iadd (junk junk' : ℕ → ℝ) (f : Modes) (hf : f.WF) (v : View) (hv : v.Inj) (h : Modes) (hh : h.WF) (hs : f.s = h.s)
    (h0 : 0 ≤ h.ell_max) (hL : h.ell_max ≤ f.ell_max) (hb : bcastShape h.lead v.lead = some v.lead)
    (hb' : bcastShape v.lead h.lead = some v.lead) (subtraction : Bool) :
    ∃ f', f.viewIadd junk junk' v h subtraction = .ok f' ∧ f'.WF ∧ f'.lead = f.lead ∧ f'.s = f.s ∧ f'.ell_max = f.ell_max ∧ f'.trunc = f.trunc ∧
      (∀ l m, |m| ≤ l → l ≤ f.ell_max → ∀ y, ValidIdx v.lead y → f'.coef l m (v.φ y) =
        if subtraction then f.coef l m (v.φ y) - h.coef l m (bcIdx h.lead y) else f.coef l m (v.φ y) + h.coef l m (bcIdx h.lead y)) ∧
      ∀ l m, |m| ≤ l → l ≤ f.ell_max → ∀ x, ¬ v.Mem x → f'.coef l m x = f.coef l m x := by
  obtain ⟨hw, -, -, -, -, hc⟩ := C71_select f hf v.lead v.φ
  set g := f.select v.lead v.φ with hgdef
  have hgl : g.dat.length = f.dat.length := by rw [hgdef, select_dat, List.length_map]
  set r : ArrRef := ⟨0, v.lead, 0, f.dat.length⟩ with hr
  set o0 : MObj := ⟨r, f.s, f.ell_max, f.trunc⟩ with ho0
  set o1 : MObj := ⟨⟨1, h.lead, 0, h.dat.length⟩, h.s, h.ell_max, h.trunc⟩ with ho1
  set w : World := ⟨[g.dat, h.dat], [o0, o1]⟩ with hwdef
  have v0 : o0.val w.heap = g := by
    simp only [MObj.val, ho0, hr, Heap.load, hwdef, List.getElem?_cons_zero, Option.getD_some, List.drop_zero, ← hgl, List.take_length]
    rfl
  have v1 : o1.val w.heap = h := by
    simp only [MObj.val, ho1, Heap.load, hwdef, List.getElem?_cons_succ, List.getElem?_cons_zero, Option.getD_some, List.drop_zero, List.take_length]
  have hval : r.Valid w.heap := ⟨g.dat, rfl, by simp [hr, hgl]⟩
  obtain ⟨vals, e1, e2, e3, e4⟩ := C40_iadd (junk := junk) (junk' := junk') (w := w) (i := 0) (j := 1) (f := o0) (g := o1) subtraction rfl rfl hs
    (by rw [v0]; exact hw) (by rw [v1]; exact hh) (show 0 ≤ f.ell_max by omega) h0 hval hL (.inl (.inl (by simp [ho0, ho1, hr]))) hb hb' (bcastShape_self _)
  have el : (w.heap.store r vals).load r = vals := load_store_self hval e2
  have e : f.viewIadd junk junk' v h subtraction = .ok (f.writeView v vals) := by
    unfold Modes.viewIadd
    simp only
    rw [show (if subtraction then Ufunc.subtract else Ufunc.add) = addU subtraction from rfl]
    erw [e1]
    rw [bind_ok]
    simp only [World.outRes, pure, Except.pure]
    rw [show o0.ref = r from rfl, el]
  have hget : ∀ l m, |m| ≤ l → l ≤ f.ell_max → vals[mpos l m]? = some fun x => if l < |f.s| then 0 else
      addOp subtraction (g.coef l m x) (h.coefIn v.lead l m x) := by
    intro l m h1 h2
    by_cases hl : l < |f.s|
    · rw [e4 l m hl h1 h2]
      simp only [if_pos hl]
    · have := e3 l m (show |f.s| ≤ l by omega) h1 h2
      rw [v0, v1] at this
      rw [this]
      simp only [if_neg hl]
      congr 1
      funext x
      congr 1
      unfold Modes.coefIn
      rw [show o0.ref.lead = g.lead from rfl]
      simp [bcTo]
  have hlen : vals.length = f.dat.length := e2
  refine ⟨_, e, ⟨hf.ell_max_ge, by rw [writeView_length hlen]; exact hf.size, fun l m h1 h2 h3 => ?_⟩, rfl, rfl, rfl, rfl,
    fun l m h1 h2 y hy => ?_, fun l m h1 h2 x hx => ?_⟩
  · have h1' : l < |f.s| := h1
    rw [writeView_get hf.sized h2 h3 (hget l m h2 h3), hf.low l m h1 h2 h3]
    simp only [if_pos h1']
    exact View.write_zero
  · rw [writeView_get hf.sized h1 h2 (hget l m h1 h2), View.write_mem hv _ _ hy]
    by_cases hl : l < |f.s|
    · simp only [if_pos hl]
      rw [hf.low l m hl h1 h2]
      by_cases hlh : l ≤ h.ell_max
      · rw [hh.low l m (by rw [← hs]; exact hl) h1 hlh]
        cases subtraction <;> simp
      · rw [coef_of_gt hh h1 (by omega)]
        cases subtraction <;> simp
    · simp only [if_neg hl]
      rw [hc l m h1 h2 y]
      unfold Modes.coefIn
      rw [bcTo_valid _ hy]
      cases subtraction <;> rfl
  · rw [writeView_get hf.sized h1 h2 (hget l m h1 h2), View.write_not_mem _ _ hx]

/-! ## Concrete cases -/

/-- Non-vacuity of C76: conjugating the second of two functions of spin weight -1 changes only that one. -/
example : ∃ f' g, exModes.viewInplace (View.item [] 1) .conjugate = .ok (f', g) ∧ f'.s = -1 ∧ g.s = 1 ∧
    f'.coef 1 0 [1] = -(1 - 2 * Complex.I) ∧ f'.coef 1 0 [0] = 2 * Complex.I := by
  obtain ⟨f', g, e1, -, e2, -, e3, -, -, -, e4, e5⟩ := C76_conjugate exModes exModes_WF (View.item [] 1) (item_inj [] 1)
  refine ⟨f', g, e1, e3, e2, ?_, ?_⟩
  · have := e4 1 0 (by simp [exModes]) (by norm_num) (by simp [exModes]) [] .nil
    rw [show (View.item [] 1).φ [] = [1] from rfl] at this
    rw [this, neg_zero, exModes_coef]
    simp [exModes]
    rw [Complex.conj_ofNat]
    ring
  · rw [e5 1 0 (by norm_num) (by simp [exModes]) [0] (by rw [item_mem]; rintro ⟨_, _, h⟩; simp at h), exModes_coef]
    simp

/-- Non-vacuity of C76: `f[0] += f0` with `f0` one function. -/
example (junk junk' : ℕ → ℝ) : ∃ f', exModes.viewIadd junk junk' (View.item [] 0) (exModes.at [1]) false = .ok f' ∧ f'.WF ∧
    f'.coef 1 0 [0] = 4 * Complex.I + 1 := by
  obtain ⟨hw, -⟩ := C71_select exModes exModes_WF [] fun _ => [1]
  obtain ⟨f', e1, e2, -, -, -, -, e3, -⟩ := C76_iadd junk junk' exModes exModes_WF (View.item [] 0) (item_inj [] 0) (exModes.at [1]) hw rfl
    (by simp [Modes.at, Modes.select, exModes]) (by simp [Modes.at, Modes.select]) rfl rfl false
  refine ⟨f', e1, e2, ?_⟩
  have := e3 1 0 (by norm_num) (by simp [exModes]) [] .nil
  rw [show (View.item [] 0).φ [] = [0] from rfl] at this
  obtain ⟨-, -, -, -, -, hc⟩ := C71_select exModes exModes_WF [] fun _ => [1]
  rw [this, if_neg (by simp), show exModes.at [1] = exModes.select [] fun _ => [1] from rfl, hc 1 0 (by norm_num) (by simp [exModes]), exModes_coef]
  simp
  ring

/-- Non-vacuity of C76: the loop over both functions of `exModes`. -/
example : ∃ f', exModes.conjugateEach 2 [] = .ok f' ∧ f'.s = -1 ∧ f'.coef 1 0 [0] = 2 * Complex.I := by
  obtain ⟨f', e1, -, -, e3, -, -, e4⟩ := C76_loop exModes exModes_WF 2 [] rfl
  refine ⟨f', e1, e3, ?_⟩
  rw [e4 1 0 (by simp [exModes]) (by norm_num) (by simp [exModes]) [0] (by simp [exModes, ValidIdx]), neg_zero, exModes_coef]
  simp [exModes]
  exact Complex.conj_ofNat _

/-- Non-vacuity of C76: `f[0] = g` with `g` of spin weight +1 (the conjugate of the second function) is accepted. -/
example : ∃ g f', (exModes.at [1]).conjugate true = .ok g ∧ g.s = 1 ∧ exModes.setFunctions (View.item [] 0) g = .ok f' ∧ f'.s = -1 ∧
    f'.coef 1 0 [0] = g.coef 1 0 [] := by
  obtain ⟨hw, hs, hL, -⟩ := C71_select exModes exModes_WF [] fun _ => [1]
  obtain ⟨g, d1, d2⟩ := conjugate_ok hw true
  have hlead : g.lead = [] := d2.lead
  obtain ⟨f', e1, -, -, -, e3, -, -, e4, -⟩ := C76_set exModes exModes_WF (View.item [] 0) (item_inj [] 0) g d2.wf (by rw [d2.hL, hL])
    (by rw [hlead]; rfl)
  refine ⟨g, f', d1, by rw [d2.hs, hs]; rfl, e1, e3, ?_⟩
  have := e4 1 0 (by norm_num) (by simp [exModes]) [] .nil
  rw [show (View.item [] 0).φ [] = [0] from rfl] at this
  rw [this, hlead]
  rfl

end SF
