import Verif.Model.ModesHeap
import Verif.Lemmas.ModesAlg

/-! # Memory of `Modes` objects: helper lemmas -/

set_option autoImplicit false

namespace SF

open ComplexConjugate

/-! ## The heap -/

/-- Slot `k` of buffer `b`. -/
def Heap.slot (h : Heap) (b k : ℕ) : Option Slice := (h[b]?).bind (·[k]?)

theorem slot_load (h : Heap) (r : ArrRef) (k : ℕ) : (h.load r)[k]? = if k < r.len then h.slot r.buf (r.off + k) else none := by
  unfold Heap.load Heap.slot
  rw [List.getElem?_take]
  split
  · rw [List.getElem?_drop]
    cases h[r.buf]? <;> simp
  · rfl

theorem load_length {h : Heap} {r : ArrRef} (hr : r.Valid h) : (h.load r).length = r.len := by
  obtain ⟨b, e, hb⟩ := hr
  unfold Heap.load
  rw [e, Option.getD_some, List.length_take, List.length_drop]
  omega

theorem load_congr {h h' : Heap} {r : ArrRef} (e : ∀ k, k < r.len → h.slot r.buf (r.off + k) = h'.slot r.buf (r.off + k)) :
    h.load r = h'.load r := by
  apply List.ext_getElem?
  intro k
  rw [slot_load, slot_load]
  split
  · exact e k ‹_›
  · rfl

theorem store_get_self (h : Heap) (r : ArrRef) (vals : List Slice) :
    (h.store r vals)[r.buf]? = (h[r.buf]?).map fun b => b.take r.off ++ vals ++ b.drop (r.off + r.len) := by
  unfold Heap.store
  rw [List.getElem?_modify]
  simp

theorem store_get_ne (h : Heap) (r : ArrRef) (vals : List Slice) {b : ℕ} (hb : b ≠ r.buf) : (h.store r vals)[b]? = h[b]? := by
  unfold Heap.store
  rw [List.getElem?_modify]
  simp [Ne.symm hb]

theorem slot_store {h : Heap} {r : ArrRef} (hr : r.Valid h) {vals : List Slice} (hv : vals.length = r.len) (b k : ℕ) :
    (h.store r vals).slot b k = if b = r.buf ∧ r.off ≤ k ∧ k < r.off + r.len then vals[k - r.off]? else h.slot b k := by
  obtain ⟨a, e, ha⟩ := hr
  unfold Heap.slot
  by_cases hb : b = r.buf
  · subst hb
    rw [store_get_self, e]
    simp only [Option.map_some, Option.bind_some, true_and]
    by_cases h1 : k < r.off
    · rw [if_neg (by omega), List.append_assoc, List.getElem?_append_left (by rw [List.length_take]; omega), List.getElem?_take, if_pos h1]
    · by_cases h2 : k < r.off + r.len
      · rw [if_pos ⟨by omega, h2⟩, List.append_assoc, List.getElem?_append_right (by rw [List.length_take]; omega), List.length_take,
          List.getElem?_append_left (by omega), show min r.off a.length = r.off by omega]
      · rw [if_neg (by omega), List.getElem?_append_right (by rw [List.length_append, List.length_take]; omega), List.length_append,
          List.length_take, List.getElem?_drop]
        congr 1
        omega
  · rw [if_neg (by tauto), store_get_ne _ _ _ hb]

theorem valid_store {h : Heap} {r r' : ArrRef} (hr : r.Valid h) {vals : List Slice} (hv : vals.length = r.len) (hr' : r'.Valid h) :
    r'.Valid (h.store r vals) := by
  obtain ⟨a, e, ha⟩ := hr
  obtain ⟨a', e', ha'⟩ := hr'
  by_cases hb : r'.buf = r.buf
  · rw [hb] at e'
    rw [e] at e'
    injection e' with e'
    subst e'
    refine ⟨_, by rw [hb, store_get_self, e]; rfl, ?_⟩
    simp only [List.length_append, List.length_take, List.length_drop]
    omega
  · exact ⟨a', by rw [store_get_ne _ _ _ hb, e'], ha'⟩

theorem load_store_self {h : Heap} {r : ArrRef} (hr : r.Valid h) {vals : List Slice} (hv : vals.length = r.len) :
    (h.store r vals).load r = vals := by
  apply List.ext_getElem?
  intro k
  rw [slot_load, slot_store hr hv]
  by_cases hk : k < r.len
  · rw [if_pos hk, if_pos ⟨rfl, by omega, by omega⟩]
    congr 1
    omega
  · rw [if_neg hk, List.getElem?_eq_none (by omega)]

/-- The two arrays have no slot in common. -/
def ArrRef.Disjoint (r r' : ArrRef) : Prop := r.buf ≠ r'.buf ∨ r.off + r.len ≤ r'.off ∨ r'.off + r'.len ≤ r.off

theorem load_store_disjoint {h : Heap} {r r' : ArrRef} (hr : r.Valid h) {vals : List Slice} (hv : vals.length = r.len)
    (hd : r.Disjoint r') : (h.store r vals).load r' = h.load r' := by
  apply load_congr
  intro k hk
  rw [slot_store hr hv, if_neg]
  rintro ⟨a, b, c⟩
  rcases hd with d | d | d
  · exact d a.symm
  · omega
  · omega

theorem store_load {h : Heap} {r : ArrRef} (hr : r.Valid h) : h.store r (h.load r) = h := by
  obtain ⟨b, e, hb⟩ := hr
  apply List.ext_getElem?
  intro k
  by_cases hk : k = r.buf
  · subst hk
    rw [store_get_self, e]
    simp only [Option.map_some, Option.some.injEq]
    unfold Heap.load
    rw [e, Option.getD_some, List.append_assoc]
    conv_rhs => rw [← List.take_append_drop r.off b, ← List.take_append_drop r.len (b.drop r.off), List.drop_drop]
  · rw [store_get_ne _ _ _ hk]

theorem slot_alloc (h : Heap) (lead : List ℕ) (dat : List Slice) (b k : ℕ) :
    (h.alloc lead dat).1.slot b k = if b = h.length then dat[k]? else h.slot b k := by
  unfold Heap.slot Heap.alloc
  simp only
  rcases lt_trichotomy b h.length with hb | hb | hb
  · rw [if_neg (by omega), List.getElem?_append_left hb]
  · subst hb
    rw [if_pos rfl, List.getElem?_append_right (le_refl _)]
    simp
  · rw [if_neg (by omega), List.getElem?_eq_none (by simp; omega), List.getElem?_eq_none (by omega)]

theorem valid_lt {h : Heap} {r : ArrRef} (hr : r.Valid h) : r.buf < h.length := by
  obtain ⟨b, e, _⟩ := hr
  by_contra hc
  rw [List.getElem?_eq_none (by omega)] at e
  cases e

theorem load_alloc_old {h : Heap} {r : ArrRef} (hr : r.Valid h) (lead : List ℕ) (dat : List Slice) :
    (h.alloc lead dat).1.load r = h.load r := by
  have := valid_lt hr
  apply load_congr
  intro k _
  rw [slot_alloc, if_neg (by omega)]

theorem valid_alloc_old {h : Heap} {r : ArrRef} (hr : r.Valid h) (lead : List ℕ) (dat : List Slice) : r.Valid (h.alloc lead dat).1 := by
  have hlt := valid_lt hr
  obtain ⟨b, e, hb⟩ := hr
  refine ⟨b, ?_, hb⟩
  unfold Heap.alloc
  simp only
  rw [List.getElem?_append_left hlt, e]

theorem valid_alloc_new (h : Heap) (lead : List ℕ) (dat : List Slice) : (h.alloc lead dat).2.Valid (h.alloc lead dat).1 :=
  ⟨dat, by simp [Heap.alloc], by simp [Heap.alloc]⟩

theorem load_alloc_new (h : Heap) (lead : List ℕ) (dat : List Slice) : (h.alloc lead dat).1.load (h.alloc lead dat).2 = dat := by
  simp [Heap.load, Heap.alloc]

theorem store_alloc (h : Heap) (lead : List ℕ) (dat vals : List Slice) (hv : vals.length = dat.length) :
    (h.alloc lead dat).1.store (h.alloc lead dat).2 vals = (h.alloc lead vals).1 ∧ (h.alloc lead dat).2 = (h.alloc lead vals).2 := by
  constructor
  · apply List.ext_getElem?
    intro k
    by_cases hk : k = (h.alloc lead dat).2.buf
    · subst hk
      rw [store_get_self]
      simp [Heap.alloc]
    · rw [store_get_ne _ _ _ hk]
      unfold Heap.alloc at hk ⊢
      simp only at hk ⊢
      rcases lt_or_gt_of_ne hk with hk | hk
      · rw [List.getElem?_append_left hk, List.getElem?_append_left hk]
      · rw [List.getElem?_eq_none (by simp; omega), List.getElem?_eq_none (by simp; omega)]
  · simp [Heap.alloc, hv]

/-! ## The constructor -/

/-- The `ell_min` that a constructor call resolves to. -/
def ctorEllMin (args : List ℤ) (kw : Kw) : ℤ := ((if args.length = 3 then args[1]? else none).or kw.ell_min).getD 0

/-- The constructor with memory, in terms of the constructor on values. -/
theorem newH_eq {h : Heap} {r : ArrRef} (hr : r.Valid h) (inMeta : Kw) (args : List ℤ) (kw : Kw) :
    newH h r inMeta args kw = (Modes.new (.array r.lead (h.load r)) inMeta args kw).map fun f =>
      if ctorEllMin args kw = 0 then (h.store r f.dat, ⟨r, f.s, f.ell_max, f.trunc⟩)
      else ((h.alloc f.lead f.dat).1, ⟨(h.alloc f.lead f.dat).2, f.s, f.ell_max, f.trunc⟩) := by
  unfold newH Modes.new
  by_cases h1 : args.length = 2 ∨ args.length > 3
  · rw [if_pos h1, if_pos h1]; rfl
  rw [if_neg h1, if_neg h1]
  simp only
  cases hs : (args[0]?.or kw.spin_weight).or inMeta.spin_weight with
  | none => rfl
  | some s =>
    simp only [load_length hr]
    change _ = Except.map (fun f : Modes => if ctorEllMin args kw = 0 then _ else _) _
    generalize hl0 : ((if args.length = 3 then args[1]? else none).or kw.ell_min).getD 0 = l0
    have hc : ctorEllMin args kw = l0 := hl0
    rw [hc]
    have K : ∀ L : ℤ, (if (r.len : ℤ) ≠ LM_total_size l0 L then (Except.error .valueError : Py (Heap × MObj)) else
        Except.ok ((if l0 = 0 then (h, r) else h.alloc r.lead ((List.replicate (LM_total_size 0 (l0 - 1)).toNat fun _ => 0) ++ h.load r)).1.store
            (if l0 = 0 then (h, r) else h.alloc r.lead ((List.replicate (LM_total_size 0 (l0 - 1)).toNat fun _ => 0) ++ h.load r)).2
            (zeroPrefix (LM_total_size 0 (|s| - 1)).toNat
              ((if l0 = 0 then (h, r) else h.alloc r.lead ((List.replicate (LM_total_size 0 (l0 - 1)).toNat fun _ => 0) ++ h.load r)).1.load
                (if l0 = 0 then (h, r) else h.alloc r.lead ((List.replicate (LM_total_size 0 (l0 - 1)).toNat fun _ => 0) ++ h.load r)).2)),
          ⟨(if l0 = 0 then (h, r) else h.alloc r.lead ((List.replicate (LM_total_size 0 (l0 - 1)).toNat fun _ => 0) ++ h.load r)).2, s, L,
            kw.trunc.orElse inMeta.trunc⟩))
        = Except.map (fun f : Modes => if l0 = 0 then (h.store r f.dat, (⟨r, f.s, f.ell_max, f.trunc⟩ : MObj))
          else ((h.alloc f.lead f.dat).1, ⟨(h.alloc f.lead f.dat).2, f.s, f.ell_max, f.trunc⟩))
          (if (r.len : ℤ) ≠ LM_total_size l0 L then .error .valueError else .ok ⟨r.lead, s, L, kw.trunc.orElse inMeta.trunc,
            zeroPrefix (LM_total_size 0 (|s| - 1)).toNat
              (if l0 = 0 then h.load r else (List.replicate (LM_total_size 0 (l0 - 1)).toNat fun _ => 0) ++ h.load r)⟩) := by
      intro L
      by_cases hlen : (r.len : ℤ) ≠ LM_total_size l0 L
      · rw [if_pos hlen, if_pos hlen]; rfl
      rw [if_neg hlen, if_neg hlen]
      by_cases h0 : l0 = 0
      · simp only [if_pos h0, Except.map]
      · simp only [if_neg h0, Except.map]
        have e := store_alloc h r.lead ((List.replicate (LM_total_size 0 (l0 - 1)).toNat fun _ => 0) ++ h.load r)
          (zeroPrefix (LM_total_size 0 (|s| - 1)).toNat ((List.replicate (LM_total_size 0 (l0 - 1)).toNat fun _ => 0) ++ h.load r))
          (zeroPrefix_length _ _)
        rw [load_alloc_new, e.1, e.2]
    cases ((if args.length = 3 then args[2]? else none).or kw.ell_max).or inMeta.ell_max with
    | some L => exact K L
    | none =>
      simp only
      cases LM_deduce_ell_max r.len l0 with
      | error _ => rfl
      | ok L => exact K L

/-! ## The invariant -/

/-- The class invariant for all values of `ell_max`: `(ell_max+1)²` slots, of which the first `s²` are zero. -/
structure Modes.Inv (f : Modes) : Prop where
  size : (f.dat.length : ℤ) = (f.ell_max + 1) ^ 2
  low : ∀ k : ℕ, (k : ℤ) < f.s ^ 2 → k < f.dat.length → f.dat[k]? = some fun _ => 0

theorem Modes.WF.inv {f : Modes} (hf : f.WF) : f.Inv := by
  refine ⟨hf.size, fun k hk hk' => ?_⟩
  obtain ⟨ell, m, h0, h1, h2, rfl⟩ := mpos_surj hf.size hf.ell_max_ge hk'
  rw [hf.get h2 h1, hf.low ell m ?_ h2 h1]
  by_contra hc
  have := sq_le_of (abs_nonneg f.s) (by omega : |f.s| ≤ ell)
  rw [sq_abs] at this
  have := mpos_lo h2
  omega

theorem Modes.Inv.wf {f : Modes} (hf : f.Inv) (h : -1 ≤ f.ell_max) : f.WF := by
  refine ⟨h, hf.size, fun ell m h1 h2 h3 => coef_of_get (hf.low _ ?_ (mpos_lt h2 h3 hf.size))⟩
  have h4 := mpos_hi h2
  have n1 : 0 ≤ ell := (abs_nonneg m).trans h2
  have := sq_le_of (show 0 ≤ ell + 1 by omega) (show ell + 1 ≤ |f.s| by omega)
  rw [sq_abs] at this
  omega

theorem new_inv {input : NdIn} {inMeta : Kw} {args : List ℤ} {kw : Kw} {f : Modes} (e : Modes.new input inMeta args kw = .ok f) : f.Inv := by
  unfold Modes.new at e
  split at e
  · cases e
  simp only at e
  split at e
  · cases e
  rename_i s _
  generalize ((if args.length = 3 then args[1]? else none).or kw.ell_min).getD 0 = l0 at *
  cases input with
  | scalar z =>
    simp only [bind, Except.bind] at e
    split at e <;> cases e
  | array lead dat =>
    have K : ∀ L : ℤ, (if (dat.length : ℤ) ≠ LM_total_size l0 L then (Except.error .valueError : Py Modes) else
        Except.ok ⟨lead, s, L, kw.trunc.orElse inMeta.trunc, zeroPrefix (LM_total_size 0 (|s| - 1)).toNat
          (if l0 = 0 then dat else (List.replicate (LM_total_size 0 (l0 - 1)).toNat fun _ => 0) ++ dat)⟩) = .ok f → f.Inv := by
      intro L e
      split at e
      · cases e
      rename_i hlen
      injection e with e
      subst e
      push Not at hlen
      have hsz : ((if l0 = 0 then dat else List.replicate (LM_total_size 0 (l0 - 1)).toNat (fun _ => (0 : ℂ)) ++ dat).length : ℤ) = (L + 1) ^ 2 := by
        have hq := sq_nonneg l0
        unfold LM_total_size at hlen
        by_cases h : l0 = 0
        · rw [if_pos h, hlen, h]; ring
        · rw [if_neg h, LM_total_size_zero, sub_add_cancel, List.length_append, List.length_replicate]
          push_cast
          rw [hlen, Int.toNat_of_nonneg hq]
          ring
      refine ⟨?_, fun k hk hk' => ?_⟩
      · simp only
        rw [zeroPrefix_length, hsz]
      · simp only at hk hk' ⊢
        rw [zeroPrefix_length] at hk'
        rw [zeroPrefix_get hk', abs_sub_one_sq, if_pos (by omega)]
    cases hx : ((if args.length = 3 then args[2]? else none).or kw.ell_max).or inMeta.ell_max with
    | some L => rw [hx] at e; exact K L e
    | none =>
      rw [hx] at e
      simp only at e
      cases hd : LM_deduce_ell_max dat.length l0 with
      | error _ => rw [hd] at e; cases e
      | ok L => rw [hd] at e; exact K L e

theorem remake_inv {f g : Modes} {lead : List ℕ} {dat : List Slice} {s L : ℤ} (e : f.remake lead dat s L = .ok g) : g.Inv := new_inv e

/-- `type(self)(dat, **metadata)` spelled out. -/
theorem remake_eq (f : Modes) (lead : List ℕ) (dat : List Slice) (s L : ℤ) :
    f.remake lead dat s L = if (dat.length : ℤ) ≠ (L + 1) ^ 2 then .error .valueError
      else .ok ⟨lead, s, L, f.trunc, zeroPrefix (s ^ 2).toNat dat⟩ := by
  unfold Modes.remake Modes.new
  simp only [List.length_nil, List.getElem?_nil, Option.none_or, Option.getD_none, bind_ok, gt_iff_lt,
    show ¬ (0 = 2 ∨ 3 < 0) by omega, if_false, ite_self, Option.or_none]
  rw [LM_total_size_zero, abs_sub_one_sq, if_pos trivial]
  cases f.trunc <;> rfl

/-! ## Every method keeps the invariant -/

theorem range_neg {f : Modes} (h : f.ell_max < -1) (a : ℤ) (ha : 0 ≤ a) : pyRange a (f.ell_max + 1) = [] := pyRange_empty (by omega)

theorem zerosLike_inv {f : Modes} (hf : f.Inv) : ({ f with dat := zerosLike f.dat } : Modes).Inv :=
  ⟨by simp only [zerosLike_length]; exact hf.size, fun k _ hk => by
    simp only [zerosLike_length] at hk ⊢; exact zerosLike_get hk⟩

theorem bind_eq_ok {α β : Type} {x : Py α} {f : α → Py β} {y : β} (h : x >>= f = .ok y) : ∃ v, x = .ok v ∧ f v = .ok y := by
  cases x with
  | error e => cases h
  | ok v => exact ⟨v, rfl, h⟩

theorem OpRes.inv_of_ok {f g g' : Modes} {s : ℤ} {T : ℤ → ℤ → Slice} {x : Py Modes} (h : ∃ g, x = .ok g ∧ OpRes f g s T) (e : x = .ok g') :
    g'.Inv := by
  obtain ⟨k, e', hk⟩ := h
  rw [e] at e'
  injection e' with e'
  subst e'
  exact hk.wf.inv

theorem RLoop_neg {f d : Modes} (hd : d.ell_max < -1) (fac : ℤ → ℤ) : RLoop f d fac = .ok d := by
  unfold RLoop
  rw [range_neg hd _ ((abs_nonneg _).trans (le_max_left _ _))]
  rfl

theorem scalarUfunc_inv {op : ℂ → ℂ → ℂ} {f g : Modes} {a : Scalars} (e : f.scalarUfunc op a = .ok g) : g.Inv := by
  unfold Modes.scalarUfunc at e
  split at e
  · cases e
  · exact new_inv e

theorem ufuncMulScalar_inv {op : ℂ → ℂ → ℂ} {f g : Modes} {a : Scalars} (e : f.ufuncMulScalar op a = .ok g) : g.Inv := by
  unfold Modes.ufuncMulScalar at e
  obtain ⟨b, -, e⟩ := bind_eq_ok e
  split at e
  · exact scalarUfunc_inv e
  · cases e

theorem addScalar_inv {f g : Modes} {a : Scalars} {b : Bool} (e : f.addScalar a b = .ok g) : g.Inv := by
  unfold Modes.addScalar at e
  split at e
  · cases e
  unfold Modes.ufuncAddScalar at e
  split at e
  · cases e
  obtain ⟨b, -, e⟩ := bind_eq_ok e
  split at e
  · exact scalarUfunc_inv e
  · cases e

theorem multiplyScalar_inv {f g : Modes} {a : Scalars} (e : f.multiplyScalar a = .ok g) : g.Inv := by
  unfold Modes.multiplyScalar at e
  obtain ⟨b, -, e⟩ := bind_eq_ok e
  split at e
  · exact ufuncMulScalar_inv e
  obtain ⟨b, -, e⟩ := bind_eq_ok e
  split at e
  · exact ufuncMulScalar_inv e
  · cases e

theorem Rplus_inv {f g : Modes} (hf : f.Inv) (e : f.Rplus = .ok g) : g.Inv := by
  rcases lt_or_ge f.ell_max (-1) with h | h
  · unfold Modes.Rplus at e
    obtain ⟨d, e1, e⟩ := bind_eq_ok e
    rw [min_abs_zero, new_ell_min_zero] at e1
    have hd : d.ell_max = f.ell_max := by
      have e2 := e1
      rw [remake_eq] at e2
      split at e2
      · cases e2
      · injection e2 with e2
        rw [← e2]
    rw [RLoop_neg (by omega)] at e
    injection e with e
    subst e
    exact new_inv e1
  · exact OpRes.inv_of_ok (g := g) (Rplus_ok (hf.wf h)) e

theorem Rminus_inv {f g : Modes} (hf : f.Inv) (e : f.Rminus = .ok g) : g.Inv := by
  rcases lt_or_ge f.ell_max (-1) with h | h
  · unfold Modes.Rminus at e
    obtain ⟨d, e1, e⟩ := bind_eq_ok e
    rw [min_abs_zero, new_ell_min_zero] at e1
    have hd : d.ell_max = f.ell_max := by
      have e2 := e1
      rw [remake_eq] at e2
      split at e2
      · cases e2
      · injection e2 with e2
        rw [← e2]
    rw [RLoop_neg (by omega)] at e
    injection e with e
    subst e
    exact new_inv e1
  · exact OpRes.inv_of_ok (g := g) (Rminus_ok (hf.wf h)) e

theorem Method1.run_inv {op : Method1} {f g : Modes} (hf : f.Inv) (e : op.run f = .ok g) : g.Inv := by
  have small : ∀ h : f.ell_max < -1, pyRange |f.s| (f.ell_max + 1) = [] := fun h => range_neg h _ (abs_nonneg _)
  cases op <;> simp only [Method1.run] at e
  case conjugate =>
    unfold Modes.conjugate at e
    rw [if_neg (by simp)] at e
    obtain ⟨c, -, e⟩ := bind_eq_ok e
    exact new_inv e
  case real =>
    unfold Modes.real_func at e
    split at e
    · cases e
    rw [if_neg (by simp)] at e
    obtain ⟨c, -, e⟩ := bind_eq_ok e
    exact new_inv e
  case imag =>
    unfold Modes.imag_func at e
    split at e
    · cases e
    rw [if_neg (by simp)] at e
    obtain ⟨c, -, e⟩ := bind_eq_ok e
    exact new_inv e
  case Lsquared =>
    rcases lt_or_ge f.ell_max (-1) with h | h
    · unfold Modes.Lsquared at e
      rw [small h, forL_nil, bind_ok] at e
      injection e with e
      subst e
      exact hf
    · exact OpRes.inv_of_ok (g := g) (Lsquared_ok (hf.wf h)) e
  case Lz =>
    rcases lt_or_ge f.ell_max (-1) with h | h
    · unfold Modes.Lz at e
      rw [small h, forL_nil, bind_ok] at e
      injection e with e
      subst e
      exact hf
    · exact OpRes.inv_of_ok (g := g) (Lz_ok (hf.wf h)) e
  case Lplus =>
    rcases lt_or_ge f.ell_max (-1) with h | h
    · unfold Modes.Lplus at e
      rw [small h, forL_nil, bind_ok] at e
      injection e with e
      subst e
      exact zerosLike_inv hf
    · exact OpRes.inv_of_ok (g := g) (Lplus_ok (hf.wf h)) e
  case Lminus =>
    rcases lt_or_ge f.ell_max (-1) with h | h
    · unfold Modes.Lminus at e
      rw [small h, forL_nil, bind_ok] at e
      injection e with e
      subst e
      exact zerosLike_inv hf
    · exact OpRes.inv_of_ok (g := g) (Lminus_ok (hf.wf h)) e
  case Rz => exact remake_inv (f := f) e
  case Rplus => exact Rplus_inv hf e
  case Rminus => exact Rminus_inv hf e
  case eth => exact Rminus_inv hf e
  case ethbar =>
    unfold Modes.ethbar at e
    obtain ⟨d, -, e⟩ := bind_eq_ok e
    exact remake_inv (f := d) e
  case copy => injection e with e; subst e; exact hf
  case pickle =>
    obtain ⟨r, h1, h2⟩ := bind_eq_ok e
    have : pickleCopy f.raw = .ok f.raw := by
      simp [pickleCopy, Modes_reduce, Modes_setstate, ndarray_reduce, ndarray_setstate, reconstruct, bind_ok, Modes.raw]
    rw [this] at h1
    injection h1 with h1
    subst h1
    injection h2 with h2
    subst h2
    exact hf
  case add a => exact addScalar_inv e
  case subtract a => exact addScalar_inv e
  case multiply a => exact multiplyScalar_inv e
  case divide a => exact ufuncMulScalar_inv e

theorem Method2.run_inv {junk junk' : ℕ → ℝ} {op : Method2} {f g k : Modes} (e : op.run junk junk' f g = .ok k) : k.Inv := by
  have hadd : ∀ b, f.addM g b = .ok k → k.Inv := by
    intro b e
    unfold Modes.addM at e
    split at e
    · cases e
    obtain ⟨_, -, e⟩ := bind_eq_ok e
    obtain ⟨_, -, e⟩ := bind_eq_ok e
    obtain ⟨_, -, e⟩ := bind_eq_ok e
    exact new_inv e
  cases op <;> simp only [Method2.run] at e
  case add => exact hadd _ e
  case subtract => exact hadd _ e
  case multiply t =>
    have K : ∀ L : ℤ, (do
        let lead ← bcastLeads f g
        let new ← npZeros (α := Slice) (LM_total_size 0 L)
        let new ← mulHelper junk junk' f.lead g.lead lead (fun _ => f.dat) 0 f.ell_max f.s (fun _ => g.dat) 0 g.ell_max g.s new 0 L (f.s + g.s)
        f.remake lead new (f.s + g.s) L) = .ok k → k.Inv := by
      intro L e
      obtain ⟨_, -, e⟩ := bind_eq_ok e
      obtain ⟨_, -, e⟩ := bind_eq_ok e
      obtain ⟨_, -, e⟩ := bind_eq_ok e
      exact new_inv e
    unfold Modes.multiplyM at e
    cases t with
    | some t =>
      simp only [bind_ok] at e
      exact K _ e
    | none =>
      simp only at e
      cases h1 : f.trunc.call f.ell_max g.ell_max with
      | error _ => rw [h1] at e; cases e
      | ok a =>
        rw [h1, bind_ok] at e
        cases h2 : g.trunc.call f.ell_max g.ell_max with
        | error _ => rw [h2] at e; cases e
        | ok b =>
          rw [h2, bind_ok] at e
          exact K _ e
  case divide => cases e

/-- In-place methods keep the metadata (up to the sign of `s`) and the length, and a zero prefix that consists of whole `ell` blocks. -/
structure InRes (f g : Modes) : Prop where
  lead : g.lead = f.lead
  hs : g.s = f.s ∨ g.s = -f.s
  hL : g.ell_max = f.ell_max
  trunc : g.trunc = f.trunc
  len : g.dat.length = f.dat.length
  zero : ∀ n : ℕ, (∀ k, k < n ^ 2 → k < f.dat.length → f.dat[k]? = some fun _ => 0) →
    ∀ k, k < n ^ 2 → k < f.dat.length → g.dat[k]? = some fun _ => 0

theorem InRes.refl (f : Modes) : InRes f f := ⟨rfl, .inl rfl, rfl, rfl, rfl, fun _ h => h⟩

theorem InRes.of_opRes {f g : Modes} (hf : f.WF) {s : ℤ} (hs : s = f.s ∨ s = -f.s) {T : ℤ → ℤ → Slice} (h : OpRes f g s T)
    (hT : ∀ ell m, f.coef ell m = (fun _ => 0) → f.coef ell (-m) = (fun _ => 0) → T ell m = fun _ => 0) : InRes f g := by
  have hlen : g.dat.length = f.dat.length := by
    have h1 := h.wf.size; have h2 := hf.size; rw [h.hL] at h1; omega
  refine ⟨h.lead, by rw [h.hs]; exact hs, h.hL, h.trunc, hlen, fun n hz k hk hk' => ?_⟩
  obtain ⟨ell, m, h0, h1, h2, rfl⟩ := mpos_surj hf.size hf.ell_max_ge hk'
  have hgL : ell ≤ g.ell_max := by rw [h.hL]; exact h1
  rw [h.wf.get h2 hgL]
  have hn : ell < n := by
    have := mpos_lo h2
    by_contra hc
    have := sq_le_of (show 0 ≤ (n : ℤ) by omega) (show (n : ℤ) ≤ ell by omega)
    have e : ((n ^ 2 : ℕ) : ℤ) = (n : ℤ) ^ 2 := by push_cast; rfl
    omega
  have z : ∀ m, |m| ≤ ell → f.coef ell m = fun _ => 0 := by
    intro m hm
    apply coef_of_get
    refine hz _ ?_ (mpos_lt hm h1 hf.size)
    have := mpos_hi hm
    have := sq_le_of (show 0 ≤ ell + 1 by omega) (show ell + 1 ≤ n by omega)
    have e : ((n ^ 2 : ℕ) : ℤ) = (n : ℤ) ^ 2 := by push_cast; rfl
    omega
  by_cases hsl : |s| ≤ ell
  · rw [h.coef ell m hsl h2 h1, hT ell m (z m h2) (z (-m) (by rwa [abs_neg]))]
  · rw [h.wf.low ell m (by rw [h.hs]; omega) h2 hgL]

theorem MethodIn.run_spec {op : MethodIn} {f g : Modes} (hf : f.Inv) (e : op.run f = .ok g) : InRes f g := by
  rcases lt_or_ge f.ell_max (-1) with h | h
  · have small : pyRange |f.s| (f.ell_max + 1) = [] := range_neg h _ (abs_nonneg _)
    cases op <;> simp only [MethodIn.run] at e
    · unfold Modes.conjugate conjLoop at e
      rw [if_pos rfl, small, forL_nil, bind_ok] at e
      injection e with e
      subst e
      exact ⟨rfl, .inr rfl, rfl, rfl, rfl, fun _ h => h⟩
    · unfold Modes.real_func realLoop at e
      split at e
      · cases e
      rw [if_pos rfl, small, forL_nil, bind_ok] at e
      injection e with e
      subst e
      exact InRes.refl _
    · unfold Modes.imag_func imagLoop at e
      split at e
      · cases e
      rw [if_pos rfl, small, forL_nil, bind_ok] at e
      injection e with e
      subst e
      exact InRes.refl _
  · have hw := hf.wf h
    cases op <;> simp only [MethodIn.run] at e
    · obtain ⟨k, e', hk⟩ := conjugate_ok hw true
      rw [e] at e'
      injection e' with e'
      subst e'
      exact InRes.of_opRes hw (.inr rfl) hk fun ell m _ h2 => by simp [h2]
    · have hs : f.s = 0 := by
        by_contra hc
        unfold Modes.real_func at e
        rw [if_pos hc] at e
        cases e
      obtain ⟨k, e', hk⟩ := real_ok hw hs true
      rw [e] at e'
      injection e' with e'
      subst e'
      exact InRes.of_opRes hw (.inl hs.symm) hk fun ell m h1 h2 => by unfold realT; funext x; rw [h1, h2]; simp
    · have hs : f.s = 0 := by
        by_contra hc
        unfold Modes.imag_func at e
        rw [if_pos hc] at e
        cases e
      obtain ⟨k, e', hk⟩ := imag_ok hw hs true
      rw [e] at e'
      injection e' with e'
      subst e'
      exact InRes.of_opRes hw (.inl hs.symm) hk fun ell m h1 h2 => by unfold imagT; funext x; rw [h1, h2]; simp

end SF
