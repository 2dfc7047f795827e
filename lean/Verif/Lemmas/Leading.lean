import Verif.Model.Leading
import Verif.Model.ModesHeap
import Verif.Lemmas.ModesAlg

/-! # Every operation commutes with reindexing of the leading axes -/

set_option autoImplicit false

namespace SF

open ComplexConjugate

theorem bind_nat {α α' β β' : Type} {F : α → α'} {G : β → β'} {x : Py α} {x' : Py α'} (hx : x' = x.map F) {k : α → Py β} {k' : α' → Py β'}
    (hk : ∀ v, k' (F v) = (k v).map G) : (x' >>= k') = (x >>= k).map G := by
  subst hx
  cases x with
  | error e => rfl
  | ok v => exact hk v

theorem bind_same {α β β' : Type} {G : β → β'} {x : Py α} {k : α → Py β} {k' : α → Py β'} (hk : ∀ v, k' v = (k v).map G) :
    (x >>= k') = (x >>= k).map G := by
  cases x with
  | error e => rfl
  | ok v => exact hk v

theorem forL_nat {α σ σ' : Type} (F : σ → σ') (xs : List α) (s : σ) {body : α → σ → Py σ} {body' : α → σ' → Py σ'}
    (h : ∀ x s, body' x (F s) = (body x s).map F) : forL xs (F s) body' = (forL xs s body).map F := by
  induction xs generalizing s with
  | nil => rfl
  | cons x xs ih =>
    rw [forL_cons, forL_cons]
    exact bind_nat (h x s) fun v => ih v

theorem rd_nat {α β : Type} (F : α → β) (a : List α) (i : ℤ) : rd (a.map F) i = (rd a i).map F := by
  unfold rd
  rw [List.length_map]
  cases npIdx a.length i with
  | none => rfl
  | some k =>
    simp only [List.getElem?_map]
    cases a[k]? <;> rfl

theorem wr_nat {α β : Type} (F : α → β) (a : List α) (i : ℤ) {v : α} {v' : β} (h : v' = F v) :
    wr (a.map F) i v' = (wr a i v).map (List.map F) := by
  unfold wr
  rw [List.length_map, h]
  cases npIdx a.length i with
  | none => rfl
  | some k =>
    simp only [Except.map]
    rw [List.map_set]

theorem getSlice_nat {α β : Type} (F : α → β) (a : List α) (i j : ℤ) : getSlice (a.map F) i j = (getSlice a i j).map F := by
  unfold getSlice
  rw [← List.map_drop, ← List.map_take]

theorem setSlice_nat {α β : Type} (F : α → β) (a : List α) (i j : ℤ) (vals : List α) :
    setSlice (a.map F) i j (vals.map F) = (setSlice a i j vals).map (List.map F) := by
  unfold setSlice
  simp only [List.length_map]
  split
  · simp [Except.map]
  · cases vals with
    | nil => rfl
    | cons v t => cases t with
      | nil => simp [Except.map]
      | cons _ _ => rfl

theorem zeroPrefix_nat (φ : MIdx → MIdx) (n : ℕ) (a : List Slice) :
    zeroPrefix n (a.map (pre φ)) = (zeroPrefix n a).map (pre φ) := by
  unfold zeroPrefix
  rw [List.map_append, List.map_replicate, List.length_map, List.map_drop]
  rfl

theorem zerosLike_nat (φ : MIdx → MIdx) (a : List Slice) : zerosLike (a.map (pre φ)) = (zerosLike a).map (pre φ) := by
  unfold zerosLike
  rw [List.map_map, List.map_map]
  rfl

theorem npZeros_nat (φ : MIdx → MIdx) (n : ℤ) :
    npZeros (α := Slice) n = (npZeros (α := Slice) n).map (List.map (pre φ)) := by
  unfold npZeros npEmpty
  split
  · rfl
  · simp only [Except.map, List.map_map]
    rfl

section

variable (φ : MIdx → MIdx) (lead' : List ℕ)

theorem select_s (f : Modes) : (f.select lead' φ).s = f.s := rfl
theorem select_L (f : Modes) : (f.select lead' φ).ell_max = f.ell_max := rfl
theorem select_dat (f : Modes) : (f.select lead' φ).dat = f.dat.map (pre φ) := rfl

theorem new_nat (lead : List ℕ) (dat : List Slice) (inMeta : Kw) (args : List ℤ) (kw : Kw) :
    Modes.new (.array lead' (dat.map (pre φ))) inMeta args kw
      = (Modes.new (.array lead dat) inMeta args kw).map fun f => f.select lead' φ := by
  unfold Modes.new
  split
  · rfl
  · simp only
    split
    · rfl
    · simp only [List.length_map]
      have key : ∀ (s ell_min L : ℤ) (t : TruncKey), (if (dat.length : ℤ) ≠ LM_total_size ell_min L then (.error .valueError : Py Modes)
          else .ok ⟨lead', s, L, t, zeroPrefix (LM_total_size 0 (|s| - 1)).toNat (if ell_min = 0 then dat.map (pre φ)
            else List.replicate (LM_total_size 0 (ell_min - 1)).toNat (fun _ => 0) ++ dat.map (pre φ))⟩)
        = (if (dat.length : ℤ) ≠ LM_total_size ell_min L then (.error .valueError : Py Modes)
          else .ok ⟨lead, s, L, t, zeroPrefix (LM_total_size 0 (|s| - 1)).toNat (if ell_min = 0 then dat
            else List.replicate (LM_total_size 0 (ell_min - 1)).toNat (fun _ => 0) ++ dat)⟩).map fun f => f.select lead' φ := by
        intro s ell_min L t
        split
        · rfl
        · simp only [Except.map, Modes.select]
          congr 2
          split
          · rw [zeroPrefix_nat]
          · rw [← zeroPrefix_nat, List.map_append, List.map_replicate]
            rfl
      generalize ((if args.length = 3 then args[2]? else none).or kw.ell_max).or inMeta.ell_max = oL
      cases oL with
      | none => exact bind_same fun L => key _ _ _ _
      | some L => exact key _ _ _ _

theorem remake_nat (f : Modes) (lead : List ℕ) (dat : List Slice) (s L : ℤ) :
    (f.select lead' φ).remake lead' (dat.map (pre φ)) s L = (f.remake lead dat s L).map fun f => f.select lead' φ :=
  new_nat φ lead' lead dat _ _ _

/-! ## Methods of one object -/

theorem conjLoop_nat (s L : ℤ) {src src' : List Slice → List Slice} (hs : ∀ c, src' (c.map (pre φ)) = (src c).map (pre φ)) (c : List Slice) :
    conjLoop s L src' (c.map (pre φ)) = (conjLoop s L src c).map (List.map (pre φ)) := by
  unfold conjLoop
  apply forL_nat
  intro ell c
  simp only [hs]
  refine bind_nat (rd_nat (pre φ) _ _) fun v => bind_nat (wr_nat (pre φ) _ _ ?_) fun c => ?_
  · split <;> rfl
  · apply forL_nat
    intro m c
    unfold conjPair
    simp only [hs]
    refine bind_nat (rd_nat (pre φ) _ _) fun vn => bind_nat (rd_nat (pre φ) _ _) fun vp => ?_
    split <;> exact bind_nat (wr_nat (pre φ) _ _ (by rfl)) fun c => wr_nat (pre φ) _ _ (by rfl)

theorem realLoop_nat (s L : ℤ) {src src' : List Slice → List Slice} (hs : ∀ c, src' (c.map (pre φ)) = (src c).map (pre φ)) (c : List Slice) :
    realLoop s L src' (c.map (pre φ)) = (realLoop s L src c).map (List.map (pre φ)) := by
  unfold realLoop
  apply forL_nat
  intro ell c
  simp only [hs]
  refine bind_nat (rd_nat (pre φ) _ _) fun v => bind_nat (wr_nat (pre φ) _ _ (by rfl)) fun c => ?_
  apply forL_nat
  intro m c
  unfold realPair
  simp only [hs]
  refine bind_nat (rd_nat (pre φ) _ _) fun vn => bind_nat (rd_nat (pre φ) _ _) fun vp => ?_
  split <;> exact bind_nat (wr_nat (pre φ) _ _ (by rfl)) fun c => bind_nat (rd_nat (pre φ) _ _) fun w => wr_nat (pre φ) _ _ (by rfl)

theorem imagLoop_nat (s L : ℤ) {src src' : List Slice → List Slice} (hs : ∀ c, src' (c.map (pre φ)) = (src c).map (pre φ)) (c : List Slice) :
    imagLoop s L src' (c.map (pre φ)) = (imagLoop s L src c).map (List.map (pre φ)) := by
  unfold imagLoop
  apply forL_nat
  intro ell c
  simp only [hs]
  refine bind_nat (rd_nat (pre φ) _ _) fun v => bind_nat (wr_nat (pre φ) _ _ (by rfl)) fun c => ?_
  apply forL_nat
  intro m c
  unfold imagPair
  simp only [hs]
  refine bind_nat (rd_nat (pre φ) _ _) fun vn => bind_nat (rd_nat (pre φ) _ _) fun vp => ?_
  split <;> exact bind_nat (wr_nat (pre φ) _ _ (by rfl)) fun c => bind_nat (rd_nat (pre φ) _ _) fun w => wr_nat (pre φ) _ _ (by rfl)

variable (f : Modes)

theorem conjugate_nat (b : Bool) : (f.select lead' φ).conjugate b = (f.conjugate b).map fun g => g.select lead' φ := by
  unfold Modes.conjugate
  cases b
  · simp only [Bool.false_eq_true, if_false]
    refine bind_nat (F := List.map (pre φ)) ?_ fun c => ?_
    · rw [show zerosLike (f.select lead' φ).dat = (zerosLike f.dat).map (pre φ) from zerosLike_nat φ _]
      exact conjLoop_nat φ f.s f.ell_max (src := fun _ => f.dat) (fun _ => rfl) _
    · exact remake_nat φ lead' f _ _ _ _
  · simp only [if_true]
    refine bind_nat (F := List.map (pre φ)) ?_ fun c => ?_
    · exact conjLoop_nat φ f.s f.ell_max (src := id) (src' := id) (fun _ => rfl) _
    · rfl

theorem real_nat (b : Bool) : (f.select lead' φ).real_func b = (f.real_func b).map fun g => g.select lead' φ := by
  unfold Modes.real_func
  rw [select_s]
  by_cases h : f.s ≠ 0
  · rw [if_pos h, if_pos h]; rfl
  rw [if_neg h, if_neg h]
  cases b
  · simp only [Bool.false_eq_true, if_false]
    refine bind_nat (F := List.map (pre φ)) ?_ fun c => ?_
    · rw [show zerosLike (f.select lead' φ).dat = (zerosLike f.dat).map (pre φ) from zerosLike_nat φ _]
      exact realLoop_nat φ f.s f.ell_max (src := fun _ => f.dat) (fun _ => rfl) _
    · exact remake_nat φ lead' f _ _ _ _
  · simp only [if_true]
    refine bind_nat (F := List.map (pre φ)) ?_ fun c => ?_
    · exact realLoop_nat φ f.s f.ell_max (src := id) (src' := id) (fun _ => rfl) _
    · rfl

theorem imag_nat (b : Bool) : (f.select lead' φ).imag_func b = (f.imag_func b).map fun g => g.select lead' φ := by
  unfold Modes.imag_func
  rw [select_s]
  by_cases h : f.s ≠ 0
  · rw [if_pos h, if_pos h]; rfl
  rw [if_neg h, if_neg h]
  cases b
  · simp only [Bool.false_eq_true, if_false]
    refine bind_nat (F := List.map (pre φ)) ?_ fun c => ?_
    · rw [show zerosLike (f.select lead' φ).dat = (zerosLike f.dat).map (pre φ) from zerosLike_nat φ _]
      exact imagLoop_nat φ f.s f.ell_max (src := fun _ => f.dat) (fun _ => rfl) _
    · exact remake_nat φ lead' f _ _ _ _
  · simp only [if_true]
    refine bind_nat (F := List.map (pre φ)) ?_ fun c => ?_
    · exact imagLoop_nat φ f.s f.ell_max (src := id) (src' := id) (fun _ => rfl) _
    · rfl

theorem map_map_pre (h : Slice → Slice) (hh : ∀ v, h (pre φ v) = pre φ (h v)) (a : List Slice) :
    (a.map (pre φ)).map h = (a.map h).map (pre φ) := by
  rw [List.map_map, List.map_map]
  exact List.map_congr_left fun v _ => hh v

theorem index_select (ell m : ℤ) : (f.select lead' φ).index ell m = f.index ell m := rfl

theorem Lsquared_nat : (f.select lead' φ).Lsquared = f.Lsquared.map fun g => g.select lead' φ := by
  unfold Modes.Lsquared
  refine bind_nat (F := List.map (pre φ)) (forL_nat _ _ _ fun ell d => ?_) fun c => rfl
  refine bind_same fun i => bind_same fun j => ?_
  rw [← setSlice_nat]
  congr 1
  rw [show (f.select lead' φ).dat = f.dat.map (pre φ) from rfl, getSlice_nat, map_map_pre φ _ (by intro v; rfl)]

theorem Lz_nat : (f.select lead' φ).Lz = f.Lz.map fun g => g.select lead' φ := by
  unfold Modes.Lz
  refine bind_nat (F := List.map (pre φ)) (forL_nat _ _ _ fun ell d => ?_) fun c => rfl
  refine forL_nat _ _ _ fun m d => ?_
  exact bind_same fun i => bind_nat (rd_nat (pre φ) _ _) fun v => wr_nat (pre φ) _ _ (by rfl)

theorem Lplus_nat : (f.select lead' φ).Lplus = f.Lplus.map fun g => g.select lead' φ := by
  unfold Modes.Lplus
  rw [show zerosLike (f.select lead' φ).dat = (zerosLike f.dat).map (pre φ) from zerosLike_nat φ _]
  refine bind_nat (F := List.map (pre φ)) (forL_nat _ _ _ fun ell d => ?_) fun c => rfl
  refine bind_same fun i => bind_nat (wr_nat (pre φ) _ _ (by rfl)) fun d => forL_nat _ _ _ fun m d => ?_
  exact bind_same fun i => bind_nat (rd_nat (pre φ) _ _) fun v => bind_same fun i => wr_nat (pre φ) _ _ (by rfl)

theorem Lminus_nat : (f.select lead' φ).Lminus = f.Lminus.map fun g => g.select lead' φ := by
  unfold Modes.Lminus
  rw [show zerosLike (f.select lead' φ).dat = (zerosLike f.dat).map (pre φ) from zerosLike_nat φ _]
  refine bind_nat (F := List.map (pre φ)) (forL_nat _ _ _ fun ell d => ?_) fun c => rfl
  refine bind_nat (forL_nat _ _ _ fun m d => ?_) fun d => bind_same fun i => wr_nat (pre φ) _ _ (by rfl)
  exact bind_same fun i => bind_nat (rd_nat (pre φ) _ _) fun v => bind_same fun i => wr_nat (pre φ) _ _ (by rfl)

theorem Rz_nat : (f.select lead' φ).Rz = f.Rz.map fun g => g.select lead' φ := by
  unfold Modes.Rz
  rw [show (f.select lead' φ).dat = f.dat.map (pre φ) from rfl, map_map_pre φ _ (by intro v; rfl)]
  exact remake_nat φ lead' f _ _ _ _

theorem RLoop_nat (d : Modes) (fac : ℤ → ℤ) :
    RLoop (f.select lead' φ) (d.select lead' φ) fac = (RLoop f d fac).map fun g => g.select lead' φ := by
  unfold RLoop
  refine bind_nat (F := List.map (pre φ)) (forL_nat _ _ _ fun ell d => ?_) fun c => rfl
  split
  · refine bind_same fun i => bind_same fun j => bind_same fun i => bind_same fun j => ?_
    rw [← setSlice_nat]
    congr 1
    rw [show (f.select lead' φ).dat = f.dat.map (pre φ) from rfl, getSlice_nat, map_map_pre φ _ (by intro v; rfl)]
  · rfl

theorem Rplus_nat : (f.select lead' φ).Rplus = f.Rplus.map fun g => g.select lead' φ := by
  unfold Modes.Rplus
  rw [show zerosLike (f.select lead' φ).dat = (zerosLike f.dat).map (pre φ) from zerosLike_nat φ _]
  exact bind_nat (new_nat φ lead' f.lead _ _ _ _) fun d => RLoop_nat φ lead' f d _

theorem Rminus_nat : (f.select lead' φ).Rminus = f.Rminus.map fun g => g.select lead' φ := by
  unfold Modes.Rminus
  rw [show zerosLike (f.select lead' φ).dat = (zerosLike f.dat).map (pre φ) from zerosLike_nat φ _]
  exact bind_nat (new_nat φ lead' f.lead _ _ _ _) fun d => RLoop_nat φ lead' f d _

theorem negative_nat : (f.select lead' φ).negative = f.negative.map fun g => g.select lead' φ := by
  unfold Modes.negative
  rw [show (f.select lead' φ).dat = f.dat.map (pre φ) from rfl, map_map_pre φ _ (by intro v; rfl)]
  exact remake_nat φ lead' f _ _ _ _

theorem positive_nat : (f.select lead' φ).positive = f.positive.map fun g => g.select lead' φ := by
  unfold Modes.positive
  exact remake_nat φ lead' f _ _ _ _

theorem ethbar_nat : (f.select lead' φ).ethbar = f.ethbar.map fun g => g.select lead' φ := by
  unfold Modes.ethbar
  exact bind_nat (Rplus_nat φ lead' f) fun d => negative_nat φ lead' d

theorem truncate_nat (L : ℤ) : (f.select lead' φ).truncate_ell L = (f.truncate_ell L).map fun g => g.select lead' φ := by
  unfold Modes.truncate_ell
  rw [show (f.select lead' φ).ell_max = f.ell_max from rfl]
  split
  · rfl
  · refine bind_same fun i => ?_
    simp only [pure, Except.pure, Except.map]
    rw [show (f.select lead' φ).dat = f.dat.map (pre φ) from rfl, getSlice_nat]
    rfl

theorem mapM_nat {α β γ : Type} (F : β → γ) (xs : List α) {g : α → Py β} {g' : α → Py γ} (h : ∀ x, g' x = (g x).map F) :
    xs.mapM g' = (xs.mapM g).map (List.map F) := by
  induction xs with
  | nil => rfl
  | cons x xs ih =>
    rw [List.mapM_cons, List.mapM_cons]
    exact bind_nat (h x) fun v => bind_nat ih fun vs => rfl

theorem evaluate_nat (table : List ℝ) (junk : ℕ → ℤ × ℤ) (Rs : List (ℝ × ℝ × ℝ × ℝ)) :
    (f.select lead' φ).evaluate table junk Rs = (f.evaluate table junk Rs).map (List.map (pre φ)) := by
  unfold Modes.evaluate
  refine bind_same fun Y => mapM_nat _ _ fun row => ?_
  simp only [show (f.select lead' φ).dat = f.dat.map (pre φ) from rfl, List.length_map]
  rw [show (f.select lead' φ).ell_max = f.ell_max from rfl]
  split
  · rfl
  · simp only [Except.map]
    congr 1
    funext idx
    rw [List.zipWith_map_left]
    rfl

theorem norm_select (idx : MIdx) : (f.select lead' φ).norm idx = f.norm (φ idx) := by
  unfold Modes.norm
  rw [show (f.select lead' φ).dat = f.dat.map (pre φ) from rfl, List.map_map]
  rfl

end

/-! ## Operations of two objects -/

/-- Reindexing the leading axes of an operand by `φ` and those of the result by `ψ` commutes with the broadcasting of the operand. -/
def Compat (leadf leadf' lead lead' : List ℕ) (φ ψ : MIdx → MIdx) : Prop :=
  ∀ v : Slice, bcTo leadf' lead' (pre φ v) = pre ψ (bcTo leadf lead v)

theorem compat_self (lead lead' : List ℕ) (φ : MIdx → MIdx) : Compat lead lead' lead lead' φ φ := by
  intro v
  unfold bcTo
  rw [if_pos rfl, if_pos rfl]

theorem compat_at {leadf lead : List ℕ} {idx : MIdx} (hv : ValidIdx lead idx) :
    Compat leadf [] lead [] (fun _ => bcIdx leadf idx) (fun _ => idx) := by
  intro v
  funext x
  show bcTo [] [] (fun _ => v (bcIdx leadf idx)) x = bcTo leadf lead v idx
  rw [bcTo_valid v hv]
  unfold bcTo
  rw [if_pos rfl]

section

variable {leadf leadf' leadg leadg' lead lead' : List ℕ} {φf φg ψ : MIdx → MIdx}

theorem addSlices_nat (hf : Compat leadf leadf' lead lead' φf ψ) (hg : Compat leadg leadg' lead lead' φg ψ) (op : ℂ → ℂ → ℂ) (Lf Lg : ℤ)
    (f g result : List Slice) :
    addSlices op lead' leadf' leadg' Lf Lg (fun _ => f.map (pre φf)) (fun _ => g.map (pre φg)) (result.map (pre ψ))
      = (addSlices op lead leadf leadg Lf Lg (fun _ => f) (fun _ => g) result).map (List.map (pre ψ)) := by
  have e : ∀ {φ : MIdx → MIdx} {l l' : List ℕ}, Compat l l' lead lead' φ ψ → ∀ a : List Slice,
      (a.map (pre φ)).map (bcTo l' lead') = (a.map (bcTo l lead)).map (pre ψ) := by
    intro φ l l' hc a
    rw [List.map_map, List.map_map]
    exact List.map_congr_left fun v _ => hc v
  unfold addSlices
  simp only [e hf, e hg]
  refine bind_nat (setSlice_nat (pre ψ) _ _ _ _) fun r => ?_
  simp only [getSlice_nat, List.length_map]
  split
  · rfl
  · rw [← setSlice_nat]
    congr 1
    rw [List.zipWith_map, List.map_zipWith]
    rfl

theorem addM_nat (f g : Modes) (hf : Compat f.lead leadf' lead lead' φf ψ) (hg : Compat g.lead leadg' lead lead' φg ψ)
    (hb : bcastShape f.lead g.lead = some lead) (hb' : bcastShape leadf' leadg' = some lead') (sub : Bool) :
    (f.select leadf' φf).addM (g.select leadg' φg) sub = (f.addM g sub).map fun h => h.select lead' ψ := by
  unfold Modes.addM
  rw [select_s, select_s]
  split
  · rfl
  · simp only [select_L]
    have hl : bcastLeads (f.select leadf' φf) (g.select leadg' φg) = (bcastLeads f g).map fun _ => lead' := by
      unfold bcastLeads
      simp only [select_dat, List.map_eq_nil_iff, show (f.select leadf' φf).lead = leadf' from rfl,
        show (g.select leadg' φg).lead = leadg' from rfl, hb, hb']
      split <;> rfl
    have hl' : ∀ l, bcastLeads f g = .ok l → l = lead := by
      intro l h
      unfold bcastLeads at h
      rw [hb] at h
      split at h
      · cases h
      · cases h; rfl
    cases hc : bcastLeads f g with
    | error e => rw [hl, hc]; rfl
    | ok l =>
      have := hl' l hc
      subst this
      rw [hl, hc, bind_ok]
      show (npZeros _ >>= _) = _
      refine bind_nat (npZeros_nat ψ _) fun r => bind_nat (addSlices_nat hf hg _ _ _ _ _ _) fun r => ?_
      exact new_nat ψ lead' l _ _ _ _

/-- The state with the output array reindexed. -/
def MulState.pre (ψ : MIdx → MIdx) (st : MulState) : MulState := { st with fg := st.fg.map (SF.pre ψ) }

theorem mulHelper_nat (hf : Compat leadf leadf' lead lead' φf ψ) (hg : Compat leadg leadg' lead lead' φg ψ) (junk junk' : ℕ → ℝ)
    (f g fg : List Slice) (ellmin_f ellmax_f s_f ellmin_g ellmax_g s_g ellmin_fg ellmax_fg s_fg : ℤ) :
    mulHelper junk junk' leadf' leadg' lead' (fun _ => f.map (pre φf)) ellmin_f ellmax_f s_f (fun _ => g.map (pre φg)) ellmin_g ellmax_g s_g
        (fg.map (pre ψ)) ellmin_fg ellmax_fg s_fg
      = (mulHelper junk junk' leadf leadg lead (fun _ => f) ellmin_f ellmax_f s_f (fun _ => g) ellmin_g ellmax_g s_g fg ellmin_fg ellmax_fg
        s_fg).map (List.map (pre ψ)) := by
  unfold mulHelper
  refine bind_same fun sc => bind_same fun mc => ?_
  refine bind_nat (F := MulState.pre ψ) ?_ fun st => rfl
  refine forL_nat (MulState.pre ψ) _ ⟨sc, mc, fg⟩ fun ell1 st => ?_
  simp only
  refine forL_nat (MulState.pre ψ) _ _ fun m1 st => ?_
  refine bind_nat (rd_nat (pre φf) _ _) fun v1 => ?_
  refine forL_nat (MulState.pre ψ) _ _ fun ell2 st => ?_
  refine bind_same fun p => ?_
  refine forL_nat (MulState.pre ψ) _ { st with sc := p.2 } fun m2 st => ?_
  refine bind_same fun p => ?_
  refine bind_nat (rd_nat (pre φg) _ _) fun v2 => ?_
  refine forL_nat (MulState.pre ψ) _ { st with mc := p.2 } fun ell3 st => ?_
  unfold mulBody
  refine bind_same fun ws => bind_same fun wm => bind_nat (rd_nat (pre ψ) _ _) fun old => ?_
  refine bind_nat (wr_nat (pre ψ) _ _ ?_) fun fg => rfl
  rw [hf v1, hg v2]
  rfl

theorem multiplyM_nat (junk junk' : ℕ → ℝ) (f g : Modes) (hf : Compat f.lead leadf' lead lead' φf ψ)
    (hg : Compat g.lead leadg' lead lead' φg ψ) (hb : bcastShape f.lead g.lead = some lead) (hb' : bcastShape leadf' leadg' = some lead')
    (t : Option Trunc) :
    (f.select leadf' φf).multiplyM junk junk' (g.select leadg' φg) t = (f.multiplyM junk junk' g t).map fun h => h.select lead' ψ := by
  have hl : bcastLeads (f.select leadf' φf) (g.select leadg' φg) = (bcastLeads f g).map fun _ => lead' := by
    unfold bcastLeads
    simp only [select_dat, List.map_eq_nil_iff, show (f.select leadf' φf).lead = leadf' from rfl,
      show (g.select leadg' φg).lead = leadg' from rfl, hb, hb']
    split <;> rfl
  have hl' : ∀ l, bcastLeads f g = .ok l → l = lead := by
    intro l h
    unfold bcastLeads at h
    rw [hb] at h
    split at h
    · cases h
    · cases h; rfl
  unfold Modes.multiplyM
  rw [hl]
  have key : ∀ L : ℤ, ((bcastLeads f g).map (fun _ => lead') >>= fun lead => do
        let new ← npZeros (α := Slice) (LM_total_size 0 L)
        let new ← mulHelper junk junk' (f.select leadf' φf).lead (g.select leadg' φg).lead lead (fun _ => (f.select leadf' φf).dat) 0
          f.ell_max f.s (fun _ => (g.select leadg' φg).dat) 0 g.ell_max g.s new 0 L (f.s + g.s)
        (f.select leadf' φf).remake lead new (f.s + g.s) L)
      = (bcastLeads f g >>= fun lead => do
        let new ← npZeros (α := Slice) (LM_total_size 0 L)
        let new ← mulHelper junk junk' f.lead g.lead lead (fun _ => f.dat) 0 f.ell_max f.s (fun _ => g.dat) 0 g.ell_max g.s new 0 L (f.s + g.s)
        f.remake lead new (f.s + g.s) L).map fun h => h.select lead' ψ := by
    intro L
    cases hc : bcastLeads f g with
    | error e => rfl
    | ok l =>
      have := hl' l hc
      subst this
      rw [bind_ok]
      show (npZeros _ >>= _) = _
      refine bind_nat (npZeros_nat ψ _) fun r => bind_nat (mulHelper_nat hf hg _ _ _ _ _ _ _ _ _ _ _ _ _ _) fun r => ?_
      exact new_nat ψ lead' l _ _ _ _
  cases t with
  | some t => exact key _
  | none => exact bind_same fun a => bind_same fun b => key _

theorem scalarUfunc_nat (op : ℂ → ℂ → ℂ) (f : Modes) (a a' : Scalars) (hf : Compat f.lead leadf' lead lead' φf ψ)
    (ha : ∀ x, a'.val (bcIdx a'.shape x) = a.val (bcIdx a.shape (ψ x)))
    (hb : bcastShape f.lead a.shape = some lead) (hb' : bcastShape leadf' a'.shape = some lead') :
    (f.select leadf' φf).scalarUfunc op a' = (f.scalarUfunc op a).map fun h => h.select lead' ψ := by
  unfold Modes.scalarUfunc
  rw [hb, show (f.select leadf' φf).lead = leadf' from rfl, hb']
  have e : (f.select leadf' φf).dat.map (fun v idx => op (bcTo leadf' lead' v idx) (a'.val (bcIdx a'.shape idx)))
      = (f.dat.map fun v idx => op (bcTo f.lead lead v idx) (a.val (bcIdx a.shape idx))).map (pre ψ) := by
    rw [select_dat, List.map_map, List.map_map]
    refine List.map_congr_left fun v _ => ?_
    funext x
    simp only [Function.comp, hf v, ha x]
    rfl
  simp only [e]
  exact new_nat ψ lead' lead _ _ _ _

theorem check_nat {f : Modes} {a a' : Scalars} (hd : a.shape.length ≤ f.lead.length) (hd' : a'.shape.length ≤ leadf'.length)
    (hb : bcastShape f.lead a.shape = some lead) (hb' : bcastShape leadf' a'.shape = some lead') :
    (f.select leadf' φf).check_broadcasting a' = f.check_broadcasting a := by
  unfold Modes.check_broadcasting
  rw [hb, show (f.select leadf' φf).lead = leadf' from rfl, hb',
    if_neg (show ¬ a'.shape.length > leadf'.length by omega), if_neg (show ¬ a.shape.length > f.lead.length by omega)]
  simp only [select_dat, List.map_eq_nil_iff, Option.isSome_some]

theorem ufuncMulScalar_nat (op : ℂ → ℂ → ℂ) (f : Modes) (a a' : Scalars) (hf : Compat f.lead leadf' lead lead' φf ψ)
    (ha : ∀ x, a'.val (bcIdx a'.shape x) = a.val (bcIdx a.shape (ψ x)))
    (hd : a.shape.length ≤ f.lead.length) (hd' : a'.shape.length ≤ leadf'.length)
    (hb : bcastShape f.lead a.shape = some lead) (hb' : bcastShape leadf' a'.shape = some lead') :
    (f.select leadf' φf).ufuncMulScalar op a' = (f.ufuncMulScalar op a).map fun h => h.select lead' ψ := by
  unfold Modes.ufuncMulScalar
  rw [check_nat hd hd' hb hb']
  refine bind_same fun b => ?_
  split
  · exact scalarUfunc_nat op f a a' hf ha hb hb'
  · rfl

theorem multiplyScalar_nat (f : Modes) (a a' : Scalars) (hf : Compat f.lead leadf' lead lead' φf ψ)
    (ha : ∀ x, a'.val (bcIdx a'.shape x) = a.val (bcIdx a.shape (ψ x)))
    (hd : a.shape.length ≤ f.lead.length) (hd' : a'.shape.length ≤ leadf'.length)
    (hb : bcastShape f.lead a.shape = some lead) (hb' : bcastShape leadf' a'.shape = some lead') :
    (f.select leadf' φf).multiplyScalar a' = (f.multiplyScalar a).map fun h => h.select lead' ψ := by
  unfold Modes.multiplyScalar
  rw [check_nat hd hd' hb hb']
  refine bind_same fun b => ?_
  have := ufuncMulScalar_nat (· * ·) f a a' hf ha hd hd' hb hb'
  split
  · exact this
  · refine bind_same fun b => ?_
    split
    · exact this
    · rfl

end

end SF
