import Verif.Model.SetItem
import Verif.Lemmas.Leading
import Verif.Lemmas.ModesHeap
import Verif.Props.Multiplication

/-! # Data in the modes with `ell < |s|` -/

set_option autoImplicit false

namespace SF

open ComplexConjugate

theorem forL_nat_mem {α σ σ' : Type} (F : σ → σ') (xs : List α) (s : σ) {body : α → σ → Py σ} {body' : α → σ' → Py σ'}
    (h : ∀ x ∈ xs, ∀ s, body' x (F s) = (body x s).map F) : forL xs (F s) body' = (forL xs s body).map F := by
  induction xs generalizing s with
  | nil => rfl
  | cons x xs ih =>
    rw [forL_cons, forL_cons]
    exact bind_nat (h x (by simp) s) fun v => ih v fun y hy => h y (by simp [hy])

/-- Number of the modes that must vanish. -/
def nlow (s : ℤ) : ℕ := (s ^ 2).toNat

/-- The object with zeros in the modes that must vanish. -/
def Modes.clean (f : Modes) : Modes := { f with dat := zeroPrefix (nlow f.s) f.dat }

theorem nlow_le {s ell m : ℤ} (h1 : |s| ≤ ell) (h2 : |m| ≤ ell) : (nlow s : ℤ) ≤ LM_index ell m 0 := by
  unfold nlow
  have := sq_le_of (abs_nonneg s) h1
  rw [sq_abs] at this
  have h3 := abs_le.mp h2
  rw [LM_index_zero, Int.toNat_of_nonneg (sq_nonneg s)]
  omega

theorem index_nlow {f : Modes} {ell m j : ℤ} (h : f.index ell m = .ok j) : (nlow f.s : ℤ) ≤ j := by
  unfold Modes.index at h
  split at h
  · cases h
  split at h
  · cases h
  cases h
  rename_i h1 _
  push Not at h1
  exact nlow_le h1.1 h1.2

section

variable {n : ℕ}

theorem zeroPrefix_getElem? (a : List Slice) (k : ℕ) :
    (zeroPrefix n a)[k]? = if k < n ∧ k < a.length then some (fun _ => 0) else a[k]? := by
  by_cases hk : k < a.length
  · rw [zeroPrefix_get hk]
    simp [hk]
  · rw [if_neg (by omega), List.getElem?_eq_none (by rw [zeroPrefix_length]; omega), List.getElem?_eq_none (by omega)]

theorem rd_zp {i : ℤ} (h : (n : ℤ) ≤ i) (a : List Slice) : rd (zeroPrefix n a) i = rd a i := by
  unfold rd npIdx
  rw [zeroPrefix_length]
  split
  · rfl
  · rename_i k hk
    have : k = i.toNat := by
      split at hk
      · cases hk; rfl
      · rw [if_neg (by omega)] at hk; cases hk
    subst this
    rw [zeroPrefix_getElem?, if_neg (by omega)]

theorem wr_zp {i : ℤ} (h : (n : ℤ) ≤ i) (a : List Slice) (v : Slice) :
    wr (zeroPrefix n a) i v = (wr a i v).map (zeroPrefix n) := by
  unfold wr npIdx
  rw [zeroPrefix_length]
  split
  · rfl
  · rename_i k hk
    have : k = i.toNat := by
      split at hk
      · cases hk; rfl
      · rw [if_neg (by omega)] at hk; cases hk
    subst this
    simp only [Except.map]
    congr 1
    apply List.ext_getElem?
    intro k
    rw [zeroPrefix_getElem?, List.getElem?_set, List.getElem?_set, zeroPrefix_length, zeroPrefix_getElem?, List.length_set]
    by_cases hk : i.toNat = k
    · rw [if_pos hk, if_pos hk, if_neg (show ¬ (k < n ∧ k < a.length) by omega)]
    · rw [if_neg hk, if_neg hk]

theorem getSlice_zp {i j : ℤ} (h : (n : ℤ) ≤ i) (a : List Slice) : getSlice (zeroPrefix n a) i j = getSlice a i j := by
  unfold getSlice
  congr 1
  apply List.ext_getElem?
  intro k
  rw [List.getElem?_drop, List.getElem?_drop, zeroPrefix_getElem?, if_neg (by omega)]

theorem take_zp (a : List Slice) (k : ℕ) : (zeroPrefix n a).take k = zeroPrefix n (a.take k) := by
  apply List.ext_getElem?
  intro q
  rw [List.getElem?_take, zeroPrefix_getElem?, zeroPrefix_getElem?, List.getElem?_take, List.length_take]
  by_cases h1 : q < k <;> by_cases h2 : q < n <;> by_cases h3 : q < a.length <;> simp [h1, h2, h3]

theorem drop_zp {k : ℕ} (h : n ≤ k) (a : List Slice) : (zeroPrefix n a).drop k = a.drop k := by
  apply List.ext_getElem?
  intro q
  rw [List.getElem?_drop, List.getElem?_drop, zeroPrefix_getElem?, if_neg (by omega)]

theorem zp_append {a b : List Slice} (h : n ≤ a.length ∨ b = []) : zeroPrefix n (a ++ b) = zeroPrefix n a ++ b := by
  rcases h with h | rfl
  · unfold zeroPrefix
    rw [List.length_append, Nat.min_eq_left (by omega), Nat.min_eq_left h, List.drop_append_of_le_length h,
      List.append_assoc]
  · simp

theorem setSlice_zp {i j : ℤ} (h : (n : ℤ) ≤ i) (a vals : List Slice) :
    setSlice (zeroPrefix n a) i j vals = (setSlice a i j vals).map (zeroPrefix n) := by
  unfold setSlice
  simp only [zeroPrefix_length]
  have key : ∀ w : List Slice, w.length = max (min i.toNat a.length) (min j.toNat a.length) - min i.toNat a.length →
      (zeroPrefix n a).take (min i.toNat a.length) ++ w ++ (zeroPrefix n a).drop (max (min i.toNat a.length) (min j.toNat a.length))
        = zeroPrefix n (a.take (min i.toNat a.length) ++ w ++ a.drop (max (min i.toNat a.length) (min j.toNat a.length))) := by
    intro w hw
    rw [take_zp]
    by_cases hn : n ≤ a.length
    · rw [drop_zp (by omega), List.append_assoc, List.append_assoc, zp_append (.inl (by rw [List.length_take]; omega))]
    · have hi : min i.toNat a.length = a.length := by omega
      rw [hi] at hw ⊢
      have hw' : w = [] := List.eq_nil_of_length_eq_zero (by omega)
      subst hw'
      rw [List.drop_eq_nil_of_le (by rw [zeroPrefix_length]; omega), List.drop_eq_nil_of_le (by omega)]
      simp
  split
  · rename_i hl
    simp only [Except.map]
    rw [key _ hl]
  · split
    · simp only [Except.map]
      rw [key _ (by rw [List.length_replicate])]
    · rfl

theorem zp_zp (a : List Slice) : zeroPrefix n (zeroPrefix n a) = zeroPrefix n a := by
  apply List.ext_getElem?
  intro q
  rw [zeroPrefix_getElem?, zeroPrefix_getElem?, zeroPrefix_length]
  split <;> rfl

/-- A prefix that is wiped afterwards may be wiped before. -/
theorem zp_map_zp (F : Slice → Slice) (a : List Slice) :
    zeroPrefix n ((zeroPrefix n a).map F) = zeroPrefix n (a.map F) := by
  apply List.ext_getElem?
  intro q
  rw [zeroPrefix_getElem?, zeroPrefix_getElem?, List.length_map, List.length_map, zeroPrefix_length, List.getElem?_map,
    List.getElem?_map, zeroPrefix_getElem?]
  split <;> rfl

theorem zerosLike_zp (a : List Slice) : zerosLike (zeroPrefix n a) = zerosLike a := by
  unfold zerosLike
  apply List.ext_getElem?
  intro q
  rw [List.getElem?_map, List.getElem?_map, zeroPrefix_getElem?]
  split
  · rename_i h
    rw [List.getElem?_eq_getElem h.2]
    rfl
  · rfl

end

/-! ## The constructor -/

theorem remake_zp (f : Modes) (lead : List ℕ) (dat dat' : List Slice) (s L : ℤ) (h : zeroPrefix (nlow s) dat = zeroPrefix (nlow s) dat') :
    f.remake lead dat s L = f.remake lead dat' s L := by
  have hl : dat.length = dat'.length := by
    have := congrArg List.length h
    rwa [zeroPrefix_length, zeroPrefix_length] at this
  unfold Modes.remake Modes.new
  simp only [List.length_nil, List.getElem?_nil, Option.none_or, Option.getD_none, bind_ok, gt_iff_lt,
    show ¬ (0 = 2 ∨ 3 < 0) by omega, if_false, ite_self, Option.or_none, hl, abs_sub_one_sq]
  rw [if_pos trivial, if_pos trivial]
  unfold nlow at h
  rw [h]

theorem clean_remake (f : Modes) (lead : List ℕ) (dat : List Slice) (s L : ℤ) : f.clean.remake lead dat s L = f.remake lead dat s L := rfl

/-! ## Methods of one object -/

variable (f : Modes)

theorem clean_index (ell m : ℤ) : f.clean.index ell m = f.index ell m := rfl

theorem bind_index {α : Type} {ell m : ℤ} {k k' : ℤ → Py α} (h : ∀ j : ℤ, (nlow f.s : ℤ) ≤ j → k j = k' j) :
    (f.index ell m >>= k) = (f.index ell m >>= k') := by
  cases e : f.index ell m with
  | error _ => rfl
  | ok j => exact h j (index_nlow e)

theorem bind_index_map {α : Type} {F : α → α} {ell m : ℤ} {k k' : ℤ → Py α} (h : ∀ j : ℤ, (nlow f.s : ℤ) ≤ j → k' j = (k j).map F) :
    (f.index ell m >>= k') = (f.index ell m >>= k).map F := by
  cases e : f.index ell m with
  | error _ => rfl
  | ok j => exact h j (index_nlow e)

theorem clean_negative : f.clean.negative = f.negative := by
  unfold Modes.negative
  rw [clean_remake]
  exact remake_zp _ _ _ _ _ _ (zp_map_zp _ _)

theorem clean_positive : f.clean.positive = f.positive := by
  unfold Modes.positive
  rw [clean_remake]
  exact remake_zp _ _ _ _ _ _ (zp_zp _)

theorem clean_Rz : f.clean.Rz = f.Rz := by
  unfold Modes.Rz
  rw [clean_remake]
  exact remake_zp _ _ _ _ _ _ (zp_map_zp _ _)

theorem clean_Lplus : f.clean.Lplus = f.Lplus := by
  unfold Modes.Lplus
  have h : ∀ i : ℤ, (nlow f.s : ℤ) ≤ i → rd f.clean.dat i = rd f.dat i := fun i hi => rd_zp hi _
  rw [show zerosLike f.clean.dat = zerosLike f.dat from zerosLike_zp _]
  refine congrArg₂ _ (forL_congr _ _ _ _ fun ell _ d => ?_) rfl
  refine bind_index f fun i _ => congrArg₂ _ rfl (funext fun d => forL_congr _ _ _ _ fun m _ d => ?_)
  exact bind_index f fun j hj => by rw [h j hj]; rfl

theorem clean_Lminus : f.clean.Lminus = f.Lminus := by
  unfold Modes.Lminus
  have h : ∀ i : ℤ, (nlow f.s : ℤ) ≤ i → rd f.clean.dat i = rd f.dat i := fun i hi => rd_zp hi _
  rw [show zerosLike f.clean.dat = zerosLike f.dat from zerosLike_zp _]
  refine congrArg₂ _ (forL_congr _ _ _ _ fun ell _ d => ?_) rfl
  refine congrArg₂ _ (forL_congr _ _ _ _ fun m _ d => ?_) rfl
  exact bind_index f fun j hj => by rw [h j hj]; rfl

theorem clean_RLoop (d : Modes) (fac : ℤ → ℤ) : RLoop f.clean d fac = RLoop f d fac := by
  unfold RLoop
  refine congrArg₂ _ (forL_congr _ _ _ _ fun ell _ dat => ?_) rfl
  by_cases hz : ell ≥ 0
  · rw [if_pos hz, if_pos hz]
    refine congrArg₂ _ rfl (funext fun i => congrArg₂ _ rfl (funext fun j => ?_))
    refine bind_index f fun i' hi' => congrArg₂ _ rfl (funext fun j' => ?_)
    rw [show getSlice f.clean.dat i' (j' + 1) = getSlice f.dat i' (j' + 1) from getSlice_zp hi' _]
  · rw [if_neg hz, if_neg hz]

theorem clean_Rplus : f.clean.Rplus = f.Rplus := by
  unfold Modes.Rplus
  rw [show zerosLike f.clean.dat = zerosLike f.dat from zerosLike_zp _]
  refine congrArg₂ _ rfl (funext fun d => ?_)
  exact clean_RLoop f d _

theorem clean_Rminus : f.clean.Rminus = f.Rminus := by
  unfold Modes.Rminus
  rw [show zerosLike f.clean.dat = zerosLike f.dat from zerosLike_zp _]
  refine congrArg₂ _ rfl (funext fun d => ?_)
  exact clean_RLoop f d _

theorem clean_eth : f.clean.eth = f.eth := clean_Rminus f

theorem clean_ethbar : f.clean.ethbar = f.ethbar := by
  unfold Modes.ethbar
  rw [clean_Rplus]

theorem conjLoop_src {s L : ℤ} {a : List Slice} (c : List Slice) :
    conjLoop s L (fun _ => zeroPrefix (nlow s) a) c = conjLoop s L (fun _ => a) c := by
  unfold conjLoop
  refine forL_congr _ _ _ _ fun ell hell c => ?_
  rw [mem_pyRange] at hell
  simp only
  rw [rd_zp (nlow_le hell.1 (by rw [abs_zero]; exact (abs_nonneg _).trans hell.1))]
  refine congrArg₂ _ rfl (funext fun v => congrArg₂ _ rfl (funext fun c => forL_congr _ _ _ _ fun m hm c => ?_))
  rw [mem_pyRange] at hm
  unfold conjPair
  simp only
  rw [rd_zp (nlow_le hell.1 (by rw [abs_le]; omega)), rd_zp (nlow_le hell.1 (by rw [abs_le]; omega))]

theorem conjLoop_zp {s L : ℤ} (c : List Slice) :
    conjLoop s L id (zeroPrefix (nlow s) c) = (conjLoop s L id c).map (zeroPrefix (nlow s)) := by
  unfold conjLoop
  refine forL_nat_mem _ _ _ fun ell hell c => ?_
  rw [mem_pyRange] at hell
  have h0 : (nlow s : ℤ) ≤ LM_index ell 0 0 := nlow_le hell.1 (by rw [abs_zero]; exact (abs_nonneg _).trans hell.1)
  simp only [id]
  rw [rd_zp h0]
  refine bind_same fun v => bind_nat (wr_zp h0 _ _) fun c => forL_nat_mem _ _ _ fun m hm c => ?_
  rw [mem_pyRange] at hm
  have hp : (nlow s : ℤ) ≤ LM_index ell m 0 := nlow_le hell.1 (by rw [abs_le]; omega)
  have hn : (nlow s : ℤ) ≤ LM_index ell (-m) 0 := nlow_le hell.1 (by rw [abs_le]; omega)
  unfold conjPair
  simp only [id]
  rw [rd_zp hp, rd_zp hn]
  refine bind_same fun vn => bind_same fun vp => ?_
  by_cases hz : (s + m) % 2 = 0
  · rw [if_pos hz, if_pos hz]
    exact bind_nat (wr_zp hp _ _) fun c => wr_zp hn _ _
  · rw [if_neg hz, if_neg hz]
    exact bind_nat (wr_zp hp _ _) fun c => wr_zp hn _ _

theorem clean_conjugate : f.clean.conjugate false = f.conjugate false := by
  unfold Modes.conjugate
  simp only [Bool.false_eq_true, if_false]
  rw [show zerosLike f.clean.dat = zerosLike f.dat from zerosLike_zp _]
  exact congrArg₂ _ (conjLoop_src _) rfl

theorem nlow_neg (s : ℤ) : nlow (-s) = nlow s := by unfold nlow; rw [neg_sq]

theorem clean_conjugate_inplace : f.clean.conjugate true = (f.conjugate true).map Modes.clean := by
  unfold Modes.conjugate
  simp only [if_true]
  refine bind_nat (conjLoop_zp _) fun c => ?_
  simp only [pure, Except.pure, Except.map, Modes.clean, nlow_neg]

theorem clean_Lsquared : f.clean.Lsquared = f.Lsquared.map Modes.clean := by
  unfold Modes.Lsquared
  refine bind_nat (F := zeroPrefix (nlow f.s)) (forL_nat_mem _ _ _ fun ell _ d => ?_) fun c => rfl
  refine bind_index_map f fun i hi => ?_
  refine bind_same fun j => ?_
  rw [show getSlice f.clean.dat i (j + 1) = getSlice f.dat i (j + 1) from getSlice_zp hi _]
  exact setSlice_zp hi _ _

theorem clean_Lz : f.clean.Lz = f.Lz.map Modes.clean := by
  unfold Modes.Lz
  refine bind_nat (F := zeroPrefix (nlow f.s)) (G := Modes.clean) ?_ fun c => rfl
  refine forL_nat_mem (zeroPrefix (nlow f.s)) _ f.dat fun ell _ d => ?_
  refine forL_nat_mem (zeroPrefix (nlow f.s)) _ d fun m _ d => ?_
  refine bind_index_map f fun i hi => ?_
  rw [show rd f.clean.dat i = rd f.dat i from rd_zp hi _]
  exact bind_same fun v => wr_zp hi _ _

theorem clean_truncate (L : ℤ) : f.clean.truncate_ell L = (f.truncate_ell L).map Modes.clean := by
  unfold Modes.truncate_ell
  by_cases h : L ≥ f.ell_max
  · rw [if_pos h, if_pos (show L ≥ f.clean.ell_max from h)]
    rfl
  · rw [if_neg h, if_neg (show ¬ L ≥ f.clean.ell_max from h), clean_index]
    refine bind_same fun i => ?_
    simp only [pure, Except.pure, Except.map, Modes.clean]
    congr 2
    unfold getSlice
    simp only [Int.toNat_zero, List.drop_zero]
    exact take_zp _ _

theorem clean_scalarUfunc (op : ℂ → ℂ → ℂ) (a : Scalars) : f.clean.scalarUfunc op a = f.scalarUfunc op a := by
  unfold Modes.scalarUfunc
  rw [show f.clean.lead = f.lead from rfl]
  split
  · rfl
  · rw [clean_remake]
    exact remake_zp _ _ _ _ _ _ (zp_map_zp _ _)

theorem clean_dat_nil : f.clean.dat = [] ↔ f.dat = [] := by
  rw [← List.length_eq_zero_iff, ← List.length_eq_zero_iff]
  show (zeroPrefix _ _).length = 0 ↔ _
  rw [zeroPrefix_length]

theorem clean_check (a : Scalars) : f.clean.check_broadcasting a = f.check_broadcasting a := by
  unfold Modes.check_broadcasting
  simp only [clean_dat_nil]
  rfl

theorem clean_ufuncMulScalar (op : ℂ → ℂ → ℂ) (a : Scalars) : f.clean.ufuncMulScalar op a = f.ufuncMulScalar op a := by
  unfold Modes.ufuncMulScalar
  rw [clean_check, clean_scalarUfunc]

theorem clean_multiplyScalar (a : Scalars) : f.clean.multiplyScalar a = f.multiplyScalar a := by
  unfold Modes.multiplyScalar
  rw [clean_check, clean_ufuncMulScalar]

theorem clean_divideScalar (a : Scalars) : f.clean.divideScalar a = f.divideScalar a := clean_ufuncMulScalar f _ a

theorem clean_addScalar (a : Scalars) (b : Bool) : f.clean.addScalar a b = f.addScalar a b := by
  unfold Modes.addScalar Modes.ufuncAddScalar
  rw [clean_check, clean_scalarUfunc]

theorem clean_of_zero (h : f.s = 0) : f.clean = f := by
  cases f
  simp only at h
  subst h
  simp [Modes.clean, zeroPrefix, nlow]

/-! ## Data that is kept -/

theorem forL_keep {α σ τ : Type} (K : σ → τ) (xs : List α) (s : σ) {body : α → σ → Py σ} {r : σ}
    (h : ∀ x ∈ xs, ∀ s s', body x s = .ok s' → K s' = K s) (e : forL xs s body = .ok r) : K r = K s := by
  induction xs generalizing s with
  | nil => cases e; rfl
  | cons x xs ih =>
    rw [forL_cons] at e
    obtain ⟨s', e1, e2⟩ := bind_eq_ok e
    rw [ih s' (fun y hy => h y (by simp [hy])) e2, h x (by simp) s s' e1]

theorem wr_keep {n : ℕ} {i : ℤ} (h : (n : ℤ) ≤ i) {a a' : List Slice} {v : Slice} (e : wr a i v = .ok a') : a'.take n = a.take n := by
  unfold wr npIdx at e
  split at e
  · cases e
  · rename_i k hk
    have : k = i.toNat := by
      split at hk
      · cases hk; rfl
      · rw [if_neg (by omega)] at hk; cases hk
    subst this
    cases e
    exact List.take_set_of_le (by omega)

theorem setSlice_keep {n : ℕ} {i j : ℤ} (h : (n : ℤ) ≤ i) {a a' vals : List Slice} (e : setSlice a i j vals = .ok a') :
    a'.take n = a.take n := by
  unfold setSlice at e
  simp only at e
  have key : ∀ w : List Slice, w.length = max (min i.toNat a.length) (min j.toNat a.length) - min i.toNat a.length →
      (a.take (min i.toNat a.length) ++ w ++ a.drop (max (min i.toNat a.length) (min j.toNat a.length))).take n = a.take n := by
    intro w hw
    by_cases hn : n ≤ a.length
    · rw [List.append_assoc, List.take_append_of_le_length (by rw [List.length_take]; omega), List.take_take]
      congr 1
      omega
    · have hi : min i.toNat a.length = a.length := by omega
      rw [hi] at hw ⊢
      have hw' : w = [] := List.eq_nil_of_length_eq_zero (by omega)
      subst hw'
      rw [List.drop_eq_nil_of_le (by omega)]
      simp
  split at e
  · rename_i hl
    cases e
    exact key _ hl
  · split at e
    · cases e
      exact key _ (by rw [List.length_replicate])
    · cases e

theorem Lsquared_keep {r : Modes} (e : f.Lsquared = .ok r) : r.dat.take (nlow f.s) = f.dat.take (nlow f.s) := by
  unfold Modes.Lsquared at e
  obtain ⟨d, e1, e2⟩ := bind_eq_ok e
  cases e2
  refine forL_keep (List.take (nlow f.s)) _ _ (fun ell _ d d' e => ?_) e1
  obtain ⟨i, k1, k2⟩ := bind_eq_ok e
  obtain ⟨j, _, k3⟩ := bind_eq_ok k2
  exact setSlice_keep (index_nlow k1) k3

theorem Lz_keep {r : Modes} (e : f.Lz = .ok r) : r.dat.take (nlow f.s) = f.dat.take (nlow f.s) := by
  unfold Modes.Lz at e
  obtain ⟨d, e1, e2⟩ := bind_eq_ok e
  cases e2
  refine forL_keep (List.take (nlow f.s)) _ _ (fun ell _ d d' e => ?_) e1
  refine forL_keep (List.take (nlow f.s)) _ _ (fun m _ d d' e => ?_) e
  obtain ⟨i, k1, k2⟩ := bind_eq_ok e
  obtain ⟨j, _, k3⟩ := bind_eq_ok k2
  exact wr_keep (index_nlow k1) k3

theorem conjugate_keep {r : Modes} (e : f.conjugate true = .ok r) : r.dat.take (nlow f.s) = f.dat.take (nlow f.s) := by
  unfold Modes.conjugate at e
  simp only [if_true] at e
  obtain ⟨d, e1, e2⟩ := bind_eq_ok e
  cases e2
  unfold conjLoop at e1
  refine forL_keep (List.take (nlow f.s)) _ _ (fun ell hell d d' e => ?_) e1
  rw [mem_pyRange] at hell
  obtain ⟨v, _, k2⟩ := bind_eq_ok e
  obtain ⟨d1, k3, k4⟩ := bind_eq_ok k2
  rw [← wr_keep (nlow_le hell.1 (by rw [abs_zero]; exact (abs_nonneg _).trans hell.1)) k3]
  refine forL_keep (List.take (nlow f.s)) _ _ (fun m hm d d' e => ?_) k4
  rw [mem_pyRange] at hm
  have hp : (nlow f.s : ℤ) ≤ LM_index ell m 0 := nlow_le hell.1 (by rw [abs_le]; omega)
  have hn : (nlow f.s : ℤ) ≤ LM_index ell (-m) 0 := nlow_le hell.1 (by rw [abs_le]; omega)
  unfold conjPair at e
  obtain ⟨vn, _, e⟩ := bind_eq_ok e
  obtain ⟨vp, _, e⟩ := bind_eq_ok e
  by_cases hz : (f.s + m) % 2 = 0
  · rw [if_pos hz] at e
    obtain ⟨d2, e3, e4⟩ := bind_eq_ok e
    rw [wr_keep hn e4, wr_keep hp e3]
  · rw [if_neg hz] at e
    obtain ⟨d2, e3, e4⟩ := bind_eq_ok e
    rw [wr_keep hn e4, wr_keep hp e3]

theorem keep_coef {r : Modes} (h : r.dat.take (nlow f.s) = f.dat.take (nlow f.s)) {l m : ℤ} (h1 : |m| ≤ l) (h2 : l < |f.s|) :
    r.coef l m = f.coef l m := by
  have n1 : 0 ≤ l := (abs_nonneg m).trans h1
  have := sq_le_of (show 0 ≤ l + 1 by omega) (show l + 1 ≤ |f.s| by omega)
  rw [sq_abs] at this
  have hlt : mpos l m < nlow f.s := by
    have := mpos_hi h1
    unfold nlow
    omega
  unfold Modes.coef
  have := congrArg (fun a => a[mpos l m]?) h
  simp only [List.getElem?_take, if_pos hlt] at this
  rw [this]

/-! ## The clean object -/

variable {f}

theorem clean_wf (hf : f.Sized) : f.clean.WF := by
  refine ⟨hf.ell_max_ge, ?_, ?_⟩
  · show ((zeroPrefix _ _).length : ℤ) = _
    rw [zeroPrefix_length]; exact hf.size
  · intro ell m h1 h2 h3
    apply coef_of_get
    have hk := mpos_lt h2 h3 hf.size
    show (zeroPrefix _ _)[_]? = _
    rw [zeroPrefix_get hk, if_pos]
    have hi := mpos_hi h2
    have n1 : 0 ≤ ell := (abs_nonneg m).trans h2
    have := sq_le_of (show 0 ≤ ell + 1 by omega) (show ell + 1 ≤ |f.s| from h1)
    rw [sq_abs] at this
    unfold nlow
    omega

theorem clean_coef {ell m : ℤ} (h1 : |f.s| ≤ ell) (h2 : |m| ≤ ell) : f.clean.coef ell m = f.coef ell m := by
  unfold Modes.coef
  show ((zeroPrefix _ _)[_]?).getD _ = _
  rw [zeroPrefix_getElem?, if_neg]
  have := nlow_le h1 h2
  unfold mpos
  omega

theorem positive_clean (hf : f.Sized) : f.positive = .ok f.clean := by
  unfold Modes.positive
  obtain ⟨g, e1, e2, e3, e4, e5, e6, e7⟩ := remake_ok f f.lead f.dat f.s f.ell_max hf.ell_max_ge hf.size
  rw [e1]
  congr 1
  refine e2.ext (clean_wf hf) e3 e4 e5 e6 fun ell m h1 h2 h3 => ?_
  rw [e4] at h1
  rw [e5] at h2
  rw [clean_coef h1 h3]
  apply coef_of_get
  rw [e7 ell m h3 h2, if_pos h1, hf.get h3 h2]

end SF
