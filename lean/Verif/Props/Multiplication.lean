import Verif.Lemmas.Multiplication
import Verif.Props.ModesArith

/-!
# C32, C33: products of Modes objects
-/

set_option autoImplicit false

namespace SF

open Finset Spec ComplexConjugate Quaternion

/-- The `ell_max` of a product: the value of the explicit truncator, or else the larger of the values of the truncators of the two
operands, where a missing one is the sum. -/
def ProductEllMax (f g : Modes) (truncator : Option Trunc) (L : ℤ) : Prop :=
  let own : Modes → Option ℤ := fun h => match h.trunc with
    | .absent => some (f.ell_max + g.ell_max)
    | .fn t => some (t f.ell_max g.ell_max)
    | .isNone => none
  match truncator with
  | some t => L = t f.ell_max g.ell_max
  | none => ∃ a b, own f = some a ∧ own g = some b ∧ L = max a b

/-- `f` and `g` meet a 3-j row on which the two-sided recursion divides by zero: for the two spin weights or for two azimuthal
indices of the operands. -/
def ProductZero (f g : Modes) : Prop :=
  ∃ l1 l2 m m' : ℤ, l1 ≤ f.ell_max ∧ l2 ≤ g.ell_max ∧ (m = f.s ∧ m' = g.s ∨ |m| ≤ l1 ∧ |m'| ≤ l2) ∧
    ¬ (m = 0 ∧ m' = 0) ∧ GrowingZero l1 l2 m m'

theorem multiplyM_run {junk junk' : ℕ → ℝ} {f g : Modes} {truncator : Option Trunc} {L : ℤ} {lead : List ℕ} (hL : ProductEllMax f g truncator L)
    (hlead : bcastLeads f g = .ok lead) :
    f.multiplyM junk junk' g truncator = (do
      let new ← npZeros (α := Slice) (LM_total_size 0 L)
      let new ← mulHelper junk junk' f.lead g.lead lead (fun _ => f.dat) 0 f.ell_max f.s (fun _ => g.dat) 0 g.ell_max g.s new 0 L (f.s + g.s)
      f.remake lead new (f.s + g.s) L) := by
  unfold Modes.multiplyM
  unfold ProductEllMax at hL
  cases truncator with
  | some t =>
    simp only at hL ⊢
    rw [bind_ok, hlead, bind_ok, hL]
  | none =>
    simp only at hL ⊢
    obtain ⟨a, b, ha, hb, rfl⟩ := hL
    have c : ∀ h : Modes, ∀ v, (match h.trunc with
        | .absent => some (f.ell_max + g.ell_max)
        | .fn t => some (t f.ell_max g.ell_max)
        | .isNone => none) = some v → h.trunc.call f.ell_max g.ell_max = .ok v := by
      intro h v hv
      cases ht : h.trunc <;> rw [ht] at hv <;> simp_all [TruncKey.call]
    rw [c f a ha, bind_ok, c g b hb]
    simp only [bind_ok, pure, Except.pure, hlead]

theorem multiplyM_sized {junk junk' : ℕ → ℝ} {f g : Modes} (hf : f.Sized) (hg : g.Sized) (hf0 : 0 ≤ f.ell_max) (hg0 : 0 ≤ g.ell_max)
    (hq : f.ell_max + g.ell_max ≤ 151) {truncator : Option Trunc} {L : ℤ} (hL : ProductEllMax f g truncator L) (hL1 : -1 ≤ L)
    {lead : List ℕ} (hb : bcastShape f.lead g.lead = some lead) :
    (∃ h, f.multiplyM junk junk' g truncator = .ok h ∧ h.WF ∧ h.lead = lead ∧ h.s = f.s + g.s ∧ h.ell_max = L ∧ h.trunc = f.trunc ∧
      ∀ l m, |f.s + g.s| ≤ l → |m| ≤ l → l ≤ L → h.coef l m
        = mulSum f.s g.s L 0 f.ell_max 0 g.ell_max (f.coefIn lead) (g.coefIn lead) l m) ∨
    (f.multiplyM junk junk' g truncator = .error .zeroDivision ∧ ProductZero f g) := by
  have hlead : bcastLeads f g = .ok lead := by
    unfold bcastLeads
    rw [if_neg (by have := hf.dat_ne_nil hf0; have := hg.dat_ne_nil hg0; tauto), hb]
  rw [multiplyM_run hL hlead]
  obtain ⟨N, hN⟩ : ∃ N : ℕ, (N : ℤ) = (L + 1) ^ 2 := ⟨((L + 1) ^ 2).toNat, by have := sq_nonneg (L + 1); omega⟩
  have hz : npZeros (α := Slice) (LM_total_size 0 L) = .ok (List.replicate N (0 : Slice)) := by
    unfold npZeros
    rw [LM_total_size_zero, ← hN, npEmpty_ok (by omega), Int.toNat_natCast]
    congr 1
    exact List.ext_getElem (by simp) (by simp)
  rw [hz, bind_ok]
  have hrd : ∀ h : Modes, h.Sized → ∀ l m, 0 ≤ l → l ≤ h.ell_max → |m| ≤ l →
      ∃ v, rd h.dat (LM_index l m 0) = .ok v ∧ ∀ x, bcTo h.lead lead v x = h.coefIn lead l m x := by
    intro h hh l m _ h2 h3
    refine ⟨h.coef l m, ?_, fun _ => rfl⟩
    have lo := mpos_lo h3
    have hm := abs_le.1 h3
    have : 0 ≤ LM_index l m 0 := by rw [LM_index_zero]; nlinarith
    exact rd_ok this (hh.get h3 h2)
  rcases mulHelper_spec (junk := junk) (junk' := junk') (lead := lead) (fg := List.replicate N (0 : Slice)) (L := L) (s_f := f.s) (s_g := g.s) le_rfl le_rfl (by omega) (by omega) (by omega) hq
    (fun _ _ => hrd f hf) (fun _ _ => hrd g hg) (by rw [List.length_replicate]; exact hN) with ⟨r, e, k2, k3⟩ | ⟨e, he, h1, h2⟩
  · left
    rw [List.length_replicate] at k2
    rw [e, bind_ok]
    obtain ⟨h, e1, e2, e3, e4, e5, e6, e7⟩ := remake_ok f lead r (f.s + g.s) L hL1 (by rw [k2]; exact hN)
    refine ⟨h, e1, e2, e3, e4, e5, e6, fun l m h1 h2 h3 => ?_⟩
    apply coef_of_get
    rw [e7 l m h2 h3, if_pos h1, k3 l m h2 h3 0 (by rw [List.getElem?_replicate, if_pos (mpos_lt h2 h3 hN)])]
    congr 1
    funext x
    exact zero_add _
  · right
    refine ⟨?_, h2⟩
    rw [he, h1]
    rfl

theorem multiplyM_ok {junk junk' : ℕ → ℝ} {f g : Modes} (hf : f.WF) (hg : g.WF) (hf0 : 0 ≤ f.ell_max) (hg0 : 0 ≤ g.ell_max)
    (hq : f.ell_max + g.ell_max ≤ 151) {truncator : Option Trunc} {L : ℤ} (hL : ProductEllMax f g truncator L) (hL1 : -1 ≤ L)
    {lead : List ℕ} (hb : bcastShape f.lead g.lead = some lead) :
    (∃ h, f.multiplyM junk junk' g truncator = .ok h ∧ h.WF ∧ h.lead = lead ∧ h.s = f.s + g.s ∧ h.ell_max = L ∧ h.trunc = f.trunc ∧
      ∀ l m, |f.s + g.s| ≤ l → |m| ≤ l → l ≤ L → h.coef l m
        = mulSum f.s g.s L 0 f.ell_max 0 g.ell_max (f.coefIn lead) (g.coefIn lead) l m) ∨
    (f.multiplyM junk junk' g truncator = .error .zeroDivision ∧ ProductZero f g) :=
  multiplyM_sized hf.sized hg.sized hf0 hg0 hq hL hL1 hb

/-! ## C32 -/

/-- **C32.** The outcome of `f.multiply(g, truncator)` for arbitrary operands whose leading shapes broadcast and whose product
`ell_max` is `L`: a well-formed object of spin weight `s_f + s_g`, with `ell_max = L`, whose modes are those of the
product (`Spec.productMode`, at the broadcast indices), or `ZeroDivisionError` from a 3-j row. -/
theorem C32_product (junk junk' : ℕ → ℝ) (f g : Modes) (hf : f.WF) (hg : g.WF) (hf0 : 0 ≤ f.ell_max) (hg0 : 0 ≤ g.ell_max)
    (hq : f.ell_max + g.ell_max ≤ 151) (truncator : Option Trunc) (L : ℤ) (hL : ProductEllMax f g truncator L) (hL1 : -1 ≤ L)
    (lead : List ℕ) (hb : bcastShape f.lead g.lead = some lead) :
    (∃ h, f.multiplyM junk junk' g truncator = .ok h ∧ h.WF ∧ h.lead = lead ∧ h.s = f.s + g.s ∧ h.ell_max = L ∧ h.trunc = f.trunc ∧
      ∀ l m, |f.s + g.s| ≤ l → |m| ≤ l → l ≤ L → ∀ idx, ValidIdx lead idx →
        h.coef l m idx = productMode f.s f.ell_max (fun l m => f.coef l m (bcIdx f.lead idx)) g.s g.ell_max
          (fun l m => g.coef l m (bcIdx g.lead idx)) l m) ∨
    (f.multiplyM junk junk' g truncator = .error .zeroDivision ∧ ProductZero f g) := by
  rcases multiplyM_ok (junk := junk) (junk' := junk') hf hg hf0 hg0 hq hL hL1 hb with ⟨h, e1, e2, e3, e4, e5, e6, e7⟩ | h
  · left
    refine ⟨h, e1, e2, e3, e4, e5, e6, fun l m h1 h2 h3 idx hv => ?_⟩
    rw [e7 l m h1 h2 h3, mulSum_eq _ _ h3 h2]
    unfold Modes.coefIn
    simp only [bcTo_valid _ hv]
  · exact .inr h

/-- **C32.** Products with `ell_max_f + ell_max_g ≤ 22`, or with one operand of `ell_max ≤ 6`, never meet the exception. -/
theorem C32_no_exception {f g : Modes} (h : f.ell_max + g.ell_max ≤ 22 ∨ f.ell_max ≤ 6 ∨ g.ell_max ≤ 6) : ¬ ProductZero f g := by
  rintro ⟨l1, l2, m, m', h1, h2, -, -, hg⟩
  have := C47_growing_zero_large hg
  omega

/-- **C32.** With no truncators anywhere the product has `ell_max_f + ell_max_g`. -/
theorem C32_default_ell_max {f g : Modes} (hf : f.trunc = .absent) (hg : g.trunc = .absent) (L : ℤ) :
    ProductEllMax f g none L ↔ L = f.ell_max + g.ell_max := by
  unfold ProductEllMax
  simp [hf, hg]

theorem productMode_comm (s1 L1 : ℤ) (c1 : ℤ → ℤ → ℂ) (s2 L2 : ℤ) (c2 : ℤ → ℤ → ℂ) (l m : ℤ) :
    productMode s1 L1 c1 s2 L2 c2 l m = productMode s2 L2 c2 s1 L1 c1 l m := by
  unfold productMode
  rw [sum_congr rfl fun l1 _ => sum_comm, sum_comm]
  refine sum_congr rfl fun l2 _ => ?_
  rw [sum_congr rfl fun l1 _ => sum_congr rfl fun m1 _ => sum_congr rfl fun m2 _ => rfl]
  rw [sum_congr rfl fun l1 _ => sum_comm, sum_comm]
  refine sum_congr rfl fun m2 _ => sum_congr rfl fun l1 _ => sum_congr rfl fun m1 _ => ?_
  rw [add_comm m2 m1]
  by_cases hm : m1 + m2 = m
  swap
  · rw [if_neg hm, if_neg hm]
  rw [if_pos hm, if_pos hm, threeJ_swap l1 l2 l s1 s2, threeJ_swap l1 l2 l m1 m2]
  have e : ((-1 : ℝ) ^ (l1 + l2 + l)) * ((-1 : ℝ) ^ (l1 + l2 + l)) = 1 := by
    rw [← mul_zpow]; norm_num
  rw [show l2 + l1 + l + s2 + s1 + m = l1 + l2 + l + s1 + s2 + m by ring,
    show (2 * (l2 : ℝ) + 1) * (2 * l1 + 1) * (2 * l + 1) = (2 * l1 + 1) * (2 * l2 + 1) * (2 * l + 1) by ring,
    show -s2 - s1 = -s1 - s2 by ring, mul_comm (c2 l2 m2)]
  congr 2
  linear_combination (-((-1 : ℝ) ^ (l1 + l2 + l + s1 + s2 + m) * Real.sqrt ((2 * l1 + 1) * (2 * l2 + 1) * (2 * l + 1) / (4 * Real.pi))
    * threeJ l1 l2 l s1 s2 (-s1 - s2) * threeJ l1 l2 l m1 m2 (-m))) * e

/-- Extending the range of a function by zero modes. -/
theorem productMode_extend_left {s1 L1 L1' : ℤ} {c1 : ℤ → ℤ → ℂ} (s2 L2 : ℤ) (c2 : ℤ → ℤ → ℂ) (l m : ℤ) (h : L1 ≤ L1')
    (h0 : ∀ l1 m1, |m1| ≤ l1 → L1 < l1 → c1 l1 m1 = 0) :
    productMode s1 L1 c1 s2 L2 c2 l m = productMode s1 L1' c1 s2 L2 c2 l m := by
  unfold productMode
  apply sum_subset
  · intro x; simp only [mem_Icc]; omega
  · intro l1 h1 h2
    simp only [mem_Icc] at h1 h2
    refine sum_eq_zero fun m1 hm1 => sum_eq_zero fun l2 _ => sum_eq_zero fun m2 _ => ?_
    rw [h0 l1 m1 (abs_le.2 (mem_Icc.1 hm1)) (by omega)]
    split <;> simp

theorem productMode_linear_left (s1 L1 : ℤ) (a b : ℂ) (c d : ℤ → ℤ → ℂ) (s2 L2 : ℤ) (c2 : ℤ → ℤ → ℂ) (l m : ℤ) :
    productMode s1 L1 (fun l m => a * c l m + b * d l m) s2 L2 c2 l m
      = a * productMode s1 L1 c s2 L2 c2 l m + b * productMode s1 L1 d s2 L2 c2 l m := by
  unfold productMode
  simp only [mul_sum, ← sum_add_distrib]
  refine sum_congr rfl fun l1 _ => sum_congr rfl fun m1 _ => sum_congr rfl fun l2 _ => sum_congr rfl fun m2 _ => ?_
  split
  · ring
  · ring

theorem productMode_congr {s1 L1 : ℤ} {c1 c1' : ℤ → ℤ → ℂ} {s2 L2 : ℤ} {c2 c2' : ℤ → ℤ → ℂ} {l m : ℤ}
    (h1 : ∀ l m, |m| ≤ l → l ≤ L1 → c1 l m = c1' l m) (h2 : ∀ l m, |m| ≤ l → l ≤ L2 → c2 l m = c2' l m) :
    productMode s1 L1 c1 s2 L2 c2 l m = productMode s1 L1 c1' s2 L2 c2' l m := by
  unfold productMode
  refine sum_congr rfl fun l1 a => sum_congr rfl fun m1 b => sum_congr rfl fun l2 a' => sum_congr rfl fun m2 b' => ?_
  rw [mem_Icc] at a b a' b'
  rw [h1 l1 m1 (abs_le.2 b) a.2, h2 l2 m2 (abs_le.2 b') a'.2]

/-- **C32.** The product is commutative: if both orders return, the mode weights, spin weight and `ell_max` agree; operands with
the same leading shape and truncator give the same object. -/
theorem C32_comm (junk junk' junk2 junk2' : ℕ → ℝ) (f g : Modes) (hf : f.WF) (hg : g.WF) (hf0 : 0 ≤ f.ell_max) (hg0 : 0 ≤ g.ell_max)
    (hq : f.ell_max + g.ell_max ≤ 151) (t t' : Option Trunc) (L : ℤ) (hL : ProductEllMax f g t L) (hL' : ProductEllMax g f t' L)
    (hL1 : -1 ≤ L) (lead : List ℕ) (hb : bcastShape f.lead g.lead = some lead) (hb' : bcastShape g.lead f.lead = some lead) (h h' : Modes)
    (e : f.multiplyM junk junk' g t = .ok h) (e' : g.multiplyM junk2 junk2' f t' = .ok h') :
    h.lead = h'.lead ∧ h.s = h'.s ∧ h.ell_max = h'.ell_max ∧
    (∀ l m, |h.s| ≤ l → |m| ≤ l → l ≤ L → ∀ idx, ValidIdx lead idx → h.coef l m idx = h'.coef l m idx) ∧
    (f.lead = g.lead → f.trunc = g.trunc → h = h') := by
  rcases multiplyM_ok (junk := junk) (junk' := junk') hf hg hf0 hg0 hq hL hL1 hb with ⟨k, e1, e2, e3, e4, e5, e6, e7⟩ | ⟨er, _⟩
  swap
  · rw [e] at er; cases er
  rcases multiplyM_ok (junk := junk2) (junk' := junk2') hg hf hg0 hf0 (by omega) hL' hL1 hb' with ⟨k', d1, d2, d3, d4, d5, d6, d7⟩ | ⟨er, _⟩
  swap
  · rw [e'] at er; cases er
  obtain rfl : k = h := by rw [e] at e1; injection e1 with e1; exact e1.symm
  obtain rfl : k' = h' := by rw [e'] at d1; injection d1 with d1; exact d1.symm
  have hs : k.s = k'.s := by rw [e4, d4, add_comm]
  have hc : ∀ l m, |k.s| ≤ l → |m| ≤ l → l ≤ L → k.coef l m = k'.coef l m := by
    intro l m h1 h2 h3
    rw [e7 l m (by rw [← e4]; exact h1) h2 h3, d7 l m (by rw [← d4, ← hs]; exact h1) h2 h3]
    funext x
    rw [mulSum_eq _ _ h3 h2, mulSum_eq _ _ h3 h2, productMode_comm]
  refine ⟨e3.trans d3.symm, hs, e5.trans d5.symm, fun l m h1 h2 h3 idx _ => by rw [hc l m h1 h2 h3], fun _ ht => ?_⟩
  exact e2.ext d2 (e3.trans d3.symm) hs (e5.trans d5.symm) (by rw [e6, d6, ht])
    (fun l m h1 h2 h3 => hc l m h1 h3 (by rw [← e5]; exact h2))

/-- **C32.** The product is linear in its first argument: if every mode of `f` is the combination `a f1 + b f2` (modes beyond an
`ell_max` count as zero), every mode of `f * g` is the same combination of `f1 * g` and `f2 * g`.  Linearity in the second argument
follows with `C32_comm`. -/
theorem C32_linear (junk junk' : ℕ → ℝ) (f f1 f2 g : Modes) (hf : f.WF) (h1 : f1.WF) (h2 : f2.WF) (hg : g.WF) (hf0 : 0 ≤ f.ell_max)
    (h10 : 0 ≤ f1.ell_max) (h20 : 0 ≤ f2.ell_max) (hg0 : 0 ≤ g.ell_max)
    (hq : f.ell_max + g.ell_max ≤ 151) (hq1 : f1.ell_max + g.ell_max ≤ 151) (hq2 : f2.ell_max + g.ell_max ≤ 151)
    (hs1 : f1.s = f.s) (hs2 : f2.s = f.s) (hl1 : f1.lead = f.lead) (hl2 : f2.lead = f.lead) (lead : List ℕ)
    (hb : bcastShape f.lead g.lead = some lead) (a b : ℂ) (hab : ∀ l m, |m| ≤ l → ∀ idx, f.coef l m idx = a * f1.coef l m idx + b * f2.coef l m idx)
    (t t1 t2 : Option Trunc) (L L1 L2 : ℤ) (hL : ProductEllMax f g t L) (hL1 : ProductEllMax f1 g t1 L1) (hL2 : ProductEllMax f2 g t2 L2)
    (hn : -1 ≤ L) (hn1 : -1 ≤ L1) (hn2 : -1 ≤ L2) (p p1 p2 : Modes)
    (e : f.multiplyM junk junk' g t = .ok p) (e1 : f1.multiplyM junk junk' g t1 = .ok p1) (e2 : f2.multiplyM junk junk' g t2 = .ok p2) :
    ∀ l m, |f.s + g.s| ≤ l → |m| ≤ l → l ≤ L → l ≤ L1 → l ≤ L2 → ∀ idx, ValidIdx lead idx →
      p.coef l m idx = a * p1.coef l m idx + b * p2.coef l m idx := by
  intro l m a1 a2 a3 a4 a5 idx hv
  rcases C32_product junk junk' f g hf hg hf0 hg0 hq t L hL hn lead hb with ⟨k, k1, -, -, -, -, -, k7⟩ | ⟨er, _⟩
  swap
  · rw [e] at er; cases er
  rcases C32_product junk junk' f1 g h1 hg h10 hg0 hq1 t1 L1 hL1 hn1 lead (by rw [hl1]; exact hb) with ⟨u, u1, -, -, -, -, -, u7⟩ | ⟨er, _⟩
  swap
  · rw [e1] at er; cases er
  rcases C32_product junk junk' f2 g h2 hg h20 hg0 hq2 t2 L2 hL2 hn2 lead (by rw [hl2]; exact hb) with ⟨v, v1, -, -, -, -, -, v7⟩ | ⟨er, _⟩
  swap
  · rw [e2] at er; cases er
  obtain rfl : k = p := by rw [e] at k1; injection k1 with k1; exact k1.symm
  obtain rfl : u = p1 := by rw [e1] at u1; injection u1 with u1; exact u1.symm
  obtain rfl : v = p2 := by rw [e2] at v1; injection v1 with v1; exact v1.symm
  rw [k7 l m a1 a2 a3 idx hv, u7 l m (by rw [hs1]; exact a1) a2 a4 idx hv, v7 l m (by rw [hs2]; exact a1) a2 a5 idx hv]
  set M := max f.ell_max (max f1.ell_max f2.ell_max) with hM
  have z : ∀ h : Modes, h.WF → ∀ x l1 m1, |m1| ≤ l1 → h.ell_max < l1 → h.coef l1 m1 x = 0 :=
    fun h hh x l1 m1 q1 q2 => by rw [coef_of_gt hh q1 q2]
  rw [productMode_extend_left (L1' := M) _ _ _ _ _ (by omega) (fun l1 m1 q1 q2 => z f hf _ l1 m1 q1 q2),
    productMode_extend_left (L1 := f1.ell_max) (L1' := M) _ _ _ _ _ (by omega) (fun l1 m1 q1 q2 => z f1 h1 _ l1 m1 q1 q2),
    productMode_extend_left (L1 := f2.ell_max) (L1' := M) _ _ _ _ _ (by omega) (fun l1 m1 q1 q2 => z f2 h2 _ l1 m1 q1 q2), hs1, hs2, hl1, hl2,
    ← productMode_linear_left]
  exact productMode_congr (fun l m q _ => hab l m q _) (fun _ _ _ _ => rfl)

/-- **C32.** Truncating during the multiplication is the same as truncating afterwards. -/
theorem C32_truncation (junk junk' : ℕ → ℝ) (f g : Modes) (hf : f.WF) (hg : g.WF) (hf0 : 0 ≤ f.ell_max) (hg0 : 0 ≤ g.ell_max)
    (hq : f.ell_max + g.ell_max ≤ 151) (t t' : Option Trunc) (L L' : ℤ) (hL : ProductEllMax f g t L) (hL' : ProductEllMax f g t' L')
    (hle : L' ≤ L) (hs : |f.s + g.s| ≤ L') (lead : List ℕ) (hb : bcastShape f.lead g.lead = some lead) (h h' : Modes)
    (e : f.multiplyM junk junk' g t = .ok h) (e' : f.multiplyM junk junk' g t' = .ok h') : h.truncate_ell L' = .ok h' := by
  have h0 : 0 ≤ L' := (abs_nonneg _).trans hs
  rcases multiplyM_ok (junk := junk) (junk' := junk') hf hg hf0 hg0 hq hL (by omega) hb with ⟨k, e1, e2, e3, e4, e5, e6, e7⟩ | ⟨er, _⟩
  swap
  · rw [e] at er; cases er
  rcases multiplyM_ok (junk := junk) (junk' := junk') hf hg hf0 hg0 hq hL' (by omega) hb with ⟨k', d1, d2, d3, d4, d5, d6, d7⟩ | ⟨er, _⟩
  swap
  · rw [e'] at er; cases er
  obtain rfl : k = h := by rw [e] at e1; injection e1 with e1; exact e1.symm
  obtain rfl : k' = h' := by rw [e'] at d1; injection d1 with d1; exact d1.symm
  have hc : ∀ l m, |f.s + g.s| ≤ l → |m| ≤ l → l ≤ L' → k.coef l m = k'.coef l m := by
    intro l m h1 h2 h3
    rw [e7 l m h1 h2 (by omega), d7 l m h1 h2 h3]
    funext x
    rw [mulSum_eq _ _ (by omega) h2, mulSum_eq _ _ h3 h2]
  rcases eq_or_lt_of_le hle with hEq | hlt
  · subst hEq
    rw [(C27_truncate k e2 L').2.1 (by omega)]
    congr 1
    exact e2.ext d2 (e3.trans d3.symm) (e4.trans d4.symm) (e5.trans d5.symm) (e6.trans d6.symm)
      (fun l m h1 h2 h3 => hc l m (by rw [← e4]; exact h1) h3 (by omega))
  · obtain ⟨u, u1, u2, u3, u4, u5, u6, u7⟩ := truncate_ok e2 (L := L') (by rw [e4]; exact hs) (by omega)
    rw [u1]
    congr 1
    refine u2.ext d2 (by rw [u3, e3, d3]) (by rw [u4, e4, d4]) (by rw [u5, d5]) (by rw [u6, e6, d6]) ?_
    intro l m h1 h2 h3
    rw [u4, e4] at h1
    rw [u5] at h2
    rw [u7 l m (by first | exact h1 | exact h3 | omega) (by first | exact h1 | exact h3 | omega)]
    exact hc l m h1 h3 h2

/-- **C32.** What is rejected: an operand whose `multiplication_truncator` is `None` (TypeError, unless an explicit truncator is given),
and leading shapes that do not broadcast. -/
theorem C32_rejected (junk junk' : ℕ → ℝ) (f g : Modes) :
    (f.trunc = .isNone → f.multiplyM junk junk' g none = .error .typeError) ∧
    (f.trunc ≠ .isNone → g.trunc = .isNone → f.multiplyM junk junk' g none = .error .typeError) ∧
    (f.WF → g.WF → 0 ≤ f.ell_max → 0 ≤ g.ell_max → bcastShape f.lead g.lead = none → ∀ t,
      f.multiplyM junk junk' g (some t) = .error .valueError) := by
  refine ⟨fun h => ?_, fun h h' => ?_, fun hf hg hf0 hg0 hb t => ?_⟩
  · unfold Modes.multiplyM
    rw [h]
    rfl
  · unfold Modes.multiplyM
    rw [h']
    cases hk : f.trunc
    · rfl
    · exact absurd hk h
    · rfl
  · unfold Modes.multiplyM
    have hlead : bcastLeads f g = .error .valueError := by
      unfold bcastLeads
      rw [if_neg (by have := hf.dat_ne_nil hf0; have := hg.dat_ne_nil hg0; tauto), hb]
    simp only [bind_ok]
    rw [hlead]
    rfl

/-- **C32.** The function `multiply` on plain arrays needs data: without any modes in one of them it raises IndexError; leading shapes
that do not broadcast give ValueError. -/
theorem C32_function_rejected (junk junk' : ℕ → ℝ) (leadf leadg : List ℕ) (f g : List Slice) (a b s a' b' s' : ℤ) :
    (f = [] → multiplyFn junk junk' leadf f a b s leadg g a' b' s' = .error .indexError) ∧
    (g = [] → multiplyFn junk junk' leadf f a b s leadg g a' b' s' = .error .indexError) ∧
    (f ≠ [] → g ≠ [] → bcastShape leadf leadg = none → multiplyFn junk junk' leadf f a b s leadg g a' b' s' = .error .valueError) := by
  refine ⟨fun h => if_pos (Or.inl h), fun h => if_pos (Or.inr h), fun h h' hb => ?_⟩
  unfold multiplyFn
  simp only
  rw [if_neg (by tauto), hb]

/-! ## C33 -/

theorem field_product {f g h : Modes} (hf : f.WF) (hg : g.WF) {L : ℤ} {lead : List ℕ} (hL : f.ell_max + g.ell_max ≤ L)
    (hs : h.s = f.s + g.s) (hm : h.ell_max = L) (hc : ∀ l m, |f.s + g.s| ≤ l → |m| ≤ l → l ≤ L → h.coef l m
        = mulSum f.s g.s L 0 f.ell_max 0 g.ell_max (f.coefIn lead) (g.coefIn lead) l m) {za zb : ℂ} (hu : IsUnit' za zb) {idx : MIdx}
    (hv : ValidIdx lead idx) :
    Spec.fieldValue h.s h.ell_max (fun l m => h.coef l m idx) za zb
      = Spec.fieldValue f.s f.ell_max (fun l m => f.coef l m (bcIdx f.lead idx)) za zb
        * Spec.fieldValue g.s g.ell_max (fun l m => g.coef l m (bcIdx g.lead idx)) za zb := by
  have e : Spec.fieldValue h.s h.ell_max (fun l m => h.coef l m idx) za zb
      = Spec.fieldValue (f.s + g.s) L (fun l m => mulSum f.s g.s L 0 f.ell_max 0 g.ell_max (f.coefIn lead) (g.coefIn lead) l m idx) za zb := by
    rw [hs, hm]
    apply fieldValue_congr
    intro l m h1 h2 h3
    rw [hc l m h1 h2 h3]
  rw [e, fieldValue_from_zero, mulSum_field hu _ _ hL, fieldValue_from_zero, fieldValue_from_zero]
  unfold Modes.coefIn
  simp only [bcTo_valid _ hv]

/-- **C33.** Whenever the untruncated product returns, its value at every rotor, and every index of the broadcast leading shape, is the
product of the values of the operands; and it does return when `ell_max_f + ell_max_g ≤ 22` or one operand has `ell_max ≤ 6` (`table`
has the coefficients up to `L`, 32 by default). -/
theorem C33_pointwise {L : ℤ} {table : List ℝ} (ht : IsWignerTable L table) (junkT : ℕ → ℤ × ℤ) (junk junk' : ℕ → ℝ) (f g : Modes)
    (hf : f.WF) (hg : g.WF) (hf0 : 0 ≤ f.ell_max) (hg0 : 0 ≤ g.ell_max) (hq : f.ell_max + g.ell_max ≤ 151) (lead : List ℕ)
    (hb : bcastShape f.lead g.lead = some lead) (truncator : Option Trunc) (Lp : ℤ) (hLp : ProductEllMax f g truncator Lp)
    (hfull : f.ell_max + g.ell_max ≤ Lp) (hLpL : Lp ≤ L) (qs : List ℍ[ℝ]) (hne : qs ≠ []) (hqs : ∀ q ∈ qs, GenericQ q) :
    (f.ell_max + g.ell_max ≤ 22 ∨ f.ell_max ≤ 6 ∨ g.ell_max ≤ 6 → ∃ h, f.multiplyM junk junk' g truncator = .ok h) ∧
    ∀ h, f.multiplyM junk junk' g truncator = .ok h →
      ∃ vf vg vh, f.evaluate table junkT (qs.map comps) = .ok vf ∧ g.evaluate table junkT (qs.map comps) = .ok vg ∧
        h.evaluate table junkT (qs.map comps) = .ok vh ∧ vf.length = qs.length ∧ vg.length = qs.length ∧ vh.length = qs.length ∧
        ∀ (k : ℕ) (idx : MIdx), ValidIdx lead idx → ∀ a b c, vf[k]? = some a → vg[k]? = some b → vh[k]? = some c →
          c idx = a (bcIdx f.lead idx) * b (bcIdx g.lead idx) := by
  rcases multiplyM_ok (junk := junk) (junk' := junk') hf hg hf0 hg0 hq hLp (by omega) hb with ⟨h, e1, e2, e3, e4, e5, e6, e7⟩ | ⟨er, hz⟩
  · refine ⟨fun _ => ⟨h, e1⟩, fun h' e' => ?_⟩
    obtain rfl : h = h' := by rw [e1] at e'; injection e'
    refine ⟨_, _, _, evaluate_ok ht junkT hf (by omega) qs hqs, evaluate_ok ht junkT hg (by omega) qs hqs,
      evaluate_ok ht junkT e2 (by omega) qs hqs, by simp, by simp, by simp, ?_⟩
    intro k idx hv a b c ha hb' hc
    rw [List.getElem?_map, Option.map_eq_some_iff] at ha hb' hc
    obtain ⟨q, hqk, rfl⟩ := ha
    obtain ⟨q', hqk', rfl⟩ := hb'
    obtain ⟨q'', hqk'', rfl⟩ := hc
    rw [hqk] at hqk' hqk''
    obtain rfl : q = q' := by injection hqk'
    obtain rfl : q = q'' := by injection hqk''
    exact field_product hf hg hfull e4 e5 e7 (hqs q (List.mem_of_getElem? hqk)).1 hv
  · refine ⟨fun hsmall => absurd hz (C32_no_exception hsmall), fun h e => ?_⟩
    rw [e] at er; cases er

/-- **C33.** The plain function `multiply` on arrays of modes `ellmin ≤ ell ≤ ellmax` (leading shapes `leadf`, `leadg`): if it returns, the
output has spin weight `s_f + s_g`, `ell` from 0 to `ellmax_f + ellmax_g`, and the function with these modes is the pointwise product. -/
theorem C33_multiply (junk junk' : ℕ → ℝ) (leadf leadg lead : List ℕ) (f g : List Slice) (ellmin_f ellmax_f s_f ellmin_g ellmax_g s_g : ℤ)
    (hf0 : 0 ≤ ellmin_f) (hf1 : ellmin_f ≤ ellmax_f) (hg0 : 0 ≤ ellmin_g) (hg1 : ellmin_g ≤ ellmax_g) (hq : ellmax_f + ellmax_g ≤ 151)
    (hlf : (f.length : ℤ) = (ellmax_f + 1) ^ 2 - ellmin_f ^ 2) (hlg : (g.length : ℤ) = (ellmax_g + 1) ^ 2 - ellmin_g ^ 2)
    (hb : bcastShape leadf leadg = some lead) :
    let mode : List Slice → ℤ → ℤ → ℤ → Slice := fun a ellmin l m => (a[(l * (l + 1) + m - ellmin ^ 2).toNat]?).getD 0
    (ellmax_f + ellmax_g ≤ 22 ∨ ellmax_f ≤ 6 ∨ ellmax_g ≤ 6 → ∃ r, multiplyFn junk junk' leadf f ellmin_f ellmax_f s_f leadg g ellmin_g ellmax_g s_g = .ok r) ∧
    ∀ r, multiplyFn junk junk' leadf f ellmin_f ellmax_f s_f leadg g ellmin_g ellmax_g s_g = .ok r →
      ∃ fg, r = ((lead, fg), 0, ellmax_f + ellmax_g, s_f + s_g) ∧ (fg.length : ℤ) = (ellmax_f + ellmax_g + 1) ^ 2 ∧
        ∀ za zb, IsUnit' za zb → ∀ idx, ValidIdx lead idx →
          ∑ l ∈ Icc 0 (ellmax_f + ellmax_g), ∑ m ∈ Icc (-l) l, mode fg 0 l m idx * sYlm za zb (s_f + s_g) l m
            = (∑ l ∈ Icc ellmin_f ellmax_f, ∑ m ∈ Icc (-l) l, mode f ellmin_f l m (bcIdx leadf idx) * sYlm za zb s_f l m)
              * ∑ l ∈ Icc ellmin_g ellmax_g, ∑ m ∈ Icc (-l) l, mode g ellmin_g l m (bcIdx leadg idx) * sYlm za zb s_g l m := by
  intro mode
  set L := ellmax_f + ellmax_g with hL
  have hne : ∀ (a : List Slice) (lo hi : ℤ), 0 ≤ lo → lo ≤ hi → (a.length : ℤ) = (hi + 1) ^ 2 - lo ^ 2 → a ≠ [] := by
    rintro a lo hi h1 h2 h3 rfl
    simp only [List.length_nil, Nat.cast_zero] at h3
    nlinarith
  obtain ⟨N, hN⟩ : ∃ N : ℕ, (N : ℤ) = (L + 1) ^ 2 := ⟨((L + 1) ^ 2).toNat, by have := sq_nonneg (L + 1); omega⟩
  have hz : npZeros (α := Slice) (LM_total_size 0 L) = .ok (List.replicate N (0 : Slice)) := by
    unfold npZeros
    rw [LM_total_size_zero, ← hN, npEmpty_ok (by omega), Int.toNat_natCast]
    congr 1
    exact List.ext_getElem (by simp) (by simp)
  have hrd : ∀ (a : List Slice) (ld : List ℕ) (lo hi : ℤ), 0 ≤ lo → (a.length : ℤ) = (hi + 1) ^ 2 - lo ^ 2 → ∀ l m, lo ≤ l → l ≤ hi → |m| ≤ l →
      ∃ v, rd a (LM_index l m lo) = .ok v ∧ ∀ x, bcTo ld lead v x = (fun l m x => bcTo ld lead (mode a lo l m) x) l m x := by
    intro a ld lo hi h0 hlen l m h1 h2 h3
    have hm := abs_le.1 h3
    have e : LM_index l m lo = l * (l + 1) + m - lo ^ 2 := by unfold LM_index; ring
    have p : 0 ≤ l * (l + 1) + m - lo ^ 2 := by nlinarith
    have p' : l * (l + 1) + m - lo ^ 2 < a.length := by rw [hlen]; nlinarith
    have hlt : (l * (l + 1) + m - lo ^ 2).toNat < a.length := by omega
    refine ⟨mode a lo l m, ?_, fun _ => rfl⟩
    rw [e]
    refine rd_ok p ?_
    simp only [mode]
    rw [List.getElem?_eq_getElem hlt]
    rfl
  have hrun : multiplyFn junk junk' leadf f ellmin_f ellmax_f s_f leadg g ellmin_g ellmax_g s_g
      = (mulHelper junk junk' leadf leadg lead (fun _ => f) ellmin_f ellmax_f s_f (fun _ => g) ellmin_g ellmax_g s_g (List.replicate N (0 : Slice)) 0 L (s_f + s_g)).map
        fun fg => ((lead, fg), 0, L, s_f + s_g) := by
    unfold multiplyFn
    simp only
    rw [if_neg (by have := hne f _ _ hf0 hf1 hlf; have := hne g _ _ hg0 hg1 hlg; tauto), hb]
    simp only
    rw [hz, bind_ok]
    cases mulHelper junk junk' leadf leadg lead (fun _ => f) ellmin_f ellmax_f s_f (fun _ => g) ellmin_g ellmax_g s_g (List.replicate N (0 : Slice)) 0 L (s_f + s_g) <;> rfl
  rw [hrun]
  rcases mulHelper_spec (junk := junk) (junk' := junk') (lead := lead) (fg := List.replicate N (0 : Slice)) (L := L) (s_f := s_f) (s_g := s_g)
    (ellmax_f := ellmax_f) (ellmax_g := ellmax_g) hf0 hg0 (by omega) (by omega) (by omega) hq
    (fun _ _ => hrd f leadf _ _ hf0 hlf) (fun _ _ => hrd g leadg _ _ hg0 hlg) (by rw [List.length_replicate]; exact hN) with ⟨r, e, k2, k3⟩ | ⟨er, he, h1, l1, l2, m, m', h3, h4, -, -, hgz⟩
  · rw [e]
    refine ⟨fun _ => ⟨_, rfl⟩, fun r' hr' => ⟨r, ?_, by rw [k2, List.length_replicate]; exact hN, fun za zb hu idx hv => ?_⟩⟩
    · injection hr' with hr'; exact hr'.symm
    · have key : ∀ l m, |m| ≤ l → l ≤ L → mode r 0 l m idx = mulSum s_f s_g L ellmin_f ellmax_f ellmin_g ellmax_g
          (fun l m x => bcTo leadf lead (mode f ellmin_f l m) x) (fun l m x => bcTo leadg lead (mode g ellmin_g l m) x) l m idx := by
        intro l m h2 h3
        have e1 : (l * (l + 1) + m - 0 ^ 2).toNat = mpos l m := by unfold mpos; rw [LM_index_zero]; congr 1; ring
        simp only [mode]
        rw [e1, k3 l m h2 h3 0 (by rw [List.getElem?_replicate, if_pos (mpos_lt h2 h3 hN)])]
        exact zero_add _
      rw [sum_congr rfl fun l hl => sum_congr rfl fun m hm => by
        rw [key l m (abs_le.2 (mem_Icc.1 hm)) (mem_Icc.1 hl).2], mulSum_field hu _ _ (le_of_eq hL.symm)]
      simp only [bcTo_valid _ hv]
  · rw [he]
    refine ⟨fun hs => ?_, fun r hr => by cases hr⟩
    have := C47_growing_zero_large hgz
    omega

/-- Non-vacuity of C32 and C33: the product of two functions of spin weight -1 (leading shape `[2]`) with one of spin weight -1. -/
example (junk : ℕ → ℝ) : ∃ table h vh, IsWignerTable 32 table ∧ exModes.multiplyM junk junk exModes1 none = .ok h ∧ h.s = -2 ∧ h.ell_max = 3 ∧
    h.lead = [2] ∧ h.evaluate table (fun _ => 0) ([mkQ (3/5) (4/5) 0 0].map comps) = .ok vh := by
  obtain ⟨t, ht⟩ := IsWignerTable.exists 32 (by norm_num)
  have hL : ProductEllMax exModes exModes1 none 3 := (C32_default_ell_max rfl rfl 3).2 rfl
  have hgen : ∀ q ∈ [mkQ (3/5) (4/5) 0 0], GenericQ q := by simpa using generic_example.1
  rcases C32_product junk junk exModes exModes1 exModes_WF exModes1_WF (by decide) (by decide) (by decide) none 3 hL (by decide) [2] (by decide) with
    ⟨h, e1, _, e3, e4, e5, _⟩ | ⟨_, hz⟩
  · obtain ⟨_, _, vh, _, _, hv, _⟩ := (C33_pointwise ht (fun _ => 0) junk junk exModes exModes1 exModes_WF exModes1_WF (by decide) (by decide)
      (by decide) [2] (by decide) none 3 hL (by decide) (by decide) _ (by simp) hgen).2 h e1
    exact ⟨t, h, vh, ht, e1, by rw [e4]; rfl, e5, e3, hv⟩
  · exact absurd hz (C32_no_exception (Or.inl (by decide)))

example (junk : ℕ → ℝ) : ∃ r, multiplyFn junk junk [] [fun _ => 1, fun _ => 2, fun _ => 3] 1 1 1 [] [fun _ => Complex.I] 0 0 0 = .ok r :=
  (C33_multiply junk junk [] [] [] _ _ 1 1 1 0 0 0 (by norm_num) (by norm_num) (by norm_num) (by norm_num) (by norm_num) (by simp) (by simp)
    rfl).1 (Or.inl (by norm_num))

end SF
