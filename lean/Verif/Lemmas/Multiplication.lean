import Verif.Model.Multiplication
import Verif.Lemmas.CGSeries
import Verif.Props.Wigner3j
import Verif.Spec.Product

/-!
# The product of mode weights
-/

set_option autoImplicit false

namespace SF

open Finset ComplexConjugate Spec

/-! ## Product of two harmonics -/

/-- The coefficient of `(ell1, m1)`, `(ell2, m2)` in mode `(ell, m1+m2)` of the product. -/
noncomputable def mulCoef (s1 s2 l1 m1 l2 m2 l : ℤ) : ℝ :=
  (-1 : ℝ) ^ (l1 + l2 + l + (s1 + s2) + (m1 + m2)) * Real.sqrt (2 * l + 1) * threeJ l l1 l2 (-(s1 + s2)) s1 s2
    * threeJ l l1 l2 (-(m1 + m2)) m1 m2 * Real.sqrt ((2 * l1 + 1) / (4 * Real.pi)) * Real.sqrt (2 * l2 + 1)

theorem ite_neg_one_zpow (n : ℤ) : (if n % 2 = 0 then (1 : ℂ) else -1) = (-1) ^ n := by
  split
  · rename_i h; rw [(Int.even_iff.2 h).neg_one_zpow]
  · rename_i h; rw [(Int.not_even_iff_odd.1 (by rwa [Int.even_iff])).neg_one_zpow]

/-- The product of two spin-weighted spherical harmonics. -/
theorem sYlm_mul {za zb : ℂ} (hu : IsUnit' za zb) {s1 s2 l1 m1 l2 m2 : ℤ} (hs1 : |s1| ≤ l1) (hm1 : |m1| ≤ l1) (hs2 : |s2| ≤ l2)
    (hm2 : |m2| ≤ l2) :
    sYlm za zb s1 l1 m1 * sYlm za zb s2 l2 m2 = ∑ l ∈ Icc (max |m1 + m2| |l1 - l2|) (l1 + l2),
      (mulCoef s1 s2 l1 m1 l2 m2 l : ℂ) * sYlm za zb (s1 + s2) l (m1 + m2) := by
  have e := clebsch_gordan_series hu (j1 := l1) (j2 := l2) (n1 := m1) (m1 := -s1) (n2 := m2) (m2 := -s2) hm1 (by rwa [abs_neg]) hm2
    (by rwa [abs_neg])
  have p1 : (0 : ℤ) ≤ l1 := (abs_nonneg _).trans hs1
  have p2 : (0 : ℤ) ≤ l2 := (abs_nonneg _).trans hs2
  have q1 : (0 : ℝ) ≤ l1 := by exact_mod_cast p1
  have q2 : (0 : ℝ) ≤ l2 := by exact_mod_cast p2
  unfold wDi at e
  have hsub : ∑ l ∈ Icc (max |m1 + m2| |l1 - l2|) (l1 + l2), (mulCoef s1 s2 l1 m1 l2 m2 l : ℂ) * sYlm za zb (s1 + s2) l (m1 + m2)
      = ∑ l ∈ Icc (max |l1 - l2| (max |m1 + m2| |-s1 + -s2|)) (l1 + l2),
        (mulCoef s1 s2 l1 m1 l2 m2 l : ℂ) * sYlm za zb (s1 + s2) l (m1 + m2) := by
    symm
    refine sum_subset ?_ ?_
    · intro j hj; rw [mem_Icc] at hj ⊢; omega
    · intro j hj hj'
      rw [mem_Icc] at hj hj'
      unfold sYlm
      rw [if_neg, mul_zero]
      rintro ⟨_, h⟩
      rw [← neg_add, abs_neg] at hj'
      omega
  rw [hsub]
  unfold sYlm
  rw [if_pos ⟨hm1, hs1⟩, if_pos ⟨hm2, hs2⟩]
  rw [show ((-1 : ℂ) ^ s1 * (Real.sqrt ((2 * (l1 : ℝ) + 1) / (4 * Real.pi)) : ℂ) * wignerD za zb (2 * l1) (2 * m1) (-2 * s1))
      * ((-1 : ℂ) ^ s2 * (Real.sqrt ((2 * (l2 : ℝ) + 1) / (4 * Real.pi)) : ℂ) * wignerD za zb (2 * l2) (2 * m2) (-2 * s2))
      = ((-1 : ℂ) ^ (s1 + s2) * (Real.sqrt ((2 * (l1 : ℝ) + 1) / (4 * Real.pi)) : ℂ) * (Real.sqrt ((2 * (l2 : ℝ) + 1) / (4 * Real.pi)) : ℂ))
        * (wignerD za zb (2 * l1) (2 * m1) (2 * -s1) * wignerD za zb (2 * l2) (2 * m2) (2 * -s2)) by
    rw [zpow_add₀ (by norm_num), show -2 * s1 = 2 * -s1 by ring, show -2 * s2 = 2 * -s2 by ring]; ring, e, mul_sum]
  refine sum_congr rfl fun l hl => ?_
  rw [mem_Icc] at hl
  have hS : |s1 + s2| ≤ l := by rw [← neg_add, abs_neg] at hl; omega
  have hM : |m1 + m2| ≤ l := by omega
  have hl0 : (0 : ℝ) ≤ l := by exact_mod_cast (abs_nonneg _).trans hM
  rw [if_pos ⟨hM, hS⟩]
  have hcj := wD_conj za zb (ell := l) (mp := -(m1 + m2)) (m := -(-s1 + -s2)) (by rwa [abs_neg]) (by rwa [← neg_add, neg_neg])
  rw [ite_neg_one_zpow, neg_neg, neg_neg, show 2 * (-s1 + -s2) = -2 * (s1 + s2) by ring] at hcj
  rw [hcj]
  unfold mulCoef
  have c1 : threeJ l l1 l2 (-(s1 + s2)) s1 s2 = (-1 : ℝ) ^ (l1 + l2 + l) * threeJ l1 l2 l (-s1) (-s2) (-(-s1 + -s2)) := by
    rw [threeJ_cyclic, show -(-s1 + -s2) = - (-(s1 + s2)) by ring, threeJ_neg l1, ← mul_assoc]
    have : (-1 : ℝ) ^ (l1 + l2 + l) * (-1 : ℝ) ^ (l1 + l2 + l) = 1 := by
      rcases Int.even_or_odd (l1 + l2 + l) with h | h <;> rw [h.neg_one_zpow] <;> norm_num
    rw [this, one_mul]
  rw [c1, threeJ_cyclic l l1 l2 (-(m1 + m2))]
  have c2 : Real.sqrt ((2 * l + 1) / (4 * Real.pi)) * Real.sqrt (2 * l2 + 1) = Real.sqrt (2 * l + 1) * Real.sqrt ((2 * l2 + 1) / (4 * Real.pi)) := by
    rw [Real.sqrt_div (by linarith), Real.sqrt_div (by linarith)]
    ring
  have c3 : Real.sqrt (2 * l + 1) * Real.sqrt (2 * l + 1) = 2 * (l : ℝ) + 1 := Real.mul_self_sqrt (by linarith)
  have c4 : (-1 : ℂ) ^ (l1 + l2 + l + (s1 + s2) + (m1 + m2)) * (-1 : ℂ) ^ (l1 + l2 + l)
      = (-1 : ℂ) ^ (-(-s1 + -s2) + -(m1 + m2)) := by
    rw [← zpow_add₀ (by norm_num), show l1 + l2 + l + (s1 + s2) + (m1 + m2) + (l1 + l2 + l)
      = (-(-s1 + -s2) + -(m1 + m2)) + 2 * (l1 + l2 + l + m1 + m2) by ring, zpow_add₀ (by norm_num), zpow_mul]
    norm_num
  have c2' : ((Real.sqrt ((2 * l + 1) / (4 * Real.pi)) : ℝ) : ℂ) * ((Real.sqrt (2 * l2 + 1) : ℝ) : ℂ)
      = ((Real.sqrt (2 * l + 1) : ℝ) : ℂ) * ((Real.sqrt ((2 * l2 + 1) / (4 * Real.pi)) : ℝ) : ℂ) := by exact_mod_cast c2
  have c3' : ((Real.sqrt (2 * l + 1) : ℝ) : ℂ) * ((Real.sqrt (2 * l + 1) : ℝ) : ℂ) = 2 * (l : ℂ) + 1 := by exact_mod_cast c3
  rw [← c4, ← c3']
  push_cast
  linear_combination (-((-1 : ℂ) ^ (l1 + l2 + l + (s1 + s2) + (m1 + m2)) * ((-1 : ℂ) ^ (l1 + l2 + l)) * ((-1 : ℂ) ^ (s1 + s2))
    * ((Real.sqrt (2 * l + 1) : ℝ) : ℂ) * threeJ l1 l2 l (-s1) (-s2) (-(-s1 + -s2)) * threeJ l1 l2 l m1 m2 (-(m1 + m2))
    * ((Real.sqrt ((2 * l1 + 1) / (4 * Real.pi)) : ℝ) : ℂ) * wignerD za zb (2 * l) (2 * (m1 + m2)) (-2 * (s1 + s2)))) * c2'

/-! ## Accumulating loops -/

/-- `fg'` is `fg` with `F l m` added to mode `(l, m)`, for all modes up to `L`. -/
def Acc (L : ℤ) (fg fg' : List Slice) (F : ℤ → ℤ → Slice) : Prop :=
  fg'.length = fg.length ∧ ∀ l m, |m| ≤ l → l ≤ L → ∀ v, fg[mpos l m]? = some v → fg'[mpos l m]? = some fun x => v x + F l m x

theorem Acc.refl {L : ℤ} (fg : List Slice) : Acc L fg fg fun _ _ _ => 0 :=
  ⟨rfl, fun l m _ _ v h => by rw [h]; simp⟩

theorem Acc.trans {L : ℤ} {a b c : List Slice} {F G : ℤ → ℤ → Slice} (h : Acc L a b F) (h' : Acc L b c G) :
    Acc L a c fun l m x => F l m x + G l m x := by
  refine ⟨h'.1.trans h.1, fun l m hm hl v hv => ?_⟩
  rw [h'.2 l m hm hl _ (h.2 l m hm hl v hv)]
  simp only [add_assoc]

theorem Acc.congr {L : ℤ} {a b : List Slice} {F G : ℤ → ℤ → Slice} (h : Acc L a b F)
    (hFG : ∀ l m, |m| ≤ l → l ≤ L → ∀ x, F l m x = G l m x) : Acc L a b G := by
  refine ⟨h.1, fun l m hm hl v hv => ?_⟩
  rw [h.2 l m hm hl v hv]
  simp only [hFG l m hm hl]

/-- The outcome of a step of the product loops: success, adding `F`, with invariant `P`, or failure with an error
satisfying `E`. -/
def Step (L : ℤ) (n : ℕ) (P : W3Calc → W3Calc → Prop) (E : PyErr → Prop) (F : ℤ → ℤ → Slice) (st : MulState) (r : Py MulState) : Prop :=
  (∃ st', r = .ok st' ∧ P st'.sc st'.mc ∧ st'.fg.length = n ∧ Acc L st.fg st'.fg F) ∨ ∃ e, r = .error e ∧ E e

theorem Step.loop {L : ℤ} {n : ℕ} {P : W3Calc → W3Calc → Prop} {E : PyErr → Prop} {F : ℤ → ℤ → ℤ → Slice}
    {body : ℤ → MulState → Py MulState} {a b : ℤ} {st : MulState} (hP : P st.sc st.mc) (hn : st.fg.length = n)
    (h : ∀ x, a ≤ x → x < b → ∀ st : MulState, P st.sc st.mc → st.fg.length = n → Step L n P E (F x) st (body x st)) :
    Step L n P E (fun l m y => ∑ x ∈ Ico a b, F x l m y) st (forL (pyRange a b) st body) := by
  obtain hab | hab := le_or_gt b a
  · rw [pyRange_empty hab]
    left
    refine ⟨st, rfl, hP, hn, (Acc.refl _).congr fun l m _ _ x => ?_⟩
    rw [Ico_eq_empty (by omega), sum_empty]
  · obtain ⟨k, rfl⟩ : ∃ k : ℕ, b = a + k := ⟨(b - a).toNat, by omega⟩
    clear hab
    induction k with
    | zero =>
      rw [pyRange_empty (by simp)]
      left
      exact ⟨st, rfl, hP, hn, (Acc.refl _).congr fun l m _ _ x => by simp⟩
    | succ k ih =>
      have e : a + ((k + 1 : ℕ) : ℤ) = a + k + 1 := by push_cast; ring
      rw [e, pyRange_succ (by omega), forL_append]
      rcases ih (fun x hx hx' => h x hx (by omega)) with ⟨st', e', p', n', acc'⟩ | ⟨er, e', he⟩
      · rw [e']
        simp only [bind, Except.bind]
        rw [forL_cons]
        rcases h (a + k) (by omega) (by omega) st' p' n' with ⟨st'', e'', p'', n'', acc''⟩ | ⟨er, e'', he⟩
        · left
          refine ⟨st'', by rw [e'']; rfl, p'', n'', (acc'.trans acc'').congr fun l m _ _ x => ?_⟩
          rw [show Ico a (a + k + 1) = insert (a + (k : ℤ)) (Ico a (a + k)) by ext z; simp only [mem_insert, mem_Ico]; omega,
            sum_insert (by simp), add_comm]
        · right
          exact ⟨er, by rw [e'']; rfl, he⟩
      · right
        exact ⟨er, by rw [e']; rfl, he⟩

/-! ## The calculators inside the loops -/

/-- The array a caller sees after `calculate`. -/
theorem calculate_view {c : W3Calc} (hc : c.WF) {j2 j3 m2 m3 : ℤ} (hj : j2 + j3 < c.size) (hq : j2 + j3 ≤ 151) :
    (∃ f c', c.calculate j2 j3 m2 m3 = .ok (f, c') ∧ c'.WF ∧ c'.size = c.size ∧
      ∀ i : ℕ, (i : ℤ) < c.size → c'.view[i]? = some (threeJ i j2 j3 (-(m2 + m3)) m2 m3)) ∨
    (c.calculate j2 j3 m2 m3 = .error .zeroDivision ∧ ¬ (m2 = 0 ∧ m3 = 0) ∧ GrowingZero j2 j3 m2 m3) := by
  rcases C47_outcome hc hj (fun h2 h3 => W3Fits.of_le (m2 := m2) (m3 := m3) h2 h3 hq) with ⟨f0, c0, e0, _⟩ | h
  swap
  · exact .inr h
  rw [calculate_eq hc] at e0 ⊢
  have hl := List.length_replicate (n := c.size.toNat) (a := (0 : ℝ))
  rcases w3run_spec (j2 := j2) (j3 := j3) (m2 := m2) (m3 := m3) (n := c.size.toNat)
      (w := ⟨List.replicate c.size.toNat 0, List.replicate c.size.toNat 0, List.replicate c.size.toNat 0,
        List.replicate c.size.toNat 0⟩) (by have := hc.1; omega) hl hl hl (fun i hi => replicate_zero hi) hl
        (fun i hi => replicate_zero hi) (fun h2 h3 => W3Fits.of_le h2 h3 hq) with ⟨w, e, g1, g2, g3, h1, h2⟩ | ⟨e, hm, k, hk⟩
  · left
    refine ⟨w.f, { c with workspace := w.f ++ w.sf ++ w.F_minus ++ w.F_plus }, by rw [e]; rfl, ⟨hc.1, ?_⟩, rfl, fun i hi => ?_⟩
    · simp only [List.length_append, h1, g1, g2, g3]; omega
    · unfold W3Calc.view
      simp only
      rw [List.getElem?_take, if_pos (by omega), List.append_assoc, List.append_assoc, List.getElem?_append_left (by omega)]
      exact h2 i (by omega)
  · rw [e] at e0
    cases e0

/-- Both calculators are usable. -/
def CalcOK (N : ℤ) (sc mc : W3Calc) : Prop := (sc.WF ∧ sc.size = N) ∧ mc.WF ∧ mc.size = N

/-- The variable `w3j_s` (or `w3j_m`) holds the 3-j symbols for the given arguments. -/
def ViewOK (N : ℤ) (c : W3Calc) (j2 j3 m2 m3 : ℤ) : Prop :=
  ∀ i : ℕ, (i : ℤ) < N → c.view[i]? = some (threeJ i j2 j3 (-(m2 + m3)) m2 m3)

/-- The possible exception: a growing zero for the spins or for a pair of modes. -/
def MulErr (Lf Lg s1 s2 : ℤ) (e : PyErr) : Prop :=
  e = .zeroDivision ∧ ∃ l1 l2 m m' : ℤ, l1 ≤ Lf ∧ l2 ≤ Lg ∧ (m = s1 ∧ m' = s2 ∨ |m| ≤ l1 ∧ |m'| ≤ l2) ∧
    ¬ (m = 0 ∧ m' = 0) ∧ GrowingZero l1 l2 m m'

/-- The contribution of one pass through the innermost loop. -/
noncomputable def mulTerm (s1 s2 : ℤ) (cf cg : ℤ → ℤ → Slice) (l1 m1 l2 m2 l3 l m : ℤ) : Slice := fun x =>
  if l = l3 ∧ m = m1 + m2 then (mulCoef s1 s2 l1 m1 l2 m2 l3 : ℂ) * (cf l1 m1 x * cg l2 m2 x) else 0

theorem mulBody_step {L N s1 s2 l1 m1 l2 m2 l3 : ℤ} {n : ℕ} {E : PyErr → Prop} {cf cg : ℤ → ℤ → Slice} (hn : (n : ℤ) = (L + 1) ^ 2)
    {sum1 sum2 : Slice} (e1 : ∀ x, sum1 x = (Real.sqrt ((2 * l1 + 1) / (4 * Real.pi)) : ℂ) * cf l1 m1 x)
    (e2 : ∀ x, sum2 x = (Real.sqrt (2 * l2 + 1) : ℂ) * cg l2 m2 x) (hm : |m1 + m2| ≤ l3) (hN : l3 < N) (hL : l3 ≤ L) {st : MulState}
    (hP : CalcOK N st.sc st.mc ∧ ViewOK N st.sc l1 l2 s1 s2 ∧ ViewOK N st.mc l1 l2 m1 m2) (hfg : st.fg.length = n) :
    Step L n (fun sc mc => CalcOK N sc mc ∧ ViewOK N sc l1 l2 s1 s2 ∧ ViewOK N mc l1 l2 m1 m2) E
      (mulTerm s1 s2 cf cg l1 m1 l2 m2 l3) st (mulBody sum1 sum2 l1 l2 (s1 + s2) (m1 + m2) 0 l3 st) := by
  obtain ⟨hc, hs, hmv⟩ := hP
  have h0 : 0 ≤ l3 := (abs_nonneg _).trans hm
  have hlt := mpos_lt hm hL hn
  obtain ⟨v, hv⟩ : ∃ v, st.fg[mpos l3 (m1 + m2)]? = some v := ⟨_, List.getElem?_eq_getElem (by omega)⟩
  unfold mulBody
  simp only [bind, Except.bind]
  rw [rd_ok h0 (hs l3.toNat (by omega))]
  simp only
  rw [rd_ok h0 (hmv l3.toNat (by omega))]
  simp only
  rw [rd_mpos hm hv]
  simp only
  rw [wr_mpos hm _ (by omega), show ((l3.toNat : ℕ) : ℤ) = l3 by omega]
  simp only
  left
  refine ⟨_, rfl, ⟨hc, hs, hmv⟩, by simp [hfg], by simp, ?_⟩
  intro l m hml hl w hw
  simp only
  rw [List.getElem?_set]
  split
  · rename_i heq
    obtain ⟨rfl, rfl⟩ := mpos_inj hm hml heq
    rw [hv] at hw
    cases hw
    rw [if_pos (by omega)]
    congr 1
    funext x
    unfold mulTerm mulCoef
    rw [if_pos ⟨rfl, rfl⟩, e1, e2]
    push_cast
    ring
  · rename_i hne
    rw [hw]
    congr 1
    funext x
    unfold mulTerm
    rw [if_neg, add_zero]
    rintro ⟨rfl, rfl⟩
    exact hne rfl

theorem Step.weaken {L : ℤ} {n : ℕ} {P Q : W3Calc → W3Calc → Prop} {E : PyErr → Prop} {F : ℤ → ℤ → Slice} {st : MulState} {r : Py MulState}
    (h : Step L n P E F st r) (hPQ : ∀ a b, P a b → Q a b) : Step L n Q E F st r := by
  rcases h with ⟨st', a, b, c⟩ | h
  · exact .inl ⟨st', a, hPQ _ _ b, c⟩
  · exact .inr h

/-- The state changed only in the calculators. -/
theorem Step.of_fg_eq {L : ℤ} {n : ℕ} {P : W3Calc → W3Calc → Prop} {E : PyErr → Prop} {F : ℤ → ℤ → Slice} {st st' : MulState} {r : Py MulState}
    (h : Step L n P E F st r) (hfg : st.fg = st'.fg) : Step L n P E F st' r := by
  unfold Step at h ⊢
  rw [← hfg]; exact h

/-- All contributions. -/
noncomputable def mulSum (s1 s2 L ellmin_f ellmax_f ellmin_g ellmax_g : ℤ) (cf cg : ℤ → ℤ → Slice) (l m : ℤ) : Slice := fun x =>
  ∑ l1 ∈ Ico ellmin_f (ellmax_f + 1), ∑ m1 ∈ Ico (-l1) (l1 + 1), ∑ l2 ∈ Ico ellmin_g (ellmax_g + 1), ∑ m2 ∈ Ico (-l2) (l2 + 1),
    ∑ l3 ∈ Ico (max |m1 + m2| |l1 - l2|) (min (l1 + l2) L + 1), mulTerm s1 s2 cf cg l1 m1 l2 m2 l3 l m x

/-- The product loops add all contributions, or raise `ZeroDivisionError`. -/
theorem mulHelper_spec {junk junk' : ℕ → ℝ} {leadf leadg lead : List ℕ} {f g : List Slice → List Slice} {fg : List Slice} {ellmin_f ellmax_f s_f ellmin_g ellmax_g s_g L : ℤ}
    {cf cg : ℤ → ℤ → Slice} (hf0 : 0 ≤ ellmin_f) (hg0 : 0 ≤ ellmin_g) (hF : -1 ≤ ellmax_f) (hG : -1 ≤ ellmax_g) (hFG : -1 ≤ ellmax_f + ellmax_g)
    (hq : ellmax_f + ellmax_g ≤ 151)
    (hf : ∀ c, c.length = fg.length → ∀ l m, ellmin_f ≤ l → l ≤ ellmax_f → |m| ≤ l → ∃ v, rd (f c) (LM_index l m ellmin_f) = .ok v ∧ ∀ x, bcTo leadf lead v x = cf l m x)
    (hg : ∀ c, c.length = fg.length → ∀ l m, ellmin_g ≤ l → l ≤ ellmax_g → |m| ≤ l → ∃ v, rd (g c) (LM_index l m ellmin_g) = .ok v ∧ ∀ x, bcTo leadg lead v x = cg l m x)
    (hfg : (fg.length : ℤ) = (L + 1) ^ 2) :
    (∃ fg', mulHelper junk junk' leadf leadg lead f ellmin_f ellmax_f s_f g ellmin_g ellmax_g s_g fg 0 L (s_f + s_g) = .ok fg' ∧
      Acc L fg fg' (mulSum s_f s_g L ellmin_f ellmax_f ellmin_g ellmax_g cf cg)) ∨
    ∃ e, mulHelper junk junk' leadf leadg lead f ellmin_f ellmax_f s_f g ellmin_g ellmax_g s_g fg 0 L (s_f + s_g) = .error e ∧
      MulErr ellmax_f ellmax_g s_f s_g e := by
  obtain ⟨sc, es, hs1, hs2⟩ := C47_new (junk := junk) (j2_max := ellmax_f) (j3_max := ellmax_g) (by omega) (by omega)
  obtain ⟨mc, em, hm1, hm2⟩ := C47_new (junk := junk') (j2_max := ellmax_f) (j3_max := ellmax_g) (by omega) (by omega)
  unfold mulHelper
  rw [es]
  simp only [bind, Except.bind]
  rw [em]
  simp only
  set N := ellmax_f + ellmax_g + 1 with hN
  have main : Step L fg.length (CalcOK N) (MulErr ellmax_f ellmax_g s_f s_g) (mulSum s_f s_g L ellmin_f ellmax_f ellmin_g ellmax_g cf cg) ⟨sc, mc, fg⟩
      (forL (pyRange ellmin_f (ellmax_f + 1)) (⟨sc, mc, fg⟩ : MulState) fun ell1 st =>
        forL (pyRange (-ell1) (ell1 + 1)) st fun m1 st => do
          let v1 ← rd (f st.fg) (LM_index ell1 m1 ellmin_f)
          forL (pyRange ellmin_g (ellmax_g + 1)) st fun ell2 st => do
            let (_, sc) ← st.sc.calculate ell1 ell2 s_f s_g
            forL (pyRange (-ell2) (ell2 + 1)) { st with sc := sc } fun m2 st => do
              let (_, mc) ← st.mc.calculate ell1 ell2 m1 m2
              let v2 ← rd (g st.fg) (LM_index ell2 m2 ellmin_g)
              forL (pyRange (max |m1 + m2| |ell1 - ell2|) (min (ell1 + ell2) L + 1)) { st with mc := mc }
                (mulBody (fun x => (Real.sqrt ((2 * ell1 + 1) / (4 * Real.pi)) : ℂ) * bcTo leadf lead v1 x)
                  (fun x => (Real.sqrt (2 * ell2 + 1) : ℂ) * bcTo leadg lead v2 x) ell1 ell2 (s_f + s_g) (m1 + m2) 0)) := by
    refine Step.loop ⟨⟨hs1, hs2⟩, hm1, hm2⟩ rfl fun l1 a1 b1 st hP hn => ?_
    refine Step.loop hP hn fun m1 a2 b2 st hP hn => ?_
    obtain ⟨v1, r1, c1⟩ := hf st.fg hn l1 m1 a1 (by omega) (abs_le.2 ⟨by omega, by omega⟩)
    rw [r1]
    simp only [bind, Except.bind]
    refine Step.loop hP hn fun l2 a3 b3 st hP hn => ?_
    rcases calculate_view hP.1.1 (j2 := l1) (j3 := l2) (m2 := s_f) (m3 := s_g) (by have := hP.1.2; omega) (by omega) with
      ⟨_, sc', e, w1, w2, w3⟩ | ⟨e, hgz⟩
    swap
    · right
      exact ⟨.zeroDivision, by rw [e], rfl, l1, l2, s_f, s_g, by omega, by omega, .inl ⟨rfl, rfl⟩, hgz⟩
    rw [e]
    simp only
    refine Step.weaken (P := fun sc mc => CalcOK N sc mc ∧ ViewOK N sc l1 l2 s_f s_g) ?_ (fun _ _ h => h.1)
    refine Step.of_fg_eq (st := { st with sc := sc' }) ?_ rfl
    refine Step.loop ⟨⟨⟨w1, by rw [w2]; exact hP.1.2⟩, hP.2⟩, fun i hi => w3 i (by have := hP.1.2; omega)⟩ hn fun m2 a4 b4 st hP hn => ?_
    rcases calculate_view hP.1.2.1 (j2 := l1) (j3 := l2) (m2 := m1) (m3 := m2) (by have := hP.1.2.2; omega) (by omega) with
      ⟨_, mc', e, w1, w2, w3⟩ | ⟨e, hgz⟩
    swap
    · right
      exact ⟨.zeroDivision, by rw [e], rfl, l1, l2, m1, m2, by omega, by omega, .inr ⟨abs_le.2 ⟨by omega, by omega⟩, abs_le.2 ⟨by omega, by omega⟩⟩, hgz⟩
    rw [e]
    simp only
    obtain ⟨v2, r2, c2⟩ := hg st.fg hn l2 m2 a3 (by omega) (abs_le.2 ⟨by omega, by omega⟩)
    rw [r2]
    simp only
    refine Step.weaken (P := fun sc mc => CalcOK N sc mc ∧ ViewOK N sc l1 l2 s_f s_g ∧ ViewOK N mc l1 l2 m1 m2) ?_ (fun _ _ h => ⟨h.1, h.2.1⟩)
    refine Step.of_fg_eq (st := { st with mc := mc' }) ?_ rfl
    refine Step.loop ⟨⟨hP.1.1, w1, by rw [w2]; exact hP.1.2.2⟩, hP.2, fun i hi => w3 i (by have := hP.1.2.2; omega)⟩ hn fun l3 a5 b5 st hP hn => ?_
    exact mulBody_step hfg (fun x => by rw [c1]) (fun x => by rw [c2]) (by omega) (by omega) (by omega) hP hn
  simp only [bind, Except.bind] at main
  rcases main with ⟨st', e, _, _, acc⟩ | ⟨er, e, he⟩
  · left
    refine ⟨st'.fg, ?_, acc⟩
    rw [e]
    rfl
  · right
    refine ⟨er, ?_, he⟩
    rw [e]

/-! ## The sum of all contributions -/

theorem Icc_eq_Ico (a b : ℤ) : Icc a b = Ico a (b + 1) := by
  ext x; rw [mem_Icc, mem_Ico]; omega

theorem mulCoef_eq_zero {s1 s2 l1 m1 l2 m2 l : ℤ} (h : ¬ Admissible l l1 l2 (-(s1 + s2)) s1 s2 ∨ ¬ Admissible l l1 l2 (-(m1 + m2)) m1 m2) :
    mulCoef s1 s2 l1 m1 l2 m2 l = 0 := by
  unfold mulCoef
  rcases h with h | h
  · rw [threeJ_eq_zero h]; ring
  · rw [threeJ_eq_zero h]; ring

/-- The coefficient as in the specification. -/
theorem mulCoef_eq {s1 s2 l1 m1 l2 m2 l : ℤ} (h1 : 0 ≤ l1) (h2 : 0 ≤ l2) (h3 : 0 ≤ l) :
    mulCoef s1 s2 l1 m1 l2 m2 l = (-1 : ℝ) ^ (l1 + l2 + l + s1 + s2 + (m1 + m2))
      * Real.sqrt ((2 * l1 + 1) * (2 * l2 + 1) * (2 * l + 1) / (4 * Real.pi))
      * threeJ l1 l2 l s1 s2 (-s1 - s2) * threeJ l1 l2 l m1 m2 (-(m1 + m2)) := by
  have q1 : (0 : ℝ) ≤ l1 := by exact_mod_cast h1
  have q2 : (0 : ℝ) ≤ l2 := by exact_mod_cast h2
  have q3 : (0 : ℝ) ≤ l := by exact_mod_cast h3
  unfold mulCoef
  rw [threeJ_cyclic l, threeJ_cyclic l, show -s1 - s2 = -(s1 + s2) by ring,
    show (2 * (l1 : ℝ) + 1) * (2 * l2 + 1) * (2 * l + 1) / (4 * Real.pi) = (2 * l + 1) * ((2 * l1 + 1) / (4 * Real.pi)) * (2 * l2 + 1) by ring,
    Real.sqrt_mul (by positivity), Real.sqrt_mul (by positivity), ← add_assoc (l1 + l2 + l)]
  ring

/-- The contributions to one mode are those of the specification. -/
theorem mulSum_eq {s1 s2 L L1 L2 : ℤ} (cf cg : ℤ → ℤ → Slice) {l m : ℤ} (hl : l ≤ L) (hm : |m| ≤ l) (x : MIdx) :
    mulSum s1 s2 L 0 L1 0 L2 cf cg l m x = productMode s1 L1 (fun l m => cf l m x) s2 L2 (fun l m => cg l m x) l m := by
  have h0 : 0 ≤ l := (abs_nonneg _).trans hm
  unfold mulSum productMode
  simp only [Icc_eq_Ico]
  refine sum_congr rfl fun l1 h1 => sum_congr rfl fun m1 _ => sum_congr rfl fun l2 h2 => sum_congr rfl fun m2 _ => ?_
  rw [mem_Ico] at h1 h2
  unfold mulTerm
  by_cases hmm : m1 + m2 = m
  swap
  · rw [if_neg hmm]
    refine sum_eq_zero fun l3 _ => if_neg ?_
    rintro ⟨_, h⟩
    exact hmm h.symm
  rw [if_pos hmm]
  subst hmm
  by_cases hin : l ∈ Ico (max |m1 + m2| |l1 - l2|) (min (l1 + l2) L + 1)
  · rw [sum_eq_single l, if_pos ⟨rfl, rfl⟩, mulCoef_eq h1.1 h2.1 h0]
    · intro l3 _ hne
      exact if_neg fun h => hne h.1.symm
    · exact fun h => absurd hin h
  · rw [sum_eq_zero]
    · rw [threeJ_eq_zero (m1 := m1), mul_zero, Complex.ofReal_zero, zero_mul]
      rintro ⟨_, _, _, _, h, h'⟩
      rw [mem_Ico] at hin
      rw [abs_le] at h
      have : |l1 - l2| ≤ l := abs_le.2 ⟨by omega, by omega⟩
      omega
    · intro l3 h3
      refine if_neg ?_
      rintro ⟨rfl, _⟩
      exact hin h3

/-- Product of harmonics for all indices: also where a spin exceeds `ell` (both sides are then zero). -/
theorem sYlm_mul' {za zb : ℂ} (hu : IsUnit' za zb) {s1 s2 l1 m1 l2 m2 : ℤ} (hm1 : |m1| ≤ l1) (hm2 : |m2| ≤ l2) :
    sYlm za zb s1 l1 m1 * sYlm za zb s2 l2 m2 = ∑ l ∈ Icc (max |m1 + m2| |l1 - l2|) (l1 + l2),
      (mulCoef s1 s2 l1 m1 l2 m2 l : ℂ) * sYlm za zb (s1 + s2) l (m1 + m2) := by
  by_cases h1 : |s1| ≤ l1
  · by_cases h2 : |s2| ≤ l2
    · exact sYlm_mul hu h1 hm1 h2 hm2
    · rw [sYlm_low (ell := l2) (by omega), mul_zero, sum_eq_zero]
      intro l _
      rw [mulCoef_eq_zero, Complex.ofReal_zero, zero_mul]
      left; rintro ⟨_, _, _, h, _⟩; exact h2 h
  · rw [sYlm_low (ell := l1) (by omega), zero_mul, sum_eq_zero]
    intro l _
    rw [mulCoef_eq_zero, Complex.ofReal_zero, zero_mul]
    left; rintro ⟨_, _, h, _⟩; exact h1 h

/-- The function with the modes of the product is the product of the functions. -/
theorem mulSum_field {za zb : ℂ} (hu : IsUnit' za zb) {s1 s2 L a L1 b L2 : ℤ} (cf cg : ℤ → ℤ → Slice) (hL : L1 + L2 ≤ L)
    (x : MIdx) :
    ∑ l ∈ Icc 0 L, ∑ m ∈ Icc (-l) l, mulSum s1 s2 L a L1 b L2 cf cg l m x * sYlm za zb (s1 + s2) l m
      = (∑ l ∈ Icc a L1, ∑ m ∈ Icc (-l) l, cf l m x * sYlm za zb s1 l m) * ∑ l ∈ Icc b L2, ∑ m ∈ Icc (-l) l, cg l m x * sYlm za zb s2 l m := by
  have step : ∀ l1 m1 l2 m2, |m1| ≤ l1 → |m2| ≤ l2 → l1 ≤ L1 → l2 ≤ L2 →
      ∑ l ∈ Icc 0 L, ∑ m ∈ Icc (-l) l, (∑ l3 ∈ Ico (max |m1 + m2| |l1 - l2|) (min (l1 + l2) L + 1), mulTerm s1 s2 cf cg l1 m1 l2 m2 l3 l m x)
        * sYlm za zb (s1 + s2) l m = (cf l1 m1 x * sYlm za zb s1 l1 m1) * (cg l2 m2 x * sYlm za zb s2 l2 m2) := by
    intro l1 m1 l2 m2 h1 h2 h3 h4
    rw [show (cf l1 m1 x * sYlm za zb s1 l1 m1) * (cg l2 m2 x * sYlm za zb s2 l2 m2)
      = (cf l1 m1 x * cg l2 m2 x) * (sYlm za zb s1 l1 m1 * sYlm za zb s2 l2 m2) by ring, sYlm_mul' hu h1 h2, mul_sum]
    have e : ∀ l ∈ Icc 0 L, ∑ m ∈ Icc (-l) l, (∑ l3 ∈ Ico (max |m1 + m2| |l1 - l2|) (min (l1 + l2) L + 1), mulTerm s1 s2 cf cg l1 m1 l2 m2 l3 l m x)
        * sYlm za zb (s1 + s2) l m
        = ∑ l3 ∈ Icc (max |m1 + m2| |l1 - l2|) (l1 + l2), if l = l3 then cf l1 m1 x * cg l2 m2 x * ((mulCoef s1 s2 l1 m1 l2 m2 l3 : ℂ) * sYlm za zb (s1 + s2) l3 (m1 + m2)) else 0 := by
      intro l _
      rw [show min (l1 + l2) L = l1 + l2 by omega, ← Icc_eq_Ico]
      simp only [sum_mul]
      rw [sum_comm]
      refine sum_congr rfl fun l3 h3 => ?_
      rw [mem_Icc] at h3
      unfold mulTerm
      by_cases hl : l = l3
      · subst hl
        rw [if_pos rfl, sum_eq_single (m1 + m2)]
        · rw [if_pos ⟨rfl, rfl⟩]; ring
        · intro m _ hne
          rw [if_neg (fun h => hne h.2), zero_mul]
        · intro hn
          exact absurd (mem_Icc.2 (abs_le.1 (by omega))) hn
      · rw [if_neg hl, sum_eq_zero]
        intro m _
        rw [if_neg (fun h => hl h.1), zero_mul]
    rw [sum_congr rfl e, sum_comm]
    refine sum_congr rfl fun l3 h3 => ?_
    rw [mem_Icc] at h3
    have := abs_nonneg (m1 + m2)
    rw [sum_ite_eq', if_pos (mem_Icc.2 ⟨by omega, by omega⟩)]
  unfold mulSum
  simp only [← Icc_eq_Ico, sum_mul]
  -- bring the sums over (l, m) inside
  rw [sum_congr rfl fun l _ => sum_comm, sum_comm]
  refine sum_congr rfl fun l1 h1 => ?_
  rw [sum_congr rfl fun l _ => sum_comm, sum_comm]
  refine sum_congr rfl fun m1 hm1 => ?_
  rw [sum_congr rfl fun l _ => sum_comm, sum_comm, mul_sum]
  refine sum_congr rfl fun l2 h2 => ?_
  rw [sum_congr rfl fun l _ => sum_comm, sum_comm, mul_sum]
  refine sum_congr rfl fun m2 hm2 => ?_
  rw [mem_Icc] at h1 hm1 h2 hm2
  rw [← step l1 m1 l2 m2 (abs_le.2 hm1) (abs_le.2 hm2) h1.2 h2.2]
  simp only [← Icc_eq_Ico, sum_mul]

end SF
