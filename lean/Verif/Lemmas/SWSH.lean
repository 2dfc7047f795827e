import Verif.Lemmas.DMatrices
import Verif.Model.SWSH

set_option autoImplicit false

namespace SF

open Finset ComplexConjugate

theorem neg_one_zpow_iff (s : ℤ) : ((-1 : ℂ) ^ s) = if s % 2 = 0 then 1 else -1 := by
  split_ifs with h
  · exact Even.neg_one_zpow (Int.even_iff.mpr h)
  · exact Odd.neg_one_zpow (Int.odd_iff.mpr (by omega))

theorem swshConst_eq (ell : ℤ) : swshConst ell = Real.sqrt ((2 * (ell : ℝ) + 1) / (4 * Real.pi)) := by
  unfold swshConst; push_cast; rfl

/-- What every code path returns for one harmonic, for an arbitrary unit rotor. -/
noncomputable def Yret (Ra Rb : ℂ) (s ell m : ℤ) : ℂ :=
  if |m| ≤ ell ∧ |s| ≤ ell then
    (-1) ^ s * (Real.sqrt ((2 * ell + 1) / (4 * Real.pi)) : ℝ) * Dret Ra Rb ell m (-s)
  else 0

theorem Yret_generic {Ra Rb : ℂ} (hg : Generic Ra Rb) (s ell m : ℤ) :
    Yret Ra Rb s ell m = Spec.sYlm Ra Rb s ell m := by
  unfold Yret Spec.sYlm
  split_ifs with h
  · rw [Dret_generic hg h.1 (by rw [abs_neg]; exact h.2), show 2 * -s = -2 * s by ring]
  · rfl

theorem Yret_gen {Ra Rb : ℂ} (h1 : ¬ ‖Ra‖ ≤ epsilon) (h2 : ¬ ‖Rb‖ ≤ epsilon) (s ell m : ℤ) :
    Yret Ra Rb s ell m = Spec.sYlm Ra Rb s ell m := by
  unfold Yret Spec.sYlm
  rw [Dret_gen h1 h2, show 2 * -s = -2 * s by ring]

theorem swsh_ra_small_any {Ra Rb : ℂ} (hu : Spec.IsUnit' Ra Rb) (h1 : ‖Ra‖ ≤ epsilon) (s ell m : ℤ) :
    swsh_ra_small Rb s ell m = .ok (Yret Ra Rb s ell m) := by
  unfold swsh_ra_small Yret
  rw [cpowInt_ok (unit_ra_small hu h1), ← swshConst_eq]
  by_cases hr : |m| ≤ ell ∧ |s| ≤ ell
  · rw [if_pos hr]
    have hw := Dret_ra (Rb := Rb) h1 ell m (-s)
    rw [neg_neg] at hw
    rw [hw]
    by_cases hms : m = s
    · rw [if_pos hms]
      subst hms
      rw [if_neg (by rintro (h | h | h) <;> omega), neg_one_zpow_iff]
      have key : ∀ (x y z : ℂ), x * swshConst ell * (y * z) = (x * y) * (swshConst ell * z) := by intros; ring
      rw [key]
      by_cases he : ell % 2 = 0
      · rw [if_pos he]
        by_cases hs : m % 2 = 0
        · rw [if_pos hs, if_pos (by omega)]; norm_num
        · rw [if_neg hs, if_neg (by omega)]; norm_num
      · rw [if_neg he]
        by_cases hs : m % 2 = 0
        · rw [if_pos hs, if_neg (by omega)]; norm_num
        · rw [if_neg hs, if_pos (by omega)]; norm_num
    · rw [if_pos (Or.inl hms), if_neg hms, mul_zero]
  · rw [if_neg hr, if_pos]
    by_contra hc
    rw [not_or, not_or, not_lt, not_lt] at hc
    exact hr hc.2

theorem swsh_rb_small_any {Ra Rb : ℂ} (hu : Spec.IsUnit' Ra Rb) (h1 : ¬ ‖Ra‖ ≤ epsilon) (h2 : ‖Rb‖ ≤ epsilon)
    (s ell m : ℤ) :
    swsh_rb_small Ra s ell m = .ok (Yret Ra Rb s ell m) := by
  unfold swsh_rb_small Yret
  rw [cpowInt_ok (unit_rb_small hu h2), ← swshConst_eq]
  by_cases hr : |m| ≤ ell ∧ |s| ≤ ell
  · rw [if_pos hr]
    have hw := Dret_rb h1 h2 ell m (-s)
    have e2 : 2 * -s = -2 * s := by ring
    rw [hw]
    by_cases hms : m = -s
    · subst hms
      rw [if_neg (by rintro (h | h | h) <;> omega), if_pos rfl, neg_one_zpow_iff, e2]
      by_cases hs : s % 2 = 0
      · rw [if_pos hs, if_pos hs, one_mul]; rfl
      · rw [if_neg hs, if_neg hs, neg_one_mul]; rfl
    · rw [if_pos (Or.inl hms), if_neg hms, mul_zero]
  · rw [if_neg hr, if_pos]
    by_contra hc
    rw [not_or, not_or, not_lt, not_lt] at hc
    exact hr hc.2

theorem swsh_lt_eq {L : ℤ} {table : List ℝ} (ht : IsWignerTable L table) {Ra Rb : ℂ} (hb : Rb ≠ 0) {s ell m : ℤ}
    (hle : |m| ≤ ell → |s| ≤ ell → ell ≤ L) :
    swsh_ra_lt_rb table ‖Ra‖ (Complex.arg Ra) ‖Rb‖ (Complex.arg Rb) s ell m = .ok (Spec.sYlm Ra Rb s ell m) := by
  unfold swsh_ra_lt_rb Spec.sYlm
  simp only
  by_cases hr : |m| ≤ ell ∧ |s| ≤ ell
  · rw [if_pos hr, if_neg (by rintro (h | h) <;> omega)]
    obtain ⟨c, S, e1, e2, e3⟩ := intB ht (Ra := Ra) hb (ell := ell) (mp := m) (m := -s) hr.1 (by rw [abs_neg]; exact hr.2)
      (hle hr.1 hr.2)
    have a1 : ell - -s + 1 = ell + s + 1 := by ring
    have a2 : ell - -s = ell + s := by ring
    have a3 : -m - -s = -m + s := by ring
    have a4 : 2 * ell - -s - m = 2 * ell + s - m := by ring
    have a5 : 2 * -s = -2 * s := by ring
    rw [a2, a3] at e2
    simp only [a3, a4, a5] at e3
    push_cast at e1
    rw [e1, bind_ok, e2]
    obtain ⟨v, -⟩ := e3 _ rfl
    rw [← v, ← swshConst_eq]
    generalize max 0 (-m + s) = rM at *
    by_cases hP : rect (c * ‖Rb‖ ^ (2 * ell + s - m - 2 * rM) * ‖Ra‖ ^ (-s + m + 2 * rM))
      (Complex.arg Rb * ((-s - m : ℤ) : ℝ) + Complex.arg Ra * ((-s + m : ℤ) : ℝ)) = 0
    · rw [if_pos hP]
      rw [rect_eq_zero] at hP
      rw [hP, mul_zero, rect_eq_zero.mpr rfl]
      simp
    · rw [if_neg hP, neg_one_zpow_iff]
      simp only [bind_ok]
      simp only [rect_def]
      generalize Complex.exp (_ * Complex.I) = E
      by_cases h1 : (ell + rM) % 2 ≠ 0
      · by_cases h2 : s % 2 = 0
        · rw [if_pos h1, if_pos h2, if_pos (by omega)]
          show Except.ok _ = Except.ok _
          congr 1; push_cast; ring
        · rw [if_pos h1, if_neg h2, if_neg (by omega)]
          show Except.ok _ = Except.ok _
          congr 1; push_cast; ring
      · by_cases h2 : s % 2 = 0
        · rw [if_neg h1, if_pos h2, if_neg (by omega)]
          show Except.ok _ = Except.ok _
          congr 1; push_cast; ring
        · rw [if_neg h1, if_neg h2, if_pos (by omega)]
          show Except.ok _ = Except.ok _
          congr 1; push_cast; ring
  · rw [if_neg hr, if_pos]
    by_contra hc
    rw [not_or, not_lt, not_lt] at hc
    exact hr hc

theorem swsh_ge_eq {L : ℤ} {table : List ℝ} (ht : IsWignerTable L table) {Ra Rb : ℂ} (hb : Ra ≠ 0) {s ell m : ℤ}
    (hle : |m| ≤ ell → |s| ≤ ell → ell ≤ L) :
    swsh_ra_ge_rb table ‖Ra‖ (Complex.arg Ra) ‖Rb‖ (Complex.arg Rb) s ell m = .ok (Spec.sYlm Ra Rb s ell m) := by
  unfold swsh_ra_ge_rb Spec.sYlm
  simp only
  by_cases hr : |m| ≤ ell ∧ |s| ≤ ell
  · rw [if_pos hr, if_neg (by rintro (h | h) <;> omega)]
    obtain ⟨c, S, e1, e2, e3⟩ := intA ht (Rb := Rb) hb (ell := ell) (mp := m) (m := -s) hr.1 (by rw [abs_neg]; exact hr.2)
      (hle hr.1 hr.2)
    have a2 : ell - -s = ell + s := by ring
    have a3 : m - -s = m + s := by ring
    have a4 : 2 * ell - -s + m = 2 * ell + s + m := by ring
    have a5 : 2 * -s = -2 * s := by ring
    rw [a2, a3] at e2
    simp only [a3, a4, a5] at e3
    push_cast at e1
    rw [e1, bind_ok, e2]
    obtain ⟨v, -⟩ := e3 _ rfl
    rw [← v, ← swshConst_eq]
    generalize max 0 (m + s) = rM at *
    by_cases hP : rect (c * ‖Ra‖ ^ (2 * ell + s + m - 2 * rM) * ‖Rb‖ ^ (-s - m + 2 * rM))
      (Complex.arg Ra * ((-s + m : ℤ) : ℝ) + Complex.arg Rb * ((-s - m : ℤ) : ℝ)) = 0
    · rw [if_pos hP]
      rw [rect_eq_zero] at hP
      rw [hP, mul_zero, rect_eq_zero.mpr rfl]
      simp
    · rw [if_neg hP, neg_one_zpow_iff]
      simp only [bind_ok]
      simp only [rect_def]
      generalize Complex.exp (_ * Complex.I) = E
      by_cases h1 : (rM + s) % 2 ≠ 0
      · by_cases h2 : s % 2 = 0
        · rw [if_pos h1, if_pos h2, if_pos (by omega)]
          show Except.ok _ = Except.ok _
          congr 1; push_cast; ring
        · rw [if_pos h1, if_neg h2, if_neg (by omega)]
          show Except.ok _ = Except.ok _
          congr 1; push_cast; ring
      · by_cases h2 : s % 2 = 0
        · rw [if_neg h1, if_pos h2, if_neg (by omega)]
          show Except.ok _ = Except.ok _
          congr 1; push_cast; ring
        · rw [if_neg h1, if_neg h2, if_pos (by omega)]
          show Except.ok _ = Except.ok _
          congr 1; push_cast; ring
  · rw [if_neg hr, if_pos]
    by_contra hc
    rw [not_or, not_lt, not_lt] at hc
    exact hr hc

theorem SWSH_kernel_any {L : ℤ} {table : List ℝ} (ht : IsWignerTable L table) {Ra Rb : ℂ} (hg : Spec.IsUnit' Ra Rb)
    (s : ℤ) (indices : List (ℤ × ℤ)) (hi : ∀ t ∈ indices, |t.2| ≤ t.1 → |s| ≤ t.1 → t.1 ≤ L) (values : List ℂ)
    (hlen : values.length = indices.length) :
    SWSH_kernel table Ra Rb s indices values = .ok (indices.map fun t => Yret Ra Rb s t.1 t.2) := by
  unfold SWSH_kernel
  simp only
  split_ifs with h1 h2 h3
  · exact forL_map_wr indices values hlen (fun t => swsh_ra_small Rb s t.1 t.2) _
      (fun t _ => swsh_ra_small_any hg h1 s t.1 t.2)
  · exact forL_map_wr indices values hlen (fun t => swsh_rb_small Ra s t.1 t.2) _
      (fun t _ => swsh_rb_small_any hg h1 h2 s t.1 t.2)
  · exact forL_map_wr indices values hlen
      (fun t => swsh_ra_lt_rb table ‖Ra‖ (Complex.arg Ra) ‖Rb‖ (Complex.arg Rb) s t.1 t.2) _
      (fun t htm => by rw [Yret_gen h1 h2]; exact swsh_lt_eq ht (pos_of_eps h2) (hi t htm))
  · exact forL_map_wr indices values hlen
      (fun t => swsh_ra_ge_rb table ‖Ra‖ (Complex.arg Ra) ‖Rb‖ (Complex.arg Rb) s t.1 t.2) _
      (fun t htm => by rw [Yret_gen h1 h2]; exact swsh_ge_eq ht (pos_of_eps h1) (hi t htm))

theorem SWSH_kernel_eq {L : ℤ} {table : List ℝ} (ht : IsWignerTable L table) {Ra Rb : ℂ} (hg : Generic Ra Rb)
    (s : ℤ) (indices : List (ℤ × ℤ)) (hi : ∀ t ∈ indices, |t.2| ≤ t.1 → |s| ≤ t.1 → t.1 ≤ L) (values : List ℂ)
    (hlen : values.length = indices.length) :
    SWSH_kernel table Ra Rb s indices values = .ok (indices.map fun t => Spec.sYlm Ra Rb s t.1 t.2) := by
  rw [SWSH_kernel_any ht hg.1 s indices hi values hlen]
  congr 1
  exact List.map_congr_left fun t _ => Yret_generic hg s t.1 t.2

theorem SWSHs_kernel_zero (table : List ℝ) (Rs : List (ℝ × ℝ × ℝ × ℝ)) {s ell m : ℤ}
    (h : ¬ (|m| ≤ ell ∧ |s| ≤ ell)) (values : List ℂ) (hlen : values.length = Rs.length) :
    SWSHs_kernel table Rs s ell m values = .ok (Rs.map fun _ => 0) := by
  have hcond : (|m| > ell ∨ |s| > ell) := by
    by_contra hc
    rw [not_or, not_lt, not_lt] at hc
    exact h hc
  unfold SWSHs_kernel
  simp only [hcond, if_true]
  have := forL_map_wr Rs values hlen (fun _ => .ok (0 : ℂ)) (fun _ => 0) (fun _ _ => rfl)
  rw [← this]
  apply forL_congr
  intro i hi st
  rw [mem_pyRange] at hi
  have : Rs[i.toNat]? = some Rs[i.toNat] := List.getElem?_eq_getElem (by omega)
  rw [rd_ok hi.1 this]
  rfl

theorem SWSHs_kernel_any {L : ℤ} {table : List ℝ} (ht : IsWignerTable L table)
    (Rs : List (ℝ × ℝ × ℝ × ℝ)) (hR : ∀ R ∈ Rs, Spec.IsUnit' (qa R) (qb R)) {s ell m : ℤ}
    (h1 : |m| ≤ ell) (h2 : |s| ≤ ell) (hle : ell ≤ L) (values : List ℂ) (hlen : values.length = Rs.length) :
    SWSHs_kernel table Rs s ell m values = .ok (Rs.map fun R => Yret (qa R) (qb R) s ell m) := by
  have h2' : |(-s)| ≤ ell := by rw [abs_neg]; exact h2
  obtain ⟨p', q', p, q, hsum, g1, g2, g3, g4⟩ := int_pq h1 h2'
  have hca := coeff_int ht g1 g2 g3 g4 hle
  have hcb := coeff_int ht (p' := q') (q' := p') (ell := ell) (mp := -m) (m := -s) (by omega) (by omega)
    g3 g4 hle
  push_cast at hca hcb
  unfold SWSHs_kernel
  simp only
  rw [if_neg (by rintro (h | h) <;> omega), hca, bind_ok, hcb, bind_ok]
  apply forL_map_wr Rs values hlen
  intro R hRm
  have hg := hR R hRm
  unfold SWSHs_value
  simp only
  change (if ‖qa R‖ ≤ epsilon then _ else if ‖qb R‖ ≤ epsilon then _ else if ‖qa R‖ < ‖qb R‖ then _ else _) = _
  have hx : ∀ P : Prop, (P ∨ |m| > ell ∨ |s| > ell) ↔ P := by
    intro P
    constructor
    · rintro (h | h | h)
      · exact h
      · omega
      · omega
    · exact Or.inl
  by_cases c1 : ‖qa R‖ ≤ epsilon
  · rw [if_pos c1]
    have h := swsh_ra_small_any hg c1 s ell m
    unfold swsh_ra_small at h
    simp only [hx] at h
    exact h
  rw [if_neg c1]
  by_cases c2 : ‖qb R‖ ≤ epsilon
  · rw [if_pos c2]
    have h := swsh_rb_small_any hg c1 c2 s ell m
    unfold swsh_rb_small at h
    simp only [hx] at h
    exact h
  rw [if_neg c2, Yret_gen c1 c2]
  have pa : ‖qa R‖ ≠ 0 := norm_ne_zero_iff.mpr (pos_of_eps c1)
  have pb : ‖qb R‖ ≠ 0 := norm_ne_zero_iff.mpr (pos_of_eps c2)
  by_cases c3 : ‖qa R‖ < ‖qb R‖
  · rw [if_pos c3]
    have h := swsh_lt_eq ht (Ra := qa R) (pos_of_eps c2) (s := s) (ell := ell) (m := m) (fun _ _ => hle)
    unfold swsh_ra_lt_rb at h
    simp only at h
    rw [if_neg (by rintro (h | h) <;> omega), hcb, bind_ok] at h
    rw [← h]
    change (if _ then _ else (hornerLoop (-‖qa R‖ * ‖qa R‖ / (‖qb R‖ * ‖qb R‖)) _ _ _ _ _ >>= _)) = _
    generalize hornerLoop _ _ _ _ _ _ = H
    by_cases hc : Wcoef q' p' p q = 0
    · rw [hc]
      rw [if_pos (by split_ifs <;> simp), if_pos (by rw [rect_eq_zero]; simp)]
    · have hr : ∀ k l : ℤ, ∀ t : ℝ, ¬ rect (Wcoef q' p' p q * ‖qb R‖ ^ k * ‖qa R‖ ^ l) t = 0 := by
        intro k l t
        rw [rect_eq_zero]
        exact mul_ne_zero (mul_ne_zero hc (zpow_ne_zero _ pb)) (zpow_ne_zero _ pa)
      have hc' : ¬ Wcoef q' p' p q * (-1) = 0 := by simpa using hc
      rw [if_neg (hr _ _ _)]
      by_cases hp : (ell + max 0 (-m + s)) % 2 ≠ 0
      · simp only [if_pos hp, if_neg hc']
        cases H with
        | error e => rfl
        | ok S =>
          simp only [bind_ok]
          show Except.ok _ = Except.ok _
          congr 2
          simp only [rect_def]
          push_cast; simp only [qa, qb]; ring
      · simp only [if_neg hp, if_neg hc]
        rfl
  · rw [if_neg c3]
    have h := swsh_ge_eq ht (Rb := qb R) (pos_of_eps c1) (s := s) (ell := ell) (m := m) (fun _ _ => hle)
    unfold swsh_ra_ge_rb at h
    simp only at h
    rw [if_neg (by rintro (h | h) <;> omega), hca, bind_ok] at h
    rw [← h]
    change (if _ then _ else (hornerLoop (-‖qb R‖ * ‖qb R‖ / (‖qa R‖ * ‖qa R‖)) _ _ _ _ _ >>= _)) = _
    generalize hornerLoop _ _ _ _ _ _ = H
    by_cases hc : Wcoef p' q' p q = 0
    · rw [hc]
      rw [if_pos (by split_ifs <;> simp), if_pos (by rw [rect_eq_zero]; simp)]
    · have hr : ∀ k l : ℤ, ∀ t : ℝ, ¬ rect (Wcoef p' q' p q * ‖qa R‖ ^ k * ‖qb R‖ ^ l) t = 0 := by
        intro k l t
        rw [rect_eq_zero]
        exact mul_ne_zero (mul_ne_zero hc (zpow_ne_zero _ pa)) (zpow_ne_zero _ pb)
      have hc' : ¬ Wcoef p' q' p q * (-1) = 0 := by simpa using hc
      rw [if_neg (hr _ _ _)]
      by_cases hp : (max 0 (m + s) + s) % 2 ≠ 0
      · simp only [if_pos hp, if_neg hc']
        cases H with
        | error e => rfl
        | ok S =>
          simp only [bind_ok]
          show Except.ok _ = Except.ok _
          congr 2
          simp only [rect_def]
          push_cast; simp only [qa, qb]; ring
      · simp only [if_neg hp, if_neg hc]
        rfl

theorem SWSHs_kernel_eq {L : ℤ} {table : List ℝ} (ht : IsWignerTable L table)
    (Rs : List (ℝ × ℝ × ℝ × ℝ)) (hR : ∀ R ∈ Rs, Generic (qa R) (qb R)) {s ell m : ℤ}
    (h1 : |m| ≤ ell) (h2 : |s| ≤ ell) (hle : ell ≤ L) (values : List ℂ) (hlen : values.length = Rs.length) :
    SWSHs_kernel table Rs s ell m values = .ok (Rs.map fun R => Spec.sYlm (qa R) (qb R) s ell m) := by
  rw [SWSHs_kernel_any ht Rs (fun R h => (hR R h).1) h1 h2 hle values hlen]
  congr 1
  exact List.map_congr_left fun R h => Yret_generic (hR R h) s ell m

end SF
