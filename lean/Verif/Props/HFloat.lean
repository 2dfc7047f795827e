import Verif.Lemmas.HFloatSteps
import Verif.Lemmas.HFloatHist
import Verif.Props.WignerH
import Verif.Props.W3Float
import Verif.Props.TablesFloat

/-!
# C94: the H calculators in floating-point arithmetic

`HCalculator_callF F C x ws` and `HFull_callF F C x ws` are the calls of the two H calculators with the floating-point operations
`F`; `HCoef.makeF F junk n_max` are the coefficients that the constructor computes with them.  `IsH β n m' m h` (Spec/WignerH) says
that `h` is the value of `H^{m',m}_n` at the angle `β`.

The constant `Hbound n_max = (2^27 (n_max + 2)^2)^(3 n_max + 5)` depends on `n_max` only; it is far from sharp.
-/

set_option autoImplicit false

namespace SF

open Spec

/-- The error constant of C94. -/
noncomputable def Hbound (n_max : ℤ) : ℝ := (2 ^ 27 * ((n_max : ℝ) + 2) ^ 2) ^ (3 * n_max + 5).toNat

theorem Hbound_eq (N : ℕ) : Hbound (N : ℤ) = hBound N := by
  unfold Hbound hBound hCn hDn
  rw [show (3 * (N : ℤ) + 5).toNat = 3 * N + 5 by omega]
  congr 1
  push_cast
  ring

/-- The arguments that the code checks: a value at least, all in `[-1, 1]`, and `sinβ`, if given, of the same shape and with as many
values. -/
def GoodHArgs (x : HArgs) : Prop :=
  x.co ≠ [] ∧ (∀ c ∈ x.co, -1 ≤ c ∧ c ≤ 1) ∧
    match x.si with
    | none => True
    | some (sshape, s) => sshape = x.cshape ∧ s.length = x.co.length

/-- The given cosines and sines are those of the angles `β` up to errors `η`. -/
def NearAngles (x : HArgs) (β η : Fin x.co.length → ℝ) : Prop :=
  (∀ j, |x.co[j] - Real.cos (β j)| ≤ η j) ∧
    ∃ sshape s, x.si = some (sshape, s) ∧ ∀ j : Fin x.co.length, |s.getD j 0 - Real.sin (β j)| ≤ η j

theorem hArgsF_ok {F : W3Ops} {x : HArgs} (h : GoodHArgs x) :
    hArgsF F x = .ok (fun j => x.co[j], match x.si with
      | none => fun j => F.sqrt (F.add 1 (-F.mul x.co[j] x.co[j]))
      | some (_, s) => fun j => s.getD j 0) := by
  obtain ⟨h0, h1, h2⟩ := h
  unfold hArgsF
  rw [if_neg h0, if_neg (by
    rintro (⟨c, hc, h⟩ | ⟨c, hc, h⟩)
    · exact absurd (h1 c hc).2 (not_le.2 h)
    · exact absurd (h1 c hc).1 (not_le.2 h))]
  cases hs : x.si with
  | none => rfl
  | some p =>
    obtain ⟨sshape, s⟩ := p
    rw [hs] at h2
    simp only at h2
    simp only [h2.1, ne_eq, not_true_eq_false, if_false]

theorem callF_core {F : W3Ops} {u : ℝ} {N : ℕ} (hN : 1 ≤ N) {C : HCoef} {x : HArgs} {β η : Fin x.co.length → ℝ}
    {co' si' : HRow x.co.length} (R : HRows F u η co' si' (fun j => Real.cos (β j)) (fun j => Real.sin (β j))) (GC : GoodCoefF u C N)
    (hx : hArgsF F x = .ok (co', si'))
    (ws : Option (List (HRow x.co.length))) (hws : ∀ l, ws = some l → hRows N ≤ l.length) :
    ∃ ws' H, HCalculator_callF F C x ws = .ok (ws', H) ∧ (H.length : ℤ) = wedge_size N ∧ ws'.take H.length = H ∧
      (∀ l, ws = some l → ws'.length = l.length ∧ ws'.drop (hRows N).toNat = l.drop (hRows N).toNat) ∧
      KnF η wedge_index N β (fun _ _ _ => True) H := by
  unfold HCalculator_callF
  rw [hx, bind_ok]
  simp only [GC.n_max]
  set l : List (HRow x.co.length) := ws.getD (hWorkspace x.co.length N) with hl
  have h1 : hRows N ≤ l.length := by
    cases ws with
    | some l' => exact hws l' rfl
    | none =>
      simp only [hl, Option.getD_none, hWorkspace, List.length_replicate]
      have := wedge_size_nonneg (n := N) (by omega)
      unfold hRows
      have : (0 : ℤ) ≤ ((N : ℤ) + 1) ^ 2 := by positivity
      omega
  have hW := wedge_size_nonneg (n := N) (by omega)
  have e2 : (((N : ℤ) + 1) ^ 2).toNat = (N + 1) ^ 2 := by
    rw [show ((N : ℤ) + 1) ^ 2 = (((N + 1) ^ 2 : ℕ) : ℤ) by push_cast; ring]; exact Int.toNat_natCast _
  have e3 : ((N : ℤ) + 2).toNat = N + 2 := by omega
  rw [e2, e3]
  have e4 : hRows N = ((wedge_size N).toNat : ℤ) + (((N + 1) ^ 2 : ℕ) : ℤ) + N + 2 := by
    unfold hRows; push_cast; rw [Int.toNat_of_nonneg hW]
  have h1' : (wedge_size N).toNat + (N + 1) ^ 2 + (N + 2) ≤ l.length := by omega
  have e5 : (hRows N).toNat = (wedge_size N).toNat + (N + 1) ^ 2 + (N + 2) := by omega
  obtain ⟨A', e, lw, lv, lx, K⟩ := h_stepsF_ok R hN (goodIdx_wedge N) GC
    (A := { w := l.take (wedge_size N).toNat, v := (l.drop (wedge_size N).toNat).take ((N + 1) ^ 2),
            x := (l.drop ((wedge_size N).toNat + (N + 1) ^ 2)).take (N + 2) })
    (by simp only [List.length_take]; omega) (by simp only [List.length_take, List.length_drop]; omega)
    (by simp only [List.length_take, List.length_drop]; omega)
  rw [e, bind_ok]
  refine ⟨_, _, rfl, by rw [lw]; omega, ?_, ?_, K⟩
  · rw [List.append_assoc, List.append_assoc, List.take_left']; rfl
  · intro l' hl'
    have hll : l = l' := by rw [hl, hl']; rfl
    rw [← hll]
    refine ⟨?_, ?_⟩
    · simp only [List.length_append, lw, lv, lx, List.length_drop]; omega
    · rw [e5, List.drop_left']
      · simp only [List.length_append, lw, lv, lx]

theorem fullF_core {F : W3Ops} {u : ℝ} {N : ℕ} (hN : 1 ≤ N) {C : HCoef} {x : HArgs} {β η : Fin x.co.length → ℝ}
    {co' si' : HRow x.co.length} (R : HRows F u η co' si' (fun j => Real.cos (β j)) (fun j => Real.sin (β j))) (GC : GoodCoefF u C N)
    (hx : hArgsF F x = .ok (co', si'))
    (ws : Option (List (HRow x.co.length))) (hws : ∀ l, ws = some l → (l.length : ℤ) = LMpM_total_size 0 N) :
    ∃ H, HFull_callF F C x ws = .ok H ∧ (H.length : ℤ) = LMpM_total_size 0 N ∧ KfF η N β (fun _ _ _ => True) H := by
  have hpos : 0 ≤ LMpM_total_size 0 N := by
    have := nmpm_range (N := N) (n := 0) (mp := 0) (m := 0) (triple_iff.2 (by omega))
    omega
  unfold HFull_callF
  rw [hx, bind_ok]
  simp only [GC.n_max]
  set l : List (HRow x.co.length) := ws.getD (List.replicate (LMpM_total_size 0 N).toNat fun _ => 0) with hl
  have h1 : l.length = (LMpM_total_size 0 N).toNat := by
    cases ws with
    | some l' => have := hws l' rfl; simp only [hl, Option.getD_some]; omega
    | none => simp only [hl, Option.getD_none, List.length_replicate]
  have e2 : (((N : ℤ) + 1) ^ 2).toNat = (N + 1) ^ 2 := by
    rw [show ((N : ℤ) + 1) ^ 2 = (((N + 1) ^ 2 : ℕ) : ℤ) by push_cast; ring]; exact Int.toNat_natCast _
  obtain ⟨A', e, lw, -, -, K⟩ := h_stepsF_ok R hN (goodIdx_nmpm N) GC
    (A := { w := l, v := List.replicate (((N : ℤ) + 1) ^ 2).toNat (fun _ => 0), x := List.replicate ((N : ℤ) + 2).toNat (fun _ => 0) })
    h1 (by simp only [List.length_replicate]; exact e2) (by simp only [List.length_replicate]; omega)
  rw [e, bind_ok]
  obtain ⟨H, e', lH, K'⟩ := h_step_6F_ok lw (η := η) (β := β) (fun n mp m ht hs => by
    have ht' := triple_iff.1 ht
    exact (K n mp m (wedge_iff.2 (by omega)) trivial).mono R (hLv_le (by rw [abs_le]; omega)))
  rw [e', bind_ok]
  refine ⟨_, rfl, by rw [List.length_take, lH]; omega, ?_⟩
  rw [← lH, List.take_length]
  exact K'

/-- What C94 says about a call: both calculators return arrays of the right size, whatever the workspaces contain, and every entry
differs from the exact value at the angle `β j` by at most `err j`. -/
def HAccurate (F : W3Ops) (C : HCoef) (n_max : ℤ) (x : HArgs) (β err : Fin x.co.length → ℝ) : Prop :=
  (∀ ws : Option (List (HRow x.co.length)), (∀ l, ws = some l → hRows n_max ≤ l.length) →
    ∃ ws' H, HCalculator_callF F C x ws = .ok (ws', H) ∧ (H.length : ℤ) = wedge_size n_max ∧ ws'.take H.length = H ∧
      (∀ l, ws = some l → ws'.length = l.length ∧ ws'.drop (hRows n_max).toNat = l.drop (hRows n_max).toNat) ∧
      ∀ ell mp m, IsTriple 0 n_max (ell, mp, m) →
        ∃ row, H[(wedge_index (wedgeify_index ell mp m).1 (wedgeify_index ell mp m).2.1 (wedgeify_index ell mp m).2.2).toNat]? = some row ∧
          ∀ j, ∃ h, IsH (β j) ell mp m h ∧ |row j - h| ≤ err j) ∧
  (∀ ws : Option (List (HRow x.co.length)), (∀ l, ws = some l → (l.length : ℤ) = LMpM_total_size 0 n_max) →
    ∃ H, HFull_callF F C x ws = .ok H ∧ (H.length : ℤ) = LMpM_total_size 0 n_max ∧
      ∀ n mp m, IsTriple 0 n_max (n, mp, m) → ∃ row, H[(nmpm_index n mp m).toNat]? = some row ∧
        ∀ j, ∃ h, IsH (β j) n mp m h ∧ |row j - h| ≤ err j)

theorem accurate_core {F : W3Ops} {u : ℝ} {n_max : ℤ} (hN : 1 ≤ n_max) {junk : ℤ → ℝ} (E : HOk F u u) {x : HArgs}
    {β η : Fin x.co.length → ℝ} {co' si' : HRow x.co.length} (hx : hArgsF F x = .ok (co', si'))
    (hη : ∀ j, u ≤ η j ∧ η j ≤ 1) (hco : ∀ j, |co' j - Real.cos (β j)| ≤ η j) (hsi : ∀ j, |si' j - Real.sin (β j)| ≤ η j) :
    ∃ C, HCoef.makeF F junk n_max = .ok C ∧ HAccurate F C n_max x β (fun j => Hbound n_max * η j) := by
  obtain ⟨N, rfl⟩ : ∃ N : ℕ, n_max = N := ⟨n_max.toNat, by omega⟩
  have hC : ∃ C, HCoef.makeF F junk N = .ok C := by unfold HCoef.makeF; rw [if_neg (by omega)]; exact ⟨_, rfl⟩
  obtain ⟨C, hC⟩ := hC
  have GC := goodCoefF_make E hC
  have R : HRows F u η co' si' (fun j => Real.cos (β j)) (fun j => Real.sin (β j)) :=
    ⟨E, fun j => ⟨E.std, E.u16, (hη j).1, (hη j).2⟩, fun j => ⟨Real.abs_cos_le_one _, by rw [one_mul]; exact hco j⟩,
      fun j => ⟨Real.abs_sin_le_one _, by rw [one_mul]; exact hsi j⟩⟩
  refine ⟨C, hC, fun ws hws => ?_, fun ws hws => ?_⟩
  · obtain ⟨ws', H, e, l, t, r, K⟩ := callF_core (by omega) R GC hx ws hws
    refine ⟨ws', H, e, l, t, r, fun ell mp m ht => ?_⟩
    obtain ⟨mp', m', e', hw, hs⟩ := C52_wedgeify N ell mp m ht
    rw [e']
    have hb := wedge_iff.1 hw
    obtain ⟨-, -, h3, h4⟩ := ht
    obtain ⟨row, q1, q2⟩ := (K _ _ _ hw trivial).mono R (hLv_le (by rw [abs_le]; omega))
    refine ⟨row, q1.2, fun j => ⟨_, Hs_isH β ell mp m j, ?_⟩⟩
    rw [← Hs_same β h3 h4 hs, Hbound_eq]
    exact (q2 j).2
  · obtain ⟨H, e, l, K⟩ := fullF_core (by omega) R GC hx ws hws
    refine ⟨H, e, l, fun n mp m ht => ?_⟩
    obtain ⟨row, q1, q2⟩ := K _ _ _ ht trivial
    refine ⟨row, q1.2, fun j => ⟨_, Hs_isH β n mp m j, ?_⟩⟩
    rw [Hbound_eq]
    exact (q2 j).2

/-- **C94.** Rounding errors of the H calculators.  Let every floating-point operation have relative error at most `u ≤ 1/16`, and let
the given `cosβ`, `sinβ` be those of angles `β` with errors at most `η` (`u ≤ η ≤ 1`).  For every `n_max ≥ 1`, both calculators never
divide by zero and never leave their arrays, whatever the workspaces contain, and every returned value differs from
`H^{m',m}_ℓ(β)` by at most `Hbound n_max * η`. -/
theorem C94_H_accuracy {F : W3Ops} {u : ℝ} (hF : F.Std u) (hu : u ≤ 1 / 16) (junk : ℤ → ℝ) (n_max : ℤ) (hn : 1 ≤ n_max) (x : HArgs)
    (hx : GoodHArgs x) (β η : Fin x.co.length → ℝ) (hη : ∀ j, u ≤ η j ∧ η j ≤ 1) (hβ : NearAngles x β η) :
    ∃ C, HCoef.makeF F junk n_max = .ok C ∧ HAccurate F C n_max x β (fun j => Hbound n_max * η j) := by
  obtain ⟨hc, sshape, s, hs, hsi⟩ := hβ
  have e := hArgsF_ok (F := F) hx
  rw [hs] at e
  exact accurate_core hn ⟨hF, hu, le_rfl, by linarith⟩ e hη hc hsi

/-- The error of the sine that the code computes from the cosine, `sin β = s`. -/
noncomputable def sinErr (u s : ℝ) : ℝ := open Classical in if s ≤ 2 * Real.sqrt u then 2 * Real.sqrt u else 4 * u / s

theorem default_sin {F : W3Ops} {u : ℝ} (hF : F.Std u) (hu : u ≤ 1 / 16) (h1 : ∀ x, |x| ≤ 1 → F.mul x x ≤ 1) {c : ℝ} (hc1 : -1 ≤ c)
    (hc2 : c ≤ 1) :
    |F.sqrt (F.add 1 (-F.mul c c)) - Real.sqrt (1 - c ^ 2)| ≤ sinErr u (Real.sqrt (1 - c ^ 2)) ∧
      u ≤ sinErr u (Real.sqrt (1 - c ^ 2)) ∧ sinErr u (Real.sqrt (1 - c ^ 2)) ≤ 1 := by
  have hu0 := hF.u_nonneg
  have hc : c ^ 2 ≤ 1 := by nlinarith
  have hc0 : 0 ≤ c ^ 2 := sq_nonneg c
  set s := Real.sqrt (1 - c ^ 2) with hs
  have s0 : 0 ≤ s := Real.sqrt_nonneg _
  have ss : s ^ 2 = 1 - c ^ 2 := Real.sq_sqrt (by linarith)
  have s1 : s ≤ 1 := by nlinarith
  set r := Real.sqrt u with hr
  have r0 : 0 ≤ r := Real.sqrt_nonneg _
  have rr : r ^ 2 = u := Real.sq_sqrt hu0
  have hr' : r = Real.sqrt u := hr
  have r4 : r ≤ 1 / 4 := by nlinarith
  have p := hF.mul c c
  have pm := h1 c (abs_le.2 ⟨hc1, hc2⟩)
  set P := F.mul c c with hP
  have q := hF.add 1 (-P)
  set Q := F.add 1 (-P) with hQ
  unfold RelErr at p q
  rw [abs_of_nonneg (by nlinarith : 0 ≤ c * c)] at p
  rw [abs_of_nonneg (by linarith : 0 ≤ 1 + -P)] at q
  rw [abs_le] at p q
  have Q0 : 0 ≤ Q := by nlinarith
  have d : |Q - s ^ 2| ≤ 2 * u := by
    rw [ss, abs_le]
    constructor <;> nlinarith
  set t := Real.sqrt Q with ht
  have t0 : 0 ≤ t := Real.sqrt_nonneg _
  have tt : t ^ 2 = Q := Real.sq_sqrt Q0
  have t2 : t ≤ 17 / 16 := by
    rw [abs_le] at d
    nlinarith
  have z := hF.sqrt Q Q0
  unfold RelErr at z
  rw [← ht, abs_of_nonneg t0] at z
  have tri : |F.sqrt Q - s| ≤ u * t + |t - s| := by
    calc |F.sqrt Q - s| = |(F.sqrt Q - t) + (t - s)| := by ring_nf
      _ ≤ |F.sqrt Q - t| + |t - s| := abs_add_le _ _
      _ ≤ u * t + |t - s| := by linarith
  have f : |t - s| * (t + s) ≤ 2 * u := by
    have e : |(t - s) * (t + s)| = |t - s| * (t + s) := by rw [abs_mul, abs_of_nonneg (by linarith : 0 ≤ t + s)]
    rw [← e, show (t - s) * (t + s) = Q - s ^ 2 by rw [← tt]; ring]; exact d
  have ts : |t - s| ≤ t + s := by rw [abs_le]; constructor <;> linarith
  have f2 : |t - s| ^ 2 ≤ 2 * u := by
    have := mul_le_mul_of_nonneg_left ts (abs_nonneg (t - s))
    rw [sq]; linarith
  have f3 : |t - s| ≤ 3 / 2 * r := by
    refine (abs_le_of_sq_le_sq' ?_ (by positivity)).2
    rw [mul_pow, rr]; linarith
  have ut : u * t ≤ 17 / 16 * u := by
    have := mul_le_mul_of_nonneg_left t2 hu0
    linarith
  have ur : u ≤ r / 4 := by
    have := mul_le_mul_of_nonneg_left r4 r0
    rw [← rr, sq]; linarith
  have fs : |t - s| * s ≤ 2 * u := by
    have := mul_nonneg (abs_nonneg (t - s)) t0
    rw [mul_add] at f; linarith
  have us : u * s ≤ u := by
    have := mul_le_mul_of_nonneg_left s1 hu0
    linarith
  have uts : u * t * s ≤ 17 / 16 * u := by
    have := mul_le_mul_of_nonneg_right ut s0
    linarith
  clear_value r s t Q P
  clear f f2 d tt ts p q pm hP hQ ht hs hr
  unfold sinErr
  rw [← hr']
  split
  · refine ⟨?_, ?_, ?_⟩
    · linarith
    · linarith
    · linarith
  · next h =>
    push Not at h
    have sp : 0 < s := by linarith
    refine ⟨?_, ?_, ?_⟩
    · rw [le_div_iff₀ sp]
      have := mul_le_mul_of_nonneg_right tri s0
      rw [add_mul] at this
      linarith
    · rw [le_div_iff₀ sp]; linarith
    · rw [div_le_one sp]; linarith

/-- **C94**, without `sinβ`: the angles are the `arccos` of the given values, and the error of the computed sine is at most `2 √u`, and
at most `4 u / sin β` away from the poles.  (The extra hypothesis: the computed square of a number in `[-1, 1]` is at most 1.) -/
theorem C94_H_accuracy_default {F : W3Ops} {u : ℝ} (hF : F.Std u) (hu : u ≤ 1 / 16) (h1 : ∀ x, |x| ≤ 1 → F.mul x x ≤ 1)
    (junk : ℤ → ℝ) (n_max : ℤ) (hn : 1 ≤ n_max) (shape : List ℕ) (co : List ℝ) (h0 : co ≠ []) (hco : ∀ c ∈ co, -1 ≤ c ∧ c ≤ 1) :
    ∃ C, HCoef.makeF F junk n_max = .ok C ∧
      HAccurate F C n_max ⟨shape, co, none⟩ (fun j => Real.arccos co[j]) (fun j => Hbound n_max * sinErr u (Real.sqrt (1 - co[j] ^ 2))) := by
  have e := hArgsF_ok (F := F) (x := ⟨shape, co, none⟩) ⟨h0, hco, trivial⟩
  have key : ∀ j : Fin co.length, _ := fun j => default_sin hF hu h1 (hco _ (List.getElem_mem j.2)).1 (hco _ (List.getElem_mem j.2)).2
  refine accurate_core hn ⟨hF, hu, le_rfl, by linarith⟩ e (fun j => (key j).2) (fun j => ?_) (fun j => ?_)
  · show |co[(j : ℕ)] - Real.cos (Real.arccos co[(j : ℕ)])| ≤ _
    rw [Real.cos_arccos (hco _ (List.getElem_mem j.2)).1 (hco _ (List.getElem_mem j.2)).2, sub_self, abs_zero]
    exact hF.u_nonneg.trans (key j).2.1
  · simp only
    rw [Real.sin_arccos]
    exact (key j).1

theorem HAccurate.mono {F : W3Ops} {C : HCoef} {n_max : ℤ} {x : HArgs} {β err err' : Fin x.co.length → ℝ}
    (h : HAccurate F C n_max x β err) (he : ∀ j, err j ≤ err' j) : HAccurate F C n_max x β err' := by
  refine ⟨fun ws hws => ?_, fun ws hws => ?_⟩
  · obtain ⟨ws', H, e, l, t, r, K⟩ := h.1 ws hws
    refine ⟨ws', H, e, l, t, r, fun ell mp m ht => ?_⟩
    obtain ⟨row, q1, q2⟩ := K ell mp m ht
    refine ⟨row, q1, fun j => ?_⟩
    obtain ⟨v, v1, v2⟩ := q2 j
    exact ⟨v, v1, v2.trans (he j)⟩
  · obtain ⟨H, e, l, K⟩ := h.2 ws hws
    refine ⟨H, e, l, fun n mp m ht => ?_⟩
    obtain ⟨row, q1, q2⟩ := K n mp m ht
    refine ⟨row, q1, fun j => ?_⟩
    obtain ⟨v, v1, v2⟩ := q2 j
    exact ⟨v, v1, v2.trans (he j)⟩

/-- **C94.** Any accuracy can be reached: for every `n_max` and `ε > 0` there is a precision such that all calls, for all angles, with
arithmetic and arguments of at least this precision return values within `ε`. -/
theorem C94_H_converges (n_max : ℤ) (hn : 1 ≤ n_max) (ε : ℝ) (hε : 0 < ε) :
    ∃ η₀ : ℝ, 0 < η₀ ∧ ∀ (F : W3Ops) (u : ℝ), F.Std u → u ≤ η₀ → ∀ (junk : ℤ → ℝ) (x : HArgs), GoodHArgs x →
      ∀ β : Fin x.co.length → ℝ, NearAngles x β (fun _ => η₀) →
        ∃ C, HCoef.makeF F junk n_max = .ok C ∧ HAccurate F C n_max x β (fun _ => ε) := by
  have h : 0 ≤ Hbound n_max := by unfold Hbound; positivity
  refine ⟨min (1 / 16) (ε / (Hbound n_max + 1)), by positivity, fun F u hF hu junk x hx β hβ => ?_⟩
  obtain ⟨C, hC, hA⟩ := C94_H_accuracy hF (hu.trans (min_le_left _ _)) junk n_max hn x hx β _
    (fun j => ⟨hu, (min_le_left _ _).trans (by norm_num)⟩) hβ
  refine ⟨C, hC, hA.mono fun j => ?_⟩
  calc Hbound n_max * min (1 / 16) (ε / (Hbound n_max + 1)) ≤ Hbound n_max * (ε / (Hbound n_max + 1)) :=
        mul_le_mul_of_nonneg_left (min_le_right _ _) h
    _ ≤ ε := by
      rw [← mul_div_assoc, div_le_iff₀ (by positivity)]
      nlinarith

theorem PyRel.eq {α : Type} {p q : Py α} (h : PyRel (fun a b => a = b) p q) : p = q := by
  cases p <;> cases q
  · exact congrArg _ h
  · exact h.elim
  · exact h.elim
  · exact congrArg _ h

/-- **C94.** Whatever the floating-point operations are, the results depend only on `n_max`, `cosβ` and `sinβ`, bit for bit: not on the
contents of the workspace, nor on the non-finite coefficients; the same exceptions are raised. -/
theorem C94_H_history (F : W3Ops) (junk junk' : ℤ → ℝ) (n_max : ℤ) (hn : 1 ≤ n_max) (C C' : HCoef)
    (hC : HCoef.makeF F junk n_max = .ok C) (hC' : HCoef.makeF F junk' n_max = .ok C') (x : HArgs) :
    (∀ ws ws' : Option (List (HRow x.co.length)), (∀ l, ws = some l → hRows n_max ≤ l.length) →
      (∀ l, ws' = some l → hRows n_max ≤ l.length) →
      (HCalculator_callF F C x ws).map Prod.snd = (HCalculator_callF F C' x ws').map Prod.snd) ∧
    (∀ ws ws' : Option (List (HRow x.co.length)), (∀ l, ws = some l → (l.length : ℤ) = LMpM_total_size 0 n_max) →
      (∀ l, ws' = some l → (l.length : ℤ) = LMpM_total_size 0 n_max) → HFull_callF F C x ws = HFull_callF F C' x ws') := by
  have E := coefEq_make (by omega) hC hC'
  have hW := wedge_size_nonneg (n := n_max) (by omega)
  have hsq : (0 : ℤ) ≤ (n_max + 1) ^ 2 := by positivity
  constructor
  · intro ws ws' hws hws'
    have hl : ∀ ws : Option (List (HRow x.co.length)), (∀ l, ws = some l → hRows n_max ≤ l.length) →
        (wedge_size n_max).toNat + ((n_max + 1) ^ 2).toNat + (n_max + 2).toNat ≤ (ws.getD (hWorkspace x.co.length n_max)).length := by
      intro ws hws
      have : hRows n_max ≤ (ws.getD (hWorkspace x.co.length n_max)).length := by
        cases ws with
        | some l' => exact hws l' rfl
        | none =>
          simp only [Option.getD_none, hWorkspace, List.length_replicate]
          unfold hRows
          omega
      unfold hRows at this
      omega
    have h1 := hl ws hws
    have h2 := hl ws' hws'
    refine PyRel.eq ?_
    have key : PyRel (fun a b : List (HRow x.co.length) × List (HRow x.co.length) => a.2 = b.2)
        (HCalculator_callF F C x ws) (HCalculator_callF F C' x ws') := by
      unfold HCalculator_callF
      rw [E.n, E.n']
      refine PyRel.eqBind rfl fun cs => ?_
      refine PyRel.bind (h_stepsF_rel (l := (wedge_size n_max).toNat) (lv := ((n_max + 1) ^ 2).toNat) (lx := (n_max + 2).toNat)
        (goodIdx_wedge n_max.toNat).lin (goodIdx_wedge n_max.toNat).zero hn E ?_ ?_ ?_) fun B B' hB => ?_
      · simp only [List.length_take]; omega
      · simp only [List.length_take, List.length_drop]; omega
      · simp only [List.length_take, List.length_drop]; omega
      · show B.w = B'.w
        refine agree_all hB fun k hk1 hk2 => ?_
        obtain ⟨⟨n, mp, m⟩, hp, hidx⟩ := (C52_wedge_index_bijOn n_max (by omega)).1.surjOn
          (show k ∈ Set.Ico 0 (wedge_size n_max) by simp only [Set.mem_Ico]; omega)
        simp only at hidx
        refine ⟨n, mp, m, ?_, hidx.symm⟩
        obtain ⟨N, rfl⟩ : ∃ N : ℕ, n_max = N := ⟨n_max.toNat, by omega⟩
        have := wedge_iff.1 hp
        rw [abs_le]; omega
    revert key
    cases HCalculator_callF F C x ws <;> cases HCalculator_callF F C' x ws' <;> exact id
  · intro ws ws' hws hws'
    have hpos : 0 ≤ LMpM_total_size 0 n_max := by
      obtain ⟨N, rfl⟩ : ∃ N : ℕ, n_max = N := ⟨n_max.toNat, by omega⟩
      have := nmpm_range (N := N) (n := 0) (mp := 0) (m := 0) (triple_iff.2 (by omega))
      omega
    have hl : ∀ ws : Option (List (HRow x.co.length)), (∀ l, ws = some l → (l.length : ℤ) = LMpM_total_size 0 n_max) →
        (ws.getD (List.replicate (LMpM_total_size 0 n_max).toNat (fun _ => 0))).length = (LMpM_total_size 0 n_max).toNat := by
      intro ws hws
      cases ws with
      | some l' => have := hws l' rfl; simp only [Option.getD_some]; omega
      | none => simp only [Option.getD_none, List.length_replicate]
    refine PyRel.eq ?_
    unfold HFull_callF
    rw [E.n, E.n']
    refine PyRel.eqBind rfl fun cs => ?_
    refine PyRel.bind (h_stepsF_rel (l := (LMpM_total_size 0 n_max).toNat) (lv := ((n_max + 1) ^ 2).toNat) (lx := (n_max + 2).toNat)
      (goodIdx_nmpm n_max.toNat).lin (goodIdx_nmpm n_max.toNat).zero hn E ⟨hl ws hws, hl ws' hws'⟩ ?_ ?_) fun B B' hB => ?_
    · simp only [List.length_replicate, and_self]
    · simp only [List.length_replicate, and_self]
    refine PyRel.bind (h_step_6_rel hn hB) fun H H' hH => ?_
    have : H = H' := by
      refine agree_all hH fun k hk1 hk2 => ?_
      obtain ⟨⟨n, mp, m⟩, hp, hidx⟩ := (C53_nm_nmpm_index n_max (by omega)).2.1.surjOn
        (show k ∈ Set.Ico 0 (LMpM_total_size 0 n_max) by simp only [Set.mem_Ico]; omega)
      simp only at hidx
      obtain ⟨-, h1, h2, h3⟩ := hp
      exact ⟨n, mp, m, ⟨h2, h3, h1⟩, hidx.symm⟩
    rw [this]
    rfl

/-- **C94.** The documented errors do not depend on the arithmetic. -/
theorem C94_H_errors (F : W3Ops) (junk : ℤ → ℝ) (C : HCoef) (x : HArgs) (ws : Option (List (HRow x.co.length))) :
    (∀ n_max, n_max < 0 → HCoef.makeF F junk n_max = .error .valueError) ∧
    ((x.co = [] ∨ (∃ c ∈ x.co, c < -1 ∨ 1 < c) ∨ ∃ sshape s, x.si = some (sshape, s) ∧ sshape ≠ x.cshape) →
      HCalculator_callF F C x ws = .error .valueError ∧ HFull_callF F C x ws = .error .valueError) := by
  refine ⟨fun n h => by unfold HCoef.makeF; rw [if_pos h], fun h => ?_⟩
  have : hArgsF F x = .error .valueError := by
    unfold hArgsF
    by_cases h0 : x.co = []
    · rw [if_pos h0]
    · rw [if_neg h0]
      by_cases h1 : (∃ c ∈ x.co, c > 1) ∨ (∃ c ∈ x.co, c < -1)
      · rw [if_pos h1]
      · rw [if_neg h1]
        rcases h with h | ⟨c, hc, h⟩ | ⟨sshape, s, hs, hne⟩
        · exact absurd h h0
        · exact absurd (h.elim (fun h => .inr ⟨c, hc, h⟩) (fun h => .inl ⟨c, hc, h⟩)) h1
        · rw [hs]; simp only; rw [if_pos hne]
  unfold HCalculator_callF HFull_callF
  rw [this]
  exact ⟨rfl, rfl⟩

/-! ## The hypotheses are met -/

theorem fl53_le_one {x : ℝ} (h : x ≤ 1) : fl53 x ≤ 1 := by
  have h1 := (fl53_nearest x).2 1 ⟨1, 0, by norm_num, by norm_num⟩
  rw [abs_of_nonneg (by linarith : 0 ≤ 1 - x)] at h1
  have := (abs_le.1 h1).2
  linarith

theorem W3Ops53_sq (x : ℝ) (h : |x| ≤ 1) : W3Ops53.mul x x ≤ 1 :=
  fl53_le_one (by rw [abs_le] at h; nlinarith)

/-- Double precision, `n_max = 2`, three values of `cosβ`. -/
example (junk : ℤ → ℝ) : ∃ C, HCoef.makeF W3Ops53 junk 2 = .ok C ∧
    HAccurate W3Ops53 C 2 ⟨[3], [1, 0, -1], none⟩ (fun j => Real.arccos ([1, 0, -1] : List ℝ)[j])
      (fun j => Hbound 2 * sinErr (2 ^ (-53 : ℤ)) (Real.sqrt (1 - ([1, 0, -1] : List ℝ)[j] ^ 2))) :=
  C94_H_accuracy_default W3Ops53_std (by norm_num) W3Ops53_sq junk 2 (by norm_num) _ _ (by simp) (by simp)

/-- With `sinβ`: the angle `π/2`, with an error `2^(-53)` in the cosine. -/
example (junk : ℤ → ℝ) : ∃ C, HCoef.makeF W3Ops53 junk 2 = .ok C ∧
    HAccurate W3Ops53 C 2 ⟨[1], [2 ^ (-53 : ℤ)], some ([1], [1])⟩ (fun _ => Real.pi / 2) (fun _ => Hbound 2 * 2 ^ (-53 : ℤ)) := by
  refine C94_H_accuracy W3Ops53_std (by norm_num) junk 2 (by norm_num) ⟨[1], [2 ^ (-53 : ℤ)], some ([1], [1])⟩
    ⟨by simp, by norm_num, rfl, rfl⟩ _ _
    (fun j => ⟨le_rfl, by norm_num⟩) ⟨fun j => ?_, [1], [1], rfl, fun j => ?_⟩
  · obtain ⟨j, hj⟩ := j
    have : j = 0 := by simpa using hj
    subst this
    simp
  · obtain ⟨j, hj⟩ := j
    have : j = 0 := by simpa using hj
    subst this
    simp

/-- A fresh calculator and one that was used before give the same rows. -/
example (C : HCoef) (hC : HCoef.makeF W3Ops53 (fun _ => 0) 2 = .ok C) (r : HRow 3) :
    (HCalculator_callF W3Ops53 C ⟨[3], [1, 0, -1], none⟩ none).map Prod.snd =
      (HCalculator_callF W3Ops53 C ⟨[3], [1, 0, -1], none⟩ (some (List.replicate 27 r))).map Prod.snd :=
  (C94_H_history W3Ops53 _ _ 2 (by norm_num) C C hC hC _).1 _ _ (fun _ h => by cases h) (fun l h => by cases h; simp [hRows, wedge_size])

end SF
