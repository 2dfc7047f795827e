import Verif.Lemmas.WignerHIdx
import Verif.Spec.WignerH
import Mathlib.Analysis.SpecialFunctions.Trigonometric.Inverse

/-!
# C54, C59, C60: the H calculators

`IsH β n m' m x` (Spec/WignerH) says that `x` is the value of `H^{m',m}_n` at the angle `β`, that is
`d^n_{m',m}(β) = eps(m') eps(-m) x` for the Wigner d function given by its defining series.
-/

set_option autoImplicit false

namespace SF

open Spec

/-- `cosβ` and `sinβ` are the cosines and sines of the angles `β`; if `sinβ` is not given, the sines are not negative. -/
def AreAngles (x : HArgs) (β : Fin x.co.length → ℝ) : Prop :=
  x.co ≠ [] ∧ (∀ j, x.co[j] = Real.cos (β j)) ∧
    match x.si with
    | none => ∀ j, 0 ≤ Real.sin (β j)
    | some (sshape, s) => sshape = x.cshape ∧ ∀ j : Fin x.co.length, s[(j : ℕ)]? = some (Real.sin (β j))

theorem hArgs_angles {x : HArgs} {β : Fin x.co.length → ℝ} (h : AreAngles x β) :
    hArgs x = .ok (fun j => Real.cos (β j), fun j => Real.sin (β j)) := by
  obtain ⟨h0, h1, h2⟩ := h
  unfold hArgs
  have hmem : ∀ c ∈ x.co, -1 ≤ c ∧ c ≤ 1 := fun c hc => by
    obtain ⟨j, hj, rfl⟩ := List.getElem_of_mem hc
    have := h1 ⟨j, hj⟩
    simp only [Fin.getElem_fin] at this
    rw [this]
    exact ⟨Real.neg_one_le_cos _, Real.cos_le_one _⟩
  rw [if_neg h0, if_neg (by
    rintro (⟨c, hc, h⟩ | ⟨c, hc, h⟩)
    · exact absurd (hmem c hc).2 (not_le.2 h)
    · exact absurd (hmem c hc).1 (not_le.2 h))]
  cases hs : x.si with
  | none =>
    rw [hs] at h2
    simp only at h2
    simp only [h1]
    congr 2
    funext j
    rw [← Real.sin_sq, Real.sqrt_sq (h2 j)]
  | some p =>
    obtain ⟨sshape, s⟩ := p
    rw [hs] at h2
    simp only at h2
    simp only [h2.1, ne_eq, not_true_eq_false, if_false, h1]
    congr 2
    funext j
    rw [List.getD_eq_getElem?_getD, h2.2 j]; rfl

/-- Any values in `[-1,1]`, without sines, are the cosines of angles. -/
theorem areAngles_arccos (shape : List ℕ) (co : List ℝ) (h0 : co ≠ []) (h : ∀ c ∈ co, -1 ≤ c ∧ c ≤ 1) :
    AreAngles ⟨shape, co, none⟩ (fun j => Real.arccos co[j]) :=
  ⟨h0, fun j => (Real.cos_arccos (h _ (List.getElem_mem _)).1 (h _ (List.getElem_mem _)).2).symm, fun j =>
    Real.sin_nonneg_of_nonneg_of_le_pi (Real.arccos_nonneg _) (Real.arccos_le_pi _)⟩

/-- Number of rows of a workspace. -/
def hRows (n_max : ℤ) : ℤ := wedge_size n_max + (n_max + 1) ^ 2 + n_max + 2

theorem wedge_size_nonneg {n : ℤ} (h : 0 ≤ n) : 0 ≤ wedge_size n := by unfold wedge_size; positivity

theorem call_core {junk : ℤ → ℝ} {N : ℕ} (hN : 1 ≤ N) {C : HCoef} (hC : HCoef.make junk N = .ok C) {x : HArgs}
    {β : Fin x.co.length → ℝ} (hβ : AreAngles x β) (ws : Option (List (HRow x.co.length)))
    (hws : ∀ l, ws = some l → hRows N ≤ l.length) :
    ∃ ws' H, HCalculator_call C x ws = .ok (ws', H) ∧ (H.length : ℤ) = wedge_size N ∧ ws'.take H.length = H ∧
      (∀ l, ws = some l → ws'.length = l.length ∧ ws'.drop (hRows N).toNat = l.drop (hRows N).toNat) ∧
      Kn wedge_index N β (fun _ _ _ => True) H := by
  have GC := goodCoef_make hC
  unfold HCalculator_call
  rw [hArgs_angles hβ, bind_ok]
  simp only [GC.n_max]
  set l : List (HRow x.co.length) := ws.getD (hWorkspace x.co.length N) with hl
  have h1 : hRows N ≤ l.length := by
    cases ws with
    | some l' => exact hws l' rfl
    | none =>
      simp only [hl, Option.getD_none, hWorkspace, List.length_replicate]
      have := wedge_size_nonneg (n := N) (by omega)
      unfold hRows
      have : (0 : ℤ) ≤ ((N : ℤ) + 1) ^ 2 := by positivity
      omega
  have hW := wedge_size_nonneg (n := N) (by omega)
  have e2 : (((N : ℤ) + 1) ^ 2).toNat = (N + 1) ^ 2 := by
    rw [show ((N : ℤ) + 1) ^ 2 = (((N + 1) ^ 2 : ℕ) : ℤ) by push_cast; ring]; exact Int.toNat_natCast _
  have e3 : ((N : ℤ) + 2).toNat = N + 2 := by omega
  rw [e2, e3]
  have h1' : (wedge_size N).toNat + (N + 1) ^ 2 + (N + 2) ≤ l.length := by
    have e4 : hRows N = ((wedge_size N).toNat : ℤ) + (((N + 1) ^ 2 : ℕ) : ℤ) + N + 2 := by
      unfold hRows; push_cast; rw [Int.toNat_of_nonneg hW]
    omega
  have e5 : (hRows N).toNat = (wedge_size N).toNat + (N + 1) ^ 2 + (N + 2) := by
    have e4 : hRows N = ((wedge_size N).toNat : ℤ) + (((N + 1) ^ 2 : ℕ) : ℤ) + N + 2 := by
      unfold hRows; push_cast; rw [Int.toNat_of_nonneg hW]
    omega
  obtain ⟨A', e, lw, lv, lx, K⟩ := h_steps_ok hN (goodIdx_wedge N) GC β
    (A := { w := l.take (wedge_size N).toNat, v := (l.drop (wedge_size N).toNat).take ((N + 1) ^ 2),
            x := (l.drop ((wedge_size N).toNat + (N + 1) ^ 2)).take (N + 2) })
    (by simp only [List.length_take]; omega) (by simp only [List.length_take, List.length_drop]; omega)
    (by simp only [List.length_take, List.length_drop]; omega)
  rw [e, bind_ok]
  refine ⟨_, _, rfl, by rw [lw]; omega, ?_, ?_, K⟩
  · rw [List.append_assoc, List.append_assoc, List.take_left']; rfl
  · intro l' hl'
    have hll : l = l' := by rw [hl, hl']; rfl
    rw [← hll]
    refine ⟨?_, ?_⟩
    · simp only [List.length_append, lw, lv, lx, List.length_drop]; omega
    · rw [e5, List.drop_left']
      · simp only [List.length_append, lw, lv, lx]

/-- **C54.** For `n_max ≥ 1` a call never reads or writes outside its arrays, whatever the workspace contains; it returns
`wedge_size(n_max)` rows, which are the first rows of the workspace (the result is a view, so that a later call with the same
workspace overwrites it), and leaves any further rows of the workspace alone. -/
theorem C54_safe (junk : ℤ → ℝ) (n_max : ℤ) (h : 1 ≤ n_max) (x : HArgs) (β : Fin x.co.length → ℝ) (hβ : AreAngles x β)
    (ws : Option (List (HRow x.co.length))) (hws : ∀ l, ws = some l → hRows n_max ≤ l.length) :
    ∃ C ws' H, HCoef.make junk n_max = .ok C ∧ HCalculator_call C x ws = .ok (ws', H) ∧ (H.length : ℤ) = wedge_size n_max ∧
      ws'.take H.length = H ∧
      ∀ l, ws = some l → ws'.length = l.length ∧ ws'.drop (hRows n_max).toNat = l.drop (hRows n_max).toNat := by
  obtain ⟨N, rfl⟩ : ∃ N : ℕ, n_max = N := ⟨n_max.toNat, by omega⟩
  have hC : ∃ C, HCoef.make junk N = .ok C := by unfold HCoef.make; rw [if_neg (by omega)]; exact ⟨_, rfl⟩
  obtain ⟨C, hC⟩ := hC
  obtain ⟨ws', H, e, l, t, r, -⟩ := call_core (by omega) hC hβ ws hws
  exact ⟨C, ws', H, hC, e, l, t, r⟩

theorem call_values {junk : ℤ → ℝ} {n_max : ℤ} (h : 1 ≤ n_max) {C : HCoef} (hC : HCoef.make junk n_max = .ok C)
    {x : HArgs} {β : Fin x.co.length → ℝ} (hβ : AreAngles x β) {ws : Option (List (HRow x.co.length))}
    (hws : ∀ l, ws = some l → hRows n_max ≤ l.length) {ws' H : List (HRow x.co.length)}
    (hcall : HCalculator_call C x ws = .ok (ws', H)) {n mp m : ℤ} (hw : IsWedge n_max (n, mp, m)) :
    H[(wedge_index n mp m).toNat]? = some (Hs β n mp m) := by
  obtain ⟨N, rfl⟩ : ∃ N : ℕ, n_max = N := ⟨n_max.toNat, by omega⟩
  obtain ⟨ws'', H', e, -, -, -, K⟩ := call_core (by omega) hC hβ ws hws
  rw [hcall] at e
  cases e
  exact (K n mp m hw trivial).2

/-- **C54.** The result does not depend on the earlier contents of the workspace, nor on the uninitialised (non-finite)
coefficients `g`, `h` at `m = n`: all calls with the same `cosβ`, `sinβ` return the same rows. -/
theorem C54_history_independent (junk junk' : ℤ → ℝ) (n_max : ℤ) (h : 1 ≤ n_max) (x : HArgs) (β : Fin x.co.length → ℝ)
    (hβ : AreAngles x β) (ws₁ ws₂ : Option (List (HRow x.co.length))) (hws₁ : ∀ l, ws₁ = some l → hRows n_max ≤ l.length)
    (hws₂ : ∀ l, ws₂ = some l → hRows n_max ≤ l.length) (C C' : HCoef) (hC : HCoef.make junk n_max = .ok C)
    (hC' : HCoef.make junk' n_max = .ok C') :
    ∃ w₁ w₂ H, HCalculator_call C x ws₁ = .ok (w₁, H) ∧ HCalculator_call C' x ws₂ = .ok (w₂, H) := by
  obtain ⟨C1, w₁, H₁, k1, e1, l1, -⟩ := C54_safe junk n_max h x β hβ ws₁ hws₁
  obtain ⟨C2, w₂, H₂, k2, e2, l2, -⟩ := C54_safe junk' n_max h x β hβ ws₂ hws₂
  rw [hC] at k1; cases k1
  rw [hC'] at k2; cases k2
  refine ⟨w₁, w₂, H₁, e1, ?_⟩
  rw [e2]
  congr 2
  apply List.ext_getElem?
  intro i
  by_cases hi : i < H₁.length
  · obtain ⟨⟨n, mp, m⟩, hp, hidx⟩ := (C52_wedge_index_bijOn n_max (by omega)).1.surjOn
      (show (i : ℤ) ∈ Set.Ico 0 (wedge_size n_max) by simp only [Set.mem_Ico]; omega)
    simp only at hidx
    have v1 := call_values h hC hβ hws₁ e1 hp
    have v2 := call_values h hC' hβ hws₂ e2 hp
    rw [hidx, Int.toNat_natCast] at v1 v2
    rw [v1, v2]
  · rw [List.getElem?_eq_none (by omega), List.getElem?_eq_none (by omega)]

/-- **C54.** `n_max = 0` is accepted by the constructor, but every call writes outside the array of the wedge. -/
theorem C54_n_max_zero (junk : ℤ → ℝ) (x : HArgs) (β : Fin x.co.length → ℝ) (hβ : AreAngles x β)
    (ws : Option (List (HRow x.co.length))) (hws : ∀ l, ws = some l → hRows 0 ≤ l.length) :
    ∃ C, HCoef.make junk 0 = .ok C ∧ HCalculator_call C x ws = .error .outOfBounds := by
  refine ⟨_, rfl, ?_⟩
  unfold HCalculator_call
  rw [hArgs_angles hβ, bind_ok]
  simp only
  set l : List (HRow x.co.length) := ws.getD (hWorkspace x.co.length 0) with hl
  have h1 : 4 ≤ l.length := by
    cases ws with
    | some l' => have := hws l' rfl; simpa [hl, hRows, wedge_size] using this
    | none => simp [hl, hWorkspace, wedge_size]
  rw [show (wedge_size 0).toNat = 1 by decide]
  unfold h_steps h_step_1
  simp only
  obtain ⟨w1, e1, l1, -⟩ := wr_at (L := l.take 1) (i := 0) (fun _ : Fin x.co.length => (1 : ℝ)) le_rfl
    (by rw [List.length_take]; omega)
  rw [e1, bind_ok]
  unfold h_step_2
  have l1' : w1.length = 1 := by rw [l1, List.length_take]; omega
  have : wr w1 (wedge_index 1 0 1) (fun _ => Real.sqrt 3) = .error .outOfBounds := by
    rw [show wedge_index 1 0 1 = 3 by decide]
    unfold wr npIdx
    rw [l1']
    rfl
  simp only
  rw [this]
  rfl

/-- **C54.** The documented errors: a negative `n_max`, an empty `cosβ`, a value outside `[-1, 1]`, and different shapes of `cosβ`
and `sinβ` are rejected with ValueError, before anything is written. -/
theorem C54_errors (junk : ℤ → ℝ) (C : HCoef) (x : HArgs) (ws : Option (List (HRow x.co.length))) :
    (∀ n_max, n_max < 0 → HCoef.make junk n_max = .error .valueError) ∧
    ((x.co = [] ∨ (∃ c ∈ x.co, c < -1 ∨ 1 < c) ∨ ∃ sshape s, x.si = some (sshape, s) ∧ sshape ≠ x.cshape) →
      HCalculator_call C x ws = .error .valueError ∧ HFull_call C x ws = .error .valueError) := by
  refine ⟨fun n h => by unfold HCoef.make; rw [if_pos h], fun h => ?_⟩
  have : hArgs x = .error .valueError := by
    unfold hArgs
    by_cases h0 : x.co = []
    · rw [if_pos h0]
    · rw [if_neg h0]
      by_cases h1 : (∃ c ∈ x.co, c > 1) ∨ (∃ c ∈ x.co, c < -1)
      · rw [if_pos h1]
      · rw [if_neg h1]
        rcases h with h | ⟨c, hc, h⟩ | ⟨sshape, s, hs, hne⟩
        · exact absurd h h0
        · exact absurd (h.elim (fun h => .inr ⟨c, hc, h⟩) (fun h => .inl ⟨c, hc, h⟩)) h1
        · rw [hs]; simp only; rw [if_pos hne]
  unfold HCalculator_call HFull_call
  rw [this]
  exact ⟨rfl, rfl⟩

theorem Hs_isH {J : ℕ} (β : Fin J → ℝ) (n mp m : ℤ) (j : Fin J) : IsH (β j) n mp m (Hs β n mp m j) := Hf_isH _ _ _ _

theorem Hs_same {J : ℕ} (β : Fin J → ℝ) {n mp m mp' m' : ℤ} (h1 : |mp| ≤ n) (h2 : |m| ≤ n) (h : SameH (mp, m) (mp', m')) :
    Hs β n mp' m' = Hs β n mp m := by
  rcases h with h | h | h | h <;> simp only [Prod.mk.injEq] at h <;> obtain ⟨rfl, rfl⟩ := h
  · rfl
  · exact Hs_symm β h1 h2
  · exact Hs_neg β h1 h2
  · rw [Hs_neg β h2 h1, Hs_symm β h1 h2]

/-- **C59.** Values of the H calculator.  For every `n_max ≥ 1`, all angles and every workspace, the entry of the returned wedge
found with the documented recipe `wedge_index(*wedgeify_index(ℓ, m', m))` is `H^{m',m}_ℓ(β)`, for every `ℓ ≤ n_max` and all
`|m'|, |m| ≤ ℓ`. -/
theorem C59_H_values (junk : ℤ → ℝ) (n_max : ℤ) (h : 1 ≤ n_max) (C : HCoef) (hC : HCoef.make junk n_max = .ok C) (x : HArgs)
    (β : Fin x.co.length → ℝ) (hβ : AreAngles x β) (ws : Option (List (HRow x.co.length)))
    (hws : ∀ l, ws = some l → hRows n_max ≤ l.length) :
    ∃ ws' H, HCalculator_call C x ws = .ok (ws', H) ∧ ∀ ell mp m, IsTriple 0 n_max (ell, mp, m) →
      ∃ row, H[(wedge_index (wedgeify_index ell mp m).1 (wedgeify_index ell mp m).2.1 (wedgeify_index ell mp m).2.2).toNat]? = some row ∧
        ∀ j, IsH (β j) ell mp m (row j) := by
  obtain ⟨C1, ws', H, k1, e, -⟩ := C54_safe junk n_max h x β hβ ws hws
  rw [hC] at k1; cases k1
  refine ⟨ws', H, e, fun ell mp m ht => ?_⟩
  obtain ⟨mp', m', e', hw, hs⟩ := C52_wedgeify n_max ell mp m ht
  rw [e']
  obtain ⟨-, -, h3, h4⟩ := ht
  refine ⟨_, call_values h hC hβ hws e hw, fun j => ?_⟩
  rw [Hs_same β h3 h4 hs]
  exact Hs_isH β _ _ _ j

/-- **C59**, in the form in which the calculator is mostly used: without `sinβ` and without workspace, for any values of `cosβ` in
`[-1, 1]`; the angles are `arccos`. -/
theorem C59_H_values_default (junk : ℤ → ℝ) (n_max : ℤ) (h : 1 ≤ n_max) (shape : List ℕ) (co : List ℝ) (h0 : co ≠ [])
    (h1 : ∀ c ∈ co, -1 ≤ c ∧ c ≤ 1) :
    ∃ C ws' H, HCoef.make junk n_max = .ok C ∧ HCalculator_call C ⟨shape, co, none⟩ none = .ok (ws', H) ∧
      ∀ ell mp m, IsTriple 0 n_max (ell, mp, m) →
      ∃ row, H[(wedge_index (wedgeify_index ell mp m).1 (wedgeify_index ell mp m).2.1 (wedgeify_index ell mp m).2.2).toNat]? = some row ∧
        ∀ j : Fin co.length, IsH (Real.arccos co[j]) ell mp m (row j) := by
  have hC : ∃ C, HCoef.make junk n_max = .ok C := by unfold HCoef.make; rw [if_neg (by omega)]; exact ⟨_, rfl⟩
  obtain ⟨C, hC⟩ := hC
  obtain ⟨ws', H, e, hv⟩ := C59_H_values junk n_max h C hC _ _ (areAngles_arccos shape co h0 h1) none (fun l hl => by cases hl)
  exact ⟨C, ws', H, hC, e, hv⟩

/-- **C60.** Values of the full-matrix calculator of `WignerDRecursion`: for every `n_max ≥ 1`, all angles and every workspace of
`Σ (2n+1)²` rows, row `nmpm_index(n, m', m)` of the result is `H^{m',m}_n(β)`, for all `n ≤ n_max` and all `|m'|, |m| ≤ n`. -/
theorem C60_full_H_values (junk : ℤ → ℝ) (n_max : ℤ) (h : 1 ≤ n_max) (C : HCoef) (hC : HCoef.make junk n_max = .ok C) (x : HArgs)
    (β : Fin x.co.length → ℝ) (hβ : AreAngles x β) (ws : Option (List (HRow x.co.length)))
    (hws : ∀ l, ws = some l → (l.length : ℤ) = LMpM_total_size 0 n_max) :
    ∃ H, HFull_call C x ws = .ok H ∧ (H.length : ℤ) = LMpM_total_size 0 n_max ∧
      ∀ n mp m, IsTriple 0 n_max (n, mp, m) → ∃ row, H[(nmpm_index n mp m).toNat]? = some row ∧ ∀ j, IsH (β j) n mp m (row j) := by
  obtain ⟨N, rfl⟩ : ∃ N : ℕ, n_max = N := ⟨n_max.toNat, by omega⟩
  have GC := goodCoef_make hC
  have hpos : 0 ≤ LMpM_total_size 0 N := by
    have := nmpm_range (N := N) (n := 0) (mp := 0) (m := 0) (triple_iff.2 (by omega))
    omega
  unfold HFull_call
  rw [hArgs_angles hβ, bind_ok]
  simp only [GC.n_max]
  set l : List (HRow x.co.length) := ws.getD (List.replicate (LMpM_total_size 0 N).toNat fun _ => 0) with hl
  have h1 : l.length = (LMpM_total_size 0 N).toNat := by
    cases ws with
    | some l' => have := hws l' rfl; simp only [hl, Option.getD_some]; omega
    | none => simp only [hl, Option.getD_none, List.length_replicate]
  have e2 : (((N : ℤ) + 1) ^ 2).toNat = (N + 1) ^ 2 := by
    rw [show ((N : ℤ) + 1) ^ 2 = (((N + 1) ^ 2 : ℕ) : ℤ) by push_cast; ring]; exact Int.toNat_natCast _
  obtain ⟨A', e, lw, -, -, K⟩ := h_steps_ok (by omega) (goodIdx_nmpm N) GC β
    (A := { w := l, v := List.replicate (((N : ℤ) + 1) ^ 2).toNat (fun _ => 0), x := List.replicate ((N : ℤ) + 2).toNat (fun _ => 0) })
    h1 (by simp only [List.length_replicate]; exact e2) (by simp only [List.length_replicate]; omega)
  rw [e, bind_ok]
  obtain ⟨H, e', lH, K'⟩ := h_step_6_ok β lw K
  rw [e', bind_ok]
  refine ⟨_, rfl, by rw [List.length_take, lH]; omega, fun n mp m ht => ⟨_, ?_, fun j => Hs_isH β _ _ _ j⟩⟩
  rw [← lH, List.take_length]
  exact (K' n mp m ht trivial).2

/-- The hypotheses are met: `n_max = 2`, three values of `cosβ`, no `sinβ`. -/
example : AreAngles ⟨[3], [1, 0, -1], none⟩ (fun j => Real.arccos ([1, 0, -1] : List ℝ)[j]) :=
  areAngles_arccos _ _ (by simp) (by simp)

/-- ... and a workspace of 28 rows with arbitrary contents. -/
example (r : HRow 3) : hRows 2 ≤ (List.replicate 27 r).length := by simp [hRows, wedge_size]

/-- The values of `IsH` are not all zero: `H^{0,0}_0 = 1` and only 1. -/
example (β x : ℝ) : IsH β 0 0 0 x ↔ x = 1 := by
  have h1 : IsH β 0 0 0 1 := by
    have := Hs_isH (fun _ : Fin 1 => β) 0 0 0 0
    rw [Hs_zero] at this
    exact this
  exact ⟨fun h => isH_unique h h1, fun h => h ▸ h1⟩

end SF
