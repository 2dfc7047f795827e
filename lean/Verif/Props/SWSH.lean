import Verif.Props.Representation
import Verif.Props.Index
import Verif.Lemmas.SWSH

/-!
# Properties C18–C22: spin-weighted spherical harmonics

Rotors are Mathlib quaternions.  `apiY` is the call `sf.SWSH(q, s, [[ell, m]])` for one rotor and one mode.
-/

set_option autoImplicit false

namespace SF

open Finset ComplexConjugate Quaternion

/-- The float components of a rotor. -/
def comps (q : ℍ[ℝ]) : ℝ × ℝ × ℝ × ℝ := (q.re, q.imI, q.imJ, q.imK)

/-- `sf.SWSH(q, s, [[ell, m]])`. -/
noncomputable def apiY (table : List ℝ) (junk : ℕ → ℂ) (q : ℍ[ℝ]) (s ell m : ℤ) : Py (List ℂ) :=
  SWSH table junk (.single (comps q)) s (.rows [(ell, m)])

theorem SWSH_single {L : ℤ} {table : List ℝ} (ht : IsWignerTable L table) (junk : ℕ → ℂ) {q : ℍ[ℝ]}
    (hq : normSq q = 1) (s : ℤ) (l : List (ℤ × ℤ)) (hl : ∀ t ∈ l, |t.2| ≤ t.1 → |s| ≤ t.1 → t.1 ≤ L) :
    SWSH table junk (.single (comps q)) s (.rows l)
      = .ok (l.map fun t => Yret (partA q) (partB q) s t.1 t.2) := by
  obtain ⟨buf, hb1, hb2⟩ := npEmpty_len junk l.length
  unfold SWSH
  rw [if_pos (Or.inr (by rfl))]
  simp only
  rw [hb1, bind_ok]
  exact SWSH_kernel_any ht (unitQ.mpr hq) s l hl buf hb2

theorem apiY_any {L : ℤ} {table : List ℝ} (ht : IsWignerTable L table) (junk : ℕ → ℂ) {q : ℍ[ℝ]}
    (hq : normSq q = 1) {s ell m : ℤ} (hl : ell ≤ L) :
    apiY table junk q s ell m = .ok [Yret (partA q) (partB q) s ell m] := by
  unfold apiY
  rw [SWSH_single ht junk hq s [(ell, m)] (by simp only [List.mem_singleton]; rintro t rfl _ _; exact hl)]
  rfl

theorem apiY_eq {L : ℤ} {table : List ℝ} (ht : IsWignerTable L table) (junk : ℕ → ℂ) {q : ℍ[ℝ]}
    (hq : GenericQ q) {s ell m : ℤ} (hl : ell ≤ L) :
    apiY table junk q s ell m = .ok [Spec.sYlm (partA q) (partB q) s ell m] := by
  rw [apiY_any ht junk (unitQ.mp hq.1) hl, Yret_generic hq]

theorem two_neg (s : ℤ) : 2 * -s = -2 * s := by ring

/-! ## C18 -/

/-- **C18.** For every unit rotor `q`, `SWSH(q, s, modes)` lists, for the requested modes in order,
`(-1)^s sqrt((2ell+1)/(4π))` times what `Wigner_D_element(q, ell, m, -s)` returns, and zero where `ell < |s|` or
`|m| > ell`. -/
theorem C18_SWSH {L : ℤ} {table : List ℝ} (ht : IsWignerTable L table) (junk : ℕ → ℂ) (q : ℍ[ℝ]) (hq : normSq q = 1)
    (s : ℤ) (modes : List (ℤ × ℤ)) (hl : ∀ t ∈ modes, t.1 ≤ L) :
    ∃ Y : ℤ → ℤ → ℂ,
      SWSH table junk (.single (comps q)) s (.rows modes) = .ok (modes.map fun t => Y t.1 t.2) ∧
      (∀ ell m, ell < |s| ∨ ell < |m| → Y ell m = 0) ∧
      (∀ ell m, |s| ≤ ell → |m| ≤ ell → ell ≤ L → ∃ d,
        apiD table L junk q (2 * ell) (2 * m) (-2 * s) = .ok (.scalar d) ∧
        Y ell m = (-1) ^ s * (Real.sqrt ((2 * ell + 1) / (4 * Real.pi)) : ℝ) * d) := by
  refine ⟨Yret (partA q) (partB q) s, SWSH_single ht junk hq s modes (fun t h _ _ => hl t h), ?_, ?_⟩
  · intro ell m h
    unfold Yret
    rw [if_neg (by omega)]
  · intro ell m h1 h2 h3
    refine ⟨Dret (partA q) (partB q) ell m (-s), ?_, ?_⟩
    · rw [← two_neg]
      exact apiD_any ht junk hq h2 (by rwa [abs_neg]) h3
    · unfold Yret
      rw [if_pos ⟨h2, h1⟩]

/-- Non-vacuity of C18, with a mode that is present, one with `ell < |s|` and one with `|m| > ell`. -/
example : ∃ table Y, IsWignerTable 32 table ∧
    SWSH table (fun _ => 0) (.single (comps (mkQ (3/5) (4/5) 0 0))) (-2) (.rows [(3, 1), (1, 0), (2, 5)]) = .ok Y := by
  obtain ⟨t, ht⟩ := IsWignerTable.exists 32 (by norm_num)
  obtain ⟨Y, h, -⟩ := C18_SWSH ht (fun _ => 0) _ (unitQ.mp generic_example.1.1) (-2) [(3, 1), (1, 0), (2, 5)] (by simp)
  exact ⟨t, _, ht, h⟩

/-! ## C19 -/

/-- **C19.** An array of unit rotors with one mode: entry by entry the single-rotor value. -/
theorem C19_SWSH_array {L : ℤ} {table : List ℝ} (ht : IsWignerTable L table) (junk : ℕ → ℂ) (qs : List ℍ[ℝ])
    (hq : ∀ q ∈ qs, normSq q = 1) (s ell m : ℤ) (hl : ell ≤ L) :
    ∃ f : ℍ[ℝ] → ℂ,
      SWSH table junk (.array (qs.map comps)) s (.pair ell m) = .ok (qs.map f) ∧
      ∀ q ∈ qs, apiY table junk q s ell m = .ok [f q] := by
  refine ⟨fun q => Yret (partA q) (partB q) s ell m, ?_, fun q hqm => apiY_any ht junk (hq q hqm) hl⟩
  obtain ⟨buf, hb1, hb2⟩ := npEmpty_len junk (qs.map comps).length
  unfold SWSH
  rw [if_neg (by simp [SIdx.size, SRot.isArray])]
  simp only
  rw [hb1, bind_ok]
  by_cases h : |m| ≤ ell ∧ |s| ≤ ell
  · rw [SWSHs_kernel_any ht _ _ h.1 h.2 hl buf hb2, List.map_map]
    · rfl
    · intro R hR
      rw [List.mem_map] at hR
      obtain ⟨q, hqm, rfl⟩ := hR
      exact unitQ.mpr (hq q hqm)
  · rw [SWSHs_kernel_zero table _ h buf hb2, List.map_map]
    congr 1
    apply List.map_congr_left
    intro q _
    unfold Yret
    rw [if_neg h]
    rfl

/-- **C19.** The other argument combinations are errors: an array of rotors with two or more modes, a single rotor with
a bare pair, an array of rotors with a nested single pair. -/
theorem C19_SWSH_rejected (table : List ℝ) (junk : ℕ → ℂ) (s : ℤ) :
    (∀ Rs l, 2 ≤ l.length → SWSH table junk (.array Rs) s (.rows l) = .error .attributeError) ∧
    (∀ R ell m, SWSH table junk (.single R) s (.pair ell m) = .error .typeError) ∧
    (∀ Rs p, SWSH table junk (.array Rs) s (.rows [p]) = .error .indexError) := by
  refine ⟨?_, ?_, ?_⟩
  · intro Rs l h
    unfold SWSH
    rw [if_pos (Or.inl (by simp only [SIdx.size]; omega))]
  · intro R ell m
    unfold SWSH
    rw [if_pos (Or.inr (by rfl))]
  · intro Rs p
    unfold SWSH
    rw [if_neg (by simp [SIdx.size, SRot.isArray])]

/-- `SWSH_grid` computes the full table row by row. -/
theorem SWSH_grid_any {L : ℤ} {table : List ℝ} (ht : IsWignerTable L table) (junk : ℕ → ℤ × ℤ)
    (qs : List ℍ[ℝ]) (hq : ∀ q ∈ qs, normSq q = 1) (s ell_max : ℤ) (h0 : -1 ≤ ell_max) (hl : ell_max ≤ L)
    (hne : qs ≠ [] := by first | assumption | simp) :
    SWSH_grid table junk (qs.map comps) s ell_max
      = .ok (qs.map fun q => (LMlist 0 ell_max).map fun t => Yret (partA q) (partB q) s t.1 t.2) := by
  unfold SWSH_grid
  rw [LM_range_eq junk le_rfl (by omega), bind_ok]
  simp only
  rw [if_neg (by simpa using hne)]
  simp only [List.length_map]
  set T : ℍ[ℝ] → List ℂ := fun q => (LMlist 0 ell_max).map fun t => Yret (partA q) (partB q) s t.1 t.2 with hT
  obtain ⟨out, e1, e2, e3⟩ := forR_inv 0 (qs.length : ℤ) (by omega)
    (fun i (vals : List (List ℂ)) => vals.length = qs.length ∧ ∀ k : ℕ, k < qs.length →
      (((k : ℤ) < i → vals[k]? = (qs.map T)[k]?) ∧
        (i ≤ k → vals[k]? = some (List.replicate (LMlist 0 ell_max).length (0 : ℂ)))))
    (List.replicate qs.length (List.replicate (LMlist 0 ell_max).length (0 : ℂ)))
    (fun i values => do
      let R ← rd (qs.map comps) i
      let row ← rd values i
      let row ← SWSH_kernel table (quat_a R) (quat_b R) s (LMlist 0 ell_max) row
      wr values i row)
    (by
      refine ⟨by simp, fun k hk => ⟨fun h => absurd h (by omega), fun _ => ?_⟩⟩
      simp [hk])
    (by
      rintro i vals hi1 hi2 ⟨hlen, hI⟩
      have hk : i.toNat < qs.length := by omega
      have r1 : rd (qs.map comps) i = .ok (comps qs[i.toNat]) := rd_ok hi1 (by simp [hk])
      have r2 := rd_ok hi1 ((hI i.toNat hk).2 (by omega))
      refine ⟨vals.set i.toNat (T qs[i.toNat]), ?_, by simp [hlen], ?_⟩
      · rw [r1, bind_ok, r2, bind_ok]
        have := SWSH_kernel_any ht (unitQ.mpr (hq qs[i.toNat] (List.getElem_mem hk))) s (LMlist 0 ell_max)
          (by
            intro t htm _ _
            have := ((LMlist_spec ell_max (le_refl 0)).2 t).mp htm
            exact le_trans this.2.1 hl)
          (List.replicate (LMlist 0 ell_max).length (0 : ℂ)) (by simp)
        change (SWSH_kernel table (partA qs[i.toNat]) (partB qs[i.toNat]) s _ _ >>= _) = _
        rw [this, bind_ok, wr_ok hi1 (by omega)]
      · intro k hkq
        rw [List.getElem?_set]
        by_cases hki : i.toNat = k
        · subst hki
          rw [if_pos rfl, if_pos (by omega)]
          refine ⟨fun _ => by simp [hk], fun h => absurd h (by omega)⟩
        · rw [if_neg hki]
          refine ⟨fun h => (hI k hkq).1 (by omega), fun h => (hI k hkq).2 (by omega)⟩)
  refine Eq.trans e1 ?_
  congr 1
  apply List.ext_getElem?
  intro k
  by_cases hk : k < qs.length
  · exact (e3 k hk).1 (by omega)
  · rw [List.getElem?_eq_none (by omega), List.getElem?_eq_none (by simp; omega)]

/-- **C19.** `SWSH_grid` of an array without elements raises ValueError. -/
theorem C19_SWSH_grid_empty (table : List ℝ) (junk : ℕ → ℤ × ℤ) (s ell_max : ℤ) (h0 : -1 ≤ ell_max) :
    SWSH_grid table junk [] s ell_max = .error .valueError := by
  unfold SWSH_grid
  rw [LM_range_eq junk le_rfl (by omega), bind_ok]
  rfl

/-- **C19.** `SWSH_grid`: one row per unit rotor of length `LM_total_size(0, ell_max)`, whose entry `LM_index(ell, m, 0)` is the
scalar call's value; entries with `ell < |s|` are zero. -/
theorem C19_SWSH_grid {L : ℤ} {table : List ℝ} (ht : IsWignerTable L table) (junk : ℕ → ℤ × ℤ) (junk' : ℕ → ℂ)
    (qs : List ℍ[ℝ]) (hne : qs ≠ []) (hq : ∀ q ∈ qs, normSq q = 1) (s ell_max : ℤ) (h0 : -1 ≤ ell_max) (hl : ell_max ≤ L) :
    ∃ row : ℍ[ℝ] → List ℂ,
      SWSH_grid table junk (qs.map comps) s ell_max = .ok (qs.map row) ∧
      ∀ q ∈ qs, ((row q).length : ℤ) = LM_total_size 0 ell_max ∧
        ∀ ell m, 0 ≤ ell → ell ≤ ell_max → |m| ≤ ell →
          ∃ v, (row q)[(LM_index ell m 0).toNat]? = some v ∧ 0 ≤ LM_index ell m 0 ∧
            apiY table junk' q s ell m = .ok [v] ∧ (ell < |s| → v = 0) := by
  refine ⟨_, SWSH_grid_any ht junk qs hq s ell_max h0 hl, ?_⟩
  intro q hqm
  refine ⟨by rw [List.length_map]; exact LMlist_length le_rfl (by omega), ?_⟩
  intro ell m h1 h2 h3
  rw [abs_le] at h3
  obtain ⟨g1, g2⟩ := LMlist_index (b := ell_max) (le_refl 0) h1 h2 h3.1 h3.2
  refine ⟨Yret (partA q) (partB q) s ell m, ?_, g1, apiY_any ht junk' (hq q hqm) (by omega), ?_⟩
  · rw [List.getElem?_map, g2]; rfl
  · intro hs
    unfold Yret
    rw [if_neg (by omega)]

/-- Non-vacuity of C19. -/
example : ∃ table f g, IsWignerTable 32 table ∧
    SWSH table (fun _ => 0) (.array ([mkQ (3/5) (4/5) 0 0, mkQ (3/5) 0 (4/5) 0].map comps)) 1 (.pair 2 (-1)) = .ok f ∧
    SWSH_grid table (fun _ => (0, 0)) ([mkQ (3/5) (4/5) 0 0, mkQ (3/5) 0 (4/5) 0].map comps) 1 5 = .ok g := by
  obtain ⟨t, ht⟩ := IsWignerTable.exists 32 (by norm_num)
  have hq : ∀ q ∈ [mkQ (3/5) (4/5) 0 0, mkQ (3/5) 0 (4/5) 0], normSq q = 1 := by
    intro q hq
    simp only [List.mem_cons, List.not_mem_nil, or_false] at hq
    rcases hq with rfl | rfl
    · exact unitQ.mp generic_example.1.1
    · exact unitQ.mp generic_example.2.1.1
  obtain ⟨f, h1, -⟩ := C19_SWSH_array ht (fun _ => 0) _ hq 1 2 (-1) (by norm_num)
  obtain ⟨g, h2, -⟩ := C19_SWSH_grid ht (fun _ => (0, 0)) (fun _ => 0) _ (by simp) hq 1 5 (by norm_num) (by norm_num)
  exact ⟨t, _, _, ht, h1, h2⟩

/-! ## C20 -/

theorem validD_sm {s ell m : ℤ} (h : |m| ≤ ell ∧ |s| ≤ ell) : Spec.ValidD (2 * ell) (2 * m) (-2 * s) := by
  have := validD_int (ell := ell) (mp := m) (m := -s) h.1 (by rw [abs_neg]; exact h.2)
  rwa [two_neg] at this

theorem wD_conj' (Ra Rb : ℂ) {n mp m : ℤ} (hv : Spec.ValidD n mp m) :
    conj (Spec.wignerD Ra Rb n mp m) = (-1) ^ ((mp - m) / 2) * Spec.wignerD Ra Rb n (-mp) (-m) := by
  obtain ⟨p', q', p, q, hsum, ha, hb, hc⟩ := valid_pq hv
  rw [wignerD_pq _ _ hsum ha hb hc, wignerD_pq _ _ (p' := q') (q' := p') (p := q) (q := p) (by omega) (by omega)
    (by omega) (by omega), Dpq_conj _ _ hsum]
  congr 1
  have e : (mp - m) / 2 = (p' : ℤ) - p := by omega
  rw [e, zpow_sub₀ (by norm_num), zpow_natCast, zpow_natCast, pow_add]
  rcases Nat.even_or_odd p with h | h
  · rw [h.neg_one_pow]; simp
  · rw [h.neg_one_pow, div_neg, div_one, mul_neg, mul_one]

theorem neg_one_zpow_sq (s : ℤ) : ((-1 : ℂ) ^ s) * (-1) ^ s = 1 := by
  rw [← mul_zpow]; norm_num

theorem neg_one_zpow_neg (s : ℤ) : ((-1 : ℂ) ^ (-s)) = (-1) ^ s := by
  rw [neg_one_zpow_iff, neg_one_zpow_iff]
  simp

theorem conj_neg_one_zpow (s : ℤ) : conj ((-1 : ℂ) ^ s) = (-1) ^ s := by
  rw [map_zpow₀]; simp

/-- The conjugation identity for the closed form, all pairs of complex numbers and all indices. -/
theorem sYlm_conj (Ra Rb : ℂ) (s ell m : ℤ) :
    conj (Spec.sYlm Ra Rb s ell m) = (-1) ^ (s + m) * Spec.sYlm Ra Rb (-s) ell (-m) := by
  unfold Spec.sYlm
  by_cases h : |m| ≤ ell ∧ |s| ≤ ell
  · rw [if_pos h, if_pos (by rwa [abs_neg, abs_neg])]
    rw [map_mul, map_mul, conj_neg_one_zpow, Complex.conj_ofReal, wD_conj' _ _ (validD_sm h)]
    have e1 : (2 * m - -2 * s) / 2 = s + m := by omega
    have e2 : -(2 * m) = 2 * -m := by ring
    have e3 : -(-2 * s) = -2 * -s := by ring
    rw [e1, e2, e3, neg_one_zpow_neg]
    ring
  · rw [if_neg h, if_neg (by rwa [abs_neg, abs_neg])]
    simp

/-- **C20.** `conj(sYlm(q)) = (-1)^(s+m) (-s)Y(ell,-m)(q)`, for what `SWSH` returns. -/
theorem C20_conjugate {L : ℤ} {table : List ℝ} (ht : IsWignerTable L table) (junk : ℕ → ℂ) (q : ℍ[ℝ])
    (hq : GenericQ q) (s ell m : ℤ) (hl : ell ≤ L) :
    ∃ y y', apiY table junk q s ell m = .ok [y] ∧ apiY table junk q (-s) ell (-m) = .ok [y'] ∧
      conj y = (-1) ^ (s + m) * y' :=
  ⟨_, _, apiY_eq ht junk hq hl, apiY_eq ht junk hq hl, sYlm_conj _ _ s ell m⟩

/-! ## C21 -/

/-- The rotor `exp(γ z/2)`: rotation by `γ` about the `z` axis. -/
noncomputable def zrot (γ : ℝ) : ℍ[ℝ] := mkQ (Real.cos (γ / 2)) 0 0 (Real.sin (γ / 2))

theorem partA_zrot (γ : ℝ) : partA (zrot γ) = Complex.exp (((γ / 2 : ℝ) : ℂ) * Complex.I) := by
  apply Complex.ext
  · rw [Complex.exp_ofReal_mul_I_re]; rfl
  · rw [Complex.exp_ofReal_mul_I_im]; rfl

theorem partB_zrot (γ : ℝ) : partB (zrot γ) = 0 := rfl

theorem zrot_unit (γ : ℝ) : Complex.normSq (partA (zrot γ)) = 1 := by
  rw [Complex.normSq_apply]
  have := Real.cos_sq_add_sin_sq (γ / 2)
  simp only [zrot, partA, mkQ_re, mkQ_imK]
  linarith

theorem wD_right_z (q : ℍ[ℝ]) (γ : ℝ) {n mp m : ℤ} (hv : Spec.ValidD n mp m) :
    Spec.wignerD (partA (q * zrot γ)) (partB (q * zrot γ)) n mp m
      = Spec.wignerD (partA q) (partB q) n mp m * Complex.exp (Complex.I * half m * γ) := by
  obtain ⟨N, rfl⟩ : ∃ N : ℕ, n = N := ⟨n.toNat, by have := hv.1; have := abs_nonneg mp; omega⟩
  rw [← C12_closed_form q (zrot γ) N mp m hv, partB_zrot]
  have hk : ∃ k : ℕ, k ∈ range (N + 1) ∧ m = 2 * (k : ℤ) - N := by
    obtain ⟨_, g2, _, g4⟩ := hv
    rw [abs_le] at g2
    exact ⟨((m + N) / 2).toNat, by rw [mem_range]; omega, by omega⟩
  obtain ⟨k, hk, hkm⟩ := hk
  rw [sum_eq_single_of_mem k hk]
  · rw [wD_rb_zero' (zrot_unit γ) (validD_k hv (by rw [mem_range] at hk; omega)).2, if_pos hkm.symm, ← hkm, partA_zrot,
      ← Complex.exp_int_mul]
    congr 2
    unfold half
    push_cast
    ring
  · intro j hj hjk
    rw [wD_rb_zero' (zrot_unit γ) (validD_k hv (by rw [mem_range] at hj; omega)).2, if_neg (by omega), mul_zero]

/-- Spin behaviour of the closed form. -/
theorem sYlm_spin (q : ℍ[ℝ]) (γ : ℝ) (s ell m : ℤ) :
    Spec.sYlm (partA (q * zrot γ)) (partB (q * zrot γ)) s ell m
      = Complex.exp (-(Complex.I * s * γ)) * Spec.sYlm (partA q) (partB q) s ell m := by
  unfold Spec.sYlm
  by_cases h : |m| ≤ ell ∧ |s| ≤ ell
  · rw [if_pos h, if_pos h, wD_right_z q γ (validD_sm h)]
    have : Complex.I * half (-2 * s) * γ = -(Complex.I * s * γ) := by
      unfold half; push_cast; ring
    rw [this]
    ring
  · rw [if_neg h, if_neg h, mul_zero]

/-- Rotations about `z` on the right do not leave the generic rotors. -/
theorem GenericQ.mul_zrot {q : ℍ[ℝ]} (hq : GenericQ q) (γ : ℝ) : GenericQ (q * zrot γ) := by
  have hn : ‖partA (zrot γ)‖ = 1 := by
    have := zrot_unit γ
    rw [Complex.normSq_eq_norm_sq] at this
    nlinarith [norm_nonneg (partA (zrot γ))]
  have hne : partA (zrot γ) ≠ 0 := norm_ne_zero_iff.mp (by rw [hn]; norm_num)
  have eA : partA (q * zrot γ) = partA q * partA (zrot γ) := by rw [partA_mul, partB_zrot]; ring
  have eB : partB (q * zrot γ) = partB q * partA (zrot γ) := by rw [partB_mul, partB_zrot]; ring
  unfold GenericQ
  rw [eA, eB]
  obtain ⟨h1, h2, h3⟩ := hq
  refine ⟨?_, ?_, ?_⟩
  · unfold Spec.IsUnit' at *
    rw [Complex.normSq_mul, Complex.normSq_mul, zrot_unit, mul_one, mul_one, h1]
  · rw [norm_mul, hn, mul_one, mul_eq_zero]
    rcases h2 with h2 | h2
    · exact Or.inl (Or.inl h2)
    · exact Or.inr h2
  · rw [norm_mul, hn, mul_one, mul_eq_zero]
    rcases h3 with h3 | h3
    · exact Or.inl (Or.inl h3)
    · exact Or.inr h3

/-- **C21.** Spin weight: `sYlm(q exp(γ z/2)) = exp(-i s γ) sYlm(q)`. -/
theorem C21_spin {L : ℤ} {table : List ℝ} (ht : IsWignerTable L table) (junk : ℕ → ℂ) (q : ℍ[ℝ]) (γ : ℝ)
    (hq : GenericQ q) (s ell m : ℤ) (hl : ell ≤ L) :
    ∃ y, apiY table junk q s ell m = .ok [y] ∧
      apiY table junk (q * zrot γ) s ell m = .ok [Complex.exp (-(Complex.I * s * γ)) * y] := by
  refine ⟨_, apiY_eq ht junk hq hl, ?_⟩
  rw [apiY_eq ht junk (hq.mul_zrot γ) hl, sYlm_spin]

/-- Rotation behaviour of the closed form. -/
theorem sYlm_rotate (p q : ℍ[ℝ]) (s : ℤ) (l : ℕ) (m : ℤ) (hm : |m| ≤ l) :
    Spec.sYlm (partA (p * q)) (partB (p * q)) s l m
      = ∑ k ∈ range (2 * l + 1), Spec.wignerD (partA p) (partB p) (2 * l) (2 * m) (2 * (k - l))
          * Spec.sYlm (partA q) (partB q) s l (k - l) := by
  by_cases hs : |s| ≤ (l : ℤ)
  · have h := C12_closed_form p q (2 * l) (2 * m) (-2 * s) (by push_cast; exact validD_sm ⟨hm, hs⟩)
    unfold Spec.sYlm
    rw [if_pos ⟨hm, hs⟩]
    push_cast at h
    rw [← h, mul_sum]
    apply sum_congr rfl
    intro k hk
    rw [mem_range] at hk
    have e : 2 * (k : ℤ) - 2 * l = 2 * (k - l) := by ring
    rw [if_pos ⟨by rw [abs_le]; omega, hs⟩, e]
    push_cast
    ring
  · unfold Spec.sYlm
    rw [if_neg (fun h => hs h.2)]
    symm
    apply sum_eq_zero
    intro k _
    rw [if_neg (fun h => hs h.2), mul_zero]

/-- **C21.** Rotation: `sYlm(p q) = Σ_m' D^ell_{m,m'}(p) sYlm'(q)`; the summation index `m'` is `k - ell`. -/
theorem C21_rotation {L : ℤ} {table : List ℝ} (ht : IsWignerTable L table) (junk : ℕ → ℂ) (p q : ℍ[ℝ])
    (hp : GenericQ p) (hq : GenericQ q) (hpq : GenericQ (p * q)) (s : ℤ) (l : ℕ) (m : ℤ) (hm : |m| ≤ l) (hl : (l : ℤ) ≤ L) :
    ∃ (D Y : ℕ → ℂ),
      (∀ k ≤ 2 * l, apiD table L junk p (2 * l) (2 * m) (2 * (k - l)) = .ok (.scalar (D k)) ∧
        apiY table junk q s l (k - l) = .ok [Y k]) ∧
      apiY table junk (p * q) s l m = .ok [∑ k ∈ range (2 * l + 1), D k * Y k] := by
  refine ⟨fun k => Spec.wignerD (partA p) (partB p) (2 * l) (2 * m) (2 * (k - l)),
    fun k => Spec.sYlm (partA q) (partB q) s l (k - l), ?_, ?_⟩
  · intro k hk
    exact ⟨apiD_eq ht junk hp (validD_int hm (by rw [abs_le]; omega)) (by omega), apiY_eq ht junk hq hl⟩
  · rw [apiY_eq ht junk hpq hl, sYlm_rotate p q s l m hm]

/-- Non-vacuity of C21. -/
example : ∃ table y, IsWignerTable 32 table ∧
    apiY table (fun _ => 0) (mkQ (3/5) (4/5) 0 0 * mkQ (3/5) 0 (4/5) 0) 2 4 (-3) = .ok y := by
  obtain ⟨t, ht⟩ := IsWignerTable.exists 32 (by norm_num)
  obtain ⟨h1, h2, h3⟩ := generic_example
  obtain ⟨D, Y, -, h⟩ := C21_rotation ht (fun _ => 0) _ _ h1 h2 h3 2 4 (-3) (by norm_num) (by norm_num)
  exact ⟨t, _, ht, h⟩

/-! ## C22 -/

/-- Orthogonality over `m` of harmonics of different spin at one point, closed form. -/
theorem sYlm_addition {Ra Rb : ℂ} (hu : Spec.IsUnit' Ra Rb) (s s' : ℤ) (l : ℕ) (hs : |s| ≤ l) (hs' : |s'| ≤ l) :
    ∑ k ∈ range (2 * l + 1), conj (Spec.sYlm Ra Rb s' l (k - l)) * Spec.sYlm Ra Rb s l (k - l)
      = if s = s' then (((2 * l + 1) / (4 * Real.pi) : ℝ) : ℂ) else 0 := by
  have hv : Spec.ValidD ((2 * l : ℕ) : ℤ) (-2 * s') (-2 * s) := by
    have := validD_int (ell := (l : ℤ)) (mp := -s') (m := -s) (by rwa [abs_neg]) (by rwa [abs_neg])
    rw [two_neg, two_neg] at this
    push_cast
    exact this
  have h := wD_unitary_col hu hv
  have hc : (Real.sqrt ((2 * (l : ℝ) + 1) / (4 * Real.pi)) : ℂ) * Real.sqrt ((2 * (l : ℝ) + 1) / (4 * Real.pi))
      = (((2 * l + 1) / (4 * Real.pi) : ℝ) : ℂ) := by
    rw [← Complex.ofReal_mul, Real.mul_self_sqrt]
    have := Real.pi_pos
    positivity
  have e : ∀ k ∈ range (2 * l + 1), conj (Spec.sYlm Ra Rb s' l (k - l)) * Spec.sYlm Ra Rb s l (k - l)
      = ((-1) ^ s' * (-1) ^ s * (((2 * l + 1) / (4 * Real.pi) : ℝ) : ℂ))
        * (conj (Spec.wignerD Ra Rb ((2 * l : ℕ) : ℤ) (2 * k - ((2 * l : ℕ) : ℤ)) (-2 * s'))
          * Spec.wignerD Ra Rb ((2 * l : ℕ) : ℤ) (2 * k - ((2 * l : ℕ) : ℤ)) (-2 * s)) := by
    intro k hk
    rw [mem_range] at hk
    have hk' : |(k : ℤ) - l| ≤ l := by rw [abs_le]; omega
    unfold Spec.sYlm
    rw [if_pos ⟨hk', hs'⟩, if_pos ⟨hk', hs⟩, map_mul, map_mul, conj_neg_one_zpow, Complex.conj_ofReal, ← hc]
    have e1 : 2 * ((k : ℤ) - l) = 2 * k - ((2 * l : ℕ) : ℤ) := by push_cast; ring
    have e2 : 2 * (l : ℤ) = ((2 * l : ℕ) : ℤ) := by push_cast; ring
    rw [e1, e2]
    push_cast
    ring
  rw [sum_congr rfl e, ← mul_sum, h]
  by_cases hss : s = s'
  · subst hss
    rw [if_pos rfl, if_pos rfl, neg_one_zpow_sq, one_mul, mul_one]
  · rw [if_neg (by omega), if_neg hss, mul_zero]

/-- **C22.** Addition theorem: `Σ_m |sYlm(q)|² = (2ell+1)/(4π)`, and `Σ_m sYlm(q) conj(s'Ylm(q)) = 0` for `s ≠ s'`. -/
theorem C22_addition {L : ℤ} {table : List ℝ} (ht : IsWignerTable L table) (junk : ℕ → ℂ) (q : ℍ[ℝ])
    (hq : GenericQ q) (s s' : ℤ) (l : ℕ) (hs : |s| ≤ l) (hs' : |s'| ≤ l) (hl : (l : ℤ) ≤ L) :
    ∃ Y Y' : ℕ → ℂ,
      (∀ k ≤ 2 * l, apiY table junk q s l (k - l) = .ok [Y k] ∧ apiY table junk q s' l (k - l) = .ok [Y' k]) ∧
      ∑ k ∈ range (2 * l + 1), ‖Y k‖ ^ 2 = (2 * l + 1) / (4 * Real.pi) ∧
      (s ≠ s' → ∑ k ∈ range (2 * l + 1), Y k * conj (Y' k) = 0) := by
  refine ⟨fun k => Spec.sYlm (partA q) (partB q) s l (k - l), fun k => Spec.sYlm (partA q) (partB q) s' l (k - l),
    fun k _ => ⟨apiY_eq ht junk hq hl, apiY_eq ht junk hq hl⟩, ?_, ?_⟩
  · have h := sYlm_addition hq.1 s s l hs hs
    rw [if_pos rfl] at h
    have h2 : ((∑ k ∈ range (2 * l + 1), ‖Spec.sYlm (partA q) (partB q) s l (k - l)‖ ^ 2 : ℝ) : ℂ)
        = (((2 * l + 1) / (4 * Real.pi) : ℝ) : ℂ) := by
      rw [← h]
      push_cast
      apply sum_congr rfl
      intro k _
      rw [mul_comm, Complex.mul_conj, Complex.normSq_eq_norm_sq]
      push_cast; rfl
    exact_mod_cast h2
  · intro hss
    have h := sYlm_addition hq.1 s s' l hs hs'
    rw [if_neg hss] at h
    rw [← h]
    apply sum_congr rfl
    intro k _
    ring

/-- Non-vacuity of C20 and C22. -/
example : ∃ table, IsWignerTable 32 table ∧ (∃ y, apiY table (fun _ => 0) (mkQ (3/5) (4/5) 0 0) (-2) 3 1 = .ok y) ∧
    ∃ Y : ℕ → ℂ, (∀ k : ℕ, k ≤ 2 * 5 → apiY table (fun _ => 0) (mkQ (3/5) (4/5) 0 0) (-2) (5 : ℕ) (k - (5 : ℕ)) = .ok [Y k]) := by
  obtain ⟨t, ht⟩ := IsWignerTable.exists 32 (by norm_num)
  obtain ⟨y, _, h, -⟩ := C20_conjugate ht (fun _ => 0) _ generic_example.1 (-2) 3 1 (by norm_num)
  obtain ⟨Y, _, h2, -⟩ := C22_addition ht (fun _ => 0) _ generic_example.1 (-2) 1 5 (by norm_num) (by norm_num) (by norm_num)
  exact ⟨t, ht, ⟨_, h⟩, Y, fun k hk => (h2 k hk).1⟩

end SF
