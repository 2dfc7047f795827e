import Verif.Props.Antipode

/-!
# C110: reflection through the equatorial plane
-/

set_option autoImplicit false

namespace SF

open Finset ComplexConjugate Quaternion

/-- The rotation by `π` about the `z` axis. -/
def zflip : ℍ[ℝ] := mkQ 0 0 0 1

/-- `zflip * q * xflip` points in the direction of `q` reflected through the equatorial plane. -/
theorem direction_reflect (q : ℍ[ℝ]) : (direction (zflip * q * xflip)).imI = (direction q).imI ∧
    (direction (zflip * q * xflip)).imJ = (direction q).imJ ∧ (direction (zflip * q * xflip)).imK = -(direction q).imK := by
  unfold direction xflip zflip
  refine ⟨?_, ?_, ?_⟩ <;> simp <;> ring

theorem partA_zflip : partA zflip = Complex.I := by apply Complex.ext <;> simp [partA, zflip]
theorem partB_zflip : partB zflip = 0 := by apply Complex.ext <;> simp [partB, zflip]

theorem GenericQ.zflip_mul {q : ℍ[ℝ]} (hq : GenericQ q) : GenericQ (zflip * q) := by
  obtain ⟨h1, h2, h3⟩ := hq
  have eA : partA (zflip * q) = Complex.I * partA q := by rw [partA_mul, partA_zflip, partB_zflip]; simp
  have eB : partB (zflip * q) = -Complex.I * partB q := by rw [partB_mul, partA_zflip, partB_zflip]; simp
  have hx : normSq zflip = 1 := by rw [normSq_def']; simp [zflip]
  refine ⟨unitQ.mpr (by rw [map_mul, unitQ.mp h1, hx, one_mul]), ?_, ?_⟩
  · rw [eA, norm_mul, Complex.norm_I, one_mul]
    refine h2.imp (fun h => by rw [h]; simp) id
  · rw [eB, norm_mul, norm_neg, Complex.norm_I, one_mul]
    refine h3.imp (fun h => by rw [h]; simp) id

theorem I_zpow_two_mul (m : ℤ) : Complex.I ^ (2 * m) = (-1) ^ m := by
  rw [zpow_mul, show Complex.I ^ (2 : ℤ) = -1 by exact_mod_cast Complex.I_sq]

theorem sYlm_zflip (q : ℍ[ℝ]) (s ell m : ℤ) :
    Spec.sYlm (partA (zflip * q)) (partB (zflip * q)) s ell m = (-1) ^ m * Spec.sYlm (partA q) (partB q) s ell m := by
  by_cases h : |m| ≤ ell
  swap
  · unfold Spec.sYlm; rw [if_neg (fun k => h k.1), if_neg (fun k => h k.1), mul_zero]
  have h0 := (abs_nonneg _).trans h
  obtain ⟨l, rfl⟩ : ∃ l : ℕ, ell = l := ⟨ell.toNat, by omega⟩
  have hm := abs_le.mp h
  rw [sYlm_rotate zflip q s l m h, sum_eq_single (l + m).toNat]
  · have i : (((l + m).toNat : ℤ) - l) = m := by omega
    rw [i, partA_zflip, partB_zflip, wD_rb_zero (by simp) h h, if_pos rfl, I_zpow_two_mul]
  · intro k hk hne
    rw [mem_range] at hk
    rw [partA_zflip, partB_zflip, wD_rb_zero (by simp) h (abs_le.mpr (by omega)), if_neg (by omega), zero_mul]
  · intro hk
    rw [mem_range] at hk
    omega

theorem sYlm_reflect (q : ℍ[ℝ]) (s ell m : ℤ) :
    conj (Spec.sYlm (partA (zflip * q * xflip)) (partB (zflip * q * xflip)) s ell m)
      = (-1) ^ (ell + s) * Spec.sYlm (partA q) (partB q) s ell (-m) := by
  rw [sYlm_xflip, sYlm_zflip, map_mul, map_mul, sYlm_conj, neg_neg, map_zpow₀, map_zpow₀, map_neg, map_one]
  have n : (-1 : ℂ) ≠ 0 := by norm_num
  rw [zpow_add₀ n, zpow_add₀ n, zpow_neg]
  have e : ((-1 : ℂ) ^ s)⁻¹ = (-1) ^ s := by rw [← inv_zpow]; norm_num
  have e2 : (-1 : ℂ) ^ m * (-1) ^ m = 1 := by rw [← mul_zpow]; norm_num
  rw [e]
  linear_combination ((-1 : ℂ) ^ ell * (-1) ^ s * Spec.sYlm (partA q) (partB q) s ell (-m)) * e2

/-- **C110 (harmonics).** `sYlm` at a rotor that points in the direction of `q` reflected through the equatorial plane is
`(-1)^(ell+s)` times the complex conjugate of `sYl(-m)` at `q`. -/
theorem C110_SWSH {L : ℤ} {table : List ℝ} (ht : IsWignerTable L table) (junk : ℕ → ℂ) (q : ℍ[ℝ]) (hq : GenericQ q) (s ell m : ℤ)
    (hl : ell ≤ L) : (direction (zflip * q * xflip)).imI = (direction q).imI ∧
    (direction (zflip * q * xflip)).imJ = (direction q).imJ ∧ (direction (zflip * q * xflip)).imK = -(direction q).imK ∧
    ∃ y, apiY table junk q s ell (-m) = .ok [y] ∧ apiY table junk (zflip * q * xflip) s ell m = .ok [(-1) ^ (ell + s) * conj y] := by
  obtain ⟨d1, d2, d3⟩ := direction_reflect q
  refine ⟨d1, d2, d3, _, apiY_eq ht junk hq hl, ?_⟩
  rw [apiY_eq ht junk hq.zflip_mul.mul_xflip hl, ← Complex.conj_conj (Spec.sYlm (partA (zflip * q * xflip)) _ _ _ _), sYlm_reflect, map_mul, map_zpow₀,
    map_neg, map_one]

theorem field_reflect (q : ℍ[ℝ]) (s L : ℤ) (c : ℤ → ℤ → ℂ) :
    conj (Spec.fieldValue s L c (partA (zflip * q * xflip)) (partB (zflip * q * xflip)))
      = Spec.fieldValue s L (fun l m => (-1) ^ (l + s) * conj (c l (-m))) (partA q) (partB q) := by
  unfold Spec.fieldValue
  rw [map_sum]
  refine sum_congr rfl fun l _ => ?_
  rw [map_sum]
  refine sum_nbij' (fun m => -m) (fun m => -m) (by intro m; simp only [mem_Icc]; omega) (by intro m; simp only [mem_Icc]; omega)
    (by simp) (by simp) fun m _ => ?_
  beta_reduce
  rw [map_mul, sYlm_reflect, neg_neg]
  ring

/-- **C110 (functions).** If `g` has the spin weight of `f` and the modes `(-1)^(ell+s) conj(f(ell,-m))`, then the values of `g` at rotors
are the complex conjugates of those of `f` at the rotors reflected through the equatorial plane. -/
theorem C110_evaluate {L : ℤ} {table : List ℝ} (ht : IsWignerTable L table) (junk : ℕ → ℤ × ℤ) (f g : Modes) (hf : f.WF) (hg : g.WF)
    (hL : f.ell_max ≤ L) (hs : g.s = f.s) (hgL : g.ell_max = f.ell_max)
    (hc : ∀ l m idx, |m| ≤ l → l ≤ f.ell_max → g.coef l m idx = (-1) ^ (l + f.s) * conj (f.coef l (-m) idx)) (qs : List ℍ[ℝ])
    (hne : qs ≠ []) (hq : ∀ q ∈ qs, GenericQ q) :
    ∃ v : List Slice, f.evaluate table junk ((qs.map fun q => zflip * q * xflip).map comps) = .ok v ∧
      g.evaluate table junk (qs.map comps) = .ok (v.map fun w idx => conj (w idx)) := by
  refine ⟨_, evaluate_ok ht junk hf hL (qs.map fun q => zflip * q * xflip) (by
    intro q h
    obtain ⟨p, p1, rfl⟩ := List.mem_map.mp h
    exact (hq p p1).zflip_mul.mul_xflip) (by simpa using hne), ?_⟩
  rw [evaluate_ok ht junk hg (by omega) qs hq, List.map_map, List.map_map]
  congr 1
  refine List.map_congr_left fun q _ => ?_
  funext idx
  simp only [Function.comp]
  rw [field_reflect, hs, hgL]
  unfold Spec.fieldValue
  refine sum_congr rfl fun l hl => sum_congr rfl fun m hm => ?_
  rw [mem_Icc] at hl hm
  beta_reduce
  rw [hc l m idx (abs_le.mpr hm) hl.2]

/-- **C110 (symmetric functions).** If `f(ell,-m) = (-1)^ell conj(f(ell,m))`, then the values of `f` at rotors reflected through the
equatorial plane are `(-1)^s` times the complex conjugates of the values at the rotors themselves. -/
theorem C110_symmetric {L : ℤ} {table : List ℝ} (ht : IsWignerTable L table) (junk : ℕ → ℤ × ℤ) (f : Modes) (hf : f.WF)
    (hL : f.ell_max ≤ L) (hc : ∀ l m idx, |m| ≤ l → l ≤ f.ell_max → f.coef l (-m) idx = (-1) ^ l * conj (f.coef l m idx))
    (qs : List ℍ[ℝ]) (hne : qs ≠ []) (hq : ∀ q ∈ qs, GenericQ q) :
    ∃ v : List Slice, f.evaluate table junk (qs.map comps) = .ok v ∧
      f.evaluate table junk ((qs.map fun q => zflip * q * xflip).map comps) = .ok (v.map fun w idx => (-1) ^ f.s * conj (w idx)) := by
  refine ⟨_, evaluate_ok ht junk hf hL qs hq, ?_⟩
  rw [evaluate_ok ht junk hf hL (qs.map fun q => zflip * q * xflip) (by
    intro q h
    obtain ⟨p, p1, rfl⟩ := List.mem_map.mp h
    exact (hq p p1).zflip_mul.mul_xflip) (by simpa using hne), List.map_map, List.map_map]
  congr 1
  refine List.map_congr_left fun q _ => ?_
  funext idx
  simp only [Function.comp]
  rw [← Complex.conj_conj (Spec.fieldValue _ _ _ (partA (zflip * q * xflip)) _), field_reflect]
  have n : (-1 : ℂ) ≠ 0 := by norm_num
  rw [show ((-1 : ℂ)) ^ f.s = conj ((-1) ^ f.s) by rw [map_zpow₀, map_neg, map_one], ← map_mul]
  congr 1
  unfold Spec.fieldValue
  rw [mul_sum]
  refine sum_congr rfl fun l hl => ?_
  rw [mul_sum]
  refine sum_congr rfl fun m hm => ?_
  rw [mem_Icc] at hl hm
  have e2 : (-1 : ℂ) ^ l * (-1) ^ l = 1 := by rw [← mul_zpow]; norm_num
  beta_reduce
  rw [hc l m idx (abs_le.mpr hm) hl.2, map_mul, map_zpow₀, map_neg, map_one, Complex.conj_conj, zpow_add₀ n]
  linear_combination ((-1 : ℂ) ^ f.s * f.coef l m idx * Spec.sYlm (partA q) (partB q) f.s l m) * e2

/-- The harmonics `-2Y3(-2)` at a rotor and `-2Y32` at its reflection. -/
example : ∃ (table : List ℝ) (y : ℂ), IsWignerTable 32 table ∧ apiY table (fun _ => 0) (mkQ (3/5) (4/5) 0 0) (-2) 3 (-2) = .ok [y] ∧
    apiY table (fun _ => 0) (zflip * mkQ (3/5) (4/5) 0 0 * xflip) (-2) 3 2 = .ok [-conj y] := by
  obtain ⟨t, ht⟩ := IsWignerTable.exists 32 (by norm_num)
  obtain ⟨-, -, -, y, h1, h2⟩ := C110_SWSH ht (fun _ => 0) _ generic_example.1 (-2) 3 2 (by norm_num)
  refine ⟨t, y, ht, h1, ?_⟩
  rw [h2]
  norm_num

/-- The reflection of `exModes`. -/
example : ∃ (g : Modes) (table : List ℝ) (v : List Slice), IsWignerTable 32 table ∧ g.WF ∧ g.coef 1 0 [1] = conj (exModes.coef 1 0 [1]) ∧
    exModes.evaluate table (fun _ => (0, 0)) [comps (zflip * mkQ (3/5) (4/5) 0 0 * xflip)] = .ok v ∧
    g.evaluate table (fun _ => (0, 0)) [comps (mkQ (3/5) (4/5) 0 0)] = .ok (v.map fun w idx => conj (w idx)) := by
  obtain ⟨t, ht⟩ := IsWignerTable.exists 32 (by norm_num)
  have hL : exModes.ell_max = 2 := rfl
  have hs : exModes.s = -1 := rfl
  obtain ⟨g, g1, g2, g3, g4, g5⟩ := exists_modes [2] (-1) 2 (by omega) fun l m idx => (-1) ^ (l + exModes.s) * conj (exModes.coef l (-m) idx)
  have hc : ∀ l m idx, |m| ≤ l → l ≤ exModes.ell_max → g.coef l m idx = (-1) ^ (l + exModes.s) * conj (exModes.coef l (-m) idx) := by
    intro l m idx hm hl
    by_cases k : |(-1 : ℤ)| ≤ l
    · rw [g5 l m k hm (by omega)]
    · rw [g1.low l m (by rw [g3]; omega) hm (by omega), exModes_WF.low l (-m) (by rw [hs]; omega) (by rwa [abs_neg]) hl]
      simp
  obtain ⟨v, v1, v2⟩ := C110_evaluate ht (fun _ => (0, 0)) exModes g exModes_WF g1 (by omega) g3 (by omega) hc
    [mkQ (3/5) (4/5) 0 0] (by simp) (by simpa using generic_example.1)
  refine ⟨g, t, v, ht, g1, ?_, v1, v2⟩
  rw [g5 1 0 (by norm_num) (by norm_num) (by norm_num), hs]; simp

/-- A function with the symmetry, that is not zero. -/
example : ∃ (f : Modes) (table : List ℝ) (v : List Slice), IsWignerTable 32 table ∧ f.WF ∧ f.s = -2 ∧ f.coef 2 2 [] = Complex.I ∧
    f.evaluate table (fun _ => (0, 0)) [comps (mkQ (3/5) (4/5) 0 0)] = .ok v ∧
    f.evaluate table (fun _ => (0, 0)) [comps (zflip * mkQ (3/5) (4/5) 0 0 * xflip)] = .ok (v.map fun w idx => (-1) ^ f.s * conj (w idx)) := by
  obtain ⟨t, ht⟩ := IsWignerTable.exists 32 (by norm_num)
  obtain ⟨f, g1, g2, g3, g4, g5⟩ := exists_modes [] (-2) 2 (by omega) fun _ m _ =>
    if m = 2 then Complex.I else if m = -2 then -Complex.I else 0
  have hc : ∀ l m idx, |m| ≤ l → l ≤ f.ell_max → f.coef l (-m) idx = (-1) ^ l * conj (f.coef l m idx) := by
    intro l m idx hm hl
    by_cases k : |(-2 : ℤ)| ≤ l
    · rw [g5 l m k hm (by omega), g5 l (-m) k (by rwa [abs_neg]) (by omega)]
      have : l = 2 := by norm_num at k; omega
      subst this
      by_cases k1 : m = 2
      · subst k1; norm_num
      · by_cases k2 : m = -2
        · subst k2; norm_num
        · rw [if_neg k1, if_neg k2, if_neg (by omega), if_neg (by omega)]; simp
    · rw [g1.low l m (by rw [g3]; omega) hm hl, g1.low l (-m) (by rw [g3]; omega) (by rwa [abs_neg]) hl]
      simp
  obtain ⟨v, v1, v2⟩ := C110_symmetric ht (fun _ => (0, 0)) f g1 (by omega) hc
    [mkQ (3/5) (4/5) 0 0] (by simp) (by simpa using generic_example.1)
  refine ⟨f, t, v, ht, g1, g3, ?_, v1, v2⟩
  rw [g5 2 2 (by norm_num) (by norm_num) (by norm_num)]; simp

end SF
