import Verif.Props.Image
import Verif.Props.Conversions

/-!
# C109: values at antipodal directions
-/

set_option autoImplicit false

namespace SF

open Finset ComplexConjugate Quaternion

/-- The rotation by `π` about the `x` axis: `q * xflip` takes the `z` axis to the direction opposite to that of `q`. -/
def xflip : ℍ[ℝ] := mkQ 0 1 0 0

theorem direction_xflip (q : ℍ[ℝ]) : direction (q * xflip) = -direction q := by
  unfold direction xflip
  ext <;> simp <;> ring

theorem partA_xflip : partA xflip = 0 := by apply Complex.ext <;> simp [partA, xflip]
theorem partB_xflip : partB xflip = Complex.I := by apply Complex.ext <;> simp [partB, xflip]

theorem GenericQ.mul_xflip {q : ℍ[ℝ]} (hq : GenericQ q) : GenericQ (q * xflip) := by
  obtain ⟨h1, h2, h3⟩ := hq
  have eA : partA (q * xflip) = -conj (partB q) * Complex.I := by rw [partA_mul, partA_xflip, partB_xflip]; ring
  have eB : partB (q * xflip) = conj (partA q) * Complex.I := by rw [partB_mul, partA_xflip, partB_xflip]; ring
  have hx : normSq xflip = 1 := by rw [normSq_def']; simp [xflip]
  refine ⟨unitQ.mpr (by rw [map_mul, unitQ.mp h1, hx, one_mul]), ?_, ?_⟩
  · rw [eA, norm_mul, Complex.norm_I, mul_one, norm_neg, Complex.norm_conj]
    refine h3.imp (fun h => by rw [h]; simp) id
  · rw [eB, norm_mul, Complex.norm_I, mul_one, Complex.norm_conj]
    refine h2.imp (fun h => by rw [h]; simp) id

/-- The closed form. -/
theorem sYlm_xflip (q : ℍ[ℝ]) (s ell m : ℤ) :
    Spec.sYlm (partA (q * xflip)) (partB (q * xflip)) s ell m = (-1) ^ ell * Spec.sYlm (partA q) (partB q) (-s) ell m := by
  unfold Spec.sYlm
  rw [abs_neg]
  split_ifs with h
  swap
  · rw [mul_zero]
  obtain ⟨hm, hs⟩ := h
  have h0 := (abs_nonneg _).trans hs
  obtain ⟨l, rfl⟩ : ∃ l : ℕ, ell = l := ⟨ell.toNat, by omega⟩
  have hs' := abs_le.mp hs
  have hm' := abs_le.mp hm
  have hv : Spec.ValidD (2 * l : ℕ) (2 * m) (-2 * s) := ⟨by rw [abs_le]; push_cast; omega, by rw [abs_le]; push_cast; omega, by push_cast; omega, by push_cast; omega⟩
  have hI : Complex.normSq Complex.I = 1 := by simp
  have e : Spec.wignerD (partA (q * xflip)) (partB (q * xflip)) (2 * l : ℕ) (2 * m) (-2 * s)
      = Spec.wignerD (partA q) (partB q) (2 * l : ℕ) (2 * m) (2 * s) * (-1) ^ (l : ℤ) := by
    rw [← C12_closed_form _ _ _ _ _ hv, sum_eq_single (l + s).toNat]
    · have i : (2 * ((l + s).toNat : ℤ) - (2 * l : ℕ)) = 2 * s := by push_cast; omega
      rw [i]
      congr 1
      have := wD_ra_zero (Rb := Complex.I) hI (ell := l) (mp := s) (m := -s) hs (by rwa [abs_neg])
      rw [partA_xflip, partB_xflip]
      push_cast
      rw [show (-2 * s : ℤ) = 2 * -s by ring, this, if_pos (neg_neg s).symm]
      have hI2 : Complex.I ^ (-2 * s) = (-1) ^ s := by
        rw [show -2 * s = 2 * -s by ring, zpow_mul, show Complex.I ^ (2 : ℤ) = -1 by exact_mod_cast Complex.I_sq, zpow_neg, ← inv_zpow]
        norm_num
      rw [hI2]
      rcases Int.even_or_odd s with k1 | k1 <;> rcases Int.even_or_odd (l : ℤ) with k2 | k2 <;> rw [k1.neg_one_zpow, k2.neg_one_zpow]
      · rw [if_pos (by rw [Int.even_iff] at k1 k2; omega)]; ring
      · rw [if_neg (by rw [Int.even_iff] at k1; rw [Int.odd_iff] at k2; omega)]; ring
      · rw [if_neg (by rw [Int.even_iff] at k2; rw [Int.odd_iff] at k1; omega)]; ring
      · rw [if_pos (by rw [Int.odd_iff] at k1 k2; omega)]; ring
    · intro k hk hne
      rw [mem_range] at hk
      have := wD_ra_zero (Rb := Complex.I) hI (ell := l) (mp := (k : ℤ) - l) (m := -s) (by rw [abs_le]; omega) (by rwa [abs_neg])
      rw [partA_xflip, partB_xflip, show (2 * (k : ℤ) - (2 * l : ℕ)) = 2 * ((k : ℤ) - l) by push_cast; ring,
        show (-2 * s : ℤ) = 2 * -s by ring, show (((2 * l : ℕ) : ℤ)) = 2 * (l : ℤ) by push_cast; ring, this, if_neg (by omega), mul_zero]
    · intro h; rw [mem_range] at h; omega
  push_cast at e
  rw [e, show (-2 * -s : ℤ) = 2 * s by ring, zpow_neg, ← inv_zpow, show ((-1 : ℂ))⁻¹ = -1 by norm_num]
  ring

/-- **C109 (harmonics).** `sYlm` at the rotor `q * x`, which points in the direction opposite to that of `q`, is `(-1)^ell` times
`(-s)Ylm` at `q`. -/
theorem C109_SWSH {L : ℤ} {table : List ℝ} (ht : IsWignerTable L table) (junk : ℕ → ℂ) (q : ℍ[ℝ]) (hq : GenericQ q) (s ell m : ℤ)
    (hl : ell ≤ L) : direction (q * xflip) = -direction q ∧
    ∃ y, apiY table junk q (-s) ell m = .ok [y] ∧ apiY table junk (q * xflip) s ell m = .ok [(-1) ^ ell * y] := by
  refine ⟨direction_xflip q, _, apiY_eq ht junk hq hl, ?_⟩
  rw [apiY_eq ht junk hq.mul_xflip hl, sYlm_xflip]

/-- **C109 (functions).** If `g` has the opposite spin weight and `(-1)^ell` times the modes of `f`, then the values of `g` at rotors are
those of `f` at the rotors that point in the opposite directions. -/
theorem C109_evaluate {L : ℤ} {table : List ℝ} (ht : IsWignerTable L table) (junk : ℕ → ℤ × ℤ) (f g : Modes) (hf : f.WF) (hg : g.WF)
    (hL : f.ell_max ≤ L) (hs : g.s = -f.s) (hgL : g.ell_max = f.ell_max)
    (hc : ∀ l m idx, |m| ≤ l → l ≤ f.ell_max → g.coef l m idx = (-1) ^ l * f.coef l m idx) (qs : List ℍ[ℝ]) (hne : qs ≠ [])
    (hq : ∀ q ∈ qs, GenericQ q) :
    g.evaluate table junk (qs.map comps) = f.evaluate table junk ((qs.map fun q => q * xflip).map comps) := by
  rw [evaluate_ok ht junk hg (by omega) qs hq, evaluate_ok ht junk hf hL (qs.map fun q => q * xflip) (by
    intro q h
    obtain ⟨p, p1, rfl⟩ := List.mem_map.mp h
    exact (hq p p1).mul_xflip) (by simpa using hne), List.map_map]
  congr 1
  refine List.map_congr_left fun q _ => ?_
  funext idx
  simp only [Function.comp]
  unfold Spec.fieldValue
  rw [hs, hgL, abs_neg]
  refine sum_congr rfl fun l hl => sum_congr rfl fun m hm => ?_
  rw [mem_Icc] at hl hm
  beta_reduce
  rw [sYlm_xflip, hc l m idx (abs_le.mpr hm) hl.2]
  ring

/-- `exModes` and its reflection. -/
example : ∃ (g : Modes) (table : List ℝ), IsWignerTable 32 table ∧ g.WF ∧ g.s = 1 ∧ g.coef 1 0 [1] = -exModes.coef 1 0 [1] ∧
    g.evaluate table (fun _ => (0, 0)) [comps (mkQ (3/5) (4/5) 0 0)]
      = exModes.evaluate table (fun _ => (0, 0)) [comps (mkQ (3/5) (4/5) 0 0 * xflip)] := by
  obtain ⟨t, ht⟩ := IsWignerTable.exists 32 (by norm_num)
  have hL : exModes.ell_max = 2 := rfl
  obtain ⟨g, g1, g2, g3, g4, g5⟩ := exists_modes [2] 1 2 (by omega) fun l m idx => (-1) ^ l * exModes.coef l m idx
  refine ⟨g, t, ht, g1, g3, ?_, ?_⟩
  · rw [g5 1 0 (by norm_num) (by norm_num) (by norm_num)]; simp
  · refine C109_evaluate ht _ exModes g exModes_WF g1 (by omega) g3 (by omega) (fun l m idx hm hl => ?_) [mkQ (3/5) (4/5) 0 0] (by simp)
      (by simpa using generic_example.1)
    by_cases k : |(1 : ℤ)| ≤ l
    · rw [g5 l m k hm (by omega)]
    · rw [g1.low l m (by rw [g3]; omega) hm (by omega), exModes_WF.low l m (by rw [show exModes.s = -1 from rfl, abs_neg]; omega) hm hl]
      simp

/-- The harmonic `2Y32` at two opposite rotors. -/
example : ∃ (table : List ℝ) (y : ℂ), IsWignerTable 32 table ∧ apiY table (fun _ => 0) (mkQ (3/5) (4/5) 0 0) (-2) 3 2 = .ok [y] ∧
    apiY table (fun _ => 0) (mkQ (3/5) (4/5) 0 0 * xflip) 2 3 2 = .ok [-y] := by
  obtain ⟨t, ht⟩ := IsWignerTable.exists 32 (by norm_num)
  obtain ⟨-, y, h1, h2⟩ := C109_SWSH ht (fun _ => 0) _ generic_example.1 2 3 2 (by norm_num)
  refine ⟨t, y, ht, h1, ?_⟩
  rw [h2]
  norm_num [show ((-1 : ℂ)) ^ (3 : ℤ) = -1 by norm_num [zpow_ofNat]]

end SF
