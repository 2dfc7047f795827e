import Verif.Props.Representation
import Verif.Props.Recursions
import Verif.Props.WignerH

/-!
# Property C67: the two implementations of Wigner's D function agree

`quaternion_angles`, `complex_powers` and `HCalculator` of the subpackage `recursions` are the ingredients of a second
algorithm for the D functions, described in the docstring of `recursions.rotate`:
`D_{n,m}(R) = d_{n,m}(β) exp(iϕₐ(m-n) + iϕₛ(m+n))` with `d_{n,m} = eps(n) eps(-m) H_{n,m}`.  Put together in this way they
reproduce the values of `Wigner_D_element`.
-/

set_option autoImplicit false

namespace SF

open ComplexConjugate Quaternion

theorem unit_eq_exp {z : ℂ} (h : ‖z‖ = 1) : z = Complex.exp (Complex.I * (Complex.arg z : ℂ)) := by
  have := Complex.norm_mul_exp_arg_mul_I z
  rw [h, Complex.ofReal_one, one_mul, mul_comm] at this
  exact this.symm

/-- The phases of the two complex parts can be taken out of the D function. -/
theorem wignerD_phase (β : ℝ) {u v : ℂ} (hu : ‖u‖ = 1) (hv : ‖v‖ = 1) {ell mp m : ℤ} (h1 : |mp| ≤ ell) (h2 : |m| ≤ ell) :
    Spec.wignerD (Real.cos (β / 2) * u) (Real.sin (β / 2) * conj v) (2 * ell) (2 * mp) (2 * m)
      = Spec.wignerd β ell mp m * u ^ (mp + m) * v ^ (mp - m) := by
  obtain ⟨p', q', p, q, hsum, ha, hb, hc⟩ := valid_pq (validD_int h1 h2)
  unfold Spec.wignerd
  rw [wignerD_pq _ _ hsum ha hb hc, wignerD_pq _ _ hsum ha hb hc]
  have := euler_form (Complex.arg u + Complex.arg v) β (Complex.arg u - Complex.arg v) hsum
  have e1 : Complex.exp (Complex.I * ((((Complex.arg u + Complex.arg v : ℝ) : ℂ) + ((Complex.arg u - Complex.arg v : ℝ) : ℂ)) / 2)) = u := by
    conv_rhs => rw [unit_eq_exp hu]
    congr 1; push_cast; ring
  have e2 : Complex.exp (Complex.I * ((((Complex.arg u - Complex.arg v : ℝ) : ℂ) - ((Complex.arg u + Complex.arg v : ℝ) : ℂ)) / 2)) = conj v := by
    conv_rhs => rw [unit_eq_exp hv, ← Complex.exp_conj]
    congr 1; rw [map_mul, Complex.conj_I, Complex.conj_ofReal]; push_cast; ring
  rw [e1, e2] at this
  rw [this]
  have k1 : ((p' : ℂ) - q') / 2 = mp := by
    have : ((2 * mp : ℤ) : ℂ) = ((p' - q' : ℤ) : ℂ) := by rw [hb]
    push_cast at this; linear_combination -this / 2
  have k2 : ((p : ℂ) - q) / 2 = m := by
    have : ((2 * m : ℤ) : ℂ) = ((p - q : ℤ) : ℂ) := by rw [hc]
    push_cast at this; linear_combination -this / 2
  rw [k1, k2]
  have e3 : u ^ (mp + m) * v ^ (mp - m) = Complex.exp (Complex.I * mp * ((Complex.arg u + Complex.arg v : ℝ) : ℂ))
      * Complex.exp (Complex.I * m * ((Complex.arg u - Complex.arg v : ℝ) : ℂ)) := by
    conv_lhs => rw [unit_eq_exp hu, unit_eq_exp hv]
    rw [← Complex.exp_int_mul, ← Complex.exp_int_mul, ← Complex.exp_add, ← Complex.exp_add]
    congr 1; push_cast; ring
  linear_combination (-(Spec.Dpq (Real.cos (β / 2)) (Real.sin (β / 2)) p' q' p q)) * e3

/-- The rotor is outside the closed epsilon-neighbourhoods of the two singular sets. -/
def AwayFromPoles (q : ℍ[ℝ]) : Prop := normSq q = 1 ∧ epsilon < ‖partA q‖ ∧ epsilon < ‖partB q‖

/-- **C67.** For every list of unit rotors away from the poles: `quaternion_angles` succeeds on each; the calculator of `H`, made for any
`n_max ≥ 1` and called with the real and imaginary parts of the `zβ`, succeeds; and for each rotor and all `ell ≤ n_max`, `m'`, `m`
the value of `Wigner_D_element` is `eps(m') eps(-m) H zp^(m'+m) zm^(m'-m)`. -/
theorem C67_recursions_agree {L : ℤ} {table : List ℝ} (ht : IsWignerTable L table) (junk : ℕ → ℂ) (junkH : ℤ → ℝ) (n_max : ℤ)
    (h1 : 1 ≤ n_max) (hL : n_max ≤ L) (qs : List ℍ[ℝ]) (hne : qs ≠ []) (hq : ∀ q ∈ qs, AwayFromPoles q) :
    ∃ zs : List (ℂ × ℂ × ℂ), (qs.mapM fun q => quaternion_angles (q.re, q.imI, q.imJ, q.imK)) = .ok zs ∧
    ∃ C ws' H, HCoef.make junkH n_max = .ok C ∧
      HCalculator_call C ⟨[zs.length], zs.map fun z => z.1.re, some ([zs.length], zs.map fun z => z.1.im)⟩ none = .ok (ws', H) ∧
      ∀ ell mp m, Spec.IsTriple 0 n_max (ell, mp, m) →
      ∃ row, H[(wedge_index (wedgeify_index ell mp m).1 (wedgeify_index ell mp m).2.1 (wedgeify_index ell mp m).2.2).toNat]? = some row ∧
        ∀ (j : Fin (zs.map fun z => z.1.re).length) (q : ℍ[ℝ]) (zb zp zm : ℂ), qs[(j : ℕ)]? = some q → zs[(j : ℕ)]? = some (zb, zp, zm) →
          apiD table L junk q (2 * ell) (2 * mp) (2 * m)
            = .ok (.scalar ((Spec.eps mp * Spec.eps (-m) : ℤ) * (row j : ℂ) * zp ^ (mp + m) * zm ^ (mp - m))) := by
  have heps : (0 : ℝ) < epsilon := by unfold epsilon; positivity
  -- the angles of one rotor
  have one : ∀ q, AwayFromPoles q → ∃ zb zp zm, quaternion_angles (q.re, q.imI, q.imJ, q.imK) = .ok (zb, zp, zm) ∧
      ‖zp‖ = 1 ∧ ‖zm‖ = 1 ∧ zb.re = Real.cos (Real.arccos zb.re) ∧ zb.im = Real.sin (Real.arccos zb.re) ∧
      partA q = Real.cos (Real.arccos zb.re / 2) * zp ∧ partB q = Real.sin (Real.arccos zb.re / 2) * conj zm := by
    rintro q ⟨hu, ha, hb⟩
    have hu' : q.re ^ 2 + q.imI ^ 2 + q.imJ ^ 2 + q.imK ^ 2 = 1 := by rw [normSq_def'] at hu; exact hu
    obtain ⟨zb, zp, zm, e, n1, n2, n3, hi, ea, eb⟩ := C55_quaternion_angles q.re q.imI q.imJ q.imK hu'
      (by
        intro hc
        have h0 : ‖partA q‖ ^ 2 = 0 := by rw [← Complex.normSq_eq_norm_sq, Complex.normSq_apply]; simp only [partA]; linarith
        have := pow_eq_zero_iff (two_ne_zero) |>.1 h0
        linarith)
      (by
        intro hc
        have h0 : ‖partB q‖ ^ 2 = 0 := by rw [← Complex.normSq_eq_norm_sq, Complex.normSq_apply]; simp only [partB]; linarith
        have := pow_eq_zero_iff (two_ne_zero) |>.1 h0
        linarith)
    have hre := Complex.abs_re_le_norm zb
    rw [n1, abs_le] at hre
    have hcos := Real.cos_arccos hre.1 hre.2
    have hsq : zb.re ^ 2 + zb.im ^ 2 = 1 := by
      have := Complex.normSq_apply zb
      rw [Complex.normSq_eq_norm_sq, n1] at this
      linarith
    refine ⟨zb, zp, zm, e, n2, n3, hcos.symm, ?_, ?_, ?_⟩
    · rw [Real.sin_arccos, ← Real.sqrt_sq hi]; congr 1; linarith
    · rw [Real.cos_half (by linarith [Real.arccos_nonneg zb.re, Real.pi_pos]) (Real.arccos_le_pi _), hcos, ← ea]
      apply Complex.ext <;> simp [partA]
    · rw [Real.sin_half_eq_sqrt (Real.arccos_nonneg _) (by linarith [Real.arccos_le_pi zb.re, Real.pi_pos]), hcos]
      have := congrArg conj eb
      rw [map_mul, Complex.conj_ofReal] at this
      rw [← this]
      apply Complex.ext <;> simp [partB]
  -- all rotors
  have all : ∀ l : List ℍ[ℝ], (∀ q ∈ l, AwayFromPoles q) → ∃ zs : List (ℂ × ℂ × ℂ),
      (l.mapM fun q => quaternion_angles (q.re, q.imI, q.imJ, q.imK)) = .ok zs ∧
      List.Forall₂ (fun q z => ‖z.2.1‖ = 1 ∧ ‖z.2.2‖ = 1 ∧ z.1.re = Real.cos (Real.arccos z.1.re) ∧
        z.1.im = Real.sin (Real.arccos z.1.re) ∧ partA q = Real.cos (Real.arccos z.1.re / 2) * z.2.1 ∧
        partB q = Real.sin (Real.arccos z.1.re / 2) * conj z.2.2) l zs := by
    intro l
    induction l with
    | nil => exact fun _ => ⟨[], rfl, .nil⟩
    | cons q l ih =>
      intro h
      obtain ⟨zb, zp, zm, e, hz⟩ := one q (h q (by simp))
      obtain ⟨zs, e', hzs⟩ := ih fun x hx => h x (by simp [hx])
      refine ⟨(zb, zp, zm) :: zs, ?_, .cons hz hzs⟩
      rw [List.mapM_cons, e, bind_ok, e', bind_ok]; rfl
  obtain ⟨zs, ez, hz⟩ := all qs hq
  have hlen := hz.length_eq
  refine ⟨zs, ez, ?_⟩
  have hC : ∃ C, HCoef.make junkH n_max = .ok C := by unfold HCoef.make; rw [if_neg (by omega)]; exact ⟨_, rfl⟩
  obtain ⟨C, hC⟩ := hC
  have hget : ∀ j : Fin (zs.map fun z => z.1.re).length, (j : ℕ) < zs.length := fun j => by simpa using j.2
  obtain ⟨ws', H, e, hv⟩ := C59_H_values junkH n_max h1 C hC
    ⟨[zs.length], zs.map fun z => z.1.re, some ([zs.length], zs.map fun z => z.1.im)⟩
    (fun j => Real.arccos (zs[(j : ℕ)]'(hget j)).1.re) (by
      refine ⟨?_, ?_, rfl, ?_⟩
      · intro hc
        rw [List.map_eq_nil_iff] at hc
        rw [hc, List.length_nil, List.length_eq_zero_iff] at hlen
        exact hne hlen
      · intro j
        have hj := hget j
        have := (List.forall₂_iff_get.1 hz).2 j (by omega) hj
        simp only [List.get_eq_getElem] at this
        simp only [Fin.getElem_fin, List.getElem_map]
        exact this.2.2.1
      · intro j
        have hj := hget j
        have := (List.forall₂_iff_get.1 hz).2 j (by omega) hj
        simp only [List.get_eq_getElem] at this
        rw [List.getElem?_map, List.getElem?_eq_getElem hj, Option.map_some]
        exact congrArg some this.2.2.2.1) none (fun l hl => by cases hl)
  refine ⟨C, ws', H, hC, e, fun ell mp m htr => ?_⟩
  obtain ⟨row, er, hr⟩ := hv ell mp m htr
  refine ⟨row, er, fun j q zb zp zm hqj hzj => ?_⟩
  have hj := hget j
  have hjq : (j : ℕ) < qs.length := by omega
  rw [List.getElem?_eq_getElem hj] at hzj
  rw [List.getElem?_eq_getElem hjq] at hqj
  have hf := (List.forall₂_iff_get.1 hz).2 j hjq hj
  simp only [List.get_eq_getElem] at hf
  have hrj := hr j
  simp only at hrj
  rw [Option.some.inj hzj] at hf hrj
  rw [Option.some.inj hqj] at hf
  obtain ⟨n1, n2, -, -, ea, eb⟩ := hf
  simp only at n1 n2 ea eb
  obtain ⟨ho1, ho2, ho3⟩ := hq q (by rw [← Option.some.inj hqj]; exact List.getElem_mem hjq)
  obtain ⟨-, t2, t3, t4⟩ := htr
  rw [apiD_eq ht junk (q := q) ⟨unitQ.2 ho1, Or.inr ho2, Or.inr ho3⟩ (validD_int t3 t4) (by simp only at t2; omega), ea, eb,
    wignerD_phase _ n1 n2 t3 t4, hrj]

/-- **C67.** The integer powers of the phases — negative ones too — can be read from the arrays made by `complex_powers`. -/
theorem C67_powers (fuel : ℕ) (hf : 4 ≤ fuel) (junk : ℕ → ℕ → ℂ) (zs : List ℂ) (hz : ∀ z ∈ zs, ‖z‖ = 1) (M : ℕ) (hM : 1 ≤ M) :
    ∃ vals, complex_powers fuel junk [zs.length] zs M none = .ok ([zs.length, M + 1], vals) ∧
      ∀ (i : ℕ) (z : ℂ) (k : ℤ), zs[i]? = some z → |k| ≤ M →
        ∃ v, vals[i * (M + 1) + k.natAbs]? = some v ∧ z ^ k = if 0 ≤ k then v else conj v := by
  obtain ⟨vals, e, -, hv⟩ := C51_complex_powers fuel hf junk [zs.length] zs (by simp) hz M hM none trivial
  refine ⟨vals, e, fun i z k hi hk => ⟨_, hv i k.natAbs z hi (by rw [abs_le] at hk; omega), ?_⟩⟩
  have hz1 : ‖z‖ = 1 := hz z (List.mem_of_getElem? hi)
  split
  · rename_i h
    obtain ⟨n, rfl⟩ := Int.eq_ofNat_of_zero_le h
    simp
  · rename_i h
    obtain ⟨n, hn⟩ := Int.eq_ofNat_of_zero_le (show 0 ≤ -k by omega)
    obtain rfl : k = -(n : ℤ) := by omega
    rw [zpow_neg, zpow_natCast, Int.natAbs_neg, Int.natAbs_natCast, Complex.inv_def, Complex.normSq_eq_norm_sq, norm_pow, hz1]
    simp

/-- Concrete instance: the rotor `3/5 + 4/5 i`. -/
example : AwayFromPoles (mkQ (3/5) (4/5) 0 0) := by
  have h1 : ‖partA (mkQ (3/5) (4/5) 0 0)‖ = 3 / 5 := by
    have : partA (mkQ (3/5) (4/5) 0 0) = ((3 / 5 : ℝ) : ℂ) := by apply Complex.ext <;> simp [partA]
    rw [this, Complex.norm_real]; norm_num
  have h2 : ‖partB (mkQ (3/5) (4/5) 0 0)‖ = 4 / 5 := by
    have : partB (mkQ (3/5) (4/5) 0 0) = ((4 / 5 : ℝ) : ℂ) * Complex.I := by apply Complex.ext <;> simp [partB]
    rw [this, norm_mul, Complex.norm_I, Complex.norm_real]; norm_num
  refine ⟨?_, ?_, ?_⟩
  · rw [normSq_def']; simp; norm_num
  · rw [h1]; unfold epsilon; norm_num
  · rw [h2]; unfold epsilon; norm_num

end SF
