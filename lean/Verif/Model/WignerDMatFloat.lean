import Verif.Model.SWSHFloat

/-!
# `_Wigner_D_elements` and `_Wigner_D_matrices` in floating-point arithmetic

A second transcription of WignerD/__init__.py:391-672 in which every floating-point operation is an arbitrary function; see
`WignerDFloat.lean` and `SWSHFloat.lean`.  Negation and conjugation are exact (so `d *= -1` is `-d`, and `x - y` is `x + (-y)`);
conversions of integers to floats and the integer products are exact.
-/

set_option autoImplicit false

namespace SF

open scoped Classical in
/-- The value stored for one rotor — WignerD/__init__.py:625-672 (body of the loop over `i`).  `Prefactor2`, which the code computes
here and never uses, is omitted. -/
noncomputable def D_elements_valueF (F : FloatOpsY) (eps coefficient_a coefficient_b : ℝ) (ell mp m : ℤ) (R : ℝ × ℝ × ℝ × ℝ) :
    Py ℂ :=
  let Ra : ℂ := ⟨R.1, R.2.2.2⟩
  let ra := F.abs Ra
  let phia := F.arg Ra
  let Rb : ℂ := ⟨R.2.2.1, R.2.1⟩
  let rb := F.abs Rb
  let phib := F.arg Rb
  let rhoMin_a := max 0 (mp - m)
  let rhoMin_b := max 0 (-m - mp)
  if ra ≤ eps then
    if mp ≠ -m then .ok 0
    else if (ell + mp) % 2 = 0 then .ok (F.cpow Rb (-2 * mp))
    else .ok (-F.cpow Rb (-2 * mp))
  else if rb ≤ eps then
    if mp ≠ m then .ok 0
    else .ok (F.cpow Ra (2 * mp))
  else if ra < rb then
    let absRRatioSquared := F.div (F.mul (-ra) ra) (F.mul rb rb)
    let d := F.mul (F.mul coefficient_b (F.ipow rb (2 * ell - m - mp - 2 * rhoMin_b))) (F.ipow ra (m + mp + 2 * rhoMin_b))
    if d = 0 then .ok 0
    else do
      let Prefactor1 := rectF F.toFloatOps d (F.add (F.mul phib ((m - mp : ℤ) : ℝ)) (F.mul phia ((m + mp : ℤ) : ℝ)))
      let Sum ← hornerLoopF F.toFloatOps absRRatioSquared (ell - mp + 1) (ell - m + 1) (m + mp) (min (ell - mp) (ell - m)) rhoMin_b
      return smulF F.toFloatOps Prefactor1 Sum
  else
    let absRRatioSquared := F.div (F.mul (-rb) rb) (F.mul ra ra)
    let d := F.mul (F.mul coefficient_a (F.ipow ra (2 * ell - m + mp - 2 * rhoMin_a))) (F.ipow rb (m - mp + 2 * rhoMin_a))
    if d = 0 then .ok 0
    else do
      let Prefactor1 := rectF F.toFloatOps d (F.add (F.mul phia ((m + mp : ℤ) : ℝ)) (F.mul phib ((m - mp : ℤ) : ℝ)))
      let Sum ← hornerLoopF F.toFloatOps absRRatioSquared (ell + mp + 1) (ell - m + 1) (m - mp) (min (ell + mp) (ell - m)) rhoMin_a
      return smulF F.toFloatOps Prefactor1 Sum

/-- `_Wigner_D_elements` — WignerD/__init__.py:580-672. -/
noncomputable def Wigner_D_elements_kernelF (F : FloatOpsY) (eps : ℝ) (table : List ℝ) (Rs : List (ℝ × ℝ × ℝ × ℝ)) (ell mp m : ℤ)
    (values : List ℂ) : Py (List ℂ) :=
  let N : ℤ := Rs.length
  if |m| > ell ∨ |mp| > ell then
    forL (pyRange 0 N) values fun i values => wr values i 0
  else do
    let coefficient_a ← Wigner_coefficient table ell mp m
    let coefficient_a := if (max 0 (mp - m)) % 2 ≠ 0 then -coefficient_a else coefficient_a
    let coefficient_b ← Wigner_coefficient table ell (-mp) m
    let coefficient_b := if (ell + m + max 0 (-m - mp)) % 2 ≠ 0 then -coefficient_b else coefficient_b
    forL (pyRange 0 N) values fun i values => do
      let R ← rd Rs i
      let v ← D_elements_valueF F eps coefficient_a coefficient_b ell mp m R
      wr values i v

/-! ## `_Wigner_D_matrices` -/

/-- Zero fill and antidiagonal, branch `ra <= epsilon` — WignerD/__init__.py:425-436. -/
noncomputable def matsF_ra_small (F : FloatOpsY) (Rb : ℂ) (ell_min ell : ℤ) (matrices : List ℂ) : Py (List ℂ) := do
  let i_ell := linear_matrix_offset ell ell_min
  let matrices ← forL (pyRange 0 ((2 * ell + 1) ^ 2)) matrices fun i matrices => wr matrices (i_ell + i) 0
  forL (pyRange (-ell) (ell + 1)) matrices fun mpmm matrices =>
    let i_mpmm := linear_matrix_index ell mpmm (-mpmm)
    if (ell + mpmm) % 2 = 0 then wr matrices (i_ell + i_mpmm) (F.cpow Rb (-2 * mpmm))
    else wr matrices (i_ell + i_mpmm) (-F.cpow Rb (-2 * mpmm))

/-- Zero fill and diagonal, branch `rb <= epsilon` — WignerD/__init__.py:439-445. -/
noncomputable def matsF_rb_small (F : FloatOpsY) (Ra : ℂ) (ell_min ell : ℤ) (matrices : List ℂ) : Py (List ℂ) := do
  let i_ell := linear_matrix_offset ell ell_min
  let matrices ← forL (pyRange 0 ((2 * ell + 1) ^ 2)) matrices fun i matrices => wr matrices (i_ell + i) 0
  forL (pyRange (-ell) (ell + 1)) matrices fun mpm matrices =>
    let i_mpm := linear_matrix_diagonal_index ell mpm
    wr matrices (i_ell + i_mpm) (F.cpow Ra (2 * mpm))

/-- The stores of an element and its mirror images — WignerD/__init__.py:492-513, 551-572 (same text in both branches). -/
noncomputable def matsF_store (F : FloatOpsY) (i_ell ell mp m : ℤ) (Prefactor1 Prefactor2 : ℂ) (Sum : ℝ) (matrices : List ℂ) :
    Py (List ℂ) := do
  let matrices ← wr matrices (i_ell + linear_matrix_index ell mp m) (smulF F.toFloatOps Prefactor1 Sum)
  if |m| ≠ |mp| then do
    let matrices ← if (m + mp) % 2 = 0 then do
        let matrices ← wr matrices (i_ell + linear_matrix_index ell (-mp) (-m))
          (smulF F.toFloatOps ((starRingEnd ℂ) Prefactor1) Sum)
        wr matrices (i_ell + linear_matrix_index ell (-m) (-mp)) (smulF F.toFloatOps Prefactor2 Sum)
      else do
        let matrices ← wr matrices (i_ell + linear_matrix_index ell (-mp) (-m))
          (smulF F.toFloatOps (-(starRingEnd ℂ) Prefactor1) Sum)
        wr matrices (i_ell + linear_matrix_index ell (-m) (-mp)) (smulF F.toFloatOps (-Prefactor2) Sum)
    wr matrices (i_ell + linear_matrix_index ell m mp) (smulF F.toFloatOps ((starRingEnd ℂ) Prefactor2) Sum)
  else if m ≠ 0 then
    if (m + mp) % 2 = 0 then
      wr matrices (i_ell + linear_matrix_index ell (-mp) (-m)) (smulF F.toFloatOps ((starRingEnd ℂ) Prefactor1) Sum)
    else
      wr matrices (i_ell + linear_matrix_index ell (-mp) (-m)) (smulF F.toFloatOps (-(starRingEnd ℂ) Prefactor1) Sum)
  else return matrices

open scoped Classical in
/-- Body of the loops over `mp`, `m` in the branch `ra < rb` — WignerD/__init__.py:454-513. -/
noncomputable def matsF_ra_lt_rb (F : FloatOpsY) (table : List ℝ) (ra phia rb phib : ℝ) (ell_min ell mp m : ℤ)
    (matrices : List ℂ) : Py (List ℂ) := do
  let absRRatioSquared := F.div (F.mul (-ra) ra) (F.mul rb rb)
  let i_ell := linear_matrix_offset ell ell_min
  let rhoMin := max 0 (-mp - m)
  let c ← Wigner_coefficient table ell (-mp) m
  let d := F.mul (F.mul c (F.ipow rb (2 * ell - m - mp - 2 * rhoMin))) (F.ipow ra (m + mp + 2 * rhoMin))
  if d = 0 then mats_store_zero i_ell ell mp m matrices
  else do
    let d := if (ell + m + rhoMin) % 2 ≠ 0 then -d else d
    let Prefactor1 := rectF F.toFloatOps d (F.add (F.mul phib ((m - mp : ℤ) : ℝ)) (F.mul phia ((m + mp : ℤ) : ℝ)))
    let Prefactor2 := rectF F.toFloatOps d
      (F.add (F.mul (F.add phib F.pi) ((m - mp : ℤ) : ℝ)) (-F.mul phia ((m + mp : ℤ) : ℝ)))
    let rhoMax := min (ell - mp) (ell - m)
    let Sum ← hornerLoopF F.toFloatOps absRRatioSquared (ell - mp + 1) (ell - m + 1) (m + mp) rhoMax rhoMin
    matsF_store F i_ell ell mp m Prefactor1 Prefactor2 Sum matrices

open scoped Classical in
/-- Body of the loops over `mp`, `m` in the branch `ra >= rb` — WignerD/__init__.py:515-577. -/
noncomputable def matsF_ra_ge_rb (F : FloatOpsY) (table : List ℝ) (ra phia rb phib : ℝ) (ell_min ell mp m : ℤ)
    (matrices : List ℂ) : Py (List ℂ) := do
  let absRRatioSquared := F.div (F.mul (-rb) rb) (F.mul ra ra)
  let i_ell := linear_matrix_offset ell ell_min
  let rhoMin := max 0 (mp - m)
  let c ← Wigner_coefficient table ell mp m
  let d := F.mul (F.mul c (F.ipow ra (2 * ell - m + mp - 2 * rhoMin))) (F.ipow rb (m - mp + 2 * rhoMin))
  if d = 0 then mats_store_zero i_ell ell mp m matrices
  else do
    let d := if rhoMin % 2 ≠ 0 then -d else d
    let Prefactor1 := rectF F.toFloatOps d (F.add (F.mul phia ((m + mp : ℤ) : ℝ)) (F.mul phib ((m - mp : ℤ) : ℝ)))
    let Prefactor2 := rectF F.toFloatOps d
      (F.add (F.mul (-phia) ((m + mp : ℤ) : ℝ)) (F.mul (F.add phib F.pi) ((m - mp : ℤ) : ℝ)))
    let rhoMax := min (ell + mp) (ell - m)
    let Sum ← hornerLoopF F.toFloatOps absRRatioSquared (ell + mp + 1) (ell - m + 1) (m - mp) rhoMax rhoMin
    matsF_store F i_ell ell mp m Prefactor1 Prefactor2 Sum matrices

open scoped Classical in
/-- `_Wigner_D_matrices` — WignerD/__init__.py:391-577. -/
noncomputable def Wigner_D_matrices_kernelF (F : FloatOpsY) (eps : ℝ) (table : List ℝ) (Ra Rb : ℂ) (ell_min ell_max : ℤ)
    (matrices : List ℂ) : Py (List ℂ) :=
  let ra := F.abs Ra
  let phia := F.arg Ra
  let rb := F.abs Rb
  let phib := F.arg Rb
  if ra ≤ eps then
    forL (pyRange ell_min (ell_max + 1)) matrices fun ell matrices => matsF_ra_small F Rb ell_min ell matrices
  else if rb ≤ eps then
    forL (pyRange ell_min (ell_max + 1)) matrices fun ell matrices => matsF_rb_small F Ra ell_min ell matrices
  else if ra < rb then
    forL (pyRange ell_min (ell_max + 1)) matrices fun ell matrices =>
      forL (pyRange (-ell) 1) matrices fun mp matrices =>
        forL (pyRange mp (-mp + 1)) matrices fun m matrices =>
          matsF_ra_lt_rb F table ra phia rb phib ell_min ell mp m matrices
  else
    forL (pyRange ell_min (ell_max + 1)) matrices fun ell matrices =>
      forL (pyRange (-ell) 1) matrices fun mp matrices =>
        forL (pyRange mp (-mp + 1)) matrices fun m matrices =>
          matsF_ra_ge_rb F table ra phia rb phib ell_min ell mp m matrices

end SF
