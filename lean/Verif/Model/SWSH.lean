import Verif.Model.WignerD
import Verif.Model.WignerDApi
import Mathlib.Analysis.Real.Pi.Bounds

/-!
# Model of the spin-weighted spherical harmonics (`SWSH/__init__.py`)
-/

set_option autoImplicit false

namespace SF

/-- `math.sqrt((2 * ell + 1) / (4 * np.pi))`. -/
noncomputable def swshConst (ell : ℤ) : ℝ := Real.sqrt (((2 * ell + 1 : ℤ) : ℝ) / (4 * Real.pi))

/-- Value stored by `_SWSH` in the branch `ra <= epsilon` — SWSH/__init__.py:130-137. -/
noncomputable def swsh_ra_small (Rb : ℂ) (s ell m : ℤ) : Py ℂ :=
  if m ≠ s ∨ |m| > ell ∨ |s| > ell then .ok 0
  else if ell % 2 = 0 then do return (swshConst ell : ℂ) * (← cpowInt Rb (-2 * s))
  else do return -(swshConst ell : ℂ) * (← cpowInt Rb (-2 * s))

/-- Value stored by `_SWSH` in the branch `rb <= epsilon` — SWSH/__init__.py:141-148. -/
noncomputable def swsh_rb_small (Ra : ℂ) (s ell m : ℤ) : Py ℂ :=
  if m ≠ -s ∨ |m| > ell ∨ |s| > ell then .ok 0
  else if s % 2 = 0 then do return (swshConst ell : ℂ) * (← cpowInt Ra (-2 * s))
  else do return -(swshConst ell : ℂ) * (← cpowInt Ra (-2 * s))

open scoped Classical in
/-- Value stored by `_SWSH` in the branch `ra < rb` — SWSH/__init__.py:153-189. -/
noncomputable def swsh_ra_lt_rb (table : List ℝ) (ra phia rb phib : ℝ) (s ell m : ℤ) : Py ℂ :=
  let absRRatioSquared := -ra * ra / (rb * rb)
  if |m| > ell ∨ |s| > ell then .ok 0
  else do
    let rhoMin := max 0 (-m + s)
    let c ← Wigner_coefficient table ell (-m) (-s)
    let Prefactor := rect (c * rb ^ (2 * ell + s - m - 2 * rhoMin) * ra ^ (-s + m + 2 * rhoMin))
      (phib * ((-s - m : ℤ) : ℝ) + phia * ((-s + m : ℤ) : ℝ))
    if Prefactor = 0 then .ok 0
    else do
      let Prefactor := if (ell + rhoMin) % 2 ≠ 0 then Prefactor * (-1) else Prefactor
      let rhoMax := min (ell - m) (ell + s)
      let Sum ← hornerLoop absRRatioSquared (ell - m + 1) (ell + s + 1) (-s + m) rhoMax rhoMin
      return (swshConst ell : ℂ) * Prefactor * (Sum : ℂ)

open scoped Classical in
/-- Value stored by `_SWSH` in the branch `ra >= rb` — SWSH/__init__.py:194-230. -/
noncomputable def swsh_ra_ge_rb (table : List ℝ) (ra phia rb phib : ℝ) (s ell m : ℤ) : Py ℂ :=
  let absRRatioSquared := -rb * rb / (ra * ra)
  if |m| > ell ∨ |s| > ell then .ok 0
  else do
    let rhoMin := max 0 (m + s)
    let c ← Wigner_coefficient table ell m (-s)
    let Prefactor := rect (c * ra ^ (2 * ell + s + m - 2 * rhoMin) * rb ^ (-s - m + 2 * rhoMin))
      (phia * ((-s + m : ℤ) : ℝ) + phib * ((-s - m : ℤ) : ℝ))
    if Prefactor = 0 then .ok 0
    else do
      let Prefactor := if (rhoMin + s) % 2 ≠ 0 then Prefactor * (-1) else Prefactor
      let rhoMax := min (ell + m) (ell + s)
      let Sum ← hornerLoop absRRatioSquared (ell + m + 1) (ell + s + 1) (-s - m) rhoMax rhoMin
      return (swshConst ell : ℂ) * Prefactor * (Sum : ℂ)

open scoped Classical in
/-- `_SWSH` — SWSH/__init__.py:90-230. -/
noncomputable def SWSH_kernel (table : List ℝ) (Ra Rb : ℂ) (s : ℤ) (indices : List (ℤ × ℤ)) (values : List ℂ) :
    Py (List ℂ) :=
  let ra := ‖Ra‖
  let phia := Complex.arg Ra
  let rb := ‖Rb‖
  let phib := Complex.arg Rb
  let N : ℤ := indices.length
  if ra ≤ epsilon then
    forL (pyRange 0 N) values fun i values => do
      let t ← rd indices i
      let v ← swsh_ra_small Rb s t.1 t.2
      wr values i v
  else if rb ≤ epsilon then
    forL (pyRange 0 N) values fun i values => do
      let t ← rd indices i
      let v ← swsh_rb_small Ra s t.1 t.2
      wr values i v
  else if ra < rb then
    forL (pyRange 0 N) values fun i values => do
      let t ← rd indices i
      let v ← swsh_ra_lt_rb table ra phia rb phib s t.1 t.2
      wr values i v
  else
    forL (pyRange 0 N) values fun i values => do
      let t ← rd indices i
      let v ← swsh_ra_ge_rb table ra phia rb phib s t.1 t.2
      wr values i v

open scoped Classical in
/-- Loop body of `_SWSHs` — SWSH/__init__.py:291-339; `coefficient_a`, `coefficient_b` are computed before the loop
(l.270-288). -/
noncomputable def SWSHs_value (coefficient_a coefficient_b : ℝ) (s ell m : ℤ) (R : ℝ × ℝ × ℝ × ℝ) : Py ℂ :=
  let constant := swshConst ell
  let rhoMin_a := max 0 (m + s)
  let rhoMax_a := min (ell + m) (ell + s)
  let N1_a := ell + m + 1
  let N2_a := ell + s + 1
  let M_a := -s - m
  let rhoMin_b := max 0 (-m + s)
  let rhoMax_b := min (ell - m) (ell + s)
  let N1_b := ell - m + 1
  let N2_b := ell + s + 1
  let M_b := -s + m
  let Ra : ℂ := ⟨R.1, R.2.2.2⟩
  let ra := ‖Ra‖
  let phia := Complex.arg Ra
  let Rb : ℂ := ⟨R.2.2.1, R.2.1⟩
  let rb := ‖Rb‖
  let phib := Complex.arg Rb
  if ra ≤ epsilon then
    if m ≠ s then .ok 0
    else if ell % 2 = 0 then do return (constant : ℂ) * (← cpowInt Rb (-2 * s))
    else do return -(constant : ℂ) * (← cpowInt Rb (-2 * s))
  else if rb ≤ epsilon then
    if m ≠ -s then .ok 0
    else if s % 2 = 0 then do return (constant : ℂ) * (← cpowInt Ra (-2 * s))
    else do return -(constant : ℂ) * (← cpowInt Ra (-2 * s))
  else if ra < rb then
    if coefficient_b = 0 then .ok 0
    else do
      let Prefactor := rect (coefficient_b * rb ^ (2 * ell + s - m - 2 * rhoMin_b) * ra ^ (-s + m + 2 * rhoMin_b))
        (phib * ((-s - m : ℤ) : ℝ) + phia * ((-s + m : ℤ) : ℝ))
      let Sum ← hornerLoop (-ra * ra / (rb * rb)) N1_b N2_b M_b rhoMax_b rhoMin_b
      return (constant : ℂ) * Prefactor * (Sum : ℂ)
  else
    if coefficient_a = 0 then .ok 0
    else do
      let Prefactor := rect (coefficient_a * ra ^ (2 * ell + s + m - 2 * rhoMin_a) * rb ^ (-s - m + 2 * rhoMin_a))
        (phia * ((-s + m : ℤ) : ℝ) + phib * ((-s - m : ℤ) : ℝ))
      let Sum ← hornerLoop (-rb * rb / (ra * ra)) N1_a N2_a M_a rhoMax_a rhoMin_a
      return (constant : ℂ) * Prefactor * (Sum : ℂ)

/-- `_SWSHs` — SWSH/__init__.py:233-339. -/
noncomputable def SWSHs_kernel (table : List ℝ) (Rs : List (ℝ × ℝ × ℝ × ℝ)) (s ell m : ℤ) (values : List ℂ) :
    Py (List ℂ) :=
  let N : ℤ := Rs.length
  if |m| > ell ∨ |s| > ell then
    forL (pyRange 0 N) values fun i values => wr values i 0
  else do
    let rhoMin_a := max 0 (m + s)
    let c ← Wigner_coefficient table ell m (-s)
    let coefficient_a := if (rhoMin_a + s) % 2 ≠ 0 then c * (-1) else c
    let rhoMin_b := max 0 (-m + s)
    let c ← Wigner_coefficient table ell (-m) (-s)
    let coefficient_b := if (ell + rhoMin_b) % 2 ≠ 0 then c * (-1) else c
    forL (pyRange 0 N) values fun i values => do
      let R ← rd Rs i
      let v ← SWSHs_value coefficient_a coefficient_b s ell m R
      wr values i v

/-- The rotor argument of `SWSH`: `np.quaternion` or an ndarray of them (flattened; the shape is restored by `reshape`). -/
inductive SRot
  | single (R : ℝ × ℝ × ℝ × ℝ)
  | array (Rs : List (ℝ × ℝ × ℝ × ℝ))

/-- The `indices` argument of `SWSH`: one pair `(ell, m)` or a list of pairs. -/
inductive SIdx
  | pair (ell m : ℤ)
  | rows (l : List (ℤ × ℤ))

/-- `indices.size`. -/
def SIdx.size : SIdx → ℕ
  | .pair _ _ => 2
  | .rows l => 2 * l.length

/-- `isinstance(R, np.ndarray)`. -/
def SRot.isArray : SRot → Bool
  | .single _ => false
  | .array _ => true

/-- `SWSH` — SWSH/__init__.py:11-45.  `R.a` on an ndarray is an AttributeError; a one-dimensional `indices` does not match
the signature of `_SWSH` (TypeError); `indices[1]` of a list with fewer than two rows is an IndexError. -/
noncomputable def SWSH (table : List ℝ) (junk : ℕ → ℂ) (R : SRot) (s : ℤ) (indices : SIdx) : Py (List ℂ) :=
  if indices.size > 2 ∨ R.isArray = false then
    match R, indices with
    | .array _, _ => .error .attributeError
    | .single _, .pair _ _ => .error .typeError
    | .single R, .rows l => do
        let values ← npEmpty junk l.length
        SWSH_kernel table (quat_a R) (quat_b R) s l values
  else
    match R, indices with
    | .array Rs, .pair ell m => do
        let values ← npEmpty junk Rs.length
        SWSHs_kernel table Rs s ell m values
    | _, _ => .error .indexError

/-- `SWSH_grid` — SWSH/__init__.py:48-87, for a flattened grid of rotors; one row of values per rotor.  `junk` is the
uninitialised memory inside `LM_range`.  `np.nditer` raises ValueError for an array without elements. -/
noncomputable def SWSH_grid (table : List ℝ) (junk : ℕ → ℤ × ℤ) (Rs : List (ℝ × ℝ × ℝ × ℝ)) (s ell_max : ℤ) :
    Py (List (List ℂ)) := do
  let indices ← LM_range junk 0 ell_max
  let values := List.replicate Rs.length (List.replicate indices.length (0 : ℂ))
  if Rs.isEmpty then .error .valueError
  else forL (pyRange 0 Rs.length) values fun i values => do
    let R ← rd Rs i
    let row ← rd values i
    let row ← SWSH_kernel table (quat_a R) (quat_b R) s indices row
    wr values i row

end SF
