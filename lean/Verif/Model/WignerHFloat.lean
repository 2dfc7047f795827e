import Verif.Model.WignerH
import Verif.Model.Wigner3jFloat

/-!
# The two H calculators in floating-point arithmetic

A second transcription of `recursions/wignerH.py` and `WignerD/WignerDRecursion.py` (see Model/WignerH for the conventions about arrays
and for the index functions), in which every floating-point operation is an arbitrary function.

* Negation and comparisons are exact; `x - y` is `x + (-y)`; `x ** 2` is `x * x`.
* Integers are converted to floats by `F.ofInt`, which may round.
* Products and sums are evaluated from left to right, as in Python.
* Overflow and underflow are not modelled.  Scalar division by zero raises `ZeroDivisionError`, as in numba.
* `g` and `h` have non-finite entries at `m = n`; the model has arbitrary numbers there.
-/

set_option autoImplicit false

namespace SF

/-- Lines recursions/wignerH.py:208-231 (WignerDRecursion.py:186-209): one `n` of the loop of `_step_2`; cf. `h_row2`. -/
noncomputable def h_row2F {J : ℕ} (F : W3Ops) (g h : List ℝ) (co si : HRow J) (n n0n nn : ℤ) (prev : HRow J) (H : List (HRow J)) :
    Py (List (HRow J)) := do
  let const := F.sqrt (F.add 1 (F.div 0.5 (F.ofInt n)))
  let gi ← rd g (nn - 1)
  let H ← wr H n0n (fun j => F.mul const (prev j))
  let x ← rd H n0n
  let H ← wr H (n0n - 1) (fun j => F.mul (F.mul gi (co j)) (x j))
  let H ← forL (pyRange 2 n) H fun i H => do
    let gi ← rd g (nn - i)
    let hi ← rd h (nn - i)
    let x1 ← rd H (n0n - i + 1)
    let x2 ← rd H (n0n - i + 2)
    wr H (n0n - i) (fun j => F.add (F.mul (F.mul gi (co j)) (x1 j)) (-F.mul (F.mul hi (F.mul (si j) (si j))) (x2 j)))
  let const := F.sqrt (F.ofInt (4 * n + 2))
  let gi ← rd g (nn - n)
  let hi ← rd h (nn - n)
  let x1 ← rd H (n0n - n + 1)
  let x2 ← rd H (n0n - n + 2)
  let H ← wr H (n0n - n)
    (fun j => F.div (F.add (F.mul (F.mul gi (co j)) (x1 j)) (-F.mul (F.mul hi (F.mul (si j) (si j))) (x2 j))) const)
  let (H, _) ← forL (pyRange 1 n) (H, ((fun _ => F.div 1 const) : HRow J)) fun i st => do
    let pre : HRow J := fun j => F.mul (st.2 j) (si j)
    let H ← upd st.1 (n0n - n + i) (fun x j => F.mul (x j) (pre j))
    return (H, pre)
  return H

/-- `_step_2` — recursions/wignerH.py:176-246, WignerD/WignerDRecursion.py:154-228; cf. `h_step_2`.  The module constants
`sqrt3 = np.sqrt(3)` and `sqrt2 = np.sqrt(2)` are at recursions/wignerH.py:8-9. -/
noncomputable def h_step_2F {J : ℕ} (F : W3Ops) (idx : ℤ → ℤ → ℤ → ℤ) (g h : List ℝ) (n_max : ℤ) (co si : HRow J) (A : HArr J) :
    Py (HArr J) := do
  let n0n := idx 1 0 1
  let nn := nm_index 1 1
  let w ← wr A.w n0n (fun _ => F.sqrt (F.ofInt 3))
  let gi ← rd g (nn - 1)
  let w ← wr w (n0n - 1) (fun j => F.div (F.mul gi (co j)) (F.sqrt (F.ofInt 2)))
  let A ← forL (pyRange 2 (n_max + 2)) { A with w := w } fun n A => do
    let nn := nm_index n n
    let prev ← rd A.w (idx (n - 1) 0 (n - 1))
    if n ≤ n_max then do
      let w ← h_row2F F g h co si n (idx n 0 n) nn prev A.w
      let y ← rd w (idx n 0 1)
      let v ← wr A.v (nm_index n 1) y
      let v ← wr v (nm_index n 0) y
      return { A with w := w, v := v }
    else do
      let x ← h_row2F F g h co si n n nn prev A.x
      return { A with x := x }
  let (w, pre) ← forL (pyRange 1 (n_max + 1)) (A.w, ((fun _ => 1) : HRow J)) fun n st => do
    let pre : HRow J := fun j => F.mul (st.2 j) (si j)
    let w ← upd st.1 (idx n 0 n) (fun y j => F.mul (y j) (F.div (pre j) (F.sqrt (F.ofInt (4 * n + 2)))))
    return (w, pre)
  let n := n_max + 1
  let pre : HRow J := fun j => F.mul (pre j) (si j)
  let x ← upd A.x n (fun y j => F.mul (y j) (F.div (pre j) (F.sqrt (F.ofInt (4 * n + 2)))))
  let y ← rd w (idx 1 0 1)
  let v ← wr A.v (nm_index 1 1) y
  let v ← wr v (nm_index 1 0) y
  return { w := w, v := v, x := x }

/-- `_step_3` — recursions/wignerH.py:249-280, WignerD/WignerDRecursion.py:231-262; cf. `h_step_3`. -/
noncomputable def h_step_3F {J : ℕ} (F : W3Ops) (idx : ℤ → ℤ → ℤ → ℤ) (a b : List ℝ) (n_max : ℤ) (co si : HRow J)
    (w x : List (HRow J)) : Py (List (HRow J)) :=
  forL (pyRange 1 (n_max + 1)) w fun n w => do
    let i1 := idx n 1 1
    let i3 := nm_index (n + 1) 0
    let i4 := nabsm_index n 1
    let b5 ← rd b i3
    forL (pyRange 0 n) w fun i w => do
      let b6 ← rd b (-i + i3 - 2)
      let b7 ← rd b (i + i3)
      let a8 ← rd a (i + i4)
      let i2 := if n + 1 ≤ n_max then idx (n + 1) 0 0 else 0
      let H2 := if n + 1 ≤ n_max then w else x
      let y2 ← rd H2 (i + i2 + 2)
      let y0 ← rd H2 (i + i2)
      let y1 ← rd H2 (i + i2 + 1)
      let r ← fDiv F 1 b5
      wr w (i + i1) (fun j => F.mul r (F.add
        (F.mul 0.5 (F.add (F.mul (F.mul b6 (F.add 1 (-co j))) (y2 j)) (-F.mul (F.mul b7 (F.add 1 (co j))) (y0 j))))
        (-F.mul (F.mul a8 (si j)) (y1 j))))

/-- Body of the loops of `_step_4` for one `(n, m')` — recursions/wignerH.py:295-328, WignerD/WignerDRecursion.py:277-310;
cf. `h_body4`. -/
noncomputable def h_body4F {J : ℕ} (F : W3Ops) (idx : ℤ → ℤ → ℤ → ℤ) (d : List ℝ) (n mp : ℤ)
    (st : List (HRow J) × List (HRow J)) : Py (List (HRow J) × List (HRow J)) := do
  let (w, v) := st
  let i1 := idx n (mp + 1) mp
  let i2 := idx n (mp - 1) mp
  let i3 := idx n mp (mp - 1)
  let i4 := idx n mp (mp + 1)
  let i5 := nm_index n mp
  let i6 := nm_index n (mp - 1)
  let d5 ← rd d i5
  let d6 ← rd d i6
  let r ← fDiv F 1 d5
  -- i = 0
  let d7 ← rd d i6
  let d8 ← rd d i5
  let y2 ← rd w i2
  let y3 ← rd v (nm_index n mp)
  let y4 ← rd w i4
  let v ← wr v (nm_index n (mp + 1))
    (fun j => F.mul r (F.add (F.add (F.mul d6 (y2 j)) (-F.mul d7 (y3 j))) (F.mul d8 (y4 j))))
  let w ← forL (pyRange 1 (n - mp)) w fun i w => do
    let d7 ← rd d (i + i6)
    let d8 ← rd d (i + i5)
    let y2 ← rd w (i + i2)
    let y3 ← rd w (i + i3)
    let y4 ← rd w (i + i4)
    wr w (i + i1) (fun j => F.mul r (F.add (F.add (F.mul d6 (y2 j)) (-F.mul d7 (y3 j))) (F.mul d8 (y4 j))))
  -- i = n - mp
  let i := n - mp
  let d7 ← rd d (i + i6)
  let y2 ← rd w (i + i2)
  let y3 ← rd w (i + i3)
  let w ← wr w (i + i1) (fun j => F.mul r (F.add (F.mul d6 (y2 j)) (-F.mul d7 (y3 j))))
  return (w, v)

/-- `_step_4` — recursions/wignerH.py:283-328, WignerD/WignerDRecursion.py:265-310 -/
noncomputable def h_step_4F {J : ℕ} (F : W3Ops) (idx : ℤ → ℤ → ℤ → ℤ) (d : List ℝ) (n_max : ℤ)
    (st : List (HRow J) × List (HRow J)) : Py (List (HRow J) × List (HRow J)) :=
  forL (pyRange 2 (n_max + 1)) st fun n st => forL (pyRange 1 n) st fun mp st => h_body4F F idx d n mp st

/-- Body of the loops of `_step_5` for one `(n, m')` — recursions/wignerH.py:347-390, WignerD/WignerDRecursion.py:329-372;
cf. `h_body5`. -/
noncomputable def h_body5F {J : ℕ} (F : W3Ops) (idx : ℤ → ℤ → ℤ → ℤ) (d : List ℝ) (n mp : ℤ)
    (st : List (HRow J) × List (HRow J)) : Py (List (HRow J) × List (HRow J)) := do
  let (w, v) := st
  let i1 := idx n (mp - 1) (-mp)
  let i2 := idx n (mp + 1) (-mp)
  let i3 := idx n mp (-mp - 1)
  let i4 := idx n mp (-mp + 1)
  let i5 := nm_index n (mp - 1)
  let i6 := nm_index n mp
  let i7 := nm_index n (-mp - 1)
  let i8 := nm_index n (-mp)
  let d5 ← rd d i5
  let d6 ← rd d i6
  let r ← fDiv F 1 d5
  -- i = 0
  let d7 ← rd d i7
  let d8 ← rd d i8
  let y2 ← (if mp = 0 then rd v (nm_index n (mp + 1)) else rd w i2 : Py (HRow J))
  let y3 ← rd v (nm_index n mp)
  let y4 ← rd w i4
  let v ← wr v (nm_index n (mp - 1))
    (fun j => F.mul r (F.add (F.add (F.mul d6 (y2 j)) (F.mul d7 (y3 j))) (-F.mul d8 (y4 j))))
  let w ← forL (pyRange 1 (n + mp)) w fun i w => do
    let d7 ← rd d (i + i7)
    let d8 ← rd d (i + i8)
    let y2 ← rd w (i + i2)
    let y3 ← rd w (i + i3)
    let y4 ← rd w (i + i4)
    wr w (i + i1) (fun j => F.mul r (F.add (F.add (F.mul d6 (y2 j)) (F.mul d7 (y3 j))) (-F.mul d8 (y4 j))))
  -- i = n + mp
  let i := n + mp
  let d7 ← rd d (i + i7)
  let y2 ← rd w (i + i2)
  let y3 ← rd w (i + i3)
  let w ← wr w (i + i1) (fun j => F.mul r (F.add (F.mul d6 (y2 j)) (F.mul d7 (y3 j))))
  return (w, v)

/-- `_step_5` — recursions/wignerH.py:331-390, WignerD/WignerDRecursion.py:313-372 -/
noncomputable def h_step_5F {J : ℕ} (F : W3Ops) (idx : ℤ → ℤ → ℤ → ℤ) (d : List ℝ) (n_max : ℤ)
    (st : List (HRow J) × List (HRow J)) : Py (List (HRow J) × List (HRow J)) :=
  forL (pyRange 0 (n_max + 1)) st fun n st => forL (pyRangeDown 0 (-n)) st fun mp st => h_body5F F idx d n mp st

/-- `HCalculator.__init__` — recursions/wignerH.py:439-460 and (without the factorials, which no step uses)
WignerD/WignerDRecursion.py:395-423; cf. `HCoef.make`.  The integer arrays are exact (no overflow of 64-bit integers). -/
noncomputable def HCoef.makeF (F : W3Ops) (junk : ℤ → ℝ) (n_max : ℤ) : Py HCoef :=
  if n_max < 0 then .error .valueError
  else .ok {
    n_max := n_max
    a := (nabsmPairs n_max).map fun p =>
      F.sqrt (F.div (F.ofInt ((p.1 + 1 + p.2) * (p.1 + 1 - p.2))) (F.ofInt ((2 * p.1 + 1) * (2 * p.1 + 3))))
    b := (nmPairs n_max).map fun p =>
      let x := F.sqrt (F.div (F.ofInt ((p.1 - p.2 - 1) * (p.1 - p.2))) (F.ofInt ((2 * p.1 - 1) * (2 * p.1 + 1))))
      if p.2 < 0 then F.mul x (-1) else x
    d := (nmPairs n_max).map fun p =>
      let x := F.mul 0.5 (F.sqrt (F.ofInt ((p.1 - p.2) * (p.1 + p.2 + 1))))
      if p.2 < 0 then F.mul x (-1) else x
    g := (nmPairs n_max).map fun p =>
      if p.1 = p.2 then junk p.1 else F.div (F.ofInt (2 * (p.2 + 1))) (F.sqrt (F.ofInt ((p.1 - p.2) * (p.1 + p.2 + 1))))
    h := (nmPairs n_max).map fun p =>
      if p.1 = p.2 then junk p.1
      else F.sqrt (F.div (F.ofInt ((p.1 + p.2 + 2) * (p.1 - p.2 - 1))) (F.ofInt ((p.1 - p.2) * (p.1 + p.2 + 1)))) }

/-- Steps 1-5. -/
noncomputable def h_stepsF {J : ℕ} (F : W3Ops) (idx : ℤ → ℤ → ℤ → ℤ) (C : HCoef) (co si : HRow J) (A : HArr J) : Py (HArr J) := do
  let w ← h_step_1 A.w
  let A ← h_step_2F F idx C.g C.h C.n_max co si { A with w := w }
  let w ← h_step_3F F idx C.a C.b C.n_max co si A.w A.x
  let (w, v) ← h_step_4F F idx C.d C.n_max (w, A.v)
  let (w, v) ← h_step_5F F idx C.d C.n_max (w, v)
  return { w := w, v := v, x := A.x }

/-- The checks at the beginning of `__call__` — recursions/wignerH.py:468-481, WignerD/WignerDRecursion.py:430-445; cf. `hArgs`. -/
noncomputable def hArgsF (F : W3Ops) (x : HArgs) : Py (HRow x.co.length × HRow x.co.length) :=
  open Classical in
  if x.co = [] then .error .valueError
  else if (∃ c ∈ x.co, c > 1) ∨ (∃ c ∈ x.co, c < -1) then .error .valueError
  else match x.si with
    | none => .ok (fun j => x.co[j], fun j => F.sqrt (F.add 1 (-F.mul x.co[j] x.co[j])))
    | some (sshape, s) =>
      if sshape ≠ x.cshape then .error .valueError else .ok (fun j => x.co[j], fun j => s.getD j 0)

/-- `HCalculator.__call__` — recursions/wignerH.py:467-491; cf. `HCalculator_call`. -/
noncomputable def HCalculator_callF (F : W3Ops) (C : HCoef) (x : HArgs) (workspace : Option (List (HRow x.co.length))) :
    Py (List (HRow x.co.length) × List (HRow x.co.length)) := do
  let (co, si) ← hArgsF F x
  let ws := workspace.getD (hWorkspace x.co.length C.n_max)
  let W := (wedge_size C.n_max).toNat
  let V := ((C.n_max + 1) ^ 2).toNat
  let X := (C.n_max + 2).toNat
  let A ← h_stepsF F wedge_index C co si { w := ws.take W, v := (ws.drop W).take V, x := (ws.drop (W + V)).take X }
  return (A.w ++ A.v ++ A.x ++ ws.drop (W + V + X), A.w)

/-- `HCalculator.__call__` of the full-matrix version — WignerD/WignerDRecursion.py:429-456; cf. `HFull_call`. -/
noncomputable def HFull_callF (F : W3Ops) (C : HCoef) (x : HArgs) (workspace : Option (List (HRow x.co.length))) :
    Py (List (HRow x.co.length)) := do
  let (co, si) ← hArgsF F x
  let size := (LMpM_total_size 0 C.n_max).toNat
  let ws := workspace.getD (List.replicate size (fun _ => 0))
  let A ← h_stepsF F nmpm_index C co si
    { w := ws, v := List.replicate ((C.n_max + 1) ^ 2).toNat (fun _ => 0), x := List.replicate (C.n_max + 2).toNat (fun _ => 0) }
  let H ← h_step_6 C.n_max A.w
  return H.take size

end SF
