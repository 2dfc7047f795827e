import Verif.Model.Wigner3j
import Verif.Model.WignerDFloat

/-!
# `recursions/wigner3j.py` in floating-point arithmetic

A second transcription of `Wigner3jCalculator.calculate`, `Wigner3j` and `clebsch_gordan`, in which every floating-point operation that can
round is an arbitrary function.

* Negation, absolute values and comparisons are exact.
* The integer coefficients are as in Model/Wigner3j (32- and 64-bit arithmetic).  Integers of at most 32 bits are converted to floats
  exactly; the 64-bit radicand of `A` is rounded when it is converted.  `2.0 * j_min + 1.0` is exact.
* `x ** 2` is `x * x`.
* Overflow and underflow are not modelled; scalar division by zero raises `ZeroDivisionError`, as in numba.  Division of an array by a
  scalar does not raise: dividing by zero gives infinities and nans, which are not modelled either.  There the model stops
  (`.notImplementedError`, which the code never raises); C91 shows that this does not happen while the coefficients fit their types.
-/

set_option autoImplicit false

namespace SF

/-- The floating-point operations. -/
structure W3Ops where
  /-- `x + y` -/
  add : ℝ → ℝ → ℝ
  /-- `x * y` -/
  mul : ℝ → ℝ → ℝ
  /-- `x / y` -/
  div : ℝ → ℝ → ℝ
  /-- `math.sqrt` -/
  sqrt : ℝ → ℝ
  /-- conversion of a 64-bit integer to a float -/
  ofInt : ℤ → ℝ

/-- Every operation has relative error `u`.  (The operations of recursions/wigner3j.py.) -/
structure W3Ops.Std (F : W3Ops) (u : ℝ) : Prop where
  u_nonneg : 0 ≤ u
  u_lt_one : u < 1
  add : ∀ x y, RelErr u (F.add x y) (x + y)
  mul : ∀ x y, RelErr u (F.mul x y) (x * y)
  div : ∀ x y, y ≠ 0 → RelErr u (F.div x y) (x / y)
  sqrt : ∀ x, 0 ≤ x → RelErr u (F.sqrt x) (Real.sqrt x)
  ofInt : ∀ n, RelErr u (F.ofInt n) n

open scoped Classical in
/-- Scalar division of floats. -/
noncomputable def fDiv (F : W3Ops) (x y : ℝ) : Py ℝ := if y = 0 then .error .zeroDivision else .ok (F.div x y)

open scoped Classical in
/-- The model stops here if a slice is about to be divided by zero (recursions/wigner3j.py:35, 264); see the header. -/
noncomputable def arrayDivisor (y : ℝ) : Py Unit := if y = 0 then .error .notImplementedError else .ok ()

/-- `A` — recursions/wigner3j.py:7-9.  (numba's `math.sqrt` of a negative number is nan; here it is whatever `F.sqrt` gives.) -/
noncomputable def w3AF (F : W3Ops) (j j2 j3 m1 : ℤ) : ℝ :=
  let j := i32 j; let j2 := i32 j2; let j3 := i32 j3; let m1 := i32 m1
  F.sqrt (F.ofInt (i64 ((j ^ 2 - (j2 - j3) ^ 2) * ((j2 + j3 + 1) ^ 2 - j ^ 2) * (j ^ 2 - m1 ^ 2))))

/-- `Xf` — recursions/wigner3j.py:17-19 -/
noncomputable def w3XF (F : W3Ops) (j j2 j3 m1 : ℤ) : ℝ := F.mul ((i32 j : ℤ) : ℝ) (w3AF F (i32 j + 1) j2 j3 m1)

/-- `Zf` — recursions/wigner3j.py:25-27 -/
noncomputable def w3ZF (F : W3Ops) (j j2 j3 m1 : ℤ) : ℝ := F.mul ((i32 j + 1 : ℤ) : ℝ) (w3AF F j j2 j3 m1)

/-- `normalize` — recursions/wigner3j.py:30-35 -/
noncomputable def w3normalizeF (F : W3Ops) (f : List ℝ) (j_min j_max : ℤ) : Py (List ℝ) := do
  let norm ← forL (pyRange j_min (j_max + 1)) (0 : ℝ) fun j norm => do
    let v ← rd f j
    return F.add norm (F.mul ((2 * j + 1 : ℤ) : ℝ) (F.mul v v))
  arrayDivisor (F.sqrt norm)
  return mapSlice f j_min (j_max + 1) (fun v => F.div v (F.sqrt norm))

open scoped Classical in
/-- The loop at recursions/wigner3j.py:160-167. -/
noncomputable def fwdLoopF (F : W3Ops) (X Y Z : ℤ → ℝ) : List ℤ → List ℝ → Py (List ℝ × Option ℤ)
  | [], sf => return (sf, none)
  | j :: js, sf => do
    let s ← rd sf (j - 1)
    let denominator := F.add (Y j) (F.mul (Z j) s)
    if |X j| > |denominator| ∨ F.mul (X j) denominator ≥ 0 ∨ denominator = 0 then return (sf, some (j - 1))
    else do
      let v ← fDiv F (-X j) denominator
      let sf ← wr sf j v
      fwdLoopF F X Y Z js sf

open scoped Classical in
/-- Forward iteration — recursions/wigner3j.py:131-174. -/
noncomputable def fwdPhaseF (F : W3Ops) (X Y Z : ℤ → ℝ) (m1 m2 m3 j_min j_max : ℤ) (sf F_minus : List ℝ) :
    Py (List ℝ × List ℝ × ℤ × Bool) := do
  if m1 = 0 ∧ m2 = 0 ∧ m3 = 0 then
    let F_minus ← wr F_minus j_min 1
    let F_minus ← wr F_minus (j_min + 1) 0
    return (sf, F_minus, j_min + 1, false)
  else if Y j_min = 0 then
    if X j_min = 0 then return (sf, F_minus, j_min, true)
    else
      let F_minus ← wr F_minus j_min 1
      let F_minus ← wr F_minus (j_min + 1) 0
      return (sf, F_minus, j_min + 1, false)
  else if F.mul (X j_min) (Y j_min) ≥ 0 then
    let F_minus ← wr F_minus j_min 1
    let v ← fDiv F (-Y j_min) (X j_min)
    let F_minus ← wr F_minus (j_min + 1) v
    return (sf, F_minus, j_min + 1, false)
  else
    let v ← fDiv F (-X j_min) (Y j_min)
    let sf ← wr sf j_min v
    let (sf, brk) ← fwdLoopF F X Y Z (pyRange (j_min + 1) j_max) sf
    let j_minus := brk.getD j_max
    let F_minus ← wr F_minus j_minus 1
    let F_minus ← forL (pyRange 1 (j_minus - j_min + 1)) F_minus fun k F_minus => do
      let a ← rd F_minus (j_minus - k + 1)
      let b ← rd sf (j_minus - k)
      wr F_minus (j_minus - k) (F.mul a b)
    if j_minus = j_min then
      let v ← fDiv F (-Y j_min) (X j_min)
      let F_minus ← wr F_minus (j_min + 1) v
      return (sf, F_minus, j_min + 1, false)
    else return (sf, F_minus, j_minus, false)

open scoped Classical in
/-- The loop at recursions/wigner3j.py:215-222. -/
noncomputable def revLoopF (F : W3Ops) (X Y Z : ℤ → ℝ) : List ℤ → List ℝ → Py (List ℝ × Option ℤ)
  | [], rf => return (rf, none)
  | j :: js, rf => do
    let r ← rd rf (j + 1)
    let denominator := F.add (Y j) (F.mul (X j) r)
    if denominator = 0 ∨ |Z j| > |denominator| ∨ F.mul (Z j) denominator ≥ 0 then return (rf, some (j + 1))
    else do
      let v ← fDiv F (-Z j) denominator
      let rf ← wr rf j v
      revLoopF F X Y Z js rf

open scoped Classical in
/-- Reverse iteration — recursions/wigner3j.py:186-228.  `rf` is the same memory as `sf`. -/
noncomputable def revPhaseF (F : W3Ops) (X Y Z : ℤ → ℝ) (m1 m2 m3 j_min j_max j_minus : ℤ) (rf F_plus : List ℝ) :
    Py (List ℝ × List ℝ × ℤ × Bool) := do
  if m1 = 0 ∧ m2 = 0 ∧ m3 = 0 then
    let F_plus ← wr F_plus j_max 1
    let F_plus ← wr F_plus (j_max - 1) 0
    return (rf, F_plus, j_max - 1, false)
  else if Y j_max = 0 then
    if Z j_max = 0 then return (rf, F_plus, j_max, true)
    else
      let F_plus ← wr F_plus j_max 1
      let v ← fDiv F (-Y j_max) (Z j_max)
      let F_plus ← wr F_plus (j_max - 1) v
      return (rf, F_plus, j_max - 1, false)
  else if F.mul (Y j_max) (Z j_max) ≥ 0 then
    let F_plus ← wr F_plus j_max 1
    let v ← fDiv F (-Y j_max) (Z j_max)
    let F_plus ← wr F_plus (j_max - 1) v
    return (rf, F_plus, j_max - 1, false)
  else
    let v ← fDiv F (-Z j_max) (Y j_max)
    let rf ← wr rf j_max v
    let (rf, brk) ← revLoopF F X Y Z (pyRangeDown (j_max - 1) (j_minus - 1)) rf
    let j_plus := brk.getD j_min
    let F_plus ← wr F_plus j_plus 1
    let F_plus ← forL (pyRange 1 (j_max - j_plus + 1)) F_plus fun k F_plus => do
      let a ← rd F_plus (j_plus + k - 1)
      let b ← rd rf (j_plus + k)
      wr F_plus (j_plus + k) (F.mul a b)
    if j_plus = j_max then
      let v ← fDiv F (-Y j_max) (Z j_max)
      let F_plus ← wr F_plus (j_max - 1) v
      return (rf, F_plus, j_max - 1, false)
    else return (rf, F_plus, j_plus, false)

open scoped Classical in
/-- The loop at recursions/wigner3j.py:239-247. -/
noncomputable def midLoopF (F : W3Ops) (X Y Z : ℤ → ℝ) (j_min : ℤ) : List ℤ → List ℝ → ℤ → Py (List ℝ × ℤ)
  | [], Fm, j_mid => return (Fm, j_mid)
  | j :: js, Fm, j_mid => do
    let b ← rd Fm j
    let a ← rd Fm (j - 1)
    let v ← fDiv F (-F.add (F.mul (Y j) b) (F.mul (Z j) a)) (X j)
    let Fm ← wr Fm (j + 1) v
    let c ← rd Fm (j + 1)
    let Fm := if |c| > 1 then mapSlice Fm j_min (j + 1 + 1) (fun v => F.div v 1000) else Fm
    let c ← rd Fm (j + 1)
    let a ← rd Fm (j - 1)
    let q ← fDiv F c a
    if |q| < 1 ∧ c ≠ 0 then return (Fm, j + 1) else midLoopF F X Y Z j_min js Fm j_mid

open scoped Classical in
/-- Body of the loops at recursions/wigner3j.py:252-257 and 279-284. -/
noncomputable def downStepF (F : W3Ops) (X Y Z : ℤ → ℝ) (j_max j : ℤ) (Fp : List ℝ) : Py (List ℝ) := do
  let a ← rd Fp (j + 1)
  let b ← rd Fp j
  let v ← fDiv F (-F.add (F.mul (X j) a) (F.mul (Y j) b)) (Z j)
  let Fp ← wr Fp (j - 1) v
  let c ← rd Fp (j - 1)
  return if |c| > 1 then mapSlice Fp (j - 1) (j_max + 1) (fun v => F.div v 1000) else Fp

open scoped Classical in
/-- Body of the loop at recursions/wigner3j.py:269-274. -/
noncomputable def upStepF (F : W3Ops) (X Y Z : ℤ → ℝ) (j_min j : ℤ) (Fm : List ℝ) : Py (List ℝ) := do
  let a ← rd Fm (j - 1)
  let b ← rd Fm j
  let v ← fDiv F (-F.add (F.mul (Z j) a) (F.mul (Y j) b)) (X j)
  let Fm ← wr Fm (j + 1) v
  let c ← rd Fm (j + 1)
  return if |c| > 1 then mapSlice Fm j_min (j + 1 + 1) (fun v => F.div v 1000) else Fm

open scoped Classical in
/-- Joining the two solutions — recursions/wigner3j.py:236-265.  Result: `f`, `F_minus`, `F_plus`. -/
noncomputable def meetPhaseF (F : W3Ops) (X Y Z : ℤ → ℝ) (j_min j_max j_minus j_plus : ℤ) (f F_minus F_plus : List ℝ) :
    Py (List ℝ × List ℝ × List ℝ) := do
  let j_mid := (j_minus + j_plus) / 2
  let (F_minus, j_mid) ← midLoopF F X Y Z j_min (pyRange j_minus j_mid) F_minus j_mid
  let F_minus_j_mid ← rd F_minus j_mid
  let prev ← rd F_minus (j_mid - 1)
  let small ← if prev ≠ 0 then do
      let q ← fDiv F F_minus_j_mid prev
      pure (decide (|q| < 1 / 1000000))
    else pure false
  let j_mid := if small then j_mid - 1 else j_mid
  let F_minus_j_mid ← rd F_minus j_mid
  let F_plus ← forL (pyRangeDown j_plus j_mid) F_plus (downStepF F X Y Z j_max)
  let F_plus_j_mid ← rd F_plus j_mid
  if j_mid = j_max then return (copySlice f F_minus j_min (j_max + 1) id, F_minus, F_plus)
  else if j_mid = j_min then return (copySlice f F_plus j_min (j_max + 1) id, F_minus, F_plus)
  else
    arrayDivisor F_minus_j_mid
    let f := copySlice f F_minus j_min (j_mid + 1) (fun v => F.div (F.mul v F_plus_j_mid) F_minus_j_mid)
    return (copySlice f F_plus (j_mid + 1) (j_max + 1) id, F_minus, F_plus)

open scoped Classical in
/-- The computation of `Wigner3jCalculator.calculate` on the four slices of the zeroed workspace — recursions/wigner3j.py:97-292. -/
noncomputable def w3runF (F : W3Ops) (w : W3Work) (j2 j3 m2 m3 : ℤ) : Py W3Work := do
  let m1 := -(m2 + m3)
  let X := fun j => w3XF F j j2 j3 m1
  let Y := fun j => ((w3B j j2 j3 m2 m3 : ℤ) : ℝ)
  let Z := fun j => w3ZF F j j2 j3 m1
  let j_min := max |j2 - j3| |m2 + m3|
  let j_max := j2 + j3
  if |m2| > j2 ∨ |m3| > j3 then return w
  else if j_max < j_min then return w
  else if j_max = j_min then
    let v ← fDiv F 1 (F.sqrt ((2 * j_min + 1 : ℤ) : ℝ))
    let f ← wr w.f j_min v
    let v ← rd f j_min
    let f ← if (v < 0 ∧ negOnePow (j2 - j3 + m2 + m3) > 0) ∨ (v > 0 ∧ negOnePow (j2 - j3 + m2 + m3) < 0) then
        wr f j_min (v * -1)
      else pure f
    return { w with f := f }
  else
    let (sf, F_minus, j_minus, undefined_min) ← fwdPhaseF F X Y Z m1 m2 m3 j_min j_max w.sf w.F_minus
    if j_minus = j_max then
      let f := copySlice w.f F_minus j_min (j_max + 1) id
      let f ← w3normalizeF F f j_min j_max
      let f ← w3signs f j_min j_max j2 j3 m2 m3
      return ⟨f, sf, F_minus, w.F_plus⟩
    else
      let (sf, F_plus, j_plus, undefined_max) ← revPhaseF F X Y Z m1 m2 m3 j_min j_max j_minus sf w.F_plus
      let (f, F_minus, F_plus) ←
        if undefined_min ∧ undefined_max then .error .valueError
        else if ¬ undefined_min ∧ ¬ undefined_max then
          meetPhaseF F X Y Z j_min j_max j_minus j_plus w.f F_minus F_plus
        else if ¬ undefined_min ∧ undefined_max then do
          let F_minus ← forL (pyRange j_minus j_plus) F_minus (upStepF F X Y Z j_min)
          pure (copySlice w.f F_minus j_min (j_max + 1) id, F_minus, F_plus)
        else do
          let F_plus ← forL (pyRangeDown j_plus j_min) F_plus (downStepF F X Y Z j_max)
          pure (copySlice w.f F_plus j_min (j_max + 1) id, F_minus, F_plus)
      let f ← w3normalizeF F f j_min j_max
      let f ← w3signs f j_min j_max j2 j3 m2 m3
      return ⟨f, sf, F_minus, F_plus⟩

/-- `Wigner3jCalculator.calculate` — recursions/wigner3j.py:57-292. -/
noncomputable def W3Calc.calculateF (F : W3Ops) (c : W3Calc) (j2 j3 m2 m3 : ℤ) : Py (List ℝ × W3Calc) := do
  let ws := c.workspace.map fun _ => (0 : ℝ)
  let n := c.size.toNat
  let w ← w3runF F ⟨ws.take n, (ws.drop n).take n, (ws.drop (2 * n)).take n, (ws.drop (3 * n)).take n⟩ j2 j3 m2 m3
  return (w.f, { c with workspace := w.f ++ w.sf ++ w.F_minus ++ w.F_plus })

/-- `Wigner3j` — recursions/wigner3j.py:295-340; `junk` is the content of the memory that `np.empty` returns. -/
noncomputable def Wigner3jF (F : W3Ops) (junk : ℕ → ℝ) (j_1 j_2 j_3 m_1 m_2 m_3 : ℤ) : Py ℝ := do
  if m_1 + m_2 + m_3 ≠ 0 then return 0
  else if |m_1| > j_1 ∨ |m_2| > j_2 ∨ |m_3| > j_3 then return 0
  else
    let (j_1, j_2, j_3, _, m_2, m_3) :=
      if j_1 = max j_1 (max j_2 j_3) then (j_1, j_2, j_3, m_1, m_2, m_3)
      else if j_2 = max j_1 (max j_2 j_3) then (j_2, j_3, j_1, m_2, m_3, m_1)
      else (j_3, j_1, j_2, m_3, m_1, m_2)
    if j_1 > j_2 + j_3 then return 0
    else
      let c ← W3Calc.new junk j_2 j_3
      let (w3j, _) ← c.calculateF F j_2 j_3 m_2 m_3
      rd w3j j_1

/-- `clebsch_gordan` — recursions/wigner3j.py:343-353; the power of -1 is exact. -/
noncomputable def clebsch_gordanF (F : W3Ops) (junk : ℕ → ℝ) (j_1 m_1 j_2 m_2 j_3 m_3 : ℤ) : Py ℝ := do
  let w ← Wigner3jF F junk j_1 j_2 j_3 m_1 m_2 (-m_3)
  return F.mul (F.mul ((-1 : ℝ) ^ (j_1 - j_2 + m_3)) (F.sqrt ((2 * j_3 + 1 : ℤ) : ℝ))) w

end SF
