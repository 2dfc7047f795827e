import Verif.Model.Modes

/-!
# Model of `mode_conversions.py`

Numbers are exact.  The vector functions act on the last axis of their argument; they are modelled for one vector.
-/

set_option autoImplicit false

namespace SF

/-- `constant_as_ell_0_mode` — mode_conversions.py:10-12. -/
noncomputable def constant_as_ell_0_mode (constant : ℂ) : ℂ := constant * (Real.sqrt (4 * Real.pi) : ℝ)

/-- `constant_from_ell_0_mode` — mode_conversions.py:16-23. -/
noncomputable def constant_from_ell_0_mode (modes : ℂ) : ℂ := modes / (Real.sqrt (4 * Real.pi) : ℝ)

/-- `vector_as_ell_1_modes` — mode_conversions.py:27-49, for one vector. -/
noncomputable def vector_as_ell_1_modes (v : ℂ × ℂ × ℂ) : ℂ × ℂ × ℂ :=
  ((v.1 + Complex.I * v.2.1) * (Real.sqrt (2 * Real.pi / 3) : ℝ),
   v.2.2 * (Real.sqrt (4 * Real.pi / 3) : ℝ),
   (-v.1 + Complex.I * v.2.1) * (Real.sqrt (2 * Real.pi / 3) : ℝ))

/-- `vector_from_ell_1_modes` — mode_conversions.py:53-62, for one set of modes. -/
noncomputable def vector_from_ell_1_modes (w : ℂ × ℂ × ℂ) : ℂ × ℂ × ℂ :=
  ((w.1 - w.2.2) / (2 * (Real.sqrt (2 * Real.pi / 3) : ℝ)),
   (w.1 + w.2.2) / (2 * Complex.I * (Real.sqrt (2 * Real.pi / 3) : ℝ)),
   w.2.1 / (Real.sqrt (4 * Real.pi / 3) : ℝ))

/-- `int(sqrt(len(modes) + LM_total_size(0, ell_min - 1))) - 1`; `math.sqrt` of a negative number is a ValueError. -/
noncomputable def conv_ell_max (n : ℕ) (ell_min : ℤ) : Py ℤ :=
  let x := (n : ℤ) + LM_total_size 0 (ell_min - 1)
  if x < 0 then .error .valueError else .ok (pyInt (Real.sqrt (x : ℝ)) - 1)

/-- `math.sqrt` of a float. -/
noncomputable def mathSqrt (x : ℝ) : Py ℝ := if x < 0 then .error .valueError else .ok (Real.sqrt x)

/-- Inner loop of the five functions: `modes[i_mode] = op modes[i_mode]; i_mode += 1` for `m in range(-ell, ell+1)` —
mode_conversions.py:101-103. -/
def convInner (op : ℂ → ℂ) (ell : ℤ) (st : List ℂ × ℤ) : Py (List ℂ × ℤ) :=
  forL (pyRange (-ell) (ell + 1)) st fun _ st => do
    let a ← upd st.1 st.2 op
    return (a, st.2 + 1)

/-- `eth_GHP` — mode_conversions.py:66-104. -/
noncomputable def eth_GHP (modes : List ℂ) (s ell_min : ℤ) : Py (List ℂ) := do
  let ell_max ← conv_ell_max modes.length ell_min
  let st ← forL (pyRange ell_min (ell_max + 1)) (modes, 0) fun ell st => do
    let factor ← if ell < |s + 1| then .ok 0 else mathSqrt ((ell - s) * (ell + s + 1) / 2)
    convInner (· * (factor : ℂ)) ell st
  return st.1

/-- `ethbar_GHP` — mode_conversions.py:108-139. -/
noncomputable def ethbar_GHP (modes : List ℂ) (s ell_min : ℤ) : Py (List ℂ) := do
  let ell_max ← conv_ell_max modes.length ell_min
  let st ← forL (pyRange ell_min (ell_max + 1)) (modes, 0) fun ell st => do
    let factor ← if ell < |s - 1| then .ok 0 else (do let r ← mathSqrt ((ell + s) * (ell - s + 1) / 2); return -r)
    convInner (· * (factor : ℂ)) ell st
  return st.1

/-- `eth_NP` — mode_conversions.py:143-174. -/
noncomputable def eth_NP (modes : List ℂ) (s ell_min : ℤ) : Py (List ℂ) := do
  let ell_max ← conv_ell_max modes.length ell_min
  let st ← forL (pyRange ell_min (ell_max + 1)) (modes, 0) fun ell st => do
    let factor ← if ell < |s + 1| then .ok 0 else mathSqrt ((ell - s) * (ell + s + 1))
    convInner (· * (factor : ℂ)) ell st
  return st.1

/-- `ethbar_NP` — mode_conversions.py:178-209. -/
noncomputable def ethbar_NP (modes : List ℂ) (s ell_min : ℤ) : Py (List ℂ) := do
  let ell_max ← conv_ell_max modes.length ell_min
  let st ← forL (pyRange ell_min (ell_max + 1)) (modes, 0) fun ell st => do
    let factor ← if ell < |s - 1| then .ok 0 else (do let r ← mathSqrt ((ell + s) * (ell - s + 1)); return -r)
    convInner (· * (factor : ℂ)) ell st
  return st.1

/-- `ethbar_inverse_NP` — mode_conversions.py:213-235. -/
noncomputable def ethbar_inverse_NP (modes : List ℂ) (s ell_min : ℤ) : Py (List ℂ) := do
  let ell_max ← conv_ell_max modes.length ell_min
  let st ← forL (pyRange ell_min (ell_max + 1)) (modes, 0) fun ell st => do
    let term : ℝ := (ell + s + 1) * (ell - s)
    if 0 < term then do
      let r ← mathSqrt term
      convInner (· / ((-r : ℝ) : ℂ)) ell st
    else .ok (st.1, st.2 + (2 * ell + 1))
  return st.1

end SF
