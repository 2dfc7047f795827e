import Verif.Model.ModesHeap
import Verif.Model.Leading

/-!
# Views of leading axes

Indexing with integers and slices (and `transpose`, `np.newaxis`) gives an object that shares its memory with the original:
`f[key]` is `Modes.select`, and what is written to it appears in `f`.  `Modes` overrides neither `__getitem__` nor `__setitem__`
(SWSH_modes/__init__.py:89-140); `__array_finalize__` gives the view a copy of the metadata dictionary of `f`
(SWSH_modes/__init__.py:134-140), so that later changes to the metadata of the view do not reach `f`.
-/

set_option autoImplicit false

namespace SF

/-- A selection of the leading axes: entry `idx` of the selection is entry `φ idx` of the original. -/
structure View where
  lead : List ℕ
  φ : MIdx → MIdx

/-- Different entries of the view are different entries of the original (true of everything numpy returns as a writable view). -/
def View.Inj (v : View) : Prop := ∀ y y', ValidIdx v.lead y → ValidIdx v.lead y' → v.φ y = v.φ y' → y = y'

/-- The entry of the original belongs to the view. -/
def View.Mem (v : View) (x : MIdx) : Prop := ∃ y, ValidIdx v.lead y ∧ v.φ y = x

/-- `f[i]` for an object with leading shape `(n,) + rest`. -/
def View.item (rest : List ℕ) (i : ℕ) : View := ⟨rest, fun idx => i :: idx⟩

open scoped Classical in
/-- The slice `old` of the original after the values `new` have been written to the view. -/
noncomputable def View.write (v : View) (new old : Slice) : Slice :=
  fun x => if h : v.Mem x then new h.choose else old x

/-- The original after the values `dat` have been written to the view. -/
noncomputable def Modes.writeView (f : Modes) (v : View) (dat : List Slice) : Modes :=
  { f with dat := List.zipWith v.write dat f.dat }

/-- `g = f[key]; g.conjugate(inplace=True)`, `g._real_func(inplace=True)`, `g._imag_func(inplace=True)` — SWSH_modes/algebra.py:14-162 on
a view: `f` and `g` afterwards. -/
noncomputable def Modes.viewInplace (f : Modes) (v : View) (op : MethodIn) : Py (Modes × Modes) := do
  let g ← op.run (f.select v.lead v.φ)
  return (f.writeView v g.dat, g)

/-- `f[key] = g` for a Modes object `g` — `ndarray.__setitem__`, inherited by the class in SWSH_modes/__init__.py:89: the data of `g`
are broadcast to the shape of the selection, the metadata are not looked at. -/
noncomputable def Modes.setFunctions (f : Modes) (v : View) (g : Modes) : Py Modes := do
  let d ← bcInto ⟨0, v.lead, 0, f.dat.length⟩ g.lead g.dat
  return f.writeView v d

/-- `f[key] += h`, `f[key] -= h` for a Modes object `h` with memory of its own: Python calls `np.add(f[key], h, out=f[key])` —
SWSH_modes/ufuncs.py:39-68 — and assigns the result, which is the view itself, to `f[key]`. -/
noncomputable def Modes.viewIadd (junk junk' : ℕ → ℝ) (f : Modes) (v : View) (h : Modes) (subtraction : Bool) : Py Modes := do
  let r : ArrRef := ⟨0, v.lead, 0, f.dat.length⟩
  let w : World := ⟨[(f.select v.lead v.φ).dat, h.dat],
    [⟨r, f.s, f.ell_max, f.trunc⟩, ⟨⟨1, h.lead, 0, h.dat.length⟩, h.s, h.ell_max, h.trunc⟩]⟩
  let (w, _) ← ufuncCall junk junk' w (if subtraction then .subtract else .add) [.modes 0, .modes 1] (.modes 0) false
  return f.writeView v (w.heap.load r)

/-- `for g in f: g.conjugate(inplace=True)` for an object with leading shape `(n,) + rest`. -/
noncomputable def Modes.conjugateEach (f : Modes) (n : ℕ) (rest : List ℕ) : Py Modes :=
  forL (List.range n) f fun i f => do
    let p ← f.viewInplace (View.item rest i) .conjugate
    return p.1

end SF
