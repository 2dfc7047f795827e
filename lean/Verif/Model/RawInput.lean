import Verif.Model.Modes

/-!
# Modes objects made from data that are not double-precision complex numbers

`Modes.__new__` does not convert its input but reinterprets its memory: `np.asanyarray(input_array).view(complex)`
(SWSH_modes/__init__.py:110).  `Modes.new` starts from the complex array obtained in that way; here is the step before.
-/

set_option autoImplicit false

namespace SF

/-- A C-contiguous array of items of some other type, `q` of which take the 16 bytes of one double-precision complex number: `q = 2` for
float64, int64 and complex64, `q = 4` for float32 and int32, `q = 8` and `q = 16` for shorter integers and booleans. -/
inductive RawIn (α : Type)
  | scalar (x : α)
  | array (lead : List ℕ) (dat : List (MIdx → α))

/-- `a.view(complex)` — numpy, called in SWSH_modes/__init__.py:110: groups of `q` items of the last axis are read as one complex number;
ValueError if the last axis does not consist of whole groups, or if there is none.  `dec` is the number with given bytes. -/
def viewComplex {α : Type} (q : ℕ) (dec : List α → ℂ) : RawIn α → Py NdIn
  | .scalar x => if q = 1 then .ok (.scalar (dec [x])) else .error .valueError
  | .array lead dat =>
    if dat.length % q ≠ 0 then .error .valueError
    else .ok (.array lead ((List.range (dat.length / q)).map fun k idx => dec (((dat.drop (q * k)).take q).map fun v => v idx)))

/-- The number with the given real and imaginary part: the bytes of two float64 numbers. -/
def decFloat64 : List ℝ → ℂ
  | [x, y] => ⟨x, y⟩
  | _ => 0

/-- `Modes.__new__` — SWSH_modes/__init__.py:99-132 for an array of another type. -/
noncomputable def Modes.newRaw {α : Type} (q : ℕ) (dec : List α → ℂ) (input : RawIn α) (args : List ℤ) (kw : Kw) : Py Modes :=
  if args.length = 2 ∨ args.length > 3 then .error .valueError
  else do
    let a ← viewComplex q dec input
    Modes.new a {} args kw

end SF
