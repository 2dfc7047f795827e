# Formal model of moble/spherical_functions — design

## 1. Trusted base

* The kernel of Lean 4.33.0 and Mathlib at the installed version.
* Axioms: `propext`, `Classical.choice`, `Quot.sound` only.  `#print axioms` on every theorem named in
  MANIFEST.json gives a subset of these.  No axioms of our own, no `sorry`, no `native_decide`, no `bv_decide`.
* The hand transcription of Python into Lean.  Every definition in `Verif/Model` cites the file and lines it models.
* The meaning given to library calls (section 3).

## 2. The language layer (`Verif/Py.lean`)

* Python and numba code is transcribed into total Lean functions in the error monad `Py α = Except PyErr α`.
  Exceptions are values (`valueError`, `indexError`, `zeroDivision`, `nameError`, ...).
* `for` loops are folds over `pyRange`.
* Arrays are lists.  `rd`/`wr`/`upd` implement Python and numba indexing: negative indices wrap once; an index that is
  still out of range is the error value `outOfBounds`.  In plain numpy that is an IndexError; in numba-compiled code it is
  an unchecked access to other memory.  A theorem "the result is `.ok`" is therefore also a memory-safety theorem.
* `np.empty` takes an arbitrary `junk` argument.  A theorem that quantifies over `junk` proves that every slot the result
  depends on is written first.
* Workspaces that persist between calls (`Wigner3jCalculator.workspace`, the workspaces of `HCalculator`) are explicit state.
* The memory behind `Modes` objects is an explicit heap (`Model/ModesHeap.lean`), so that views, in-place methods and `out=`
  are visible.

## 3. What is idealised

* **Integers** are unbounded `ℤ`, except: `B` of wigner3j.py (declared 32-bit; wrap-around is modelled, C50), and the index
  functions, for which `Model/Int64.lean` has a second transcription in wrapping 64-bit arithmetic (C62).
* **Floats** are exact real or complex numbers.  Statements about values are "in exact arithmetic"; rounding, underflow,
  inf and nan are not modelled.  Exceptions: the truncation decision in `LM_deduce_ell_max` is also proved for every
  monotone rounding of `sqrt` that is exact on integers (C63); thresholds such as `epsilon` in the D and SWSH kernels are
  modelled as they are, and the size of the effect is bounded (C11, C61).  `Model/WignerDFloat.lean` has a second transcription
  of `_Wigner_D_element` in which every floating-point operation and library call is an arbitrary function with a small relative
  error (the standard model: no overflow, no underflow); C69 bounds the resulting error, and C78 does so with underflow, overflow and
  imperfectly normalised rotors (`Model/FloatIEEE.lean`).  `Model/SWSHFloat.lean` does the same for
  `_SWSH`, `_SWSHs`, `SWSH_grid` and `Modes.evaluate` (C70), `Model/WignerDMatFloat.lean` for `_Wigner_D_matrices` and
  `_Wigner_D_elements` (C74), `Model/PowersFloat.lean` for `complex_powers` (C80), `Model/ModesFloat.lean` for the algebra and derivatives of `Modes` (C86);
  `Model/SWSHIEEE.lean` adds underflow and overflow to the operations of `Model/SWSHFloat.lean` (C87);
  `Model/ConvFloat.lean` for `mode_conversions.py` (C88), `Model/MultFloat.lean` for `_multiplication_helper`, `multiply` and `Modes.multiply` (C89; the arrays returned by the 3-j
  calculators are arbitrary there), `Model/Wigner3jFloat.lean` for `Wigner3jCalculator.calculate`, `Wigner3j` and `clebsch_gordan` (C91; an array divided by zero stops the model), `Model/TablesFloat.lean` for the generator of the tables (C92), `Model/ExprFloat.lean` for nested expressions of Modes objects (C93), `Model/WignerHFloat.lean` for the two H calculators (C94).
* Division by zero.  In numba-compiled scalar code it raises ZeroDivisionError, modelled as the error value.  In numpy array
  code it gives inf or nan; the model then has Lean's `x/0 = 0`, and the theorems either exclude the case or say nothing
  about that value.  `sqrt` of a negative number (nan in numpy) is 0 in Lean; the H recursion computes such entries
  (`g`, `h` at `m = n`) and the theorems show that they are never used.
* **Leading axes** `[..., i]`.  A slice `f[..., i]` is a function from multi-indices of the leading axes to `ℂ`; numpy
  broadcasting is modelled on shapes (`List ℕ`).  Indexing of the leading axes is reindexing by an arbitrary function (C71); that
  such a selection shares memory with the original is modelled by injective maps of memory cells (C76).
* **Tables.**  The `.npy` files are modelled by the generator script for an arbitrary limit `L` (the code ships `L = 32`).
  The shipped files themselves are the subject of C97: `tools/gen_tables.py` transcribes their bytes to `Verif/Data/*.lean`
  (one number per row; trusted: this script, the file headers, and that `np.load` returns these doubles).
* **Library calls**: `cmath.polar z = (‖z‖, arg z)`, `cmath.rect r φ = r e^{iφ}`, `R.a = w + i z`, `R.b = y + i x`,
  `from_euler_angles` by its formula, numpy elementwise functions by their mathematical meaning, mpmath exact, `np.insert`,
  `np.linspace`, `np.tensordot` by their definitions.
* **spinsfast** (used by `Modes.grid`) is an uninterpreted function; what is proved about `grid` holds for every such
  function, or for every function with the contract stated in the theorem (C64).

## 4. Layout

* `Verif/Py.lean` — language layer.
* `Verif/Spec/*.lean` — small specifications written from the documentation, not from the model.
* `Verif/Model/*.lean` — the transcription.
* `Verif/Lemmas/*.lean` — helper lemmas.
* `Verif/Props/*.lean` — the theorems named after the properties, with concrete instances next to them.
* `Verif/Data/*.lean` — the bytes of the shipped tables, generated by `tools/gen_tables.py`.
* `Verif/Examples/*.lean` — further concrete cases: each applies a theorem to literal arguments and so shows that its hypotheses can be met.
* `properties.jsonl`, `MANIFEST.json` — properties and the theorems that prove them; `seeded/LOG.jsonl` — mutations.
* `tools/` — generators for the JSON files and the mutation driver.

## 5. Which functions of /repo are modelled

| file | functions | model |
|---|---|---|
| `_generate_coefficients.py` | whole script | Model/Tables, TablesFloat |
| `*.npy` | contents | Model/ShippedTables, Data/* |
| `__init__.py` | factorial, binomial_coefficient, ladder_operator_coefficient, Wigner_index, Wigner_coefficient | Model/Tables |
| `__init__.py` | LM_range, LM_index, LM_total_size, LM_deduce_ell_max, LMpM_range, LMpM_range_half_integer, LMpM_index, LMpM_total_size | Model/Index, Model/Int64 |
| `__init__.py` | theta_phi | Model/Recursions |
| `WignerD/__init__.py` | `_check_valid_indices`, `Wigner_D_element` (argument analysis), `_Wigner_D_element`, `Wigner_D_matrices`, `_Wigner_D_matrices`, `_Wigner_D_elements`, `_linear_matrix_*`, `_total_size_D_matrices` | Model/WignerD, WignerDApi, WignerDFloat, WignerDMatFloat, Index |
| `WignerD/WignerDRecursion.py` | index functions, steps 1–6, HCalculator | Model/WignerH, Model/WignerHFloat |
| `SWSH/__init__.py` | SWSH, SWSH_grid, `_SWSH`, `_SWSHs` | Model/SWSH, SWSHFloat |
| `SWSH_modes/__init__.py` | `__new__`, `__array_finalize__`, `__reduce__`, `__setstate__`, properties; inherited item assignment | Model/Modes, RawInput, ModesHeap, Pickle, Leading, SetItem, Views |
| `SWSH_modes/algebra.py` | all | Model/Modes, Multiplication |
| `SWSH_modes/derivatives.py` | all | Model/Modes |
| `SWSH_modes/utilities.py` | all; `grid` up to spinsfast | Model/Modes, GridModes |
| `SWSH_modes/ufuncs.py` | `__array_ufunc__` | Model/ModesHeap, UfuncMethods, Compare |
| `SWSH_grids/*` | all; `modes` raises before spinsfast is reached | Model/Grid, UfuncMethods, Compare |
| `mode_conversions.py` | all | Model/Conversions |
| `multiplication.py` | all | Model/Multiplication |
| `recursions/wigner3j.py` | all | Model/Wigner3j, Wigner3jFloat |
| `recursions/wignerH.py` | all | Model/WignerH, Model/WignerHFloat, Model/HLayout |
| `recursions/complex_powers.py`, `quaternion_angles` | all | Model/Recursions, PowersFloat |
| `recursions.rotate`, `P̆Calculator` | only that they raise | Model/Unfinished |

Not modelled: numba compilation and typing, byte formats of pickle, printing, `__version__`, `.github` scripts, tests, packaging.

## 6. How each property is treated

* **C01–C05** index layouts.  Nested loops with a running counter filling `np.empty`; closed-form index functions with floor
  division.  Spec: the list comprehension of the docstring.  Proof: a counter loop over a flattened list writes that list;
  prefix lengths by induction on ell.
* **C06, C07** tables.  The generator loops for every limit; lookups.  Position of an entry = closed form.
* **C08, C09, C57** argument handling of `Wigner_D_element`.  A datatype of Python argument kinds and the branch sequence.
  Documented forms that are rejected or crash are negative theorems with witnesses.
* **C10, C11, C15–C19, C61** the five copies of the kernel (element, elements, matrices, SWSH, SWSHs): polar form, real
  powers, Horner loop.  Spec: the closed-form sum.  Proof: Horner = sum of term ratios; ratios telescope; polar factors
  recombine.  For rotors inside the epsilon neighbourhoods of the poles `Dret`/`Yret` is what every path returns; C61 bounds the
  distance to the mathematical value by `(2 ell+3) epsilon` (the diagonal elements are an alternating sum, the others follow from
  unitarity), and C16–C19 (agreement between entry points) hold for every unit rotor.
* **C12–C14, C20–C22** the spec sum is the matrix of a substitution action on homogeneous polynomials of degree 2ell;
  composition of substitutions gives the representation property; the symmetries follow.  These identities, and C28, C29, C33,
  C34, C41, hold exactly for the returned values when each of `|R.a|`, `|R.b|` is 0 or above `epsilon`; `Props/AllRotors.lean` has
  the versions for *every* unit rotor (exact where the shortcut preserves the identity, otherwise with an explicit multiple of
  `epsilon`).  C30, C31 and the constants of C41 are exact at every unit rotor.
* **C23–C32, C34–C37** the `Modes` class: metadata, list of mode slices, methods as loops over (ell, m) with writes.
* **C24, C25, C39, C40** the heap model: the constructor and `truncate_ell` make views; the closure property C25 is an
  induction over all programs that use the class; `__array_ufunc__` with every argument pattern and `out=`.
* **C33** product of D functions = Clebsch–Gordan series, proved from the 3-j recurrence; then `multiply` is the pointwise product.
* **C38** derivatives of `evaluate` along one-parameter subgroups (Mathlib's quaternion exponential).
* **C41–C43** `mode_conversions`.
* **C44, C45, C58** the `Grid` class, with negative theorems for the broken paths.
* **C46–C50** 3-j symbols: calculator with workspace state.  Selection rules and memory safety by invariants; values through the
  three-term recurrence of the Racah sum, the normalisation and the sign rule.  A ZeroDivisionError would need a "growing
  zero"; C47 locates where one could be and excludes it for small or stretched arguments; whether any exists is open.
* **C51** complex_powers: invariant `zpowers[m] = z^m` up to the eighth-turn rotation.
* **C52–C54, C59, C60** H recursions: index bijections; written-set invariants; values by induction over the steps from
  relations between D functions.  A workspace with another shape than the documented one is not modelled.
* **C55, C56** quaternion_angles, theta_phi: direct.
* **C62** the index functions in wrapping 64-bit arithmetic equal the exact ones for all ell in a stated range.
* **C63** `LM_deduce_ell_max` with a rounded square root.
* **C64** `Modes.grid`: shape, defaults, metadata; with the contract of spinsfast, the values are those of `evaluate`.
* **C65** pickling and copying of `Modes`; **C66** the unfinished functions raise.
* **C67** `quaternion_angles`, `complex_powers` and `HCalculator` together give the value of `Wigner_D_element`.
* **C68** rotors that are not normalised.
* **C69** rounding errors.  Relative errors are tracked as factors between `(1-u)^k` and `(1-u)^-k`; the Horner loop then returns
  `Σ t_ρ θ_ρ` with the exact terms `t_ρ`; the prefactor times `Σ |t_ρ|` is at most `(|Ra|+|Rb|)^(2 ell)` (Cauchy–Schwarz and the
  binomial theorem); the phase error is linear in ell.  Near the poles the shortcut error is that of C11.  Round-to-nearest with
  53 bits is shown to satisfy the hypotheses.
* **C70** the same for the spin-weighted harmonics, grids of them and `Modes.evaluate`; powers by repeated multiplication and
  sequential inner products are shown to satisfy the hypotheses.
* **C71** naturality: reindexing the leading axes commutes with every step of every operation (bind, loop, read, write), hence with
  the operation; broadcasting is reindexing of both operands.
* **C72** indexing of the mode axis: direct computation with the constructor's length check.
* **C73** the argument `method` of `__array_ufunc__`: case analysis on top of the heap model of C39.
* **C74** the error analysis of C69 for the matrices (loop invariant: every slot already written holds an accurate value, mirror images
  through the conjugation and inversion symmetries of D) and for arrays of rotors.
* **C75** item assignment as an update of one slot; wiping the slots below `|s|` commutes with, or is absorbed by, every step of every
  method (the technique of C71); products and values through the vanishing 3-j symbols and harmonics.
* **C76** a view is an injective map of leading indices; writing through it updates the original on its image.  In-place methods through
  C71, `+=` through the heap model of C40.
* **C77** the step `.view(complex)` before the constructor of C23, for `q` items per complex number; irrationality of the square root of
  two excludes misreading from ell = 0, solutions of a Pell equation give the misread sizes.
* **C78** the analysis of C69 with underflow: each operation has relative error `u`, or its exact result is below the smallest normal
  number and the absolute error is at most `eta`; nothing is assumed about overflow.  The Horner loop carries a relative and an absolute
  error side by side.  A rotor `N (za, zb)` with `N` near 1 is compared with the D function of `(za, zb)` by homogeneity.
* **C79** a kernel either succeeds or reads outside the table (the Horner loop always terminates normally); the position of the
  coefficient of an ell beyond the table lies outside it, and a loop over the requested elements stops there.
* **C80** the step `(z, d) -> (z+d, d+t(z+d))` conserves `|d|^2 - t Re(z* d) - t|z|^2`; in the corresponding norm every rounding error is
  of relative size `u`, so the errors add up linearly; the error of `t` is an error of the angle.
* **C81** the first branch of the two `__array_ufunc__` methods and numpy's dispatch between operands; broadcasting lemmas for the last axis.
* **C82** integrals over the sphere (`Spec.sphInt`): the product of two harmonics is expanded with the multiplication theorem of C33, the integral of a Legendre polynomial by a recursion in the exponents of sin and cos; uniqueness by analyticity in the polar angle.
* **C83** the operators in coordinates (`Spec/Coordinates.lean`): changing theta is a right rotation about y, changing phi a left rotation about z; left rotations are right rotations about the rotated axis, so that C38 determines the derivatives.
* **C84** threads (`Model/Threads.lean`): small-step model, a schedule is a list of thread numbers, one compiled step (or the copy of a result) per turn. Invariant `ThreadOk` (contents of the workspace after `p` steps, from the lemmas of C54/C59), preserved by own steps and, if the workspaces differ or the other thread is between calls, by the steps of others. The failing schedule for a shared workspace is explicit. Assumption: compiled functions hold CPython's global interpreter lock (there is no `nogil` in the package); interpreters without the lock are not modelled.
* **C85** sampling (`Lemmas/Sampling.lean`): for fixed m the θ-dependence is a polynomial of degree ≤ L in cos θ, times sin θ if m+s is odd; the azimuths separate the m (geometric sums), the colatitudes determine the polynomial (number of roots), and C82 (orthonormality) gives the coefficients. Sharpness by explicit functions (azimuths) and by the dimension of a kernel (colatitudes).
* **C86** operations of `Modes` with rounding (`Model/ModesFloat.lean`): the loops are those of the exact model with the arithmetic replaced; each result is compared with that of the exact operation mode by mode; the reality condition after rounding follows from the symmetry of addition.
* **C87** the analysis of C70 with underflow, overflow and unnormalised rotors (as C78 for C69): `Mix u k E x' x` says that `x'` is `x` with `k`
  roundings up to an absolute error `E`; the four branches of the kernels are analysed under `Range`, and the harmonics are compared through
  the homogeneity of the spec in the rotor; an instance with binary powering and sequential inner products shows the hypotheses hold for doubles.
* **C88** `mode_conversions.py` with rounding (`Model/ConvFloat.lean`): every component of every result is written as the exact one times a factor `θ` with `(1-u)^k ≤ θ ≤ (1-u)^-k`; in the round trips the same rounded factor cancels, so only the roundings of the last operations remain.
* **C89** products of Modes with rounding (`Model/MultFloat.lean`): the loops add, in a fixed order, the contributions of a list of quadruples to each mode; a computed sum is kept as a difference of two non-negative sums each known up to a number of roundings, which gives the bound in terms of absolute values. The accuracy of the computed 3-j symbols is a hypothesis.
* **C90** `_Wigner_D_matrices` and `_Wigner_D_elements` with underflow, overflow and imperfectly normalised rotors: the transcriptions of C74 with the arithmetic of C87. A magnitude is known up to roundings plus a multiple of the underflow unit, so that the `d == 0` branch (stores of zeros) is a case of the same estimate; the phases of the four elements stored together are bounded as in C74 plus underflow; finally N^(2 ell) D(normalised) is compared with D(normalised).
* **C91** the 3-j calculator with rounding (`Model/Wigner3jFloat.lean`): memory safety by following the loops with arbitrary operations; normalisation because the last step divides by the computed norm, which is a sum of non-negative terms and is shown to be nonzero (each phase leaves a nonzero entry: floating-point products and quotients of nonzero numbers are nonzero in the model); the rows m2 = m3 = 0 have Z = 0, so their recursion has two terms and every entry is a product of roundings of exact factors.
* **C92** the tables with rounding (`Model/TablesFloat.lean`): each entry is at most 12 mpmath roundings from the exact value; two different 53-bit numbers differ by at least 1/(2^53+1) of either, so that rounding to nearest recovers a 53-bit value from the approximation.
* **C93** expressions of Modes objects with rounding (`Model/ExprFloat.lean`, meaning and bound in `Spec/Expr.lean`): induction over the expression; each operation is linear (or bilinear) in the mode weights, so that errors of the operands pass through the same formula with absolute values, and C86, C89 give the new roundings; values at rotors by C70, and the exact weights represent the pointwise formula by the identities behind the products, sums and conjugates of Modes objects.
* **C94** the H calculators with rounding (`Model/WignerHFloat.lean`): the loop invariants of C54/C59 with approximate rows in place of exact ones. A row approximates v at level B if |v| <= B and the error is at most B eta; each assignment raises the level by a factor depending on n_max only (the computed coefficients are 7 roundings from the exact ones, bounded by n_max + 2, and their reciprocals by 3), and the longest chain of assignments is 3 n_max + 5. Computed coefficients that are divided by are nonzero because they have a bounded relative error. Independence of the workspace: two runs are compared statement by statement (`Lemmas/HFloatHist.lean`), with the set of positions at which the arrays agree.
* **C95** incomplete arrays and negative `ell_min` in `mode_conversions.py`: the loop lemma of C42 is stated for arrays that are longer than the complete part; the array is split at the largest complete length. Negative `ell_min`: blocks with negative ell do nothing, and the first block that does not fit runs past the end.
* **C96** columns of the H calculators (`Model/HLayout.lean` for two-dimensional arrays): every step commutes with a choice of columns (any function between the column numbers), by naturality of reads, writes and loops; with C94 (independence of the workspace) this gives the statement for any two calculators. That a call returns does not depend on the numbers: compare the choices of no columns.
* **C97** the shipped tables (`Model/ShippedTables.lean`, `Data/*.lean`). The squares of the coefficients are integers, `C(p',p) C(n-p,n-p')` for `p ≤ p'`, with a two-term recurrence along each row; a check on natural numbers (`Lemmas/ShippedCheck.lean`) compares them with the squares of each double and of the next one. The kernel evaluates the check on the whole table (`decide +kernel`, one theorem per `2 ell`), `Lemmas/Shipped.lean` proves what it means, and `Props/ShippedTables.lean` carries it through the lookups. Finding: the files were written by a conversion that truncates (more than half of the ladder coefficients are not the nearest double, and 20 Wigner coefficients that are integers are one unit in the last place too small), so the rounding assumed in C92 is that of the generator with a present-day mpmath, not that of the files; the error bounds need only the weaker 2^-52.
* **C98** C78, C87 and C90 for the shipped table with numbers put in; the unit roundoff is enlarged to 2^-52 to cover the table.
* **C99** C16 for the entries of the array, C12 and C14 for composition and inverse, C21 for the values; the product by C33 and the uniqueness of mode expansions (C82).
* **C100** C33 makes the modes of a product those of the pointwise product; the operators are derivatives along one-parameter groups of rotors (C38), so that the product rule of calculus applies; uniqueness of mode expansions turns equal values into equal modes, and C32 shows that a truncation does not change the modes it keeps.
* **C101** adjoints, conjugates and kernels: from the action of each operator on the modes (C35–C37), one ell at a time; the ladder operators by a shift of the summation index. The boundary cases |s| = ell and |s ± 1| = ell are where the modes below the spin weight (zero) enter.
* **C102** norm bounds: values by the Cauchy–Schwarz inequality and the addition theorem (C22), attained by the conjugate harmonics; operators from their action on the modes; products from Parseval's identity on the sphere (orthonormality, C82) and the bound on the values of one factor.
* **C103** images and eigenfunctions: from the action on the modes (C35–C37); the solution divides by the factors, which vanish exactly at the excluded modes.
* **C104** constants and zero divisors: values of products are products of values (C33); along a segment of angles the values of an expansion are real-analytic, and a product of analytic functions vanishes only if one of them does; uniqueness of mode expansions does the rest.
* **C105** norms of images: each is the sum of the squares of the modes of `f` times the square of the factor of the operator (C35–C37), after a shift of `m` for the ladder operators; the identities and bounds then hold term by term.
* **C106** faithfulness: if D(q) = D(r), the representation property (C12) makes D of conj(q) r the identity matrix; its elements (ell, ell) and (ell-1, ell-1) are powers of the complex part `a`, which must be 1 or -1. The collision is between two rotors with the same `a` and |b| = epsilon.
* **C107** traces: every unit quaternion is conjugate to a rotation about z, whose matrix is diagonal (C13); the trace is invariant under conjugation by the representation property (C12), and the sum of powers satisfies the recurrence of the Chebyshev polynomials.
* **C108** commutant: rotations about z are diagonal with different entries (C13), which makes the matrix diagonal; the last column of the matrix of one other rotor has no zeros, which makes the diagonal constant.
* **C109** antipodes: the matrix of the rotor x has one nonzero element in every column (C13), so the representation property (C12) reduces the harmonic at R x to a single term; for functions, sum over the modes with the closed form of evaluate.
* **C110** reflection: the antipode (C109), the rotation by pi about z, whose matrix is diagonal (C13), and the conjugation symmetry of the harmonics (C20), then the sum over the modes with m replaced by -m.
* **C111** symmetries: the action of the rotation about z and of the reflection (C110) on the modes, and uniqueness of the expansion from the values on a band of the sphere (C82).
