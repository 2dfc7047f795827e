#!/usr/bin/env python3
"""Writes /verif/properties.jsonl (kept as a script so that the list is easy to edit)."""
import json, os
I='spherical_functions/__init__.py'; G='spherical_functions/_generate_coefficients.py'
D='spherical_functions/WignerD/__init__.py'; S='spherical_functions/SWSH/__init__.py'
R3='spherical_functions/recursions/wigner3j.py'; RH='spherical_functions/recursions/wignerH.py'
RD='spherical_functions/WignerD/WignerDRecursion.py'; CP='spherical_functions/recursions/complex_powers.py'
RI='spherical_functions/recursions/__init__.py'
ML='spherical_functions/multiplication.py'; MC='spherical_functions/mode_conversions.py'
M0='spherical_functions/SWSH_modes/__init__.py'; MA='spherical_functions/SWSH_modes/algebra.py'
MU='spherical_functions/SWSH_modes/utilities.py'; MF='spherical_functions/SWSH_modes/ufuncs.py'
MD='spherical_functions/SWSH_modes/derivatives.py'
G0='spherical_functions/SWSH_grids/__init__.py'; GA='spherical_functions/SWSH_grids/algebra.py'
GU='spherical_functions/SWSH_grids/utilities.py'; GF='spherical_functions/SWSH_grids/ufuncs.py'
P=[]
def p(title, statement, quantifier, why, *anchors):
    P.append(dict(id='C%02d'%(len(P)+1), title=title, statement=statement, quantifier=quantifier,
                  why_tests_cant=why, anchors=[dict(file=a, symbols=b) for a,b in anchors]))

# ---- index layout
p('(ell,m) mode layout is consistent',
  'LM_range(ell_min, ell_max) returns exactly the pairs (ell,m), ell from ell_min to ell_max and m from -ell to ell, in lexicographic order; it has LM_total_size(ell_min, ell_max) rows, every row is written, and row LM_index(ell,m,ell_min) is (ell,m). Consequently LM_index is a bijection from the valid pairs onto 0..size-1.',
  'all integers 0 <= ell_min <= ell_max+1, all valid (ell,m), all initial contents of the uninitialised output buffer',
  'Tests try ell_max up to 32; the closed forms are polynomials used at arbitrary ell, and stale np.empty contents are invisible to a test that happens to see zeros.',
  (I,['LM_range','_LM_range','LM_index','LM_total_size']))
p('Deducing ell_max from an array length',
  'LM_deduce_ell_max(size, ell_min) returns L when size = LM_total_size(ell_min, L), and raises ValueError for every size that is not the size of a complete set of modes starting at ell_min.',
  'all integers ell_min >= 0 and all sizes >= 0',
  'The claim includes rejecting every one of infinitely many bad sizes.',
  (I,['LM_deduce_ell_max','LM_total_size']))
p("(ell,m',m) layout is consistent",
  "LMpM_range(ell_min, ell_max) lists exactly the triples (ell,m',m) with |m'|,|m| <= ell in lexicographic order, has LMpM_total_size(ell_min, ell_max) rows, and row LMpM_index(ell,m',m,ell_min) is (ell,m',m); the integer divisions by 3 in the closed forms are exact.",
  "all integers 0 <= ell_min <= ell_max+1, all valid (ell,m',m)",
  'Closed-form cubic polynomials with truncating division used at arbitrary ell; tests sample ell <= 32.',
  (I,['LMpM_range','_LMpM_range','LMpM_index','LMpM_total_size']))
p("half-integer (ell,m',m) layout and Wigner_index",
  "LMpM_range_half_integer(ell_min, ell_max) lists exactly the triples with 2ell, 2m', 2m of equal parity in lexicographic order and allocates exactly that many rows; _Wigner_index(2ell,2m',2m) is the row number of that triple in the listing that starts at ell=0.",
  'all half-integers 0 <= ell_min <= ell_max+1/2, all valid triples',
  'Nested truncating divisions; tests sample a finite range.',
  (I,['LMpM_range_half_integer','_LMpM_range_half_integer','_Wigner_index']))
p('Single-matrix and block offsets agree with the full layout',
  "_linear_matrix_offset(ell,ell_min) + _linear_matrix_index(ell,m',m) = LMpM_index(ell,m',m,ell_min); _linear_matrix_diagonal_index(ell,m') = _linear_matrix_index(ell,m',m'); _total_size_D_matrices(ell_min,ell_max) = LMpM_total_size(ell_min,ell_max) = _linear_matrix_offset(ell_max+1,ell_min).",
  "all integers ell_min <= ell and all m', m",
  'Two separately coded families of closed forms must agree for all ell.',
  (D,['_linear_matrix_index','_linear_matrix_diagonal_index','_linear_matrix_offset','_total_size_D_matrices']),(I,['LMpM_index','LMpM_total_size']))
# ---- tables
p('factorial, binomial and ladder-coefficient lookups',
  'Reading the precomputed tables through factorial(n), binomial_coefficient(n,k) and ladder_operator_coefficient(ell,m) returns n!, C(n,k) and sqrt((ell-m)(ell+m+1)) and stays inside the table for every documented argument. Outside the documented range the lookup does not raise: factorial(-1) returns 170! and binomial_coefficient(n,n+1) returns 1 instead of 0 (inside the table).',
  'all n <= 170; all 0 <= k <= n <= 2 ell_max; all 2ell <= 2 ell_max with m of equal parity; every ell_max for which the tables are generated',
  'The table position of every entry must match a closed-form offset for every table size, not only the shipped ell_max=32.',
  (G,['<module>']),(I,['factorial','binomial_coefficient','_ladder_operator_coefficient','ladder_operator_coefficient']))
p('Wigner coefficient lookup',
  "_Wigner_coefficient(2ell,2m',2m) reads the entry generated for exactly that triple, i.e. sqrt((ell+m)!(ell-m)!/((ell+m')!(ell-m')!)) C(ell+m',rho_min) C(ell-m',ell-m-rho_min), rho_min=max(0,m'-m), and never reads outside the table.",
  "all valid triples with 0 <= ell <= ell_max (integer and half-integer), every ell_max for which the table is generated",
  'Generator loop order and a closed-form cubic offset with nested floor divisions must agree on every triple.',
  (G,['<module>']),(I,['_Wigner_coefficient','Wigner_coefficient','_Wigner_index']))
# ---- Wigner D dispatch
p('Index checking of Wigner_D_element',
  "Whenever Wigner_D_element accepts a list of index triples (ell,m',m) with error_on_bad_indices set, every table read is in range; it raises ValueError exactly when some triple has ell > ell_max or |m'| > ell or |m| > ell. The check does not test that 2ell, 2m', 2m have equal parity, so e.g. (1, 1/2, 0) is accepted. Indices that are not half-integers are not rejected: the result is that of the half-integers whose doubles are nearest (ties to even).",
  'all index lists, all rotors',
  'Must hold for every index triple; unchecked numba reads do not crash in tests.',
  (D,['_check_valid_indices','Wigner_D_element']))
p('Call signatures of Wigner_D_element',
  "Rotor, R.a and R.b, or Euler angles, each with a list of ells or a list of triples, are parsed to the documented list of triples, and rotor or Euler angles with (ell,m',m) give a scalar. The documented forms (R, ell), (alpha,beta,gamma, ell) raise IndexError, and (Ra, Rb, ell), (Ra, Rb, ell, m', m) never return a value because the numbers are taken for Euler angles.",
  'all argument tuples built from the documented forms', 'All combinations of argument forms with unbounded index lists.', (D,['Wigner_D_element']))
p('Wigner_D_element computes the Wigner D function in every regime',
  "For a unit rotor the value returned for (ell,m',m) equals the closed-form sum sqrt((ell+m)!(ell-m)!/((ell+m')!(ell-m')!)) sum_rho (-1)^rho C(ell+m',rho) C(ell-m',ell-m-rho) Ra^(ell+m'-rho) conj(Ra)^(ell-m-rho) Rb^(rho-m'+m) conj(Rb)^rho whichever of the four internal regimes (|Ra| tiny, |Rb| tiny, |Ra|<|Rb|, |Ra|>=|Rb|) is used (exact arithmetic; |Ra|, |Rb| either 0 or larger than the cut-off epsilon).",
  "all unit rotors outside the open epsilon-neighbourhoods, all integer and half-integer ell <= ell_max, all valid m', m",
  'Continuum of rotors; the four code paths use different formulas and a Horner scheme whose coefficients are ratios of factorials.',
  (D,['_Wigner_D_element','Wigner_D_element']))
p('Error of the small-|Ra| / small-|Rb| shortcut',
  "When 0 < |Ra| <= epsilon (or 0 < |Rb| <= epsilon) the returned value differs from the Wigner D function by at most (2 ell+2) epsilon + ((1-epsilon^2)^(-2 ell) - 1), which is at most (2 ell+3) epsilon for ell <= 5e13.",
  "all unit rotors in the epsilon-neighbourhoods, all ell, m', m",
  'The set of rotors where the shortcut fires has tiny measure; random tests never hit it.',
  (D,['_Wigner_D_element']))
p('Representation property',
  "D^ell(R1 R2) = D^ell(R1) D^ell(R2): sum_m'' D_{m',m''}(R1) D_{m'',m}(R2) = D_{m',m}(R1 R2).",
  "all pairs of rotors, all integer and half-integer ell, all m', m",
  'Continuum of rotor pairs; sampled with tolerance in tests.',
  (D,['Wigner_D_element','_Wigner_D_element']))
p('Identity, rotations about z, and double cover',
  "D^ell(1) is the identity matrix; D^ell_{m',m}(exp(z gamma/2)) = delta_{m'm} exp(i m gamma); D^ell(-R) = (-1)^(2ell) D^ell(R).",
  "all ell, m', m, gamma, R",
  'Continuum of inputs.',
  (D,['Wigner_D_element','_Wigner_D_element']))
p('Inverse, unitarity and index symmetries',
  "D_{m',m}(R^-1) = conj(D_{m,m'}(R)); sum_m D_{m',m} conj(D_{m'',m}) = delta; conj(D_{m',m}(R)) = (-1)^(m'-m) D_{-m',-m}(R); hence |D_{m',m}(R)| <= 1.",
  "all unit rotors, all ell, m', m",
  'Continuum of inputs.',
  (D,['Wigner_D_element','_Wigner_D_element']))
p('Euler-angle form of D',
  "For R = from_euler_angles(alpha,beta,gamma): D_{m',m}(R) = exp(i m' alpha) d_{m',m}(beta) exp(i m gamma), with d real and independent of alpha, gamma.",
  "all angles, all ell, m', m",
  'Continuum of inputs.',
  (D,['Wigner_D_element','_Wigner_D_element']))
p('Wigner_D_matrices fills every slot with the right element',
  "Wigner_D_matrices(R,ell_min,ell_max) returns an array of length LMpM_total_size(ell_min,ell_max) whose entry LMpM_index(ell,m',m,ell_min) is D^ell_{m',m}(R), i.e. agrees with Wigner_D_element; every slot is written, no index is out of range, and the values obtained by the internal symmetry shortcuts are right.",
  "all unit rotors, all 0 <= ell_min <= ell_max <= table limit, all initial contents of the uninitialised buffer",
  'Slots are filled by four symmetry-related writes; a missed slot keeps arbitrary memory that tests may see as plausible.',
  (D,['Wigner_D_matrices','_Wigner_D_matrices']))
p('Array-of-rotors path of Wigner_D_element',
  "Wigner_D_element(array of rotors, ell, m', m) returns, entry by entry, the same value as the single-rotor call.",
  "all arrays of unit rotors, all valid ell, m', m",
  'Separately coded kernel; all inputs.',
  (D,['_Wigner_D_elements','Wigner_D_element']))
# ---- SWSH
p('SWSH in terms of Wigner D',
  "SWSH(R, s, [[ell,m],...]) returns (-1)^s sqrt((2ell+1)/(4 pi)) D^ell_{m,-s}(R) for every requested (ell,m), and 0 when ell < |s| or |m| > ell.",
  'all unit rotors, all integer s, all index lists with ell <= ell_max',
  'Separately coded kernel with its own regime split and sign conventions.',
  (S,['SWSH','_SWSH']))
p('SWSH for an array of rotors, and SWSH_grid layout',
  "SWSH(array of rotors, s, indices) and SWSH_grid(R_grid, s, ell_max) give, at [.., LM_index(ell,m,0)], the value of the scalar call SWSH(R_grid[..], s, [[ell,m]]); entries with ell < |s| are zero. SWSH_grid of an array without elements raises ValueError.",
  'all arrays of rotors, all s, all ell_max',
  'Separately coded kernel; the layout and the zero block must hold for all sizes.',
  (S,['SWSH','_SWSHs','SWSH_grid']))
p('Conjugation of SWSHs', 'conj(sYlm(R)) = (-1)^(s+m) (-s)Y(l,-m)(R).', 'all unit rotors, all s, ell, m', 'Continuum of inputs.', (S,['SWSH']))
p('Spin and rotation behaviour of SWSHs',
  "sYlm(R exp(gamma z/2)) = exp(-i s gamma) sYlm(R), and sYlm(Q R) = sum_m' D^ell_{m,m'}(Q) sYlm'(R).",
  'all rotors Q, R, all gamma, s, ell, m', 'Continuum of inputs.', (S,['SWSH']),(D,['Wigner_D_element']))
p('Addition theorem',
  'sum_m |sYlm(R)|^2 = (2 ell+1)/(4 pi), independent of R and of s, for |s| <= ell; more generally sum_m sYlm(R) conj(s\'Ylm(R)) = 0 for s != s\'.',
  'all unit rotors, all |s|,|s\'| <= ell', 'Continuum of inputs.', (S,['SWSH']))
# ---- Modes
p('Modes construction',
  "Modes(data, spin_weight=s, ell_min=l0[, ell_max]) succeeds exactly when the last axis has the length of a complete set of modes from l0 and s is given; the result starts at ell=0, has last-axis length (ell_max+1)^2, holds data[LM_index(ell,m,l0)] at index(ell,m) for every ell >= max(|s|, l0), and zero for every other slot. Otherwise it raises ValueError.",
  'all data, all s, l0 >= 0, ell_max >= -1 (given positionally, by keyword, or deduced), all leading shapes', 'Padding and zeroing must be right for every combination of |s|, ell_min, ell_max.',
  (M0,['Modes.__new__']))
p('Constructor aliasing',
  "Modes(arr, s) built with ell_min=0 shares memory with arr: the ell<|s| slots of the caller's own array are set to zero.",
  'all arrays with a nonzero ell<|s| slot', 'A side effect on the argument, unchecked by value tests.', (M0,['Modes.__new__']))
p('Closure: every operation keeps the mode-array invariant',
  'Any object reached from the constructor (applied to arrays, to views a[..., :n] of arrays, or to other Modes objects) by any sequence of conjugate, real/imag (new or in place), add, subtract, multiply, scalar multiply/divide, negative, truncate_ell, eth, ethbar, L and R operators and ufuncs without out= (whenever the operation does not raise) has (ell_max+1)^2 modes, and zeros in every slot with ell < |s|, also when objects share memory. (Objects made from views that start at different slots of one array can break this through in-place operations.)',
  'all finite sequences of operations on all valid inputs', 'Quantifies over all operation histories.',
  (M0,['Modes']),(MA,['conjugate','_real_func','_imag_func','add','subtract','multiply','divide']),(MD,['Lsquared','Lz','Lplus','Lminus','Rsquared','Rz','Rplus','Rminus','eth','ethbar']),(MU,['truncate_ell']))
p('Modes.index',
  'modes.index(ell,m) returns the position of the (ell,m) mode for every valid (ell,m) and raises ValueError exactly for ell<|s|, ell>ell_max or |m|>ell.',
  'all modes objects, all integers ell, m', 'Infinitely many rejected inputs.', (MU,['index']))
p('Modes.truncate_ell', 'For |s| <= L < ell_max, truncate_ell(L) keeps exactly the modes with ell <= L unchanged and sets ell_max = L (the data are a prefix of the original data); for L >= ell_max it returns the object unchanged; for L < |s| (and L < ell_max) it raises ValueError.',
  'all modes objects, all integers L', 'All sizes.', (MU,['truncate_ell']))
p('Conjugate of Modes is the pointwise conjugate function',
  'f.conjugate() has spin -s, mode (ell,m) equal to (-1)^(s+m) conj(f(ell,-m)), evaluates at every rotor to the complex conjugate of f, is an involution, and the in-place version produces the same data as the out-of-place version.',
  'all modes objects, all rotors', 'All data, and in-place aliasing (reads after writes) must be ruled out.', (MA,['conjugate']))
p('Real and imaginary parts of Modes',
  'For spin weight 0, f.real and f.imag are the modes of the real and imaginary parts of the function f, f = f.real + i f.imag, both are real functions, in-place variants give the same data; for nonzero spin weight a ValueError is raised.',
  'all modes objects', 'All data; in-place aliasing.', (MA,['_real_func','_imag_func']))
p('Addition and subtraction of Modes',
  'f+g and f-g represent the pointwise sum/difference: evaluate(f±g,R)=evaluate(f,R)±evaluate(g,R); ell_max is the larger one; the methods raise ValueError exactly when spin weights differ or leading shapes do not broadcast.',
  'all pairs of modes objects with arbitrary ell_max, leading shapes; all rotors', 'All pairs of sizes and data.', (MA,['add','subtract']))
p('Scalar arithmetic never acts on individual modes',
  'Multiplying or dividing a Modes object by a scalar or by an array with at most as many axes as the leading axes, broadcasting against them, scales each function as a whole; an array with more axes (which would broadcast along the mode axis) raises ValueError; adding or subtracting anything but zero is refused.',
  'all modes objects, all array shapes', 'Quantifies over all shapes.', (MA,['multiply','divide']),(MU,['_check_broadcasting']))
p('Product of Modes: spin, ell_max and bilinearity',
  'f*g has spin s_f+s_g, ell_max = truncator((ell_max_f, ell_max_g)) (by default the sum), its modes are the sums over products of 3-j symbols given in the documentation, it is bilinear and commutative, and truncating during multiplication gives the same as truncating afterwards.',
  'all pairs of modes objects, all truncators that do not exceed the sum', 'All data and sizes.', (ML,['multiply','_multiplication_helper']),(MA,['multiply']))
p('Product of Modes is the pointwise product',
  'evaluate(f*g, R) = evaluate(f,R) evaluate(g,R) for the untruncated product, whenever the product returns; it always returns when ell_max_f+ell_max_g<=22 or one ell_max is at most 6 (otherwise the only possible exception is the ZeroDivisionError of C47). The function multiply on arrays likewise.',
  'all pairs of modes objects, all unit rotors', 'Relies on the 3-j decomposition for all ell, m, s.', (ML,['multiply','_multiplication_helper']),(R3,['Wigner3jCalculator.calculate']))
p('norm of Modes',
  'f.norm() is the square root of the sum of |mode|^2 over the last axis: non-negative, zero iff the function is zero, absolutely homogeneous, satisfies the triangle inequality, and is invariant under conjugation and under rotation of the modes. np.absolute(f) returns the elementwise modulus of the modes instead of this norm, contradicting its description.',
  'all modes objects', 'All data.', (MA,['norm']),(MF,['__array_ufunc__']))
p('Angular-momentum algebra of L operators',
  '[Lz,L±]=±L±, [L+,L-]=2Lz, L²=½(L+L- + L-L+)+Lz², [L²,L]=0; all of them preserve spin weight and ell_max.',
  'all modes objects of every spin weight and ell_max', 'All data and sizes; ladder loops run over modified data.', (MD,['Lsquared','Lz','Lplus','Lminus']))
p('Algebra of R operators, and [L,R]=0',
  '[Rz,R±]=±R±, [R+,R-]=2Rz, R²=L², every R operator commutes with every L operator; R± change the spin weight by ∓1, including at the boundary |s| = ell.',
  'all modes objects', 'Boundary modes |s|=ell are annihilated; all s and ell_max.', (MD,['Rsquared','Rz','Rplus','Rminus']))
p('eth and ethbar on Modes',
  'eth raises and ethbar lowers the spin weight by one; (ethbar eth - eth ethbar) f = 2 s f; ethbar eth f has modes -(ell-s)(ell+s+1) f(ell,m); conj(eth(f)) = ethbar(conj f); and they agree with the functions eth_NP/ethbar_NP of mode_conversions.',
  'all modes objects', 'All data and sizes.', (MD,['eth','ethbar']),(MC,['eth_NP','ethbar_NP']))
p('L and R act as infinitesimal left and right rotations',
  'With Lg(f)(Q) = -(i/2) d/dt f(exp(t g) Q) at t=0 and Rg(f)(Q) = -(i/2) d/dt f(Q exp(t g)) at t=0, where f(Q) is what evaluate returns: Lz is Lg for g=z, Lplus = Lx + i Ly, Lminus = Lx - i Ly, Rz is Rg for g=z, and ethbar = Rx - i Ry.  (The docstrings also claim Rplus = Rx - i Ry and Rminus = Rx + i Ry; the code computes the opposite sign, Rplus = -(Rx - i Ry), Rminus = eth = -(Rx + i Ry), and that is what holds.)',
  'all modes objects, all rotors outside the epsilon-neighbourhoods of the poles (all rotors for the function defined by the mode weights), all generators', 'Relates modes to derivatives of the function at every rotor.', (MD,['Lz','Rz','Lplus','Lminus','Rplus','Rminus']))
p('ufunc dispatch of Modes',
  'Without out=, the supported ufuncs (+,-,*,/ by scalars, negation, conjugate, comparison, absolute, finiteness tests) act as the corresponding method or on the plain array of mode values and leave all existing objects and memory unchanged (only the exception for unequal spin weights, nonzero summands and unbroadcastable factors is TypeError instead of ValueError); every other ufunc yields NotImplemented (TypeError), and other keyword arguments NotImplementedError, rather than acting on mode values.',
  'all ufuncs and argument combinations', 'Decision logic over all combinations of argument kinds.', (MF,['__array_ufunc__']))
p('out= argument of Modes ufuncs',
  'What np.add/np.subtract/np.multiply(f, g, out=h) leaves in h: f+g, f-g for h=f (so f += g works for ell_max_g <= ell_max_f) and for an h of other memory when ell_max_g <= ell_max_f; but (defects) stale contents of h plus g for ell_max_f < ell <= ell_max_g, 2f or 0 for h=g, and the old contents of h plus f*g for multiply; an h of the wrong size never works, so f *= g fails for ell_max_g >= 1; f *= 2, f /= 2, f += 0 raise TypeError; np.negative(array, out=f) negates f.',
  'all f, g, h, including h aliasing f or g', 'Aliasing and stale contents.', (MF,['__array_ufunc__']),(ML,['multiply']))
# ---- mode conversions
p('Constants and vectors as modes',
  'constant_as_ell_0_mode / constant_from_ell_0_mode and vector_as_ell_1_modes / vector_from_ell_1_modes are mutually inverse, and the function with those modes takes the value c, respectively v·n(theta,phi), at every direction.',
  'all complex constants, all real 3-vectors, all directions', 'Continuum of inputs.', (MC,['constant_as_ell_0_mode','constant_from_ell_0_mode','vector_as_ell_1_modes','vector_from_ell_1_modes']))
p('eth/ethbar functions on flat mode arrays',
  'eth_NP, ethbar_NP multiply each (ell,m) mode of a complete mode array by ±sqrt((ell∓s)(ell±s+1)) (0 below the spin limit); eth_GHP and ethbar_GHP equal the NP versions divided by sqrt 2; the argument is not modified.',
  'all complete mode arrays, all s, all ell_min >= 0', 'All sizes and data.', (MC,['eth_GHP','ethbar_GHP','eth_NP','ethbar_NP']))
p('ethbar_inverse_NP inverts ethbar_NP',
  'ethbar_inverse_NP(ethbar_NP(f,s),s-1)=f and ethbar_NP(ethbar_inverse_NP(g,s),s+1)=g on all modes with ell >= max(|s|,|s∓1|); modes below that limit are not zeroed by ethbar_inverse_NP.',
  'all complete mode arrays, all s', 'All sizes and data.', (MC,['ethbar_inverse_NP','ethbar_NP']))
# ---- Grid
p('Grid construction and spin-weight rules',
  'Grid(data, s) needs at least 2|s|+1 points in each direction; sums/differences need equal spin (else ValueError), products add spins, quotients subtract them, conjugation negates the spin, absolute gives spin 0, sqrt/power scale it; numbers act on whole functions along the leading axes; values are the pointwise results and every result again has at least 2|s|+1 points in each direction.',
  'all grids of all shapes and spins', 'Decision logic over all combinations.', (G0,['Grid.__new__']),(GA,['add','subtract','multiply','divide','conjugate']),(GF,['__array_ufunc__']))
p('Grid error paths',
  'Defects of the Grid error paths: too few grid points always raise NameError where ValueError is documented; g.subtract(h) with different spins always raises NameError; Grid.modes raises for every argument and every grid; pickling any Grid raises. (The documented behaviour - ValueError, a Modes object, a working pickle - is therefore never obtained.)',
  'all grids', 'Error paths not reached by tests.', (G0,['Grid.__new__','Grid.__reduce__']),(GU,['modes']),(GA,['subtract']))
# ---- 3j
p('3-j selection rules',
  'Wigner3j(j1,j2,j3,m1,m2,m3) is 0 whenever m1+m2+m3 != 0, or |m_i|>j_i, or the triangle inequality fails; Wigner3jCalculator.calculate returns zeros for all j outside max(|j2-j3|,|m2+m3|)..j2+j3.',
  'all integer arguments', 'Infinitely many inputs.', (R3,['Wigner3j','Wigner3jCalculator.calculate']))
p('3-j calculator memory safety and history independence',
  'calculate(j2,j3,m2,m3) on a calculator created for (j2_max,j3_max) with j2<=j2_max, j3<=j3_max never indexes outside its workspace, and its outcome does not depend on earlier calls (even ones that raised). Its only possible exception for j2+j3<=151 is ZeroDivisionError, which requires a j strictly inside the range at which the symbol vanishes exactly while its neighbour above is at least as large as its neighbour below, after an initial monotone stretch from whose end on no nonzero value is smaller than the one two places before; it is never raised for j2+j3<=22, for j2<=6 or j3<=6, for m2=m3=0, nor when |m2|=j2 or |m3|=j3.',
  'all sizes, all arguments in range, all previous workspace contents', 'Quantifies over all call histories.', (R3,['Wigner3jCalculator']))
p('3-j values',
  'Whenever calculate(j2,j3,m2,m3) returns, entry j of the result is the Wigner 3-j symbol (j j2 j3; -m2-m3 m2 m3), as given by the Racah formula; likewise Wigner3j.',
  'all j, j2, j3, m2, m3 with j2+j3<=151 (and all larger ones for which the 32-bit coefficient does not overflow)', 'All quantum numbers; the two-sided recursion with normalisation differs from any closed form.', (R3,['Wigner3jCalculator.calculate']))
p('3-j symmetries and orthogonality; Clebsch-Gordan',
  'Wigner3j is invariant under even permutations of columns and multiplied by (-1)^(j1+j2+j3) under odd ones and under m -> -m; sum over (m2,m3) and sum over j orthogonality; clebsch_gordan(j1,m1,j2,m2,j3,m3) = (-1)^(j1-j2+m3) sqrt(2 j3+1) Wigner3j(j1,j2,j3,m1,m2,-m3).',
  'all quantum numbers with the two smaller j adding up to at most 151, whenever the calls return', 'All quantum numbers.', (R3,['Wigner3j','clebsch_gordan']))
p('3-j recursion coefficient stays in 32-bit range',
  'The B coefficient, declared as 32-bit integer, does not overflow for |j| up to the largest size used by the package (products of modes with ell<=64).',
  'all arguments with j2,j3 <= 64', 'Finite but too large to enumerate in tests; overflow is silent.', (R3,['B']))
# ---- recursions
p('complex_powers',
  'complex_powers(z,M)[m] = z^m for every unit complex z, every M >= 1 and 0<=m<=M; the quadrant loop terminates. For M = 0 it writes outside its buffer. A zpowers argument of the documented shape is accepted only for one-dimensional z.',
  'all unit complex numbers, all M', 'Continuum of inputs and unbounded M.', (CP,['complex_powers','_complex_powers']))
p('Wedge index of the H recursion',
  "wedge_index(ell,m',m) enumerates the wedge {|m'|<=m<=ell<=n_max} in lexicographic order without gaps, wedge_size(n_max) is its size; wedgeify_index maps every (ell,m',m) to one of its symmetric partners (m',m), (m,m'), (-m',-m), (-m,-m'), inside the wedge.",
  "all n_max, all valid indices", 'Cubic closed forms with case splits.', (RH,['wedge_size','wedge_index','wedgeify_index']))
p('nm/nabsm/nmpm index functions', 'nm_index, nabsm_index, nmpm_index enumerate (n,m), (n,|m|) and (n,m\',m) without gaps in lexicographic order.', 'all n, m, m\'', 'Closed forms for unbounded n.', (RH,['nm_index','nabsm_index','nmpm_index']))
p('H recursion is memory safe, history independent and complete',
  'HCalculator(n_max)(cosbeta,...) for n_max>=1 stays inside its arrays and writes every wedge entry, and the result does not depend on earlier calls with the same workspace; the result is the beginning of the workspace, so that the next call with the same workspace overwrites it. n_max=0 writes out of bounds. Bad n_max, empty or out-of-range cosbeta and different shapes of cosbeta and sinbeta raise ValueError.',
  'all n_max, all angles (cosbeta with its sines, or without), all previous workspace contents', 'Quantifies over histories and sizes.', (RH,['HCalculator','_step_1','_step_2','_step_3','_step_4','_step_5']))
p('quaternion_angles', "quaternion_angles(R) returns unit complex numbers (zb, zp, zm) that reproduce the rotor: R0 + i R3 = sqrt((1+Re zb)/2) zp, R2 - i R1 = sqrt((1-Re zb)/2) zm, Im zb >= 0; for R = from_euler_angles(alpha,beta,gamma), 0<beta<pi, they are exp(i beta), exp(i(alpha+gamma)/2), exp(i(alpha-gamma)/2). At the poles (R0=R3=0 or R1=R2=0) it raises ZeroDivisionError.", 'all unit rotors, including |Ra|=0 or |Rb|=0', 'Continuum and singular points.', (RI,['quaternion_angles']))
p('theta_phi grid', 'theta_phi(n_theta,n_phi)[j,k] = (j pi/(n_theta-1), 2 pi k/n_phi); it covers both poles and all entries are written, for n_theta >= 2.', 'all n_theta >= 2, n_phi >= 1', 'All sizes.', (I,['theta_phi']))
p('Documented error switch has no effect',
  'After sf.error_on_bad_indices = False, Wigner_D_element still raises ValueError for a triple with ell > ell_max, |m|>ell or |m\'|>ell (the WignerD module holds its own copy of the flag); with its own flag off, out-of-range m, m\' give zero.',
  'all index triples, all rotors', 'Quantifies over all inputs and over the module state.', (D,['Wigner_D_element','error_on_bad_indices']), (I,['error_on_bad_indices']))

p("Grid.multiply method against the operator",
  "g.multiply(x) agrees with g*x for every single number x. Defect for arrays with one number per function: g*a scales function i by a[i], but g.multiply(a) aligns a with the phi axis - it raises ValueError if n_phi differs from the number of functions, and silently scales grid point (j,l) of every function by a[l] if it is equal.",
  "all grids and all arrays of numbers", "A shape coincidence decides between an error and a silently wrong result.",
  ("spherical_functions/SWSH_grids/algebra.py",["multiply"]),("spherical_functions/SWSH_grids/ufuncs.py",["__array_ufunc__"]))

p("Values of the H calculator",
  "The entry of HCalculator(n_max)(cosbeta) found with wedge_index(*wedgeify_index(l,m',m)) is H^{m',m}_l(beta), that is, multiplied by eps(m') eps(-m) it is Wigner's d^l_{m',m}(beta) as given by its series.",
  "all n_max >= 1, all l <= n_max, all |m'|,|m| <= l, all angles, all workspaces", "Continuum of angles, unbounded n_max; the tests compare a few angles.",
  (RH,['HCalculator','_step_1','_step_2','_step_3','_step_4','_step_5','wedge_index','wedgeify_index']))
p("Values of the full-matrix H calculator",
  "WignerDRecursion.HCalculator(n_max)(cosbeta) fills the complete matrices: row nmpm_index(n,m',m) is H^{m',m}_n(beta).",
  "all n_max >= 1, all n <= n_max, all |m'|,|m| <= n, all angles, all workspaces", "Continuum of angles, unbounded n_max; the test compares values only up to sign.",
  ("spherical_functions/WignerD/WignerDRecursion.py",['HCalculator','_step_1','_step_2','_step_3','_step_4','_step_5','_step_6']))
p("Accuracy of every entry point at every unit rotor",
  "For every unit rotor, including those so close to a pole that the code takes a shortcut (|R.a| <= epsilon or |R.b| <= epsilon), the entries of Wigner_D_matrices and of Wigner_D_element on arrays of rotors differ from the D function by at most (2 ell+3) epsilon (ell <= 5e13); those of SWSH and SWSH_grid differ from the harmonic by at most sqrt((2 ell+1)/(4 pi)) times that; and Modes.evaluate differs from the function by at most the sum over modes of |f(ell,m)| times the error of the harmonic.",
  "all unit rotors, all arrays of unit rotors, all ell <= table limit, all s, all Modes objects", "The set of rotors where the shortcuts fire has tiny measure; random tests never hit it.",
  (D,['Wigner_D_matrices','_Wigner_D_elements']),(S,['SWSH','_SWSH','_SWSHs','SWSH_grid']),("spherical_functions/SWSH_modes/utilities.py",["evaluate"]))

p("Index functions in 64-bit arithmetic",
  "The index and size functions, computed with wrapping 64-bit integers as numba compiles them, return the exact integer for every valid argument up to: ell <= 3037000498 (LM_index, LM_total_size), ell <= 1321121 (LMpM_index, LMpM_total_size, nmpm_index, the offsets of Wigner_D_matrices), 2 ell <= 1664510 (_Wigner_index), ell <= 1664509 (wedge_size, wedge_index, nm_index, nabsm_index). One step beyond each of these limits LM_total_size, LMpM_total_size, _Wigner_index and wedge_size return negative numbers.",
  "all valid index arguments up to the limits", "Overflow is silent and far outside what tests use.",
  (I,['LM_index','LM_total_size','LMpM_index','LMpM_total_size']),(I,['_Wigner_index']),(D,['_linear_matrix_index','_linear_matrix_offset','_total_size_D_matrices']),(RH,['wedge_size','wedge_index','nm_index','nabsm_index','nmpm_index']))
p("LM_deduce_ell_max with rounded square roots",
  "LM_deduce_ell_max(size, ell_min), with its square root rounded by any monotone rounding that keeps integers up to 2^53, returns L exactly for size = LM_total_size(ell_min, L) and raises ValueError for every other size, as long as size + ell_min^2 <= 2^53.",
  "all sizes and ell_min with size + ell_min^2 <= 2^53, all monotone roundings", "The interesting arguments are next to perfect squares near 2^53.",
  (I,['LM_deduce_ell_max']))
p("Modes.grid",
  "Modes.grid(n_theta, n_phi) returns a Grid of the documented shape (defaults for None and 0) with the spin weight of the modes, and never one with fewer than 2|s|+1 points per direction; its value at each point is that of Modes.evaluate at the rotor of the direction theta_phi(n_theta,n_phi)[j,k]; and it commutes with conjugation, sums, differences and products (with enough points).",
  "all Modes objects, all numbers of points, all points", "Continuum of data and unbounded sizes; relates three independent code paths.",
  ("spherical_functions/SWSH_modes/utilities.py",["grid","evaluate"]),("spherical_functions/SWSH_modes/algebra.py",["conjugate","add","subtract","multiply"]),("spherical_functions/SWSH_grids/ufuncs.py",["__array_ufunc__"]),(I,['theta_phi']))
p("Copies, pickles and absence of hidden aliasing",
  "Pickling and unpickling a Modes object returns the same array and metadata; copies and unpickled objects own their memory: in every history of operations an object changes only through operations that write in place into its own memory block, so that a copy keeps the value of the original and the original is not changed through the copy.",
  "all Modes objects, all reachable program states, all later histories", "Quantifies over histories of operations and aliasing patterns.",
  ("spherical_functions/SWSH_modes/__init__.py",["__reduce__","__setstate__","__array_finalize__"]))
p("Unfinished functions never return",
  "recursions.rotate raises NameError for every Modes object and every rotor argument; the calculator of associated Legendre functions raises ValueError for n_max < 0 and NameError otherwise. The formula zp^m zm^n of the documentation of recursions.rotate does not hold for the zp, zm of quaternion_angles: D^1_{1,0} differs for every rotor away from the poles with zp != 1.",
  "all arguments", "A statement about all arguments; the defect of the formula cannot be seen by running unreachable code.",
  (RI,['rotate','quaternion_angles']),("spherical_functions/recursions/associated_legendre_functions.py",["P̆Calculator"]))
p("The recursion subpackage and Wigner_D_element agree",
  "For every unit rotor away from the poles, with (zb,zp,zm) = quaternion_angles(R) and H = HCalculator(n_max)(Re zb, Im zb): Wigner_D_element(R,l,m',m) = eps(m') eps(-m) H^{m',m}_l zp^(m'+m) zm^(m'-m); the powers, also the negative ones, can be read from complex_powers.",
  "all lists of unit rotors away from the poles, all n_max, all l <= n_max, all m', m", "Two independent algorithms over a continuum; tests compare a few rotors with tolerances.",
  (RI,['quaternion_angles']),(CP,['complex_powers']),(RH,['HCalculator']),(D,['Wigner_D_element']))
p("Quaternions that are not normalised",
  "Wigner_D_element(lambda R, ...) = lambda^(2 ell) Wigner_D_element(R, ...) as long as both complex parts exceed the cut-off; a quaternion with | |R| - 1 | <= delta gives values within (1+delta)^(2 ell) - 1 of those of the normalised rotor; on the axis the scaling is lambda^(2m) instead.",
  "all quaternions with parts above the cut-off, all indices", "Continuum; tests only use normalised rotors.",
  (D,['Wigner_D_element','_Wigner_D_element']))
p("Rounding errors of the Wigner D elements",
  "In floating-point arithmetic with relative error u per operation and library call (complex powers: w) and tables with relative error u, the values that Wigner_D_element stores differ from the D function by at most floatErr(u,2 ell) (|R.a|+|R.b|)^(2 ell) away from the poles, where floatErr(u,n) <= 20 (n+1) u for n <= 64, u <= 2^-50; elements with |m'| = ell or |m| = ell have that relative error; at every unit rotor the error is at most max(floatErr(u,2 ell) 2^ell, (1+w) e + w) with e about (2 ell+2) epsilon; elements out of range are exactly zero. In particular the error is below 1e-10 for all ell <= 8.",
  "all floating-point arithmetics satisfying the standard model, all rotors (unit or not), all lists of indices, all ell up to the table limit", "Rounding errors depend on every bit of the input; a test sees a handful of rotors.",
  (D,['_Wigner_D_element']))
p("Rounding errors of the spin-weighted harmonics and of Modes.evaluate",
  "In floating-point arithmetic with relative error u per operation (complex powers: w, inner products of length N: delta(N)), the values of SWSH - for one rotor and a list of modes, for an array of rotors and one mode, and in SWSH_grid - differ from sYlm by at most sqrt((2ell+1)/4pi) max(floatErrY(u,2 ell) 2^ell, e) at every unit rotor, where floatErrY(u,n) <= 20(n+1)u and e is about (2ell+2) epsilon + 5u + w; away from the poles the bound holds for unnormalised quaternions with the factor (|R.a|+|R.b|)^(2 ell), and harmonics with |m| = ell or |s| = ell have small relative error; modes with ell < |s| or |m| > ell are exactly zero. Modes.evaluate differs from the function with the given mode weights by at most the sum of |weight| (err_ell + delta(N)(sqrt((2ell+1)/4pi) + err_ell)). The error of each harmonic with ell <= 8 is below 2e-10 in double precision. Sequential summation has delta(N) = 2((1-u)^-(N+2) - 1).",
  "all floating-point arithmetics satisfying the standard model, all unit rotors, all spin weights, all modes up to the table limit, all Modes objects", "Rounding errors depend on every bit of the input; a test sees a handful of rotors.",
  ("spherical_functions/SWSH/__init__.py",['_SWSH','_SWSHs','SWSH_grid']),("spherical_functions/SWSH_modes/utilities.py",["evaluate"]))
p("Operations act on each function of an array of functions independently",
  "For a Modes object with leading axes: every method (conjugate, real, imag, angular-momentum and spin operators, negation, truncation, norm, evaluate, copy, pickle) applied to a selection f[key] of functions gives the selection of the result, with the same exceptions; for sums, differences, products and quotients of two objects, and of an object and an array of numbers, the function of the result at every index is the operation applied to the two functions that broadcasting puts at that index. f[i] raises IndexError exactly when i is outside -n..n-1.",
  "all Modes objects (well-formed or not, where stated), all selections of the leading axes, all broadcasting shapes, all indices", "Unbounded numbers of axes, sizes and selections.",
  ("spherical_functions/SWSH_modes/__init__.py",["__array_finalize__"]),("spherical_functions/SWSH_modes/algebra.py",["add","subtract","multiply","divide","conjugate","norm"]),("spherical_functions/SWSH_modes/utilities.py",["evaluate","truncate_ell"]))
p("Indexing the mode axis keeps metadata that no longer describe the data",
  "A proper part f[..., i:j] of the mode axis is still labelled with the spin weight and ell_max of f: it is not a consistent object, its index method still gives positions in the whole array, and negation, Rz, products and quotients with numbers, and evaluate raise ValueError. f[..., f.index(ell,m)] of an object with leading shape (..., n) has the right values, but n != (ell_max+1)^2 makes negation and products with numbers raise ValueError, and n = (ell_max+1)^2 makes negation silently set the first s^2 entries to zero.",
  "all well-formed Modes objects, all slices of the mode axis, all (ell, m)", "Holds for every size; the silent case needs a coincidence of sizes no test uses.",
  ("spherical_functions/SWSH_modes/__init__.py",["__array_finalize__"]),("spherical_functions/SWSH_modes/utilities.py",["index"]))
p("Methods of ufuncs on Modes and Grid objects",
  "Reductions and accumulations (np.add.reduce(f), f.sum(), f.mean(), f.prod(), f.cumsum(), f.max()) never return: IndexError without keyword arguments, NotImplementedError with them, TypeError for unsupported ufuncs; any and all are numpy's on the plain array. np.<ufunc>.at(f, index, ...) of a supported ufunc (other than absolute) never changes any object or array: it raises or silently returns None; it returns for every index for negative, positive and conjugate, for every number as index for multiply and divide, and for index 0 for add and subtract, which raise TypeError for other indices. outer and reduceat do what the ordinary call does. The same for Grid.",
  "all reachable program states, all ufuncs, all arguments", "Quantifies over all states, all ufuncs and all argument patterns; a silent no-op is not visible in an exception test.",
  ("spherical_functions/SWSH_modes/ufuncs.py",["__array_ufunc__"]),("spherical_functions/SWSH_grids/ufuncs.py",["__array_ufunc__"]))
p("Rounding errors of the Wigner D matrices and of D elements at an array of rotors",
  "In floating-point arithmetic with relative error u per operation (complex powers: w), Wigner_D_matrices fills its whole array and the value at the position of (ell, m', m), and the value of Wigner_D_element for an array of rotors, differ from the D function by at most floatErrM(u,2 ell) (|R.a|+|R.b|)^(2 ell) when the computed moduli exceed the cut-off (rotors need not be normalised), with floatErrM(u,n) <= 40 (n+1) u for n <= 64, u <= 2^-50; elements with |m'| = ell or |m| = ell have that relative error, also the three mirror images filled by symmetry; at every unit rotor, poles included, the error is at most max(floatErrM 2^ell, (1+w) poleErr + w), below 2e-10 for ell <= 8 in double precision; elements out of range are exactly zero.",
  "all floating-point arithmetics satisfying the standard model, all rotors (unit or not), all ell_min <= ell_max up to the table limit, all arrays of rotors", "Rounding errors depend on every bit of the input; a test sees a handful of rotors.",
  (D,['_Wigner_D_matrices','_Wigner_D_elements']))
p("Assignment to modes, and data stored below |s|",
  "f[key, f.index(ell,m)] = value changes that mode of the selected functions and nothing else, keeps the object consistent, and changes its value at every rotor by the change times sYlm. Assignments to arbitrary positions of the last axis keep shape and metadata but can put numbers into modes with ell < |s|, which must vanish. Such data are ignored - the result, or the exception, is exactly that of the object with zeros there, which is +f - by negation, conjugate, bar, real, imag, Lplus, Lminus, Rz, Rplus, Rminus, eth, ethbar, evaluate, sums, differences, products with Modes and with numbers, and quotients; Lsquared, Lz, truncate_ell and in-place conjugation carry them along unchanged and are right above |s|; norm counts them: norm(f)^2 exceeds that of +f by their squared moduli.",
  "all Modes objects with (ell_max+1)^2 slots and arbitrary contents, all assignments, all leading shapes, all unit rotors", "Quantifies over all contents of the slots below |s|, which the constructor never produces; only histories with assignments reach them.",
  ("spherical_functions/SWSH_modes/__init__.py",["Modes"]),("spherical_functions/SWSH_modes/algebra.py",["norm","conjugate","add","multiply"]),("spherical_functions/SWSH_modes/derivatives.py",["Lsquared","Lz","Rplus"]),("spherical_functions/SWSH_modes/utilities.py",["index","evaluate","truncate_ell"]))
p("Writing to a selection of functions",
  "A selection g = f[key] by integers and slices shares its memory with f. g.conjugate(inplace=True) and the in-place real and imaginary parts give g the value the method gives for the selection, give the selected functions of f the same mode weights and leave the others alone; the spin weight reported by f stays s, so that after conjugation the selected functions of f are labelled with the wrong spin weight unless s = 0 (the loop 'for g in f: g.conjugate(inplace=True)' conjugates all functions and leaves the label s). f[key] = g with equal ell_max assigns the mode weights without looking at the spin weight of g; with ell_max_g = 0 every mode of the selected functions silently becomes the single mode of g; any other size, or a shape that does not broadcast, raises ValueError. f[key] += h and f[key] -= h with h of the same spin weight, ell_max_h <= ell_max_f and its own memory change the selected functions to the sums (differences) and nothing else.",
  "all well-formed Modes objects, all injective selections of the leading axes, all leading shapes", "Unbounded numbers of axes and selections; aliasing between view and original depends on the history.",
  ("spherical_functions/SWSH_modes/__init__.py",["__array_finalize__"]),("spherical_functions/SWSH_modes/algebra.py",["conjugate","_real_func","_imag_func","add","subtract"]),("spherical_functions/SWSH_modes/ufuncs.py",["__array_ufunc__"]))
p("Modes objects made from real, integer or single-precision data",
  "The constructor does not convert its input but reinterprets its memory, q items (2 for float64, int64 and complex64, 4 for float32 and int32) being read as one complex number: it succeeds exactly if the last axis has q((L+1)^2 - ell_min^2) items for the given ell_max = L, or for some L if ell_max is not given, and otherwise raises ValueError. Hence a complete set of modes of another type given with its ell_max, and a complete set of float64, int64 or complex64 modes starting at ell = 0, are always rejected with ValueError (never misread), and so is a single number. But float32 and int32 modes 0..2L+1 without ell_max are silently read as an object with modes 0..L, and for every ell_min >= 1 there are infinitely many ell_max for which complete float64 data without ell_max are silently read as an object with fewer modes, each mode combining two neighbouring input values as real and imaginary part (e.g. ell 2..13 read as 2..9).",
  "all arrays of any item type, all spin weights, all ell_min, all ell_max, all ways of calling the constructor", "The sizes for which data are silently misread are solutions of a Pell equation; the rejection for all others is an irrationality statement.",
  ("spherical_functions/SWSH_modes/__init__.py",["__new__"]),("spherical_functions/__init__.py",["LM_deduce_ell_max","LM_total_size"]))
p("Accuracy of the Wigner D functions with underflow, overflow and imperfectly normalised rotors",
  "With operations as in IEEE double precision (relative error u unless the result is below the smallest normal number, where the absolute error is tiny; arbitrary behaviour on overflow), every element computed by the kernel of Wigner_D_element at every rotor that is normalised only to within tau differs from the D function of the exactly normalised rotor by at most a bound that contains the rounding, underflow, normalisation and pole-threshold errors, provided the exponent range is large enough for the table (as double precision is for ell <= 32); no underflow of a power of |Rb|/|Ra| and no overflow spoils the result. In numbers: for double precision, rotors normalised to within 1e-13 and ell <= 8 the error is below 1e-10.",
  "all rotors within tau of unit norm (generic, poles and near the poles), all (ell, mp, m) the table covers, all floating-point operations with the stated accuracy", "Underflow happens only at very special rotors and indices that a sample does not hit; the statement is about all of them.",
  ("spherical_functions/WignerD/__init__.py",["_Wigner_D_element","Wigner_D_element"]),("spherical_functions/__init__.py",["epsilon"]))
p("Requests beyond the limit of the coefficient table are detected only for explicit triples",
  "Wigner_D_element with explicit (ell, mp, m) rejects ell beyond the table (ell_max = 32) with ValueError. The other entry points do not check: Wigner_D_element with a list of ells, Wigner_D_matrices, SWSH with a list of modes, SWSH_grid and Modes.evaluate, asked for some ell beyond the table with a rotor whose parts R.a and R.b both exceed the cut-off, read outside the table of coefficients (in compiled code: silently); Wigner_D_element and SWSH with an array of rotors do so for every array, also an empty one and at the poles. At a rotor exactly at a pole the list-of-ells call is right for every ell, because it reads no coefficient.",
  "all rotors away from the poles (and, where stated, all rotors), all ell beyond the limit, all spin weights |s| <= ell, all tables", "An unchecked read outside an array may return anything, in particular a plausible number; a test at a pole even passes.",
  (D,["Wigner_D_element","_Wigner_D_element","_Wigner_D_elements","Wigner_D_matrices","_Wigner_D_matrices"]),("spherical_functions/SWSH/__init__.py",["SWSH","_SWSH","_SWSHs","SWSH_grid"]),("spherical_functions/SWSH_modes/utilities.py",["evaluate"]),("spherical_functions/__init__.py",["ell_max"]))
p("Accuracy of complex_powers in floating-point arithmetic",
  "With operations of relative error u (no underflow; doubling exact) and input numbers whose absolute value is 1 up to tau, complex_powers(z, M) returns an array of shape z.shape+(M+1,) whose entry [i, m] differs from the m-th power of the direction of z_i by at most 60 (m+3)(u+tau), for every M with 100 (M+1)(u+tau) <= 1: the error grows linearly in m and is not amplified near 1, i, -1, -i, where the naive recurrence loses accuracy. In double precision every one of the first million powers is within 1e-7 and every one of the first hundred within 1e-11. The previous contents of a supplied buffer do not matter.",
  "all arrays z of numbers within tau of the unit circle, all M up to the limit, all buffers, all floating-point operations of relative error u", "Errors accumulate over M steps and depend on the angle; the dangerous angles (next to a multiple of pi/2) are not in a sample.",
  ("spherical_functions/recursions/complex_powers.py",["complex_powers","_complex_powers"]))
p("Comparisons of Modes and Grid objects",
  "np.equal, not_equal, logical_and and logical_or of two Modes objects with the same ell_max return the plain boolean array of the broadcast leading shape and the mode axis whose entry for (ell, m) compares the two mode weights; all entries of np.equal are True exactly if all mode weights agree, whatever the spin weights - so objects that represent functions of different spin weight, and cannot be subtracted, compare equal. Different ell_max >= 1 raise ValueError even if the additional modes vanish; ell_max = 0 compares every mode with the single one. Two Grids are compared point by point (whatever their spin weights) with the total order by real part, then imaginary part. Unlike in arithmetic, an array of k numbers compared with k > 1 functions is aligned with the mode axis (Grid: the phi axis): ValueError unless that axis has 1 or k entries, and a silent comparison along the wrong axis if it has k. Comparing a Modes object with a Grid, and ordering Modes objects, raises TypeError.",
  "all Modes and Grid objects, all leading shapes, all arrays of numbers, all comparison ufuncs", "Quantifies over all contents and shapes; silent misalignment needs a coincidence of sizes.",
  ("spherical_functions/SWSH_modes/ufuncs.py",["__array_ufunc__"]),("spherical_functions/SWSH_grids/ufuncs.py",["__array_ufunc__"]))
p("Orthonormality of the harmonics; mode weights as integrals over the sphere",
  "The functions SWSH(R, s, (ell,m)) of the direction are orthonormal: the integral over the sphere of conj(sYlm) sYl'm' is 1 if (l,m) = (l',m') and 0 otherwise, up to an error (below 1e-11 for ell <= 32) that comes only from the neighbourhoods of the poles where the code replaces the rotor by its limit; for m != m' it is exactly 0. Hence the integral of conj(f) g, computed with the values of evaluate, is the sum of the products of the mode weights, norm(f)^2 is the integral of |f|^2, and each mode weight is the integral of conj(sYlm) f, all with explicit bounds. Two Modes objects of the same spin weight whose values agree on any band of directions away from the poles have equal mode weights.",
  "all spin weights, all modes up to the table limit, all well-formed Modes objects, all directions", "An integral over a continuum of directions and all modes; a test can only sum over a grid.",
  ("spherical_functions/SWSH/__init__.py",['_SWSH']),("spherical_functions/SWSH_modes/algebra.py",["norm"]),("spherical_functions/SWSH_modes/utilities.py",["evaluate"]))
p("The operators of Modes are the differential operators in spherical coordinates",
  "Let v(theta,phi) be what f.evaluate returns in the direction (theta,phi). Away from the poles v is twice differentiable, and the values of f.eth are -(sin theta)^s (d_theta + (i/sin theta) d_phi)((sin theta)^-s v), those of f.ethbar -(sin theta)^-s (d_theta - (i/sin theta) d_phi)((sin theta)^s v) (the definitions of Newman and Penrose), those of f.Lz -i d_phi v, those of f.Lplus and f.Lminus e^{+-i phi}(+-d_theta v + i cot theta d_phi v - s v/sin theta), and those of f.Lsquared -[(1/sin theta) d_theta(sin theta d_theta v) + (d_phi^2 v + 2 i s cos theta d_phi v - s^2 v)/sin^2 theta], for s = 0 minus the Laplacian of the sphere.",
  "all well-formed Modes objects up to the table limit, all spin weights, all directions outside the epsilon-neighbourhoods of the poles", "Derivatives over a continuum of directions, for all spin weights and numbers of modes.",
  ("spherical_functions/SWSH_modes/derivatives.py",["eth","ethbar","Lz","Lplus","Lminus","Lsquared"]),("spherical_functions/SWSH_modes/utilities.py",["evaluate"]))
p("Threads that share calculators and workspaces",
  "Compiled functions hold the interpreter lock, so that threads interleave between the five compiled steps of a call of HCalculator. Any number of threads may share one HCalculator object: if each passes its own workspace (or none), then in every interleaving no thread raises and every result is the table of H for the thread's own angles; the same holds for threads with a common workspace if, between the beginning of a call and the copying of its result, no other thread that uses this workspace makes a step; in particular if whole calls are made one after another, for example under a lock. Without this exclusion there is, for all angles, an interleaving in which a thread finishes without an exception and gets the table for the angles of the other thread. For a shared Wigner3jCalculator an array returned by any earlier call (of any thread) holds the symbols of the last call.",
  "all numbers of threads, all numbers of calls of each, all angles, all contents of the workspaces, all interleavings", "Quantifies over all schedules; a test runs one of them, usually the harmless one.",
  ("spherical_functions/recursions/wignerH.py",["HCalculator.__call__","HCalculator.workspace","_step_1","_step_2","_step_3","_step_4","_step_5"]),("spherical_functions/recursions/wigner3j.py",["Wigner3jCalculator.calculate"]),("spherical_functions/__init__.py",["jit","jitclass"]))
p("The values on an equiangular grid determine the function, and how many points are needed",
  "If evaluate returns the same values for two Modes objects of the same spin weight at all directions of theta_phi(n_theta, n_phi), with n_theta >= ell_max+2 and n_phi >= 2 ell_max+1 (for the larger ell_max), all mode weights are equal; hence the Grid made by f.grid() (or with any numbers of points that grid accepts) determines the Modes object, element by element of the leading shape. Both numbers are sharp: for every ell_max >= 1 there is a non-zero function of spin weight 0 that evaluates to 0 at all directions of theta_phi(n_theta, 2 ell_max), whatever n_theta, and one that evaluates to 0 at all directions of theta_phi(ell_max+1, n_phi), whatever n_phi.",
  "all pairs of well-formed Modes objects up to the table limit, all leading shapes, all numbers of points", "Uniqueness ranges over all pairs of functions; a round trip tests single functions.",
  ("spherical_functions/SWSH_modes/utilities.py",["evaluate","grid"]),("spherical_functions/__init__.py",["theta_phi"]))
p("The operations of Modes in floating-point arithmetic",
  "With floating-point operations of relative error u (no underflow or overflow), Lsquared, Rsquared, Lz and Rz of a Modes object return mode weights whose real and imaginary parts have relative error at most u, and Lplus, Lminus, Rplus, Rminus, eth and ethbar at most 2u+u^2, for every spin weight and every ell: the error does not grow with ell, and weights that vanish in exact arithmetic vanish. real and imag (in place or not) have relative error at most u, and their results satisfy the reality condition f(ell,-m) = (-1)^m conj f(ell,m) exactly, not just up to rounding; real returns a real function unchanged bit for bit, and imag of a real function is exactly zero. Sums and differences have relative error at most u, addition commutes bit for bit and f - f is exactly zero. Multiplication by numbers has an error of at most 2(2u+u^2) times the modulus of each weight (relative error u in both components for real numbers), division by real numbers at most 2u+u^2 in both components, division by complex numbers at most sqrt(2) ((1-u)^-8 - 1) times the modulus of each weight; norm has relative error at most (1+u)^3 (1+delta) - 1, where delta is the relative error of the sum of the squares.",
  "all well-formed Modes objects, all leading shapes, all spin weights, all ell_max, all scalars, all floating-point operations of relative error u", "Rounding depends on every bit of the data; exact identities such as the reality condition after rounding hold or fail for particular values only.",
  ("spherical_functions/SWSH_modes/derivatives.py",["Lsquared","Lz","Lplus","Lminus","Rsquared","Rz","Rplus","Rminus","eth","ethbar"]),("spherical_functions/SWSH_modes/algebra.py",["real","_real_func","imag","_imag_func","norm","add","subtract","multiply","divide"]),("spherical_functions/SWSH_modes/ufuncs.py",["__array_ufunc__"]))
p("Accuracy of the spin-weighted harmonics and of evaluated fields with underflow, overflow and imperfectly normalised rotors",
  "With operations as in IEEE double precision (relative error u unless the result is below the smallest normal number, where the absolute error is tiny; arbitrary behaviour on overflow), SWSH for a list of modes, SWSH for an array of rotors, SWSH_grid and Modes.evaluate, at every rotor that is normalised only to within tau, return values that differ from the exact harmonics (or the exact field) at the exactly normalised rotor by at most a bound containing the rounding, underflow, normalisation and pole-threshold errors. No intermediate result overflows if the exponent range suffices for the table, as that of double precision does for ell <= 32; modes with ell < |s| or |m| > ell are exactly zero. For double precision and ell <= 8 every value is within 2e-10. For evaluate the only further condition is that the weighted sum of the mode weights is below a quarter of the largest number.",
  "every rotor with | |R| - 1 | <= tau including both poles, every spin weight, every (ell, m) with ell <= L, every Modes object, every arithmetic meeting the error bounds",
  "tests compare a few values; underflow occurs only for rotors very near a pole and large |m|, |s|, and rounding bounds need all inputs",
  ("spherical_functions/SWSH/__init__.py",["SWSH","_SWSH","_SWSHs","SWSH_grid"]),("spherical_functions/SWSH_modes/utilities.py",["evaluate"]))
p("Accuracy of the conversions of modes, constants and vectors in floating-point arithmetic",
  "With floating-point operations of relative error u (no underflow or overflow), constant_as_ell_0_mode, constant_from_ell_0_mode, vector_as_ell_1_modes, vector_from_ell_1_modes, eth_GHP, ethbar_GHP, eth_NP, ethbar_NP and ethbar_inverse_NP return values whose real and imaginary parts each have a relative error of at most a fixed number (3 to 7) of roundings, for every spin weight, ell_min and ell_max; modes that vanish in exact arithmetic vanish. The number of modes is found exactly from the length of the array. Converting a constant, or a mode ell >= |s|, |s-1| by ethbar_NP, and back loses at most three roundings however inaccurate the intermediate factor is. A real vector converted to modes and back is exactly real and every component has a relative error of at most three roundings, even if the other components are larger by many orders of magnitude; for complex vectors the error is relative to the size of the x and y components.",
  "all constants, vectors and complete arrays of modes, all spin weights, all ell_min and ell_max, all floating-point operations of relative error u", "Rounding depends on every bit of the data; tests compare with a tolerance for a few arrays.",
  ("spherical_functions/mode_conversions.py",["constant_as_ell_0_mode","constant_from_ell_0_mode","vector_as_ell_1_modes","vector_from_ell_1_modes","eth_GHP","ethbar_GHP","eth_NP","ethbar_NP","ethbar_inverse_NP"]))

p("Accuracy of products of Modes in floating-point arithmetic",
  "With floating-point operations of relative error u (no underflow or overflow) and 3-j symbols of given accuracy, f.multiply(g) of two Modes objects returns without exception an object with the spin weight, ell_max, leading shape and truncator of the exact product, and the real and imaginary parts of every mode differ from those of the exact product by at most the sum over all contributions of their absolute value times the combined errors of the two 3-j symbols and of at most 14 + (ell_max_f+1)^2 (ell_max_g+1) roundings. If the 3-j symbols have relative error eta, the error is at most (1+eta)^2 (1+gamma) - 1 times the sum of the absolute values of the contributions. The plain function multiply on arrays of modes, from any ellmin on, satisfies the same bound and returns all modes from 0 to ellmax_f + ellmax_g.",
  "all pairs of well-formed Modes objects whose leading shapes broadcast, all truncators, all floating-point operations of relative error u, all tables of 3-j symbols", "Rounding errors accumulate over all quadruples of indices in the order of the loops and depend on every bit of the data.",
  ("spherical_functions/multiplication.py",["_multiplication_helper","multiply"]),("spherical_functions/SWSH_modes/algebra.py",["multiply"]))

p("Accuracy of the Wigner D matrices with underflow, overflow and imperfectly normalised rotors",
  "With operations as in IEEE double precision (relative error u unless the result is below the smallest normal number, where the absolute error is tiny; arbitrary behaviour on overflow), Wigner_D_matrices at every rotor that is normalised only to within tau, poles and their neighbourhoods included, fills the whole array, with the element (ell, mp, m) at the position given by LMpM_index, and every element differs from the D function of the exactly normalised rotor by at most a bound containing the rounding, underflow, normalisation and pole-threshold errors; this includes the three elements obtained by symmetry from each computed one, and elements whose magnitude underflows to zero. The same holds for Wigner_D_element of one index triple at an array of rotors, where elements out of range are exactly zero. For double precision and ell <= 8 every element is within 2e-10.",
  "every rotor with | |R| - 1 | <= tau, every range of ell up to the table limit, every contents of the output array, every array of rotors, every arithmetic meeting the error bounds",
  "tests compare a few values; underflow occurs only for rotors very near a pole and large |m|, |mp|, and rounding bounds need all inputs",
  ("spherical_functions/WignerD/__init__.py",["Wigner_D_matrices","_Wigner_D_matrices","Wigner_D_element","_Wigner_D_elements"]))

p("3-j symbols in floating-point arithmetic",
  "Whatever the floating-point operations: a 3-j calculation never accesses memory outside its arrays, its result depends only on the arguments and the size of the calculator (bit for bit), the entries outside the admissible range of j are exact zeros, and Wigner3j returns an exact zero outside the selection rules. With operations of relative error u, while j2 + j3 <= 151: a calculation either returns an array that satisfies sum (2j+1) f[j]^2 = 1 up to rounding, with the documented sign of the last entry, or raises ZeroDivisionError; no nan and no other exception is possible. Every returned Wigner3j satisfies (2j+1) v^2 <= 1 up to rounding for each of its three j, and every Clebsch-Gordan coefficient is at most 1 in magnitude up to rounding. Rows with a single admissible j are correct to two roundings. Rows with m2 = m3 = 0 always return, with a relative error linear in their length in every entry and exact zeros where j + j2 + j3 is odd. For double precision the normalisation error is at most 2e-14 and Wigner3j(j1, j2, j3, 0, 0, 0) has relative error at most 6e-13.",
  "all j and m with j2 + j3 at most 151 (so that the coefficients fit their integer types), every history of the calculator, every contents of uninitialised memory, every arithmetic with relative error u",
  "tests compare some symbols with a tolerance; the forward, reverse and middle recursions branch on computed floating-point values, so that other inputs may take other branches",
  ("spherical_functions/recursions/wigner3j.py",["Wigner3jCalculator","Wigner3j","clebsch_gordan","A","X","Z","normalize","determine_signs"]))

p("Accuracy of the coefficient tables",
  "With mpmath operations of relative error at most 1e-18 (the generator uses 128 digits) and conversions to double precision that round to nearest: factorial(n) is n! with relative error at most 2^-53 for n <= 170 and exact for n <= 22 (not for n = 23); binomial_coefficient(n, k) is exact whenever C(n,k) has 53 significant bits, in particular for every n <= 56 (not for (57, 25)), and otherwise has relative error at most 2^-53 + 14e-18; ladder_operator_coefficient(ell, m) and Wigner_coefficient(ell, m', m) have the same relative error for every entry of tables of every size, are exact whenever the exact value has 53 significant bits, and are exactly 0 for m = ell and exactly 1 for m' = m respectively. The generated table meets what the rounding-error properties of Wigner_D_element, SWSH and their relatives assume of it.",
  "every table limit (ladder: up to 2^25), every index in the table, every arithmetic with the stated error, ties rounded either way",
  "the tables have 10^5 entries for the shipped limit, computed with another library; that an irrational square root multiplied by two binomials is rounded correctly enough cannot be seen from samples",
  ("spherical_functions/_generate_coefficients.py",["_binomial_coefficients","_ladder_operator_coefficients","_Wigner_coefficients"]),("spherical_functions/__init__.py",["factorial","binomial_coefficient","ladder_operator_coefficient","Wigner_coefficient"]))

p("Rounding errors of whole expressions of Modes objects",
  "Let e be any expression built from Modes objects with the methods Lsquared, Lz, Rz, Lplus, Lminus, Rplus, Rminus, eth, ethbar, -f, bar, real, imag, sums and differences, multiplication by and division by numbers or arrays of numbers, and products with or without a truncator. If the spin weights of sums agree, real and imag are taken of spin weight 0 only and the shapes broadcast, then evaluating e in floating-point arithmetic raises no exception, the result has the spin weight, ell_max, shape and truncator that the formula prescribes, and every mode weight differs from the exact value of the formula by at most a bound computed by recursion over e (errors of the operands propagated, plus the roundings of each operation relative to the size of its operands). Without products and with real divisors this is (1+u)^k - 1 times the formula with absolute values, k being the number of roundings on the longest path. Without derivatives and truncations, evaluating the result at unit rotors gives the formula applied to the values of the functions there, up to an explicit bound.",
  "all expressions (trees of any depth), all well-formed Modes objects, all floating-point operations of relative error u, all tables of 3-j symbols of error eps, all lists of unit rotors",
  "expressions can be nested arbitrarily; the errors of one operation are inputs to the next, and cancellation in sums makes relative errors of the result arbitrarily large",
  ("spherical_functions/SWSH_modes/algebra.py",["bar","real","imag","add","subtract","multiply","divide","conjugate"]),("spherical_functions/SWSH_modes/derivatives.py",["Lsquared","Lz","Lplus","Lminus","Rz","Rplus","Rminus","eth","ethbar"]),("spherical_functions/SWSH_modes/ufuncs.py",["__array_ufunc__"]),("spherical_functions/SWSH_modes/__init__.py",["Modes.evaluate"]))

p("The H calculators in floating-point arithmetic",
  "With floating-point operations of relative error u <= 1/16 and cosines and sines of angles beta given with errors at most eta (u <= eta <= 1), for every n_max >= 1 both H calculators (recursions.wignerH and WignerDRecursion) never divide by zero and never access memory outside their arrays, whatever the workspace contains; the wedge calculator returns its result in the first rows of the workspace and leaves additional rows alone; and every value read with the documented index functions differs from the exact H function at beta by at most a constant depending only on n_max times eta, so that any accuracy is reached with sufficiently precise arithmetic. Without sinbeta the same holds at the angles arccos(cosbeta), with eta = 2 sqrt(u) near the poles and 4 u / sin(beta) elsewhere. Whatever the floating-point operations, the result depends only on n_max, cosbeta and sinbeta, bit for bit: not on earlier contents of the workspace, nor on the non-finite coefficients. Empty or out-of-range cosbeta, shapes that differ and negative n_max are rejected with ValueError in every arithmetic.",
  "every n_max >= 1, all lists of angles, all workspaces of sufficient size, all operations of relative error u <= 1/16, all contents of the non-finite coefficients",
  "tests compare values for some angles; a division by a coefficient that rounds to zero, a read of a stale workspace entry or of a non-finite coefficient would depend on the input and on history",
  ("spherical_functions/recursions/wignerH.py",["HCalculator","_step_1","_step_2","_step_3","_step_4","_step_5"]),("spherical_functions/WignerD/WignerDRecursion.py",["HCalculator","_step_6"]))

p("eth operators on arrays that are not complete",
  "The five functions eth_NP, ethbar_NP, eth_GHP, ethbar_GHP and ethbar_inverse_NP take the largest ell from the length of the array. For every array and every ell_min >= 0 they return without exception an array of the same length; with L the largest ell for which the array holds all modes from ell_min to L, the first (L+1)^2 - ell_min^2 entries of the result are what the function returns for these entries alone, and the rest (the entries of an incomplete last ell) are returned unchanged, without a warning. A negative ell_min is not refused either: if a square lies in the interval (n, n + ell_min^2], where n is the length, the four eth functions access memory beyond the end of the array; otherwise the result is that for ell_min = 0.",
  "all complex arrays, of any length; all integers s and ell_min",
  "the tests only use complete arrays; the lengths and values of ell_min are unbounded",
  (MC,["eth_NP","ethbar_NP","eth_GHP","ethbar_GHP","ethbar_inverse_NP"]))

p("The H calculators act on every angle separately, in the order of memory",
  "In every floating-point arithmetic, for n_max >= 1: if an H calculator returns H for some angles, then the same or any other calculator with this n_max, used before or not, with or without a workspace, returns for any selection of these angles (in any order, with repetitions) the corresponding columns of H, bit for bit; in particular each column is the result for that angle alone. For two-dimensional arrays, column k is that of the element of cosbeta at position k of its memory (by rows or by columns, depending on the array), combined with the sine at position k of the memory of sinbeta: if both arrays have the same layout, these are the cosine and sine of the same element, but if cosbeta is stored by rows and sinbeta by columns, the call is accepted and combines cosbeta[i,j] with the sine of the element ((i*c+j) % r, (i*c+j) // r). The calls return for all cosines in [-1,1] whatever the sines are.",
  "all n_max >= 1, all floating-point operations (for the last sentence: of relative error at most 1/16), all lists of angles and all selections, all workspaces of sufficient size; all contiguous two-dimensional arrays",
  "the number of angles and of selections is unbounded; tests compare values up to a tolerance, and only use one-dimensional arrays",
  (RH,["HCalculator","_step_1","_step_2","_step_3","_step_4","_step_5"]),(RD,["HCalculator","_step_6"]))

p("The coefficient tables in the package are what the lookups promise",
  "The three .npy files in the package hold 2145, 2145 and 93665 doubles, the sizes for ell_max = 32. For all 0 <= k <= n <= 64, binomial_coefficient(n, k) is a nearest double to C(n, k), with relative error at most 2^-53, and exact for n <= 56. For all integers or half-integers |m| <= ell <= 32, ladder_operator_coefficient(ell, m) is the largest double that does not exceed sqrt((ell-m)(ell+m+1)). For every valid (ell, m', m) with ell <= 32, Wigner_coefficient(ell, m', m) is a double that does not exceed the exact coefficient, and every larger double is at least the exact coefficient, so that the relative error is at most 2^-52; for ell <= 24 it is the largest double that does not exceed the exact coefficient, so exact whenever that is a double; it is exactly 1 for m' = m. Hence the files meet the assumption on the table in the error bounds of Wigner_D_element, SWSH, Wigner_D_matrices and evaluate. They are not correctly rounded: sqrt(2) for (ell, m) = (1, 0) is not the nearest double, and the coefficient (49/2, -49/2, -47/2) is less than its exact value 7.",
  "every entry of the three shipped files; all indices within the tables; all doubles",
  "there are 10^5 entries with irrational exact values; a test compares with values computed in the same floating-point arithmetic, up to a tolerance, and a corrupted or misplaced entry shows only in particular elements of D",
  ("spherical_functions/__init__.py",["_binomial_coefficients","_ladder_operator_coefficients","_Wigner_coefficients","binomial_coefficient","ladder_operator_coefficient","Wigner_coefficient"]),("spherical_functions/Wigner_coefficients.npy",["contents"]),("spherical_functions/binomial_coefficients.npy",["contents"]),("spherical_functions/ladder_operator_coefficients.npy",["contents"]))

p("Accuracy of the package as shipped, in double precision",
  "With the tables in the package and IEEE double precision, at every rotor whose norm is within 1e-13 of 1 (poles included): Wigner_D_element is within 1e-10 of the D function of the normalised rotor for all integer and half-integer ell <= 8 and exactly zero out of range; all elements of Wigner_D_matrices with ell_max <= 8, and all harmonics of SWSH and SWSH_grid with ell <= 8 for every spin weight, are within 2e-10; Modes.evaluate with ell_max <= 8 is within 3e-10 times the sum of the moduli of the modes (plus 1e-290), as long as that sum is at most 1e298. No overflow, division by zero or access out of range occurs.",
  "all rotors with norm within 1e-13 of 1, all index lists, all Modes objects with ell_max <= 8, all floating-point operations with the precision and range of doubles, any treatment of overflow",
  "the rotations form a continuum and the error depends on the rotor; tests compare some values with a tolerance",
  ("spherical_functions/WignerD/__init__.py",["Wigner_D_element","Wigner_D_matrices"]),("spherical_functions/SWSH/__init__.py",["SWSH","SWSH_grid"]),("spherical_functions/SWSH_modes/__init__.py",["Modes.evaluate"]),("spherical_functions/__init__.py",["_Wigner_coefficients"]))

p("Rotating a field with the matrices of Wigner_D_matrices",
  "Let D = Wigner_D_matrices(p, 0, f.ell_max), and let g have the modes g[ell, m] = sum over n of f[ell, n] * D[LMpM_index(ell, n, m, 0)]. Such a g exists for every Modes object within the table and is unique. g.evaluate(q) equals f.evaluate(p q) for every list of rotors q, and g and f have the same norm; rotating by p and then by q is rotating by p q, and rotating by p and then by its inverse gives back f; Lsquared, Rz, Rplus, Rminus, eth, ethbar and conjugate (in place or not), and for spin weight 0 real and imag, commute with the rotation, as do sums and differences, multiplication and division by numbers or arrays of numbers, and truncate_ell; and the product of two rotated objects, untruncated or truncated in any way, is the rotated product, whenever both products return; for spin weight 0, vector_from_ell_1_modes of the rotated modes is the vector of f in the rotated frame (component v . (p e p*) along the axis e). (In exact arithmetic, for rotors whose complex parts are zero or larger than epsilon in modulus; at every other unit rotor the first two statements hold up to explicit multiples of epsilon.)",
  "all well-formed Modes objects of any spin weight, ell_max within the table and leading shape, all such rotors p and q, all truncators",
  "the rotations form a continuum, and the identities connect many functions of the package with each other, including the order of the indices of the flat array, for every ell",
  (D,["Wigner_D_matrices"]),(I,["LMpM_index"]),("spherical_functions/SWSH_modes/__init__.py",["Modes.evaluate"]),("spherical_functions/SWSH_modes/algebra.py",["conjugate","multiply"]),(MD,["Lsquared","Rz","Rplus","Rminus","eth","ethbar"]),(MC,["vector_from_ell_1_modes"]))

p("Products of Modes form a commutative algebra on which the operators are derivations",
  "(f g) k and f (g k), computed with multiply, have the same spin weight, the same leading shape, and the same modes for every ell that both results keep, if the inner products are not truncated. The conjugate of f g has the modes of the product of the conjugates of f and g. Each of Lz, Lplus, Lminus, Rz, Rplus, Rminus, eth and ethbar obeys the product rule T(f g) = (T f) g + f (T g), in every mode that the three products keep, whatever their truncators are; the spin weights and leading shapes agree too. If f and g have the same spin weight, the mode (0, 0) of the product of the conjugate of f with g, times sqrt(4 pi), is the scalar product of the modes of f and g; for g = f it is the square of f.norm(). (Commutativity is in C32.)",
  "all well-formed Modes objects of any spin weight and broadcastable leading shapes, with ell_max at least 0 and sums of ell_max at most 151, all truncators, all products that return (C32), all modes and leading indices",
  "the identities connect sums over 3-j symbols of different spin weights and orders; tests compare a few random objects",
  ("spherical_functions/SWSH_modes/algebra.py",["conjugate","multiply"]),(MD,["Lz","Lplus","Lminus","Rz","Rplus","Rminus","eth","ethbar"]),("spherical_functions/multiplication.py",["multiply"]),("spherical_functions/SWSH_modes/algebra.py",["norm"]))

p("Adjoints, conjugates and kernels of the operators",
  "For the scalar product sum conj(f[ell,m]) g[ell,m] (the integral of conj(f) g by C82): Lsquared, Lz and Rz are self-adjoint, Lplus and Lminus are adjoint to each other, and so are Rplus and Rminus; <eth f, g> = -<f, ethbar g> and <ethbar f, g> = -<f, eth g> (integration by parts), whenever the spin weights match, for any two ell_max. conj(T f) = -T'(conj f), where T' is the adjoint of T, for Lz, Lplus, Lminus, Rz, Rplus, Rminus, with the same metadata on both sides. The result of an operator is zero exactly for the functions with modes m = 0 only (Lz), m = ell only (Lplus), m = -ell only (Lminus), ell = 0 only (Lsquared), ell = s only (eth), ell = -s only (ethbar).",
  "all well-formed Modes objects of any spin weight, ell_max and leading shape, all leading indices",
  "the statements are about all functions and all spin weights, and fail for a wrong factor at a single ell or at the boundary |s| = ell only",
  (MD,["Lsquared","Lz","Lplus","Lminus","Rz","Rplus","Rminus","eth","ethbar"]),("spherical_functions/SWSH_modes/algebra.py",["conjugate"]))

p("What the norm of a Modes object bounds",
  "Let A(f) = sqrt(((f.ell_max+1)^2 - f.s^2)/(4 pi)). Every value returned by f.evaluate at a rotor whose complex parts exceed epsilon is at most A(f) * f.norm() in modulus, and at every unit rotor at most that plus the error of the shortcut near the poles; for every such rotor and every s and ell_max >= |s| the bound is attained, so it is the best one. The scalar product of two objects is at most the product of their norms. Lz, Lsquared, Lplus and Lminus, Rz, Rplus and ethbar, Rminus and eth multiply the norm by at most L, L(L+1), sqrt(L(L+1)), |s|, sqrt((L+s)(L-s+1)), sqrt((L-s)(L+s+1)), where L = f.ell_max; for every s and L >= |s| these factors are attained. The norm of a product, truncated or not, is at most A(f) * f.norm() * g.norm() and at most A(g) * f.norm() * g.norm().",
  "all well-formed Modes objects of any spin weight, ell_max and leading shape, all rotors, all truncators, all leading indices",
  "the bounds are about all functions at once; tests on random functions stay far below the bounds and would not notice a wrong weight of one mode",
  ("spherical_functions/SWSH_modes/algebra.py",["norm","multiply"]),(MD,["Lsquared","Lz","Lplus","Lminus","Rz","Rplus","Rminus","eth","ethbar"]),("spherical_functions/SWSH_modes/utilities.py",["evaluate"]))

p("Images and eigenfunctions of the operators",
  "Given a Modes object g of spin weight s, there is a Modes object f with T f = g (same spin weight, ell_max, leading shape and modes) exactly if g has no modes with m = 0 (for T = Lz), m = -ell (Lplus), m = ell (Lminus), ell = 0 (Lsquared), ell = -s (eth), ell = s (ethbar). A function is an eigenfunction of Lsquared and Lz with eigenvalues ell (ell+1) and m exactly if (ell, m) is its only mode, and a nonzero common eigenfunction has eigenvalues of this form with |s| <= ell <= ell_max and |m| <= ell.",
  "all well-formed Modes objects of any spin weight, ell_max and leading shape; all complex eigenvalues",
  "existence of a solution for every right-hand side, and its absence for others, cannot be tested; the answer depends on the boundary modes |s| = ell",
  (MD,["Lsquared","Lz","Lplus","Lminus","eth","ethbar"]))

p("Constants act as scalars in products, and a product of nonzero functions is not zero",
  "If the only mode of g is the (0, 0) mode given by constant_as_ell_0_mode(c), then f.multiply(g) and g.multiply(f) have the spin weight of f, and their modes are c times those of f (zero above f.ell_max), whatever the truncator. A product that keeps all its modes is zero at a leading index exactly if one of its factors is zero there. Hence factors cancel: if f g and f k have the same modes, f is not zero, and g and k have the same spin weight, ell_max and leading shape, then g and k have the same modes.",
  "all well-formed Modes objects of any spin weight and broadcastable leading shapes, with ell_max at least 0 and sums of ell_max at most 151, all products that return (C32), all leading indices",
  "that no two nonzero functions have product zero is a statement about all pairs of functions; a wrong coupling of a single pair of modes can create a zero divisor",
  ("spherical_functions/SWSH_modes/algebra.py",["multiply"]),("spherical_functions/multiplication.py",["multiply"]),(MC,["constant_as_ell_0_mode"]))

p("Identities between the norms of images under the operators, and lower bounds",
  "For a Modes object f of spin weight s, with norms as returned by norm(): norm(eth f)^2 = norm(ethbar f)^2 - 2 s norm(f)^2. The scalar product of f with Lsquared f is real and equals both norm(Lz f)^2 + (norm(Lplus f)^2 + norm(Lminus f)^2)/2 and s^2 norm(f)^2 + (norm(eth f)^2 + norm(ethbar f)^2)/2. If f has no modes with ell < l0, where l0 >= |s|, then norm(eth f)^2 >= (l0-s)(l0+s+1) norm(f)^2, norm(ethbar f)^2 >= (l0+s)(l0-s+1) norm(f)^2, and the scalar product of f with Lsquared f is at least l0 (l0+1) norm(f)^2.",
  "all well-formed Modes objects of any spin weight, ell_max and leading shape, all leading indices, all l0",
  "the statements are about all functions and all spin weights; a test on a few functions cannot establish an inequality for all of them",
  (MD,["Lsquared","Lz","Lplus","Lminus","eth","ethbar"]),("spherical_functions/SWSH_modes/algebra.py",["norm"]))

p("Which rotors have the same Wigner D matrix",
  "For one ell > 0 (integer or half-integer), Wigner_D_element returns the same numbers for all (m', m) at two unit rotors outside the punctured epsilon-neighbourhoods of the poles exactly if the rotors are equal, or ell is an integer and they are opposite. Inside those neighbourhoods this fails: there are two unit rotors, neither equal nor opposite, for which every element of every ell is the same.",
  "all pairs of unit rotors, all ell within the table, all valid (m', m); the second part is an existence statement",
  "injectivity is a statement about all pairs of rotors",
  (D,["Wigner_D_element","_Wigner_D_element"]))

p("Traces of the Wigner D matrices",
  "For every ell (integer or half-integer) and every unit rotor R outside the punctured epsilon-neighbourhoods of the poles, the sum over m of Wigner_D_element(R, ell, m, m) is U_{2 ell}(R.w), the Chebyshev polynomial of the second kind at the scalar part of the rotor, i.e. sin((2 ell + 1) gamma/2)/sin(gamma/2) for a rotation by the angle gamma. In particular it is real, and depends on the angle of the rotation only, not on its axis.",
  "all unit rotors outside the punctured neighbourhoods, all ell within the table",
  "a statement for all rotors and all ell, which connects all the diagonal elements",
  (D,["Wigner_D_element","_Wigner_D_element"]))

p("Only multiples of the identity commute with all rotations of the modes of one ell",
  "Fix ell (integer or half-integer). A square matrix of size 2 ell + 1 commutes with the matrix of numbers Wigner_D_element(R, ell, m', m), for every unit rotor R outside the punctured epsilon-neighbourhoods of the poles, exactly if it is a multiple of the identity matrix. So a linear filter of the modes that commutes with rotations cannot mix or weight differently the modes of one ell.",
  "all complex matrices, all ell within the table; the commutation is with all such rotors",
  "a statement about all matrices and all rotors",
  (D,["Wigner_D_element","_Wigner_D_element"]))

p("Values at antipodal directions",
  "For a unit rotor R outside the punctured epsilon-neighbourhoods of the poles, the rotor R*x (with x the unit imaginary quaternion along the x axis) points in the direction opposite to that of R, and the value of sYlm at R*x returned by SWSH is (-1)^ell times the value of (-s)Ylm at R. Hence, if Modes objects f and g have opposite spin weights and the same ell_max, and the modes of g are (-1)^ell times those of f, then g.evaluate(R) and f.evaluate(R*x) return the same values.",
  "all unit rotors outside the punctured neighbourhoods, all s, ell within the table, all m; all such pairs of well-formed Modes objects and all nonempty lists of rotors",
  "a relation between two values at every rotor, for all indices and functions; the phase and the sign have to be right for every spin weight at once",
  ("spherical_functions/SWSH/__init__.py",["SWSH"]),("spherical_functions/SWSH_modes/utilities.py",["evaluate"]))

p("Reflection through the equatorial plane",
  "For a unit rotor R outside the punctured epsilon-neighbourhoods of the poles, the rotor z*R*x points in the direction of R reflected through the equatorial plane, and SWSH returns there for sYlm the value (-1)^(ell+s) times the complex conjugate of sYl(-m) at R. Hence, if the modes of g are (-1)^(ell+s) conj(f(ell,-m)), with the same spin weight and ell_max, then g.evaluate(R) is the complex conjugate of f.evaluate(z*R*x). In particular, if f(ell,-m) = (-1)^ell conj(f(ell,m)) for all modes, then f.evaluate(z*R*x) is (-1)^s times the complex conjugate of f.evaluate(R).",
  "all unit rotors outside the punctured neighbourhoods, all s, ell within the table, all m; all well-formed Modes objects with these relations and all nonempty lists of rotors",
  "a relation between two values at every rotor, for all indices and functions; the phase and the sign have to be right for every spin weight at once",
  (S,["SWSH"]),(MU,["evaluate"]))

p("Symmetric functions are the functions with symmetric modes",
  "For a Modes object f whose ell_max is within the table: (1) for n >= 1, f.evaluate returns the same values at Z*R and at R for every unit rotor R outside the punctured epsilon-neighbourhoods of the poles, with Z the rotation by 2 pi/n about the z axis, exactly if all the modes whose m is not divisible by n are zero. (2) f.evaluate at z*R*x (which points in the direction of R reflected through the equatorial plane) is (-1)^s times the complex conjugate of f.evaluate at R, for every such R, exactly if f(ell,-m) = (-1)^ell conj(f(ell,m)) for all modes. (3) For spin weight 0, the values of f.evaluate are real at every such R exactly if f.conjugate() returns the same modes and metadata as f, and exactly if f.real does.",
  "all well-formed Modes objects of any spin weight and leading shape with ell_max within the table, all n; the symmetry ranges over all rotors outside the punctured neighbourhoods",
  "that a symmetry of the values implies one of the modes is a statement about the values at all rotors",
  (MU,["evaluate"]),("spherical_functions/SWSH_modes/algebra.py",["conjugate","_real_func"]))

out=os.path.join(os.path.dirname(__file__),'..','properties.jsonl')
with open(out,'w') as f:
    for x in P: f.write(json.dumps(x,ensure_ascii=False)+'\n')
print(len(P))
