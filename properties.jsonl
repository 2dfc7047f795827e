{"id": "C01", "title": "(ell,m) mode layout is consistent", "statement": "LM_range(ell_min, ell_max) returns exactly the pairs (ell,m), ell from ell_min to ell_max and m from -ell to ell, in lexicographic order; it has LM_total_size(ell_min, ell_max) rows, every row is written, and row LM_index(ell,m,ell_min) is (ell,m). Consequently LM_index is a bijection from the valid pairs onto 0..size-1.", "quantifier": "all integers 0 <= ell_min <= ell_max+1, all valid (ell,m), all initial contents of the uninitialised output buffer", "why_tests_cant": "Tests try ell_max up to 32; the closed forms are polynomials used at arbitrary ell, and stale np.empty contents are invisible to a test that happens to see zeros.", "anchors": [{"file": "spherical_functions/__init__.py", "symbols": ["LM_range", "_LM_range", "LM_index", "LM_total_size"]}]}
{"id": "C02", "title": "Deducing ell_max from an array length", "statement": "LM_deduce_ell_max(size, ell_min) returns L when size = LM_total_size(ell_min, L), and raises ValueError for every size that is not the size of a complete set of modes starting at ell_min.", "quantifier": "all integers ell_min >= 0 and all sizes >= 0", "why_tests_cant": "The claim includes rejecting every one of infinitely many bad sizes.", "anchors": [{"file": "spherical_functions/__init__.py", "symbols": ["LM_deduce_ell_max", "LM_total_size"]}]}
{"id": "C03", "title": "(ell,m',m) layout is consistent", "statement": "LMpM_range(ell_min, ell_max) lists exactly the triples (ell,m',m) with |m'|,|m| <= ell in lexicographic order, has LMpM_total_size(ell_min, ell_max) rows, and row LMpM_index(ell,m',m,ell_min) is (ell,m',m); the integer divisions by 3 in the closed forms are exact.", "quantifier": "all integers 0 <= ell_min <= ell_max+1, all valid (ell,m',m)", "why_tests_cant": "Closed-form cubic polynomials with truncating division used at arbitrary ell; tests sample ell <= 32.", "anchors": [{"file": "spherical_functions/__init__.py", "symbols": ["LMpM_range", "_LMpM_range", "LMpM_index", "LMpM_total_size"]}]}
{"id": "C04", "title": "half-integer (ell,m',m) layout and Wigner_index", "statement": "LMpM_range_half_integer(ell_min, ell_max) lists exactly the triples with 2ell, 2m', 2m of equal parity in lexicographic order and allocates exactly that many rows; _Wigner_index(2ell,2m',2m) is the row number of that triple in the listing that starts at ell=0.", "quantifier": "all half-integers 0 <= ell_min <= ell_max+1/2, all valid triples", "why_tests_cant": "Nested truncating divisions; tests sample a finite range.", "anchors": [{"file": "spherical_functions/__init__.py", "symbols": ["LMpM_range_half_integer", "_LMpM_range_half_integer", "_Wigner_index"]}]}
{"id": "C05", "title": "Single-matrix and block offsets agree with the full layout", "statement": "_linear_matrix_offset(ell,ell_min) + _linear_matrix_index(ell,m',m) = LMpM_index(ell,m',m,ell_min); _linear_matrix_diagonal_index(ell,m') = _linear_matrix_index(ell,m',m'); _total_size_D_matrices(ell_min,ell_max) = LMpM_total_size(ell_min,ell_max) = _linear_matrix_offset(ell_max+1,ell_min).", "quantifier": "all integers ell_min <= ell and all m', m", "why_tests_cant": "Two separately coded families of closed forms must agree for all ell.", "anchors": [{"file": "spherical_functions/WignerD/__init__.py", "symbols": ["_linear_matrix_index", "_linear_matrix_diagonal_index", "_linear_matrix_offset", "_total_size_D_matrices"]}, {"file": "spherical_functions/__init__.py", "symbols": ["LMpM_index", "LMpM_total_size"]}]}
{"id": "C06", "title": "factorial, binomial and ladder-coefficient lookups", "statement": "Reading the precomputed tables through factorial(n), binomial_coefficient(n,k) and ladder_operator_coefficient(ell,m) returns n!, C(n,k) and sqrt((ell-m)(ell+m+1)) and stays inside the table for every documented argument. Outside the documented range the lookup does not raise: factorial(-1) returns 170! and binomial_coefficient(n,n+1) returns 1 instead of 0 (inside the table).", "quantifier": "all n <= 170; all 0 <= k <= n <= 2 ell_max; all 2ell <= 2 ell_max with m of equal parity; every ell_max for which the tables are generated", "why_tests_cant": "The table position of every entry must match a closed-form offset for every table size, not only the shipped ell_max=32.", "anchors": [{"file": "spherical_functions/_generate_coefficients.py", "symbols": ["<module>"]}, {"file": "spherical_functions/__init__.py", "symbols": ["factorial", "binomial_coefficient", "_ladder_operator_coefficient", "ladder_operator_coefficient"]}]}
{"id": "C07", "title": "Wigner coefficient lookup", "statement": "_Wigner_coefficient(2ell,2m',2m) reads the entry generated for exactly that triple, i.e. sqrt((ell+m)!(ell-m)!/((ell+m')!(ell-m')!)) C(ell+m',rho_min) C(ell-m',ell-m-rho_min), rho_min=max(0,m'-m), and never reads outside the table.", "quantifier": "all valid triples with 0 <= ell <= ell_max (integer and half-integer), every ell_max for which the table is generated", "why_tests_cant": "Generator loop order and a closed-form cubic offset with nested floor divisions must agree on every triple.", "anchors": [{"file": "spherical_functions/_generate_coefficients.py", "symbols": ["<module>"]}, {"file": "spherical_functions/__init__.py", "symbols": ["_Wigner_coefficient", "Wigner_coefficient", "_Wigner_index"]}]}
{"id": "C08", "title": "Index checking of Wigner_D_element", "statement": "Whenever Wigner_D_element accepts a list of index triples (ell,m',m) with error_on_bad_indices set, every table read is in range; it raises ValueError exactly when some triple has ell > ell_max or |m'| > ell or |m| > ell. The check does not test that 2ell, 2m', 2m have equal parity, so e.g. (1, 1/2, 0) is accepted. Indices that are not half-integers are not rejected: the result is that of the half-integers whose doubles are nearest (ties to even).", "quantifier": "all index lists, all rotors", "why_tests_cant": "Must hold for every index triple; unchecked numba reads do not crash in tests.", "anchors": [{"file": "spherical_functions/WignerD/__init__.py", "symbols": ["_check_valid_indices", "Wigner_D_element"]}]}
{"id": "C09", "title": "Call signatures of Wigner_D_element", "statement": "Rotor, R.a and R.b, or Euler angles, each with a list of ells or a list of triples, are parsed to the documented list of triples, and rotor or Euler angles with (ell,m',m) give a scalar. The documented forms (R, ell), (alpha,beta,gamma, ell) raise IndexError, and (Ra, Rb, ell), (Ra, Rb, ell, m', m) never return a value because the numbers are taken for Euler angles.", "quantifier": "all argument tuples built from the documented forms", "why_tests_cant": "All combinations of argument forms with unbounded index lists.", "anchors": [{"file": "spherical_functions/WignerD/__init__.py", "symbols": ["Wigner_D_element"]}]}
{"id": "C10", "title": "Wigner_D_element computes the Wigner D function in every regime", "statement": "For a unit rotor the value returned for (ell,m',m) equals the closed-form sum sqrt((ell+m)!(ell-m)!/((ell+m')!(ell-m')!)) sum_rho (-1)^rho C(ell+m',rho) C(ell-m',ell-m-rho) Ra^(ell+m'-rho) conj(Ra)^(ell-m-rho) Rb^(rho-m'+m) conj(Rb)^rho whichever of the four internal regimes (|Ra| tiny, |Rb| tiny, |Ra|<|Rb|, |Ra|>=|Rb|) is used (exact arithmetic; |Ra|, |Rb| either 0 or larger than the cut-off epsilon).", "quantifier": "all unit rotors outside the open epsilon-neighbourhoods, all integer and half-integer ell <= ell_max, all valid m', m", "why_tests_cant": "Continuum of rotors; the four code paths use different formulas and a Horner scheme whose coefficients are ratios of factorials.", "anchors": [{"file": "spherical_functions/WignerD/__init__.py", "symbols": ["_Wigner_D_element", "Wigner_D_element"]}]}
{"id": "C11", "title": "Error of the small-|Ra| / small-|Rb| shortcut", "statement": "When 0 < |Ra| <= epsilon (or 0 < |Rb| <= epsilon) the returned value differs from the Wigner D function by at most (2 ell+2) epsilon + ((1-epsilon^2)^(-2 ell) - 1), which is at most (2 ell+3) epsilon for ell <= 5e13.", "quantifier": "all unit rotors in the epsilon-neighbourhoods, all ell, m', m", "why_tests_cant": "The set of rotors where the shortcut fires has tiny measure; random tests never hit it.", "anchors": [{"file": "spherical_functions/WignerD/__init__.py", "symbols": ["_Wigner_D_element"]}]}
{"id": "C12", "title": "Representation property", "statement": "D^ell(R1 R2) = D^ell(R1) D^ell(R2): sum_m'' D_{m',m''}(R1) D_{m'',m}(R2) = D_{m',m}(R1 R2).", "quantifier": "all pairs of rotors, all integer and half-integer ell, all m', m", "why_tests_cant": "Continuum of rotor pairs; sampled with tolerance in tests.", "anchors": [{"file": "spherical_functions/WignerD/__init__.py", "symbols": ["Wigner_D_element", "_Wigner_D_element"]}]}
{"id": "C13", "title": "Identity, rotations about z, and double cover", "statement": "D^ell(1) is the identity matrix; D^ell_{m',m}(exp(z gamma/2)) = delta_{m'm} exp(i m gamma); D^ell(-R) = (-1)^(2ell) D^ell(R).", "quantifier": "all ell, m', m, gamma, R", "why_tests_cant": "Continuum of inputs.", "anchors": [{"file": "spherical_functions/WignerD/__init__.py", "symbols": ["Wigner_D_element", "_Wigner_D_element"]}]}
{"id": "C14", "title": "Inverse, unitarity and index symmetries", "statement": "D_{m',m}(R^-1) = conj(D_{m,m'}(R)); sum_m D_{m',m} conj(D_{m'',m}) = delta; conj(D_{m',m}(R)) = (-1)^(m'-m) D_{-m',-m}(R); hence |D_{m',m}(R)| <= 1.", "quantifier": "all unit rotors, all ell, m', m", "why_tests_cant": "Continuum of inputs.", "anchors": [{"file": "spherical_functions/WignerD/__init__.py", "symbols": ["Wigner_D_element", "_Wigner_D_element"]}]}
{"id": "C15", "title": "Euler-angle form of D", "statement": "For R = from_euler_angles(alpha,beta,gamma): D_{m',m}(R) = exp(i m' alpha) d_{m',m}(beta) exp(i m gamma), with d real and independent of alpha, gamma.", "quantifier": "all angles, all ell, m', m", "why_tests_cant": "Continuum of inputs.", "anchors": [{"file": "spherical_functions/WignerD/__init__.py", "symbols": ["Wigner_D_element", "_Wigner_D_element"]}]}
{"id": "C16", "title": "Wigner_D_matrices fills every slot with the right element", "statement": "Wigner_D_matrices(R,ell_min,ell_max) returns an array of length LMpM_total_size(ell_min,ell_max) whose entry LMpM_index(ell,m',m,ell_min) is D^ell_{m',m}(R), i.e. agrees with Wigner_D_element; every slot is written, no index is out of range, and the values obtained by the internal symmetry shortcuts are right.", "quantifier": "all unit rotors, all 0 <= ell_min <= ell_max <= table limit, all initial contents of the uninitialised buffer", "why_tests_cant": "Slots are filled by four symmetry-related writes; a missed slot keeps arbitrary memory that tests may see as plausible.", "anchors": [{"file": "spherical_functions/WignerD/__init__.py", "symbols": ["Wigner_D_matrices", "_Wigner_D_matrices"]}]}
{"id": "C17", "title": "Array-of-rotors path of Wigner_D_element", "statement": "Wigner_D_element(array of rotors, ell, m', m) returns, entry by entry, the same value as the single-rotor call.", "quantifier": "all arrays of unit rotors, all valid ell, m', m", "why_tests_cant": "Separately coded kernel; all inputs.", "anchors": [{"file": "spherical_functions/WignerD/__init__.py", "symbols": ["_Wigner_D_elements", "Wigner_D_element"]}]}
{"id": "C18", "title": "SWSH in terms of Wigner D", "statement": "SWSH(R, s, [[ell,m],...]) returns (-1)^s sqrt((2ell+1)/(4 pi)) D^ell_{m,-s}(R) for every requested (ell,m), and 0 when ell < |s| or |m| > ell.", "quantifier": "all unit rotors, all integer s, all index lists with ell <= ell_max", "why_tests_cant": "Separately coded kernel with its own regime split and sign conventions.", "anchors": [{"file": "spherical_functions/SWSH/__init__.py", "symbols": ["SWSH", "_SWSH"]}]}
{"id": "C19", "title": "SWSH for an array of rotors, and SWSH_grid layout", "statement": "SWSH(array of rotors, s, indices) and SWSH_grid(R_grid, s, ell_max) give, at [.., LM_index(ell,m,0)], the value of the scalar call SWSH(R_grid[..], s, [[ell,m]]); entries with ell < |s| are zero. SWSH_grid of an array without elements raises ValueError.", "quantifier": "all arrays of rotors, all s, all ell_max", "why_tests_cant": "Separately coded kernel; the layout and the zero block must hold for all sizes.", "anchors": [{"file": "spherical_functions/SWSH/__init__.py", "symbols": ["SWSH", "_SWSHs", "SWSH_grid"]}]}
{"id": "C20", "title": "Conjugation of SWSHs", "statement": "conj(sYlm(R)) = (-1)^(s+m) (-s)Y(l,-m)(R).", "quantifier": "all unit rotors, all s, ell, m", "why_tests_cant": "Continuum of inputs.", "anchors": [{"file": "spherical_functions/SWSH/__init__.py", "symbols": ["SWSH"]}]}
{"id": "C21", "title": "Spin and rotation behaviour of SWSHs", "statement": "sYlm(R exp(gamma z/2)) = exp(-i s gamma) sYlm(R), and sYlm(Q R) = sum_m' D^ell_{m,m'}(Q) sYlm'(R).", "quantifier": "all rotors Q, R, all gamma, s, ell, m", "why_tests_cant": "Continuum of inputs.", "anchors": [{"file": "spherical_functions/SWSH/__init__.py", "symbols": ["SWSH"]}, {"file": "spherical_functions/WignerD/__init__.py", "symbols": ["Wigner_D_element"]}]}
{"id": "C22", "title": "Addition theorem", "statement": "sum_m |sYlm(R)|^2 = (2 ell+1)/(4 pi), independent of R and of s, for |s| <= ell; more generally sum_m sYlm(R) conj(s'Ylm(R)) = 0 for s != s'.", "quantifier": "all unit rotors, all |s|,|s'| <= ell", "why_tests_cant": "Continuum of inputs.", "anchors": [{"file": "spherical_functions/SWSH/__init__.py", "symbols": ["SWSH"]}]}
{"id": "C23", "title": "Modes construction", "statement": "Modes(data, spin_weight=s, ell_min=l0[, ell_max]) succeeds exactly when the last axis has the length of a complete set of modes from l0 and s is given; the result starts at ell=0, has last-axis length (ell_max+1)^2, holds data[LM_index(ell,m,l0)] at index(ell,m) for every ell >= max(|s|, l0), and zero for every other slot. Otherwise it raises ValueError.", "quantifier": "all data, all s, l0 >= 0, ell_max >= -1 (given positionally, by keyword, or deduced), all leading shapes", "why_tests_cant": "Padding and zeroing must be right for every combination of |s|, ell_min, ell_max.", "anchors": [{"file": "spherical_functions/SWSH_modes/__init__.py", "symbols": ["Modes.__new__"]}]}
{"id": "C24", "title": "Constructor aliasing", "statement": "Modes(arr, s) built with ell_min=0 shares memory with arr: the ell<|s| slots of the caller's own array are set to zero.", "quantifier": "all arrays with a nonzero ell<|s| slot", "why_tests_cant": "A side effect on the argument, unchecked by value tests.", "anchors": [{"file": "spherical_functions/SWSH_modes/__init__.py", "symbols": ["Modes.__new__"]}]}
{"id": "C25", "title": "Closure: every operation keeps the mode-array invariant", "statement": "Any object reached from the constructor (applied to arrays, to views a[..., :n] of arrays, or to other Modes objects) by any sequence of conjugate, real/imag (new or in place), add, subtract, multiply, scalar multiply/divide, negative, truncate_ell, eth, ethbar, L and R operators and ufuncs without out= (whenever the operation does not raise) has (ell_max+1)^2 modes, and zeros in every slot with ell < |s|, also when objects share memory. (Objects made from views that start at different slots of one array can break this through in-place operations.)", "quantifier": "all finite sequences of operations on all valid inputs", "why_tests_cant": "Quantifies over all operation histories.", "anchors": [{"file": "spherical_functions/SWSH_modes/__init__.py", "symbols": ["Modes"]}, {"file": "spherical_functions/SWSH_modes/algebra.py", "symbols": ["conjugate", "_real_func", "_imag_func", "add", "subtract", "multiply", "divide"]}, {"file": "spherical_functions/SWSH_modes/derivatives.py", "symbols": ["Lsquared", "Lz", "Lplus", "Lminus", "Rsquared", "Rz", "Rplus", "Rminus", "eth", "ethbar"]}, {"file": "spherical_functions/SWSH_modes/utilities.py", "symbols": ["truncate_ell"]}]}
{"id": "C26", "title": "Modes.index", "statement": "modes.index(ell,m) returns the position of the (ell,m) mode for every valid (ell,m) and raises ValueError exactly for ell<|s|, ell>ell_max or |m|>ell.", "quantifier": "all modes objects, all integers ell, m", "why_tests_cant": "Infinitely many rejected inputs.", "anchors": [{"file": "spherical_functions/SWSH_modes/utilities.py", "symbols": ["index"]}]}
{"id": "C27", "title": "Modes.truncate_ell", "statement": "For |s| <= L < ell_max, truncate_ell(L) keeps exactly the modes with ell <= L unchanged and sets ell_max = L (the data are a prefix of the original data); for L >= ell_max it returns the object unchanged; for L < |s| (and L < ell_max) it raises ValueError.", "quantifier": "all modes objects, all integers L", "why_tests_cant": "All sizes.", "anchors": [{"file": "spherical_functions/SWSH_modes/utilities.py", "symbols": ["truncate_ell"]}]}
{"id": "C28", "title": "Conjugate of Modes is the pointwise conjugate function", "statement": "f.conjugate() has spin -s, mode (ell,m) equal to (-1)^(s+m) conj(f(ell,-m)), evaluates at every rotor to the complex conjugate of f, is an involution, and the in-place version produces the same data as the out-of-place version.", "quantifier": "all modes objects, all rotors", "why_tests_cant": "All data, and in-place aliasing (reads after writes) must be ruled out.", "anchors": [{"file": "spherical_functions/SWSH_modes/algebra.py", "symbols": ["conjugate"]}]}
{"id": "C29", "title": "Real and imaginary parts of Modes", "statement": "For spin weight 0, f.real and f.imag are the modes of the real and imaginary parts of the function f, f = f.real + i f.imag, both are real functions, in-place variants give the same data; for nonzero spin weight a ValueError is raised.", "quantifier": "all modes objects", "why_tests_cant": "All data; in-place aliasing.", "anchors": [{"file": "spherical_functions/SWSH_modes/algebra.py", "symbols": ["_real_func", "_imag_func"]}]}
{"id": "C30", "title": "Addition and subtraction of Modes", "statement": "f+g and f-g represent the pointwise sum/difference: evaluate(f±g,R)=evaluate(f,R)±evaluate(g,R); ell_max is the larger one; the methods raise ValueError exactly when spin weights differ or leading shapes do not broadcast.", "quantifier": "all pairs of modes objects with arbitrary ell_max, leading shapes; all rotors", "why_tests_cant": "All pairs of sizes and data.", "anchors": [{"file": "spherical_functions/SWSH_modes/algebra.py", "symbols": ["add", "subtract"]}]}
{"id": "C31", "title": "Scalar arithmetic never acts on individual modes", "statement": "Multiplying or dividing a Modes object by a scalar or by an array with at most as many axes as the leading axes, broadcasting against them, scales each function as a whole; an array with more axes (which would broadcast along the mode axis) raises ValueError; adding or subtracting anything but zero is refused.", "quantifier": "all modes objects, all array shapes", "why_tests_cant": "Quantifies over all shapes.", "anchors": [{"file": "spherical_functions/SWSH_modes/algebra.py", "symbols": ["multiply", "divide"]}, {"file": "spherical_functions/SWSH_modes/utilities.py", "symbols": ["_check_broadcasting"]}]}
{"id": "C32", "title": "Product of Modes: spin, ell_max and bilinearity", "statement": "f*g has spin s_f+s_g, ell_max = truncator((ell_max_f, ell_max_g)) (by default the sum), its modes are the sums over products of 3-j symbols given in the documentation, it is bilinear and commutative, and truncating during multiplication gives the same as truncating afterwards.", "quantifier": "all pairs of modes objects, all truncators that do not exceed the sum", "why_tests_cant": "All data and sizes.", "anchors": [{"file": "spherical_functions/multiplication.py", "symbols": ["multiply", "_multiplication_helper"]}, {"file": "spherical_functions/SWSH_modes/algebra.py", "symbols": ["multiply"]}]}
{"id": "C33", "title": "Product of Modes is the pointwise product", "statement": "evaluate(f*g, R) = evaluate(f,R) evaluate(g,R) for the untruncated product, whenever the product returns; it always returns when ell_max_f+ell_max_g<=22 or one ell_max is at most 6 (otherwise the only possible exception is the ZeroDivisionError of C47). The function multiply on arrays likewise.", "quantifier": "all pairs of modes objects, all unit rotors", "why_tests_cant": "Relies on the 3-j decomposition for all ell, m, s.", "anchors": [{"file": "spherical_functions/multiplication.py", "symbols": ["multiply", "_multiplication_helper"]}, {"file": "spherical_functions/recursions/wigner3j.py", "symbols": ["Wigner3jCalculator.calculate"]}]}
{"id": "C34", "title": "norm of Modes", "statement": "f.norm() is the square root of the sum of |mode|^2 over the last axis: non-negative, zero iff the function is zero, absolutely homogeneous, satisfies the triangle inequality, and is invariant under conjugation and under rotation of the modes. np.absolute(f) returns the elementwise modulus of the modes instead of this norm, contradicting its description.", "quantifier": "all modes objects", "why_tests_cant": "All data.", "anchors": [{"file": "spherical_functions/SWSH_modes/algebra.py", "symbols": ["norm"]}, {"file": "spherical_functions/SWSH_modes/ufuncs.py", "symbols": ["__array_ufunc__"]}]}
{"id": "C35", "title": "Angular-momentum algebra of L operators", "statement": "[Lz,L±]=±L±, [L+,L-]=2Lz, L²=½(L+L- + L-L+)+Lz², [L²,L]=0; all of them preserve spin weight and ell_max.", "quantifier": "all modes objects of every spin weight and ell_max", "why_tests_cant": "All data and sizes; ladder loops run over modified data.", "anchors": [{"file": "spherical_functions/SWSH_modes/derivatives.py", "symbols": ["Lsquared", "Lz", "Lplus", "Lminus"]}]}
{"id": "C36", "title": "Algebra of R operators, and [L,R]=0", "statement": "[Rz,R±]=±R±, [R+,R-]=2Rz, R²=L², every R operator commutes with every L operator; R± change the spin weight by ∓1, including at the boundary |s| = ell.", "quantifier": "all modes objects", "why_tests_cant": "Boundary modes |s|=ell are annihilated; all s and ell_max.", "anchors": [{"file": "spherical_functions/SWSH_modes/derivatives.py", "symbols": ["Rsquared", "Rz", "Rplus", "Rminus"]}]}
{"id": "C37", "title": "eth and ethbar on Modes", "statement": "eth raises and ethbar lowers the spin weight by one; (ethbar eth - eth ethbar) f = 2 s f; ethbar eth f has modes -(ell-s)(ell+s+1) f(ell,m); conj(eth(f)) = ethbar(conj f); and they agree with the functions eth_NP/ethbar_NP of mode_conversions.", "quantifier": "all modes objects", "why_tests_cant": "All data and sizes.", "anchors": [{"file": "spherical_functions/SWSH_modes/derivatives.py", "symbols": ["eth", "ethbar"]}, {"file": "spherical_functions/mode_conversions.py", "symbols": ["eth_NP", "ethbar_NP"]}]}
{"id": "C38", "title": "L and R act as infinitesimal left and right rotations", "statement": "With Lg(f)(Q) = -(i/2) d/dt f(exp(t g) Q) at t=0 and Rg(f)(Q) = -(i/2) d/dt f(Q exp(t g)) at t=0, where f(Q) is what evaluate returns: Lz is Lg for g=z, Lplus = Lx + i Ly, Lminus = Lx - i Ly, Rz is Rg for g=z, and ethbar = Rx - i Ry.  (The docstrings also claim Rplus = Rx - i Ry and Rminus = Rx + i Ry; the code computes the opposite sign, Rplus = -(Rx - i Ry), Rminus = eth = -(Rx + i Ry), and that is what holds.)", "quantifier": "all modes objects, all rotors outside the epsilon-neighbourhoods of the poles (all rotors for the function defined by the mode weights), all generators", "why_tests_cant": "Relates modes to derivatives of the function at every rotor.", "anchors": [{"file": "spherical_functions/SWSH_modes/derivatives.py", "symbols": ["Lz", "Rz", "Lplus", "Lminus", "Rplus", "Rminus"]}]}
{"id": "C39", "title": "ufunc dispatch of Modes", "statement": "Without out=, the supported ufuncs (+,-,*,/ by scalars, negation, conjugate, comparison, absolute, finiteness tests) act as the corresponding method or on the plain array of mode values and leave all existing objects and memory unchanged (only the exception for unequal spin weights, nonzero summands and unbroadcastable factors is TypeError instead of ValueError); every other ufunc yields NotImplemented (TypeError), and other keyword arguments NotImplementedError, rather than acting on mode values.", "quantifier": "all ufuncs and argument combinations", "why_tests_cant": "Decision logic over all combinations of argument kinds.", "anchors": [{"file": "spherical_functions/SWSH_modes/ufuncs.py", "symbols": ["__array_ufunc__"]}]}
{"id": "C40", "title": "out= argument of Modes ufuncs", "statement": "What np.add/np.subtract/np.multiply(f, g, out=h) leaves in h: f+g, f-g for h=f (so f += g works for ell_max_g <= ell_max_f) and for an h of other memory when ell_max_g <= ell_max_f; but (defects) stale contents of h plus g for ell_max_f < ell <= ell_max_g, 2f or 0 for h=g, and the old contents of h plus f*g for multiply; an h of the wrong size never works, so f *= g fails for ell_max_g >= 1; f *= 2, f /= 2, f += 0 raise TypeError; np.negative(array, out=f) negates f.", "quantifier": "all f, g, h, including h aliasing f or g", "why_tests_cant": "Aliasing and stale contents.", "anchors": [{"file": "spherical_functions/SWSH_modes/ufuncs.py", "symbols": ["__array_ufunc__"]}, {"file": "spherical_functions/multiplication.py", "symbols": ["multiply"]}]}
{"id": "C41", "title": "Constants and vectors as modes", "statement": "constant_as_ell_0_mode / constant_from_ell_0_mode and vector_as_ell_1_modes / vector_from_ell_1_modes are mutually inverse, and the function with those modes takes the value c, respectively v·n(theta,phi), at every direction.", "quantifier": "all complex constants, all real 3-vectors, all directions", "why_tests_cant": "Continuum of inputs.", "anchors": [{"file": "spherical_functions/mode_conversions.py", "symbols": ["constant_as_ell_0_mode", "constant_from_ell_0_mode", "vector_as_ell_1_modes", "vector_from_ell_1_modes"]}]}
{"id": "C42", "title": "eth/ethbar functions on flat mode arrays", "statement": "eth_NP, ethbar_NP multiply each (ell,m) mode of a complete mode array by ±sqrt((ell∓s)(ell±s+1)) (0 below the spin limit); eth_GHP and ethbar_GHP equal the NP versions divided by sqrt 2; the argument is not modified.", "quantifier": "all complete mode arrays, all s, all ell_min >= 0", "why_tests_cant": "All sizes and data.", "anchors": [{"file": "spherical_functions/mode_conversions.py", "symbols": ["eth_GHP", "ethbar_GHP", "eth_NP", "ethbar_NP"]}]}
{"id": "C43", "title": "ethbar_inverse_NP inverts ethbar_NP", "statement": "ethbar_inverse_NP(ethbar_NP(f,s),s-1)=f and ethbar_NP(ethbar_inverse_NP(g,s),s+1)=g on all modes with ell >= max(|s|,|s∓1|); modes below that limit are not zeroed by ethbar_inverse_NP.", "quantifier": "all complete mode arrays, all s", "why_tests_cant": "All sizes and data.", "anchors": [{"file": "spherical_functions/mode_conversions.py", "symbols": ["ethbar_inverse_NP", "ethbar_NP"]}]}
{"id": "C44", "title": "Grid construction and spin-weight rules", "statement": "Grid(data, s) needs at least 2|s|+1 points in each direction; sums/differences need equal spin (else ValueError), products add spins, quotients subtract them, conjugation negates the spin, absolute gives spin 0, sqrt/power scale it; numbers act on whole functions along the leading axes; values are the pointwise results and every result again has at least 2|s|+1 points in each direction.", "quantifier": "all grids of all shapes and spins", "why_tests_cant": "Decision logic over all combinations.", "anchors": [{"file": "spherical_functions/SWSH_grids/__init__.py", "symbols": ["Grid.__new__"]}, {"file": "spherical_functions/SWSH_grids/algebra.py", "symbols": ["add", "subtract", "multiply", "divide", "conjugate"]}, {"file": "spherical_functions/SWSH_grids/ufuncs.py", "symbols": ["__array_ufunc__"]}]}
{"id": "C45", "title": "Grid error paths", "statement": "Defects of the Grid error paths: too few grid points always raise NameError where ValueError is documented; g.subtract(h) with different spins always raises NameError; Grid.modes raises for every argument and every grid; pickling any Grid raises. (The documented behaviour - ValueError, a Modes object, a working pickle - is therefore never obtained.)", "quantifier": "all grids", "why_tests_cant": "Error paths not reached by tests.", "anchors": [{"file": "spherical_functions/SWSH_grids/__init__.py", "symbols": ["Grid.__new__", "Grid.__reduce__"]}, {"file": "spherical_functions/SWSH_grids/utilities.py", "symbols": ["modes"]}, {"file": "spherical_functions/SWSH_grids/algebra.py", "symbols": ["subtract"]}]}
{"id": "C46", "title": "3-j selection rules", "statement": "Wigner3j(j1,j2,j3,m1,m2,m3) is 0 whenever m1+m2+m3 != 0, or |m_i|>j_i, or the triangle inequality fails; Wigner3jCalculator.calculate returns zeros for all j outside max(|j2-j3|,|m2+m3|)..j2+j3.", "quantifier": "all integer arguments", "why_tests_cant": "Infinitely many inputs.", "anchors": [{"file": "spherical_functions/recursions/wigner3j.py", "symbols": ["Wigner3j", "Wigner3jCalculator.calculate"]}]}
{"id": "C47", "title": "3-j calculator memory safety and history independence", "statement": "calculate(j2,j3,m2,m3) on a calculator created for (j2_max,j3_max) with j2<=j2_max, j3<=j3_max never indexes outside its workspace, and its outcome does not depend on earlier calls (even ones that raised). Its only possible exception for j2+j3<=151 is ZeroDivisionError, which requires a j strictly inside the range at which the symbol vanishes exactly while its neighbour above is at least as large as its neighbour below, after an initial monotone stretch from whose end on no nonzero value is smaller than the one two places before; it is never raised for j2+j3<=22, for j2<=6 or j3<=6, for m2=m3=0, nor when |m2|=j2 or |m3|=j3.", "quantifier": "all sizes, all arguments in range, all previous workspace contents", "why_tests_cant": "Quantifies over all call histories.", "anchors": [{"file": "spherical_functions/recursions/wigner3j.py", "symbols": ["Wigner3jCalculator"]}]}
{"id": "C48", "title": "3-j values", "statement": "Whenever calculate(j2,j3,m2,m3) returns, entry j of the result is the Wigner 3-j symbol (j j2 j3; -m2-m3 m2 m3), as given by the Racah formula; likewise Wigner3j.", "quantifier": "all j, j2, j3, m2, m3 with j2+j3<=151 (and all larger ones for which the 32-bit coefficient does not overflow)", "why_tests_cant": "All quantum numbers; the two-sided recursion with normalisation differs from any closed form.", "anchors": [{"file": "spherical_functions/recursions/wigner3j.py", "symbols": ["Wigner3jCalculator.calculate"]}]}
{"id": "C49", "title": "3-j symmetries and orthogonality; Clebsch-Gordan", "statement": "Wigner3j is invariant under even permutations of columns and multiplied by (-1)^(j1+j2+j3) under odd ones and under m -> -m; sum over (m2,m3) and sum over j orthogonality; clebsch_gordan(j1,m1,j2,m2,j3,m3) = (-1)^(j1-j2+m3) sqrt(2 j3+1) Wigner3j(j1,j2,j3,m1,m2,-m3).", "quantifier": "all quantum numbers with the two smaller j adding up to at most 151, whenever the calls return", "why_tests_cant": "All quantum numbers.", "anchors": [{"file": "spherical_functions/recursions/wigner3j.py", "symbols": ["Wigner3j", "clebsch_gordan"]}]}
{"id": "C50", "title": "3-j recursion coefficient stays in 32-bit range", "statement": "The B coefficient, declared as 32-bit integer, does not overflow for |j| up to the largest size used by the package (products of modes with ell<=64).", "quantifier": "all arguments with j2,j3 <= 64", "why_tests_cant": "Finite but too large to enumerate in tests; overflow is silent.", "anchors": [{"file": "spherical_functions/recursions/wigner3j.py", "symbols": ["B"]}]}
{"id": "C51", "title": "complex_powers", "statement": "complex_powers(z,M)[m] = z^m for every unit complex z, every M >= 1 and 0<=m<=M; the quadrant loop terminates. For M = 0 it writes outside its buffer. A zpowers argument of the documented shape is accepted only for one-dimensional z.", "quantifier": "all unit complex numbers, all M", "why_tests_cant": "Continuum of inputs and unbounded M.", "anchors": [{"file": "spherical_functions/recursions/complex_powers.py", "symbols": ["complex_powers", "_complex_powers"]}]}
{"id": "C52", "title": "Wedge index of the H recursion", "statement": "wedge_index(ell,m',m) enumerates the wedge {|m'|<=m<=ell<=n_max} in lexicographic order without gaps, wedge_size(n_max) is its size; wedgeify_index maps every (ell,m',m) to one of its symmetric partners (m',m), (m,m'), (-m',-m), (-m,-m'), inside the wedge.", "quantifier": "all n_max, all valid indices", "why_tests_cant": "Cubic closed forms with case splits.", "anchors": [{"file": "spherical_functions/recursions/wignerH.py", "symbols": ["wedge_size", "wedge_index", "wedgeify_index"]}]}
{"id": "C53", "title": "nm/nabsm/nmpm index functions", "statement": "nm_index, nabsm_index, nmpm_index enumerate (n,m), (n,|m|) and (n,m',m) without gaps in lexicographic order.", "quantifier": "all n, m, m'", "why_tests_cant": "Closed forms for unbounded n.", "anchors": [{"file": "spherical_functions/recursions/wignerH.py", "symbols": ["nm_index", "nabsm_index", "nmpm_index"]}]}
{"id": "C54", "title": "H recursion is memory safe, history independent and complete", "statement": "HCalculator(n_max)(cosbeta,...) for n_max>=1 stays inside its arrays and writes every wedge entry, and the result does not depend on earlier calls with the same workspace; the result is the beginning of the workspace, so that the next call with the same workspace overwrites it. n_max=0 writes out of bounds. Bad n_max, empty or out-of-range cosbeta and different shapes of cosbeta and sinbeta raise ValueError.", "quantifier": "all n_max, all angles (cosbeta with its sines, or without), all previous workspace contents", "why_tests_cant": "Quantifies over histories and sizes.", "anchors": [{"file": "spherical_functions/recursions/wignerH.py", "symbols": ["HCalculator", "_step_1", "_step_2", "_step_3", "_step_4", "_step_5"]}]}
{"id": "C55", "title": "quaternion_angles", "statement": "quaternion_angles(R) returns unit complex numbers (zb, zp, zm) that reproduce the rotor: R0 + i R3 = sqrt((1+Re zb)/2) zp, R2 - i R1 = sqrt((1-Re zb)/2) zm, Im zb >= 0; for R = from_euler_angles(alpha,beta,gamma), 0<beta<pi, they are exp(i beta), exp(i(alpha+gamma)/2), exp(i(alpha-gamma)/2). At the poles (R0=R3=0 or R1=R2=0) it raises ZeroDivisionError.", "quantifier": "all unit rotors, including |Ra|=0 or |Rb|=0", "why_tests_cant": "Continuum and singular points.", "anchors": [{"file": "spherical_functions/recursions/__init__.py", "symbols": ["quaternion_angles"]}]}
{"id": "C56", "title": "theta_phi grid", "statement": "theta_phi(n_theta,n_phi)[j,k] = (j pi/(n_theta-1), 2 pi k/n_phi); it covers both poles and all entries are written, for n_theta >= 2.", "quantifier": "all n_theta >= 2, n_phi >= 1", "why_tests_cant": "All sizes.", "anchors": [{"file": "spherical_functions/__init__.py", "symbols": ["theta_phi"]}]}
{"id": "C57", "title": "Documented error switch has no effect", "statement": "After sf.error_on_bad_indices = False, Wigner_D_element still raises ValueError for a triple with ell > ell_max, |m|>ell or |m'|>ell (the WignerD module holds its own copy of the flag); with its own flag off, out-of-range m, m' give zero.", "quantifier": "all index triples, all rotors", "why_tests_cant": "Quantifies over all inputs and over the module state.", "anchors": [{"file": "spherical_functions/WignerD/__init__.py", "symbols": ["Wigner_D_element", "error_on_bad_indices"]}, {"file": "spherical_functions/__init__.py", "symbols": ["error_on_bad_indices"]}]}
{"id": "C58", "title": "Grid.multiply method against the operator", "statement": "g.multiply(x) agrees with g*x for every single number x. Defect for arrays with one number per function: g*a scales function i by a[i], but g.multiply(a) aligns a with the phi axis - it raises ValueError if n_phi differs from the number of functions, and silently scales grid point (j,l) of every function by a[l] if it is equal.", "quantifier": "all grids and all arrays of numbers", "why_tests_cant": "A shape coincidence decides between an error and a silently wrong result.", "anchors": [{"file": "spherical_functions/SWSH_grids/algebra.py", "symbols": ["multiply"]}, {"file": "spherical_functions/SWSH_grids/ufuncs.py", "symbols": ["__array_ufunc__"]}]}
{"id": "C59", "title": "Values of the H calculator", "statement": "The entry of HCalculator(n_max)(cosbeta) found with wedge_index(*wedgeify_index(l,m',m)) is H^{m',m}_l(beta), that is, multiplied by eps(m') eps(-m) it is Wigner's d^l_{m',m}(beta) as given by its series.", "quantifier": "all n_max >= 1, all l <= n_max, all |m'|,|m| <= l, all angles, all workspaces", "why_tests_cant": "Continuum of angles, unbounded n_max; the tests compare a few angles.", "anchors": [{"file": "spherical_functions/recursions/wignerH.py", "symbols": ["HCalculator", "_step_1", "_step_2", "_step_3", "_step_4", "_step_5", "wedge_index", "wedgeify_index"]}]}
{"id": "C60", "title": "Values of the full-matrix H calculator", "statement": "WignerDRecursion.HCalculator(n_max)(cosbeta) fills the complete matrices: row nmpm_index(n,m',m) is H^{m',m}_n(beta).", "quantifier": "all n_max >= 1, all n <= n_max, all |m'|,|m| <= n, all angles, all workspaces", "why_tests_cant": "Continuum of angles, unbounded n_max; the test compares values only up to sign.", "anchors": [{"file": "spherical_functions/WignerD/WignerDRecursion.py", "symbols": ["HCalculator", "_step_1", "_step_2", "_step_3", "_step_4", "_step_5", "_step_6"]}]}
{"id": "C61", "title": "Accuracy of every entry point at every unit rotor", "statement": "For every unit rotor, including those so close to a pole that the code takes a shortcut (|R.a| <= epsilon or |R.b| <= epsilon), the entries of Wigner_D_matrices and of Wigner_D_element on arrays of rotors differ from the D function by at most (2 ell+3) epsilon (ell <= 5e13); those of SWSH and SWSH_grid differ from the harmonic by at most sqrt((2 ell+1)/(4 pi)) times that; and Modes.evaluate differs from the function by at most the sum over modes of |f(ell,m)| times the error of the harmonic.", "quantifier": "all unit rotors, all arrays of unit rotors, all ell <= table limit, all s, all Modes objects", "why_tests_cant": "The set of rotors where the shortcuts fire has tiny measure; random tests never hit it.", "anchors": [{"file": "spherical_functions/WignerD/__init__.py", "symbols": ["Wigner_D_matrices", "_Wigner_D_elements"]}, {"file": "spherical_functions/SWSH/__init__.py", "symbols": ["SWSH", "_SWSH", "_SWSHs", "SWSH_grid"]}, {"file": "spherical_functions/SWSH_modes/utilities.py", "symbols": ["evaluate"]}]}
{"id": "C62", "title": "Index functions in 64-bit arithmetic", "statement": "The index and size functions, computed with wrapping 64-bit integers as numba compiles them, return the exact integer for every valid argument up to: ell <= 3037000498 (LM_index, LM_total_size), ell <= 1321121 (LMpM_index, LMpM_total_size, nmpm_index, the offsets of Wigner_D_matrices), 2 ell <= 1664510 (_Wigner_index), ell <= 1664509 (wedge_size, wedge_index, nm_index, nabsm_index). One step beyond each of these limits LM_total_size, LMpM_total_size, _Wigner_index and wedge_size return negative numbers.", "quantifier": "all valid index arguments up to the limits", "why_tests_cant": "Overflow is silent and far outside what tests use.", "anchors": [{"file": "spherical_functions/__init__.py", "symbols": ["LM_index", "LM_total_size", "LMpM_index", "LMpM_total_size"]}, {"file": "spherical_functions/__init__.py", "symbols": ["_Wigner_index"]}, {"file": "spherical_functions/WignerD/__init__.py", "symbols": ["_linear_matrix_index", "_linear_matrix_offset", "_total_size_D_matrices"]}, {"file": "spherical_functions/recursions/wignerH.py", "symbols": ["wedge_size", "wedge_index", "nm_index", "nabsm_index", "nmpm_index"]}]}
{"id": "C63", "title": "LM_deduce_ell_max with rounded square roots", "statement": "LM_deduce_ell_max(size, ell_min), with its square root rounded by any monotone rounding that keeps integers up to 2^53, returns L exactly for size = LM_total_size(ell_min, L) and raises ValueError for every other size, as long as size + ell_min^2 <= 2^53.", "quantifier": "all sizes and ell_min with size + ell_min^2 <= 2^53, all monotone roundings", "why_tests_cant": "The interesting arguments are next to perfect squares near 2^53.", "anchors": [{"file": "spherical_functions/__init__.py", "symbols": ["LM_deduce_ell_max"]}]}
{"id": "C64", "title": "Modes.grid", "statement": "Modes.grid(n_theta, n_phi) returns a Grid of the documented shape (defaults for None and 0) with the spin weight of the modes, and never one with fewer than 2|s|+1 points per direction; its value at each point is that of Modes.evaluate at the rotor of the direction theta_phi(n_theta,n_phi)[j,k]; and it commutes with conjugation, sums, differences and products (with enough points).", "quantifier": "all Modes objects, all numbers of points, all points", "why_tests_cant": "Continuum of data and unbounded sizes; relates three independent code paths.", "anchors": [{"file": "spherical_functions/SWSH_modes/utilities.py", "symbols": ["grid", "evaluate"]}, {"file": "spherical_functions/SWSH_modes/algebra.py", "symbols": ["conjugate", "add", "subtract", "multiply"]}, {"file": "spherical_functions/SWSH_grids/ufuncs.py", "symbols": ["__array_ufunc__"]}, {"file": "spherical_functions/__init__.py", "symbols": ["theta_phi"]}]}
{"id": "C65", "title": "Copies, pickles and absence of hidden aliasing", "statement": "Pickling and unpickling a Modes object returns the same array and metadata; copies and unpickled objects own their memory: in every history of operations an object changes only through operations that write in place into its own memory block, so that a copy keeps the value of the original and the original is not changed through the copy.", "quantifier": "all Modes objects, all reachable program states, all later histories", "why_tests_cant": "Quantifies over histories of operations and aliasing patterns.", "anchors": [{"file": "spherical_functions/SWSH_modes/__init__.py", "symbols": ["__reduce__", "__setstate__", "__array_finalize__"]}]}
{"id": "C66", "title": "Unfinished functions never return", "statement": "recursions.rotate raises NameError for every Modes object and every rotor argument; the calculator of associated Legendre functions raises ValueError for n_max < 0 and NameError otherwise. The formula zp^m zm^n of the documentation of recursions.rotate does not hold for the zp, zm of quaternion_angles: D^1_{1,0} differs for every rotor away from the poles with zp != 1.", "quantifier": "all arguments", "why_tests_cant": "A statement about all arguments; the defect of the formula cannot be seen by running unreachable code.", "anchors": [{"file": "spherical_functions/recursions/__init__.py", "symbols": ["rotate", "quaternion_angles"]}, {"file": "spherical_functions/recursions/associated_legendre_functions.py", "symbols": ["P̆Calculator"]}]}
{"id": "C67", "title": "The recursion subpackage and Wigner_D_element agree", "statement": "For every unit rotor away from the poles, with (zb,zp,zm) = quaternion_angles(R) and H = HCalculator(n_max)(Re zb, Im zb): Wigner_D_element(R,l,m',m) = eps(m') eps(-m) H^{m',m}_l zp^(m'+m) zm^(m'-m); the powers, also the negative ones, can be read from complex_powers.", "quantifier": "all lists of unit rotors away from the poles, all n_max, all l <= n_max, all m', m", "why_tests_cant": "Two independent algorithms over a continuum; tests compare a few rotors with tolerances.", "anchors": [{"file": "spherical_functions/recursions/__init__.py", "symbols": ["quaternion_angles"]}, {"file": "spherical_functions/recursions/complex_powers.py", "symbols": ["complex_powers"]}, {"file": "spherical_functions/recursions/wignerH.py", "symbols": ["HCalculator"]}, {"file": "spherical_functions/WignerD/__init__.py", "symbols": ["Wigner_D_element"]}]}
{"id": "C68", "title": "Quaternions that are not normalised", "statement": "Wigner_D_element(lambda R, ...) = lambda^(2 ell) Wigner_D_element(R, ...) as long as both complex parts exceed the cut-off; a quaternion with | |R| - 1 | <= delta gives values within (1+delta)^(2 ell) - 1 of those of the normalised rotor; on the axis the scaling is lambda^(2m) instead.", "quantifier": "all quaternions with parts above the cut-off, all indices", "why_tests_cant": "Continuum; tests only use normalised rotors.", "anchors": [{"file": "spherical_functions/WignerD/__init__.py", "symbols": ["Wigner_D_element", "_Wigner_D_element"]}]}
{"id": "C69", "title": "Rounding errors of the Wigner D elements", "statement": "In floating-point arithmetic with relative error u per operation and library call (complex powers: w) and tables with relative error u, the values that Wigner_D_element stores differ from the D function by at most floatErr(u,2 ell) (|R.a|+|R.b|)^(2 ell) away from the poles, where floatErr(u,n) <= 20 (n+1) u for n <= 64, u <= 2^-50; elements with |m'| = ell or |m| = ell have that relative error; at every unit rotor the error is at most max(floatErr(u,2 ell) 2^ell, (1+w) e + w) with e about (2 ell+2) epsilon; elements out of range are exactly zero. In particular the error is below 1e-10 for all ell <= 8.", "quantifier": "all floating-point arithmetics satisfying the standard model, all rotors (unit or not), all lists of indices, all ell up to the table limit", "why_tests_cant": "Rounding errors depend on every bit of the input; a test sees a handful of rotors.", "anchors": [{"file": "spherical_functions/WignerD/__init__.py", "symbols": ["_Wigner_D_element"]}]}
{"id": "C70", "title": "Rounding errors of the spin-weighted harmonics and of Modes.evaluate", "statement": "In floating-point arithmetic with relative error u per operation (complex powers: w, inner products of length N: delta(N)), the values of SWSH - for one rotor and a list of modes, for an array of rotors and one mode, and in SWSH_grid - differ from sYlm by at most sqrt((2ell+1)/4pi) max(floatErrY(u,2 ell) 2^ell, e) at every unit rotor, where floatErrY(u,n) <= 20(n+1)u and e is about (2ell+2) epsilon + 5u + w; away from the poles the bound holds for unnormalised quaternions with the factor (|R.a|+|R.b|)^(2 ell), and harmonics with |m| = ell or |s| = ell have small relative error; modes with ell < |s| or |m| > ell are exactly zero. Modes.evaluate differs from the function with the given mode weights by at most the sum of |weight| (err_ell + delta(N)(sqrt((2ell+1)/4pi) + err_ell)). The error of each harmonic with ell <= 8 is below 2e-10 in double precision. Sequential summation has delta(N) = 2((1-u)^-(N+2) - 1).", "quantifier": "all floating-point arithmetics satisfying the standard model, all unit rotors, all spin weights, all modes up to the table limit, all Modes objects", "why_tests_cant": "Rounding errors depend on every bit of the input; a test sees a handful of rotors.", "anchors": [{"file": "spherical_functions/SWSH/__init__.py", "symbols": ["_SWSH", "_SWSHs", "SWSH_grid"]}, {"file": "spherical_functions/SWSH_modes/utilities.py", "symbols": ["evaluate"]}]}
{"id": "C71", "title": "Operations act on each function of an array of functions independently", "statement": "For a Modes object with leading axes: every method (conjugate, real, imag, angular-momentum and spin operators, negation, truncation, norm, evaluate, copy, pickle) applied to a selection f[key] of functions gives the selection of the result, with the same exceptions; for sums, differences, products and quotients of two objects, and of an object and an array of numbers, the function of the result at every index is the operation applied to the two functions that broadcasting puts at that index. f[i] raises IndexError exactly when i is outside -n..n-1.", "quantifier": "all Modes objects (well-formed or not, where stated), all selections of the leading axes, all broadcasting shapes, all indices", "why_tests_cant": "Unbounded numbers of axes, sizes and selections.", "anchors": [{"file": "spherical_functions/SWSH_modes/__init__.py", "symbols": ["__array_finalize__"]}, {"file": "spherical_functions/SWSH_modes/algebra.py", "symbols": ["add", "subtract", "multiply", "divide", "conjugate", "norm"]}, {"file": "spherical_functions/SWSH_modes/utilities.py", "symbols": ["evaluate", "truncate_ell"]}]}
{"id": "C72", "title": "Indexing the mode axis keeps metadata that no longer describe the data", "statement": "A proper part f[..., i:j] of the mode axis is still labelled with the spin weight and ell_max of f: it is not a consistent object, its index method still gives positions in the whole array, and negation, Rz, products and quotients with numbers, and evaluate raise ValueError. f[..., f.index(ell,m)] of an object with leading shape (..., n) has the right values, but n != (ell_max+1)^2 makes negation and products with numbers raise ValueError, and n = (ell_max+1)^2 makes negation silently set the first s^2 entries to zero.", "quantifier": "all well-formed Modes objects, all slices of the mode axis, all (ell, m)", "why_tests_cant": "Holds for every size; the silent case needs a coincidence of sizes no test uses.", "anchors": [{"file": "spherical_functions/SWSH_modes/__init__.py", "symbols": ["__array_finalize__"]}, {"file": "spherical_functions/SWSH_modes/utilities.py", "symbols": ["index"]}]}
{"id": "C73", "title": "Methods of ufuncs on Modes and Grid objects", "statement": "Reductions and accumulations (np.add.reduce(f), f.sum(), f.mean(), f.prod(), f.cumsum(), f.max()) never return: IndexError without keyword arguments, NotImplementedError with them, TypeError for unsupported ufuncs; any and all are numpy's on the plain array. np.<ufunc>.at(f, index, ...) of a supported ufunc (other than absolute) never changes any object or array: it raises or silently returns None; it returns for every index for negative, positive and conjugate, for every number as index for multiply and divide, and for index 0 for add and subtract, which raise TypeError for other indices. outer and reduceat do what the ordinary call does. The same for Grid.", "quantifier": "all reachable program states, all ufuncs, all arguments", "why_tests_cant": "Quantifies over all states, all ufuncs and all argument patterns; a silent no-op is not visible in an exception test.", "anchors": [{"file": "spherical_functions/SWSH_modes/ufuncs.py", "symbols": ["__array_ufunc__"]}, {"file": "spherical_functions/SWSH_grids/ufuncs.py", "symbols": ["__array_ufunc__"]}]}
{"id": "C74", "title": "Rounding errors of the Wigner D matrices and of D elements at an array of rotors", "statement": "In floating-point arithmetic with relative error u per operation (complex powers: w), Wigner_D_matrices fills its whole array and the value at the position of (ell, m', m), and the value of Wigner_D_element for an array of rotors, differ from the D function by at most floatErrM(u,2 ell) (|R.a|+|R.b|)^(2 ell) when the computed moduli exceed the cut-off (rotors need not be normalised), with floatErrM(u,n) <= 40 (n+1) u for n <= 64, u <= 2^-50; elements with |m'| = ell or |m| = ell have that relative error, also the three mirror images filled by symmetry; at every unit rotor, poles included, the error is at most max(floatErrM 2^ell, (1+w) poleErr + w), below 2e-10 for ell <= 8 in double precision; elements out of range are exactly zero.", "quantifier": "all floating-point arithmetics satisfying the standard model, all rotors (unit or not), all ell_min <= ell_max up to the table limit, all arrays of rotors", "why_tests_cant": "Rounding errors depend on every bit of the input; a test sees a handful of rotors.", "anchors": [{"file": "spherical_functions/WignerD/__init__.py", "symbols": ["_Wigner_D_matrices", "_Wigner_D_elements"]}]}
{"id": "C75", "title": "Assignment to modes, and data stored below |s|", "statement": "f[key, f.index(ell,m)] = value changes that mode of the selected functions and nothing else, keeps the object consistent, and changes its value at every rotor by the change times sYlm. Assignments to arbitrary positions of the last axis keep shape and metadata but can put numbers into modes with ell < |s|, which must vanish. Such data are ignored - the result, or the exception, is exactly that of the object with zeros there, which is +f - by negation, conjugate, bar, real, imag, Lplus, Lminus, Rz, Rplus, Rminus, eth, ethbar, evaluate, sums, differences, products with Modes and with numbers, and quotients; Lsquared, Lz, truncate_ell and in-place conjugation carry them along unchanged and are right above |s|; norm counts them: norm(f)^2 exceeds that of +f by their squared moduli.", "quantifier": "all Modes objects with (ell_max+1)^2 slots and arbitrary contents, all assignments, all leading shapes, all unit rotors", "why_tests_cant": "Quantifies over all contents of the slots below |s|, which the constructor never produces; only histories with assignments reach them.", "anchors": [{"file": "spherical_functions/SWSH_modes/__init__.py", "symbols": ["Modes"]}, {"file": "spherical_functions/SWSH_modes/algebra.py", "symbols": ["norm", "conjugate", "add", "multiply"]}, {"file": "spherical_functions/SWSH_modes/derivatives.py", "symbols": ["Lsquared", "Lz", "Rplus"]}, {"file": "spherical_functions/SWSH_modes/utilities.py", "symbols": ["index", "evaluate", "truncate_ell"]}]}
{"id": "C76", "title": "Writing to a selection of functions", "statement": "A selection g = f[key] by integers and slices shares its memory with f. g.conjugate(inplace=True) and the in-place real and imaginary parts give g the value the method gives for the selection, give the selected functions of f the same mode weights and leave the others alone; the spin weight reported by f stays s, so that after conjugation the selected functions of f are labelled with the wrong spin weight unless s = 0 (the loop 'for g in f: g.conjugate(inplace=True)' conjugates all functions and leaves the label s). f[key] = g with equal ell_max assigns the mode weights without looking at the spin weight of g; with ell_max_g = 0 every mode of the selected functions silently becomes the single mode of g; any other size, or a shape that does not broadcast, raises ValueError. f[key] += h and f[key] -= h with h of the same spin weight, ell_max_h <= ell_max_f and its own memory change the selected functions to the sums (differences) and nothing else.", "quantifier": "all well-formed Modes objects, all injective selections of the leading axes, all leading shapes", "why_tests_cant": "Unbounded numbers of axes and selections; aliasing between view and original depends on the history.", "anchors": [{"file": "spherical_functions/SWSH_modes/__init__.py", "symbols": ["__array_finalize__"]}, {"file": "spherical_functions/SWSH_modes/algebra.py", "symbols": ["conjugate", "_real_func", "_imag_func", "add", "subtract"]}, {"file": "spherical_functions/SWSH_modes/ufuncs.py", "symbols": ["__array_ufunc__"]}]}
{"id": "C77", "title": "Modes objects made from real, integer or single-precision data", "statement": "The constructor does not convert its input but reinterprets its memory, q items (2 for float64, int64 and complex64, 4 for float32 and int32) being read as one complex number: it succeeds exactly if the last axis has q((L+1)^2 - ell_min^2) items for the given ell_max = L, or for some L if ell_max is not given, and otherwise raises ValueError. Hence a complete set of modes of another type given with its ell_max, and a complete set of float64, int64 or complex64 modes starting at ell = 0, are always rejected with ValueError (never misread), and so is a single number. But float32 and int32 modes 0..2L+1 without ell_max are silently read as an object with modes 0..L, and for every ell_min >= 1 there are infinitely many ell_max for which complete float64 data without ell_max are silently read as an object with fewer modes, each mode combining two neighbouring input values as real and imaginary part (e.g. ell 2..13 read as 2..9).", "quantifier": "all arrays of any item type, all spin weights, all ell_min, all ell_max, all ways of calling the constructor", "why_tests_cant": "The sizes for which data are silently misread are solutions of a Pell equation; the rejection for all others is an irrationality statement.", "anchors": [{"file": "spherical_functions/SWSH_modes/__init__.py", "symbols": ["__new__"]}, {"file": "spherical_functions/__init__.py", "symbols": ["LM_deduce_ell_max", "LM_total_size"]}]}
{"id": "C78", "title": "Accuracy of the Wigner D functions with underflow, overflow and imperfectly normalised rotors", "statement": "With operations as in IEEE double precision (relative error u unless the result is below the smallest normal number, where the absolute error is tiny; arbitrary behaviour on overflow), every element computed by the kernel of Wigner_D_element at every rotor that is normalised only to within tau differs from the D function of the exactly normalised rotor by at most a bound that contains the rounding, underflow, normalisation and pole-threshold errors, provided the exponent range is large enough for the table (as double precision is for ell <= 32); no underflow of a power of |Rb|/|Ra| and no overflow spoils the result. In numbers: for double precision, rotors normalised to within 1e-13 and ell <= 8 the error is below 1e-10.", "quantifier": "all rotors within tau of unit norm (generic, poles and near the poles), all (ell, mp, m) the table covers, all floating-point operations with the stated accuracy", "why_tests_cant": "Underflow happens only at very special rotors and indices that a sample does not hit; the statement is about all of them.", "anchors": [{"file": "spherical_functions/WignerD/__init__.py", "symbols": ["_Wigner_D_element", "Wigner_D_element"]}, {"file": "spherical_functions/__init__.py", "symbols": ["epsilon"]}]}
{"id": "C79", "title": "Requests beyond the limit of the coefficient table are detected only for explicit triples", "statement": "Wigner_D_element with explicit (ell, mp, m) rejects ell beyond the table (ell_max = 32) with ValueError. The other entry points do not check: Wigner_D_element with a list of ells, Wigner_D_matrices, SWSH with a list of modes, SWSH_grid and Modes.evaluate, asked for some ell beyond the table with a rotor whose parts R.a and R.b both exceed the cut-off, read outside the table of coefficients (in compiled code: silently); Wigner_D_element and SWSH with an array of rotors do so for every array, also an empty one and at the poles. At a rotor exactly at a pole the list-of-ells call is right for every ell, because it reads no coefficient.", "quantifier": "all rotors away from the poles (and, where stated, all rotors), all ell beyond the limit, all spin weights |s| <= ell, all tables", "why_tests_cant": "An unchecked read outside an array may return anything, in particular a plausible number; a test at a pole even passes.", "anchors": [{"file": "spherical_functions/WignerD/__init__.py", "symbols": ["Wigner_D_element", "_Wigner_D_element", "_Wigner_D_elements", "Wigner_D_matrices", "_Wigner_D_matrices"]}, {"file": "spherical_functions/SWSH/__init__.py", "symbols": ["SWSH", "_SWSH", "_SWSHs", "SWSH_grid"]}, {"file": "spherical_functions/SWSH_modes/utilities.py", "symbols": ["evaluate"]}, {"file": "spherical_functions/__init__.py", "symbols": ["ell_max"]}]}
{"id": "C80", "title": "Accuracy of complex_powers in floating-point arithmetic", "statement": "With operations of relative error u (no underflow; doubling exact) and input numbers whose absolute value is 1 up to tau, complex_powers(z, M) returns an array of shape z.shape+(M+1,) whose entry [i, m] differs from the m-th power of the direction of z_i by at most 60 (m+3)(u+tau), for every M with 100 (M+1)(u+tau) <= 1: the error grows linearly in m and is not amplified near 1, i, -1, -i, where the naive recurrence loses accuracy. In double precision every one of the first million powers is within 1e-7 and every one of the first hundred within 1e-11. The previous contents of a supplied buffer do not matter.", "quantifier": "all arrays z of numbers within tau of the unit circle, all M up to the limit, all buffers, all floating-point operations of relative error u", "why_tests_cant": "Errors accumulate over M steps and depend on the angle; the dangerous angles (next to a multiple of pi/2) are not in a sample.", "anchors": [{"file": "spherical_functions/recursions/complex_powers.py", "symbols": ["complex_powers", "_complex_powers"]}]}
{"id": "C81", "title": "Comparisons of Modes and Grid objects", "statement": "np.equal, not_equal, logical_and and logical_or of two Modes objects with the same ell_max return the plain boolean array of the broadcast leading shape and the mode axis whose entry for (ell, m) compares the two mode weights; all entries of np.equal are True exactly if all mode weights agree, whatever the spin weights - so objects that represent functions of different spin weight, and cannot be subtracted, compare equal. Different ell_max >= 1 raise ValueError even if the additional modes vanish; ell_max = 0 compares every mode with the single one. Two Grids are compared point by point (whatever their spin weights) with the total order by real part, then imaginary part. Unlike in arithmetic, an array of k numbers compared with k > 1 functions is aligned with the mode axis (Grid: the phi axis): ValueError unless that axis has 1 or k entries, and a silent comparison along the wrong axis if it has k. Comparing a Modes object with a Grid, and ordering Modes objects, raises TypeError.", "quantifier": "all Modes and Grid objects, all leading shapes, all arrays of numbers, all comparison ufuncs", "why_tests_cant": "Quantifies over all contents and shapes; silent misalignment needs a coincidence of sizes.", "anchors": [{"file": "spherical_functions/SWSH_modes/ufuncs.py", "symbols": ["__array_ufunc__"]}, {"file": "spherical_functions/SWSH_grids/ufuncs.py", "symbols": ["__array_ufunc__"]}]}
{"id": "C82", "title": "Orthonormality of the harmonics; mode weights as integrals over the sphere", "statement": "The functions SWSH(R, s, (ell,m)) of the direction are orthonormal: the integral over the sphere of conj(sYlm) sYl'm' is 1 if (l,m) = (l',m') and 0 otherwise, up to an error (below 1e-11 for ell <= 32) that comes only from the neighbourhoods of the poles where the code replaces the rotor by its limit; for m != m' it is exactly 0. Hence the integral of conj(f) g, computed with the values of evaluate, is the sum of the products of the mode weights, norm(f)^2 is the integral of |f|^2, and each mode weight is the integral of conj(sYlm) f, all with explicit bounds. Two Modes objects of the same spin weight whose values agree on any band of directions away from the poles have equal mode weights.", "quantifier": "all spin weights, all modes up to the table limit, all well-formed Modes objects, all directions", "why_tests_cant": "An integral over a continuum of directions and all modes; a test can only sum over a grid.", "anchors": [{"file": "spherical_functions/SWSH/__init__.py", "symbols": ["_SWSH"]}, {"file": "spherical_functions/SWSH_modes/algebra.py", "symbols": ["norm"]}, {"file": "spherical_functions/SWSH_modes/utilities.py", "symbols": ["evaluate"]}]}
{"id": "C83", "title": "The operators of Modes are the differential operators in spherical coordinates", "statement": "Let v(theta,phi) be what f.evaluate returns in the direction (theta,phi). Away from the poles v is twice differentiable, and the values of f.eth are -(sin theta)^s (d_theta + (i/sin theta) d_phi)((sin theta)^-s v), those of f.ethbar -(sin theta)^-s (d_theta - (i/sin theta) d_phi)((sin theta)^s v) (the definitions of Newman and Penrose), those of f.Lz -i d_phi v, those of f.Lplus and f.Lminus e^{+-i phi}(+-d_theta v + i cot theta d_phi v - s v/sin theta), and those of f.Lsquared -[(1/sin theta) d_theta(sin theta d_theta v) + (d_phi^2 v + 2 i s cos theta d_phi v - s^2 v)/sin^2 theta], for s = 0 minus the Laplacian of the sphere.", "quantifier": "all well-formed Modes objects up to the table limit, all spin weights, all directions outside the epsilon-neighbourhoods of the poles", "why_tests_cant": "Derivatives over a continuum of directions, for all spin weights and numbers of modes.", "anchors": [{"file": "spherical_functions/SWSH_modes/derivatives.py", "symbols": ["eth", "ethbar", "Lz", "Lplus", "Lminus", "Lsquared"]}, {"file": "spherical_functions/SWSH_modes/utilities.py", "symbols": ["evaluate"]}]}
{"id": "C84", "title": "Threads that share calculators and workspaces", "statement": "Compiled functions hold the interpreter lock, so that threads interleave between the five compiled steps of a call of HCalculator. Any number of threads may share one HCalculator object: if each passes its own workspace (or none), then in every interleaving no thread raises and every result is the table of H for the thread's own angles; the same holds for threads with a common workspace if, between the beginning of a call and the copying of its result, no other thread that uses this workspace makes a step; in particular if whole calls are made one after another, for example under a lock. Without this exclusion there is, for all angles, an interleaving in which a thread finishes without an exception and gets the table for the angles of the other thread. For a shared Wigner3jCalculator an array returned by any earlier call (of any thread) holds the symbols of the last call.", "quantifier": "all numbers of threads, all numbers of calls of each, all angles, all contents of the workspaces, all interleavings", "why_tests_cant": "Quantifies over all schedules; a test runs one of them, usually the harmless one.", "anchors": [{"file": "spherical_functions/recursions/wignerH.py", "symbols": ["HCalculator.__call__", "HCalculator.workspace", "_step_1", "_step_2", "_step_3", "_step_4", "_step_5"]}, {"file": "spherical_functions/recursions/wigner3j.py", "symbols": ["Wigner3jCalculator.calculate"]}, {"file": "spherical_functions/__init__.py", "symbols": ["jit", "jitclass"]}]}
{"id": "C85", "title": "The values on an equiangular grid determine the function, and how many points are needed", "statement": "If evaluate returns the same values for two Modes objects of the same spin weight at all directions of theta_phi(n_theta, n_phi), with n_theta >= ell_max+2 and n_phi >= 2 ell_max+1 (for the larger ell_max), all mode weights are equal; hence the Grid made by f.grid() (or with any numbers of points that grid accepts) determines the Modes object, element by element of the leading shape. Both numbers are sharp: for every ell_max >= 1 there is a non-zero function of spin weight 0 that evaluates to 0 at all directions of theta_phi(n_theta, 2 ell_max), whatever n_theta, and one that evaluates to 0 at all directions of theta_phi(ell_max+1, n_phi), whatever n_phi.", "quantifier": "all pairs of well-formed Modes objects up to the table limit, all leading shapes, all numbers of points", "why_tests_cant": "Uniqueness ranges over all pairs of functions; a round trip tests single functions.", "anchors": [{"file": "spherical_functions/SWSH_modes/utilities.py", "symbols": ["evaluate", "grid"]}, {"file": "spherical_functions/__init__.py", "symbols": ["theta_phi"]}]}
{"id": "C86", "title": "The operations of Modes in floating-point arithmetic", "statement": "With floating-point operations of relative error u (no underflow or overflow), Lsquared, Rsquared, Lz and Rz of a Modes object return mode weights whose real and imaginary parts have relative error at most u, and Lplus, Lminus, Rplus, Rminus, eth and ethbar at most 2u+u^2, for every spin weight and every ell: the error does not grow with ell, and weights that vanish in exact arithmetic vanish. real and imag (in place or not) have relative error at most u, and their results satisfy the reality condition f(ell,-m) = (-1)^m conj f(ell,m) exactly, not just up to rounding; real returns a real function unchanged bit for bit, and imag of a real function is exactly zero. Sums and differences have relative error at most u, addition commutes bit for bit and f - f is exactly zero. Multiplication by numbers has an error of at most 2(2u+u^2) times the modulus of each weight (relative error u in both components for real numbers), division by real numbers at most 2u+u^2 in both components, division by complex numbers at most sqrt(2) ((1-u)^-8 - 1) times the modulus of each weight; norm has relative error at most (1+u)^3 (1+delta) - 1, where delta is the relative error of the sum of the squares.", "quantifier": "all well-formed Modes objects, all leading shapes, all spin weights, all ell_max, all scalars, all floating-point operations of relative error u", "why_tests_cant": "Rounding depends on every bit of the data; exact identities such as the reality condition after rounding hold or fail for particular values only.", "anchors": [{"file": "spherical_functions/SWSH_modes/derivatives.py", "symbols": ["Lsquared", "Lz", "Lplus", "Lminus", "Rsquared", "Rz", "Rplus", "Rminus", "eth", "ethbar"]}, {"file": "spherical_functions/SWSH_modes/algebra.py", "symbols": ["real", "_real_func", "imag", "_imag_func", "norm", "add", "subtract", "multiply", "divide"]}, {"file": "spherical_functions/SWSH_modes/ufuncs.py", "symbols": ["__array_ufunc__"]}]}
{"id": "C87", "title": "Accuracy of the spin-weighted harmonics and of evaluated fields with underflow, overflow and imperfectly normalised rotors", "statement": "With operations as in IEEE double precision (relative error u unless the result is below the smallest normal number, where the absolute error is tiny; arbitrary behaviour on overflow), SWSH for a list of modes, SWSH for an array of rotors, SWSH_grid and Modes.evaluate, at every rotor that is normalised only to within tau, return values that differ from the exact harmonics (or the exact field) at the exactly normalised rotor by at most a bound containing the rounding, underflow, normalisation and pole-threshold errors. No intermediate result overflows if the exponent range suffices for the table, as that of double precision does for ell <= 32; modes with ell < |s| or |m| > ell are exactly zero. For double precision and ell <= 8 every value is within 2e-10. For evaluate the only further condition is that the weighted sum of the mode weights is below a quarter of the largest number.", "quantifier": "every rotor with | |R| - 1 | <= tau including both poles, every spin weight, every (ell, m) with ell <= L, every Modes object, every arithmetic meeting the error bounds", "why_tests_cant": "tests compare a few values; underflow occurs only for rotors very near a pole and large |m|, |s|, and rounding bounds need all inputs", "anchors": [{"file": "spherical_functions/SWSH/__init__.py", "symbols": ["SWSH", "_SWSH", "_SWSHs", "SWSH_grid"]}, {"file": "spherical_functions/SWSH_modes/utilities.py", "symbols": ["evaluate"]}]}
{"id": "C88", "title": "Accuracy of the conversions of modes, constants and vectors in floating-point arithmetic", "statement": "With floating-point operations of relative error u (no underflow or overflow), constant_as_ell_0_mode, constant_from_ell_0_mode, vector_as_ell_1_modes, vector_from_ell_1_modes, eth_GHP, ethbar_GHP, eth_NP, ethbar_NP and ethbar_inverse_NP return values whose real and imaginary parts each have a relative error of at most a fixed number (3 to 7) of roundings, for every spin weight, ell_min and ell_max; modes that vanish in exact arithmetic vanish. The number of modes is found exactly from the length of the array. Converting a constant, or a mode ell >= |s|, |s-1| by ethbar_NP, and back loses at most three roundings however inaccurate the intermediate factor is. A real vector converted to modes and back is exactly real and every component has a relative error of at most three roundings, even if the other components are larger by many orders of magnitude; for complex vectors the error is relative to the size of the x and y components.", "quantifier": "all constants, vectors and complete arrays of modes, all spin weights, all ell_min and ell_max, all floating-point operations of relative error u", "why_tests_cant": "Rounding depends on every bit of the data; tests compare with a tolerance for a few arrays.", "anchors": [{"file": "spherical_functions/mode_conversions.py", "symbols": ["constant_as_ell_0_mode", "constant_from_ell_0_mode", "vector_as_ell_1_modes", "vector_from_ell_1_modes", "eth_GHP", "ethbar_GHP", "eth_NP", "ethbar_NP", "ethbar_inverse_NP"]}]}
{"id": "C89", "title": "Accuracy of products of Modes in floating-point arithmetic", "statement": "With floating-point operations of relative error u (no underflow or overflow) and 3-j symbols of given accuracy, f.multiply(g) of two Modes objects returns without exception an object with the spin weight, ell_max, leading shape and truncator of the exact product, and the real and imaginary parts of every mode differ from those of the exact product by at most the sum over all contributions of their absolute value times the combined errors of the two 3-j symbols and of at most 14 + (ell_max_f+1)^2 (ell_max_g+1) roundings. If the 3-j symbols have relative error eta, the error is at most (1+eta)^2 (1+gamma) - 1 times the sum of the absolute values of the contributions. The plain function multiply on arrays of modes, from any ellmin on, satisfies the same bound and returns all modes from 0 to ellmax_f + ellmax_g.", "quantifier": "all pairs of well-formed Modes objects whose leading shapes broadcast, all truncators, all floating-point operations of relative error u, all tables of 3-j symbols", "why_tests_cant": "Rounding errors accumulate over all quadruples of indices in the order of the loops and depend on every bit of the data.", "anchors": [{"file": "spherical_functions/multiplication.py", "symbols": ["_multiplication_helper", "multiply"]}, {"file": "spherical_functions/SWSH_modes/algebra.py", "symbols": ["multiply"]}]}
{"id": "C90", "title": "Accuracy of the Wigner D matrices with underflow, overflow and imperfectly normalised rotors", "statement": "With operations as in IEEE double precision (relative error u unless the result is below the smallest normal number, where the absolute error is tiny; arbitrary behaviour on overflow), Wigner_D_matrices at every rotor that is normalised only to within tau, poles and their neighbourhoods included, fills the whole array, with the element (ell, mp, m) at the position given by LMpM_index, and every element differs from the D function of the exactly normalised rotor by at most a bound containing the rounding, underflow, normalisation and pole-threshold errors; this includes the three elements obtained by symmetry from each computed one, and elements whose magnitude underflows to zero. The same holds for Wigner_D_element of one index triple at an array of rotors, where elements out of range are exactly zero. For double precision and ell <= 8 every element is within 2e-10.", "quantifier": "every rotor with | |R| - 1 | <= tau, every range of ell up to the table limit, every contents of the output array, every array of rotors, every arithmetic meeting the error bounds", "why_tests_cant": "tests compare a few values; underflow occurs only for rotors very near a pole and large |m|, |mp|, and rounding bounds need all inputs", "anchors": [{"file": "spherical_functions/WignerD/__init__.py", "symbols": ["Wigner_D_matrices", "_Wigner_D_matrices", "Wigner_D_element", "_Wigner_D_elements"]}]}
{"id": "C91", "title": "3-j symbols in floating-point arithmetic", "statement": "Whatever the floating-point operations: a 3-j calculation never accesses memory outside its arrays, its result depends only on the arguments and the size of the calculator (bit for bit), the entries outside the admissible range of j are exact zeros, and Wigner3j returns an exact zero outside the selection rules. With operations of relative error u, while j2 + j3 <= 151: a calculation either returns an array that satisfies sum (2j+1) f[j]^2 = 1 up to rounding, with the documented sign of the last entry, or raises ZeroDivisionError; no nan and no other exception is possible. Every returned Wigner3j satisfies (2j+1) v^2 <= 1 up to rounding for each of its three j, and every Clebsch-Gordan coefficient is at most 1 in magnitude up to rounding. Rows with a single admissible j are correct to two roundings. Rows with m2 = m3 = 0 always return, with a relative error linear in their length in every entry and exact zeros where j + j2 + j3 is odd. For double precision the normalisation error is at most 2e-14 and Wigner3j(j1, j2, j3, 0, 0, 0) has relative error at most 6e-13.", "quantifier": "all j and m with j2 + j3 at most 151 (so that the coefficients fit their integer types), every history of the calculator, every contents of uninitialised memory, every arithmetic with relative error u", "why_tests_cant": "tests compare some symbols with a tolerance; the forward, reverse and middle recursions branch on computed floating-point values, so that other inputs may take other branches", "anchors": [{"file": "spherical_functions/recursions/wigner3j.py", "symbols": ["Wigner3jCalculator", "Wigner3j", "clebsch_gordan", "A", "X", "Z", "normalize", "determine_signs"]}]}
{"id": "C92", "title": "Accuracy of the coefficient tables", "statement": "With mpmath operations of relative error at most 1e-18 (the generator uses 128 digits) and conversions to double precision that round to nearest: factorial(n) is n! with relative error at most 2^-53 for n <= 170 and exact for n <= 22 (not for n = 23); binomial_coefficient(n, k) is exact whenever C(n,k) has 53 significant bits, in particular for every n <= 56 (not for (57, 25)), and otherwise has relative error at most 2^-53 + 14e-18; ladder_operator_coefficient(ell, m) and Wigner_coefficient(ell, m', m) have the same relative error for every entry of tables of every size, are exact whenever the exact value has 53 significant bits, and are exactly 0 for m = ell and exactly 1 for m' = m respectively. The generated table meets what the rounding-error properties of Wigner_D_element, SWSH and their relatives assume of it.", "quantifier": "every table limit (ladder: up to 2^25), every index in the table, every arithmetic with the stated error, ties rounded either way", "why_tests_cant": "the tables have 10^5 entries for the shipped limit, computed with another library; that an irrational square root multiplied by two binomials is rounded correctly enough cannot be seen from samples", "anchors": [{"file": "spherical_functions/_generate_coefficients.py", "symbols": ["_binomial_coefficients", "_ladder_operator_coefficients", "_Wigner_coefficients"]}, {"file": "spherical_functions/__init__.py", "symbols": ["factorial", "binomial_coefficient", "ladder_operator_coefficient", "Wigner_coefficient"]}]}
{"id": "C93", "title": "Rounding errors of whole expressions of Modes objects", "statement": "Let e be any expression built from Modes objects with the methods Lsquared, Lz, Rz, Lplus, Lminus, Rplus, Rminus, eth, ethbar, -f, bar, real, imag, sums and differences, multiplication by and division by numbers or arrays of numbers, and products with or without a truncator. If the spin weights of sums agree, real and imag are taken of spin weight 0 only and the shapes broadcast, then evaluating e in floating-point arithmetic raises no exception, the result has the spin weight, ell_max, shape and truncator that the formula prescribes, and every mode weight differs from the exact value of the formula by at most a bound computed by recursion over e (errors of the operands propagated, plus the roundings of each operation relative to the size of its operands). Without products and with real divisors this is (1+u)^k - 1 times the formula with absolute values, k being the number of roundings on the longest path. Without derivatives and truncations, evaluating the result at unit rotors gives the formula applied to the values of the functions there, up to an explicit bound.", "quantifier": "all expressions (trees of any depth), all well-formed Modes objects, all floating-point operations of relative error u, all tables of 3-j symbols of error eps, all lists of unit rotors", "why_tests_cant": "expressions can be nested arbitrarily; the errors of one operation are inputs to the next, and cancellation in sums makes relative errors of the result arbitrarily large", "anchors": [{"file": "spherical_functions/SWSH_modes/algebra.py", "symbols": ["bar", "real", "imag", "add", "subtract", "multiply", "divide", "conjugate"]}, {"file": "spherical_functions/SWSH_modes/derivatives.py", "symbols": ["Lsquared", "Lz", "Lplus", "Lminus", "Rz", "Rplus", "Rminus", "eth", "ethbar"]}, {"file": "spherical_functions/SWSH_modes/ufuncs.py", "symbols": ["__array_ufunc__"]}, {"file": "spherical_functions/SWSH_modes/__init__.py", "symbols": ["Modes.evaluate"]}]}
{"id": "C94", "title": "The H calculators in floating-point arithmetic", "statement": "With floating-point operations of relative error u <= 1/16 and cosines and sines of angles beta given with errors at most eta (u <= eta <= 1), for every n_max >= 1 both H calculators (recursions.wignerH and WignerDRecursion) never divide by zero and never access memory outside their arrays, whatever the workspace contains; the wedge calculator returns its result in the first rows of the workspace and leaves additional rows alone; and every value read with the documented index functions differs from the exact H function at beta by at most a constant depending only on n_max times eta, so that any accuracy is reached with sufficiently precise arithmetic. Without sinbeta the same holds at the angles arccos(cosbeta), with eta = 2 sqrt(u) near the poles and 4 u / sin(beta) elsewhere. Whatever the floating-point operations, the result depends only on n_max, cosbeta and sinbeta, bit for bit: not on earlier contents of the workspace, nor on the non-finite coefficients. Empty or out-of-range cosbeta, shapes that differ and negative n_max are rejected with ValueError in every arithmetic.", "quantifier": "every n_max >= 1, all lists of angles, all workspaces of sufficient size, all operations of relative error u <= 1/16, all contents of the non-finite coefficients", "why_tests_cant": "tests compare values for some angles; a division by a coefficient that rounds to zero, a read of a stale workspace entry or of a non-finite coefficient would depend on the input and on history", "anchors": [{"file": "spherical_functions/recursions/wignerH.py", "symbols": ["HCalculator", "_step_1", "_step_2", "_step_3", "_step_4", "_step_5"]}, {"file": "spherical_functions/WignerD/WignerDRecursion.py", "symbols": ["HCalculator", "_step_6"]}]}
{"id": "C95", "title": "eth operators on arrays that are not complete", "statement": "The five functions eth_NP, ethbar_NP, eth_GHP, ethbar_GHP and ethbar_inverse_NP take the largest ell from the length of the array. For every array and every ell_min >= 0 they return without exception an array of the same length; with L the largest ell for which the array holds all modes from ell_min to L, the first (L+1)^2 - ell_min^2 entries of the result are what the function returns for these entries alone, and the rest (the entries of an incomplete last ell) are returned unchanged, without a warning. A negative ell_min is not refused either: if a square lies in the interval (n, n + ell_min^2], where n is the length, the four eth functions access memory beyond the end of the array; otherwise the result is that for ell_min = 0.", "quantifier": "all complex arrays, of any length; all integers s and ell_min", "why_tests_cant": "the tests only use complete arrays; the lengths and values of ell_min are unbounded", "anchors": [{"file": "spherical_functions/mode_conversions.py", "symbols": ["eth_NP", "ethbar_NP", "eth_GHP", "ethbar_GHP", "ethbar_inverse_NP"]}]}
{"id": "C96", "title": "The H calculators act on every angle separately, in the order of memory", "statement": "In every floating-point arithmetic, for n_max >= 1: if an H calculator returns H for some angles, then the same or any other calculator with this n_max, used before or not, with or without a workspace, returns for any selection of these angles (in any order, with repetitions) the corresponding columns of H, bit for bit; in particular each column is the result for that angle alone. For two-dimensional arrays, column k is that of the element of cosbeta at position k of its memory (by rows or by columns, depending on the array), combined with the sine at position k of the memory of sinbeta: if both arrays have the same layout, these are the cosine and sine of the same element, but if cosbeta is stored by rows and sinbeta by columns, the call is accepted and combines cosbeta[i,j] with the sine of the element ((i*c+j) % r, (i*c+j) // r). The calls return for all cosines in [-1,1] whatever the sines are.", "quantifier": "all n_max >= 1, all floating-point operations (for the last sentence: of relative error at most 1/16), all lists of angles and all selections, all workspaces of sufficient size; all contiguous two-dimensional arrays", "why_tests_cant": "the number of angles and of selections is unbounded; tests compare values up to a tolerance, and only use one-dimensional arrays", "anchors": [{"file": "spherical_functions/recursions/wignerH.py", "symbols": ["HCalculator", "_step_1", "_step_2", "_step_3", "_step_4", "_step_5"]}, {"file": "spherical_functions/WignerD/WignerDRecursion.py", "symbols": ["HCalculator", "_step_6"]}]}
{"id": "C97", "title": "The coefficient tables in the package are what the lookups promise", "statement": "The three .npy files in the package hold 2145, 2145 and 93665 doubles, the sizes for ell_max = 32. For all 0 <= k <= n <= 64, binomial_coefficient(n, k) is a nearest double to C(n, k), with relative error at most 2^-53, and exact for n <= 56. For all integers or half-integers |m| <= ell <= 32, ladder_operator_coefficient(ell, m) is the largest double that does not exceed sqrt((ell-m)(ell+m+1)). For every valid (ell, m', m) with ell <= 32, Wigner_coefficient(ell, m', m) is a double that does not exceed the exact coefficient, and every larger double is at least the exact coefficient, so that the relative error is at most 2^-52; for ell <= 24 it is the largest double that does not exceed the exact coefficient, so exact whenever that is a double; it is exactly 1 for m' = m. Hence the files meet the assumption on the table in the error bounds of Wigner_D_element, SWSH, Wigner_D_matrices and evaluate. They are not correctly rounded: sqrt(2) for (ell, m) = (1, 0) is not the nearest double, and the coefficient (49/2, -49/2, -47/2) is less than its exact value 7.", "quantifier": "every entry of the three shipped files; all indices within the tables; all doubles", "why_tests_cant": "there are 10^5 entries with irrational exact values; a test compares with values computed in the same floating-point arithmetic, up to a tolerance, and a corrupted or misplaced entry shows only in particular elements of D", "anchors": [{"file": "spherical_functions/__init__.py", "symbols": ["_binomial_coefficients", "_ladder_operator_coefficients", "_Wigner_coefficients", "binomial_coefficient", "ladder_operator_coefficient", "Wigner_coefficient"]}, {"file": "spherical_functions/Wigner_coefficients.npy", "symbols": ["contents"]}, {"file": "spherical_functions/binomial_coefficients.npy", "symbols": ["contents"]}, {"file": "spherical_functions/ladder_operator_coefficients.npy", "symbols": ["contents"]}]}
{"id": "C98", "title": "Accuracy of the package as shipped, in double precision", "statement": "With the tables in the package and IEEE double precision, at every rotor whose norm is within 1e-13 of 1 (poles included): Wigner_D_element is within 1e-10 of the D function of the normalised rotor for all integer and half-integer ell <= 8 and exactly zero out of range; all elements of Wigner_D_matrices with ell_max <= 8, and all harmonics of SWSH and SWSH_grid with ell <= 8 for every spin weight, are within 2e-10; Modes.evaluate with ell_max <= 8 is within 3e-10 times the sum of the moduli of the modes (plus 1e-290), as long as that sum is at most 1e298. No overflow, division by zero or access out of range occurs.", "quantifier": "all rotors with norm within 1e-13 of 1, all index lists, all Modes objects with ell_max <= 8, all floating-point operations with the precision and range of doubles, any treatment of overflow", "why_tests_cant": "the rotations form a continuum and the error depends on the rotor; tests compare some values with a tolerance", "anchors": [{"file": "spherical_functions/WignerD/__init__.py", "symbols": ["Wigner_D_element", "Wigner_D_matrices"]}, {"file": "spherical_functions/SWSH/__init__.py", "symbols": ["SWSH", "SWSH_grid"]}, {"file": "spherical_functions/SWSH_modes/__init__.py", "symbols": ["Modes.evaluate"]}, {"file": "spherical_functions/__init__.py", "symbols": ["_Wigner_coefficients"]}]}
{"id": "C99", "title": "Rotating a field with the matrices of Wigner_D_matrices", "statement": "Let D = Wigner_D_matrices(p, 0, f.ell_max), and let g have the modes g[ell, m] = sum over n of f[ell, n] * D[LMpM_index(ell, n, m, 0)]. Such a g exists for every Modes object within the table and is unique. g.evaluate(q) equals f.evaluate(p q) for every list of rotors q, and g and f have the same norm; rotating by p and then by q is rotating by p q, and rotating by p and then by its inverse gives back f; Lsquared, Rz, Rplus, Rminus, eth, ethbar and conjugate (in place or not), and for spin weight 0 real and imag, commute with the rotation, as do sums and differences, multiplication and division by numbers or arrays of numbers, and truncate_ell; and the product of two rotated objects, untruncated or truncated in any way, is the rotated product, whenever both products return; for spin weight 0, vector_from_ell_1_modes of the rotated modes is the vector of f in the rotated frame (component v . (p e p*) along the axis e). (In exact arithmetic, for rotors whose complex parts are zero or larger than epsilon in modulus; at every other unit rotor the first two statements hold up to explicit multiples of epsilon.)", "quantifier": "all well-formed Modes objects of any spin weight, ell_max within the table and leading shape, all such rotors p and q, all truncators", "why_tests_cant": "the rotations form a continuum, and the identities connect many functions of the package with each other, including the order of the indices of the flat array, for every ell", "anchors": [{"file": "spherical_functions/WignerD/__init__.py", "symbols": ["Wigner_D_matrices"]}, {"file": "spherical_functions/__init__.py", "symbols": ["LMpM_index"]}, {"file": "spherical_functions/SWSH_modes/__init__.py", "symbols": ["Modes.evaluate"]}, {"file": "spherical_functions/SWSH_modes/algebra.py", "symbols": ["conjugate", "multiply"]}, {"file": "spherical_functions/SWSH_modes/derivatives.py", "symbols": ["Lsquared", "Rz", "Rplus", "Rminus", "eth", "ethbar"]}, {"file": "spherical_functions/mode_conversions.py", "symbols": ["vector_from_ell_1_modes"]}]}
{"id": "C100", "title": "Products of Modes form a commutative algebra on which the operators are derivations", "statement": "(f g) k and f (g k), computed with multiply, have the same spin weight, the same leading shape, and the same modes for every ell that both results keep, if the inner products are not truncated. The conjugate of f g has the modes of the product of the conjugates of f and g. Each of Lz, Lplus, Lminus, Rz, Rplus, Rminus, eth and ethbar obeys the product rule T(f g) = (T f) g + f (T g), in every mode that the three products keep, whatever their truncators are; the spin weights and leading shapes agree too. If f and g have the same spin weight, the mode (0, 0) of the product of the conjugate of f with g, times sqrt(4 pi), is the scalar product of the modes of f and g; for g = f it is the square of f.norm(). (Commutativity is in C32.)", "quantifier": "all well-formed Modes objects of any spin weight and broadcastable leading shapes, with ell_max at least 0 and sums of ell_max at most 151, all truncators, all products that return (C32), all modes and leading indices", "why_tests_cant": "the identities connect sums over 3-j symbols of different spin weights and orders; tests compare a few random objects", "anchors": [{"file": "spherical_functions/SWSH_modes/algebra.py", "symbols": ["conjugate", "multiply"]}, {"file": "spherical_functions/SWSH_modes/derivatives.py", "symbols": ["Lz", "Lplus", "Lminus", "Rz", "Rplus", "Rminus", "eth", "ethbar"]}, {"file": "spherical_functions/multiplication.py", "symbols": ["multiply"]}, {"file": "spherical_functions/SWSH_modes/algebra.py", "symbols": ["norm"]}]}
{"id": "C101", "title": "Adjoints, conjugates and kernels of the operators", "statement": "For the scalar product sum conj(f[ell,m]) g[ell,m] (the integral of conj(f) g by C82): Lsquared, Lz and Rz are self-adjoint, Lplus and Lminus are adjoint to each other, and so are Rplus and Rminus; <eth f, g> = -<f, ethbar g> and <ethbar f, g> = -<f, eth g> (integration by parts), whenever the spin weights match, for any two ell_max. conj(T f) = -T'(conj f), where T' is the adjoint of T, for Lz, Lplus, Lminus, Rz, Rplus, Rminus, with the same metadata on both sides. The result of an operator is zero exactly for the functions with modes m = 0 only (Lz), m = ell only (Lplus), m = -ell only (Lminus), ell = 0 only (Lsquared), ell = s only (eth), ell = -s only (ethbar).", "quantifier": "all well-formed Modes objects of any spin weight, ell_max and leading shape, all leading indices", "why_tests_cant": "the statements are about all functions and all spin weights, and fail for a wrong factor at a single ell or at the boundary |s| = ell only", "anchors": [{"file": "spherical_functions/SWSH_modes/derivatives.py", "symbols": ["Lsquared", "Lz", "Lplus", "Lminus", "Rz", "Rplus", "Rminus", "eth", "ethbar"]}, {"file": "spherical_functions/SWSH_modes/algebra.py", "symbols": ["conjugate"]}]}
{"id": "C102", "title": "What the norm of a Modes object bounds", "statement": "Let A(f) = sqrt(((f.ell_max+1)^2 - f.s^2)/(4 pi)). Every value returned by f.evaluate at a rotor whose complex parts exceed epsilon is at most A(f) * f.norm() in modulus, and at every unit rotor at most that plus the error of the shortcut near the poles; for every such rotor and every s and ell_max >= |s| the bound is attained, so it is the best one. The scalar product of two objects is at most the product of their norms. Lz, Lsquared, Lplus and Lminus, Rz, Rplus and ethbar, Rminus and eth multiply the norm by at most L, L(L+1), sqrt(L(L+1)), |s|, sqrt((L+s)(L-s+1)), sqrt((L-s)(L+s+1)), where L = f.ell_max; for every s and L >= |s| these factors are attained. The norm of a product, truncated or not, is at most A(f) * f.norm() * g.norm() and at most A(g) * f.norm() * g.norm().", "quantifier": "all well-formed Modes objects of any spin weight, ell_max and leading shape, all rotors, all truncators, all leading indices", "why_tests_cant": "the bounds are about all functions at once; tests on random functions stay far below the bounds and would not notice a wrong weight of one mode", "anchors": [{"file": "spherical_functions/SWSH_modes/algebra.py", "symbols": ["norm", "multiply"]}, {"file": "spherical_functions/SWSH_modes/derivatives.py", "symbols": ["Lsquared", "Lz", "Lplus", "Lminus", "Rz", "Rplus", "Rminus", "eth", "ethbar"]}, {"file": "spherical_functions/SWSH_modes/utilities.py", "symbols": ["evaluate"]}]}
{"id": "C103", "title": "Images and eigenfunctions of the operators", "statement": "Given a Modes object g of spin weight s, there is a Modes object f with T f = g (same spin weight, ell_max, leading shape and modes) exactly if g has no modes with m = 0 (for T = Lz), m = -ell (Lplus), m = ell (Lminus), ell = 0 (Lsquared), ell = -s (eth), ell = s (ethbar). A function is an eigenfunction of Lsquared and Lz with eigenvalues ell (ell+1) and m exactly if (ell, m) is its only mode, and a nonzero common eigenfunction has eigenvalues of this form with |s| <= ell <= ell_max and |m| <= ell.", "quantifier": "all well-formed Modes objects of any spin weight, ell_max and leading shape; all complex eigenvalues", "why_tests_cant": "existence of a solution for every right-hand side, and its absence for others, cannot be tested; the answer depends on the boundary modes |s| = ell", "anchors": [{"file": "spherical_functions/SWSH_modes/derivatives.py", "symbols": ["Lsquared", "Lz", "Lplus", "Lminus", "eth", "ethbar"]}]}
{"id": "C104", "title": "Constants act as scalars in products, and a product of nonzero functions is not zero", "statement": "If the only mode of g is the (0, 0) mode given by constant_as_ell_0_mode(c), then f.multiply(g) and g.multiply(f) have the spin weight of f, and their modes are c times those of f (zero above f.ell_max), whatever the truncator. A product that keeps all its modes is zero at a leading index exactly if one of its factors is zero there. Hence factors cancel: if f g and f k have the same modes, f is not zero, and g and k have the same spin weight, ell_max and leading shape, then g and k have the same modes.", "quantifier": "all well-formed Modes objects of any spin weight and broadcastable leading shapes, with ell_max at least 0 and sums of ell_max at most 151, all products that return (C32), all leading indices", "why_tests_cant": "that no two nonzero functions have product zero is a statement about all pairs of functions; a wrong coupling of a single pair of modes can create a zero divisor", "anchors": [{"file": "spherical_functions/SWSH_modes/algebra.py", "symbols": ["multiply"]}, {"file": "spherical_functions/multiplication.py", "symbols": ["multiply"]}, {"file": "spherical_functions/mode_conversions.py", "symbols": ["constant_as_ell_0_mode"]}]}
{"id": "C105", "title": "Identities between the norms of images under the operators, and lower bounds", "statement": "For a Modes object f of spin weight s, with norms as returned by norm(): norm(eth f)^2 = norm(ethbar f)^2 - 2 s norm(f)^2. The scalar product of f with Lsquared f is real and equals both norm(Lz f)^2 + (norm(Lplus f)^2 + norm(Lminus f)^2)/2 and s^2 norm(f)^2 + (norm(eth f)^2 + norm(ethbar f)^2)/2. If f has no modes with ell < l0, where l0 >= |s|, then norm(eth f)^2 >= (l0-s)(l0+s+1) norm(f)^2, norm(ethbar f)^2 >= (l0+s)(l0-s+1) norm(f)^2, and the scalar product of f with Lsquared f is at least l0 (l0+1) norm(f)^2.", "quantifier": "all well-formed Modes objects of any spin weight, ell_max and leading shape, all leading indices, all l0", "why_tests_cant": "the statements are about all functions and all spin weights; a test on a few functions cannot establish an inequality for all of them", "anchors": [{"file": "spherical_functions/SWSH_modes/derivatives.py", "symbols": ["Lsquared", "Lz", "Lplus", "Lminus", "eth", "ethbar"]}, {"file": "spherical_functions/SWSH_modes/algebra.py", "symbols": ["norm"]}]}
{"id": "C106", "title": "Which rotors have the same Wigner D matrix", "statement": "For one ell > 0 (integer or half-integer), Wigner_D_element returns the same numbers for all (m', m) at two unit rotors outside the punctured epsilon-neighbourhoods of the poles exactly if the rotors are equal, or ell is an integer and they are opposite. Inside those neighbourhoods this fails: there are two unit rotors, neither equal nor opposite, for which every element of every ell is the same.", "quantifier": "all pairs of unit rotors, all ell within the table, all valid (m', m); the second part is an existence statement", "why_tests_cant": "injectivity is a statement about all pairs of rotors", "anchors": [{"file": "spherical_functions/WignerD/__init__.py", "symbols": ["Wigner_D_element", "_Wigner_D_element"]}]}
{"id": "C107", "title": "Traces of the Wigner D matrices", "statement": "For every ell (integer or half-integer) and every unit rotor R outside the punctured epsilon-neighbourhoods of the poles, the sum over m of Wigner_D_element(R, ell, m, m) is U_{2 ell}(R.w), the Chebyshev polynomial of the second kind at the scalar part of the rotor, i.e. sin((2 ell + 1) gamma/2)/sin(gamma/2) for a rotation by the angle gamma. In particular it is real, and depends on the angle of the rotation only, not on its axis.", "quantifier": "all unit rotors outside the punctured neighbourhoods, all ell within the table", "why_tests_cant": "a statement for all rotors and all ell, which connects all the diagonal elements", "anchors": [{"file": "spherical_functions/WignerD/__init__.py", "symbols": ["Wigner_D_element", "_Wigner_D_element"]}]}
{"id": "C108", "title": "Only multiples of the identity commute with all rotations of the modes of one ell", "statement": "Fix ell (integer or half-integer). A square matrix of size 2 ell + 1 commutes with the matrix of numbers Wigner_D_element(R, ell, m', m), for every unit rotor R outside the punctured epsilon-neighbourhoods of the poles, exactly if it is a multiple of the identity matrix. So a linear filter of the modes that commutes with rotations cannot mix or weight differently the modes of one ell.", "quantifier": "all complex matrices, all ell within the table; the commutation is with all such rotors", "why_tests_cant": "a statement about all matrices and all rotors", "anchors": [{"file": "spherical_functions/WignerD/__init__.py", "symbols": ["Wigner_D_element", "_Wigner_D_element"]}]}
{"id": "C109", "title": "Values at antipodal directions", "statement": "For a unit rotor R outside the punctured epsilon-neighbourhoods of the poles, the rotor R*x (with x the unit imaginary quaternion along the x axis) points in the direction opposite to that of R, and the value of sYlm at R*x returned by SWSH is (-1)^ell times the value of (-s)Ylm at R. Hence, if Modes objects f and g have opposite spin weights and the same ell_max, and the modes of g are (-1)^ell times those of f, then g.evaluate(R) and f.evaluate(R*x) return the same values.", "quantifier": "all unit rotors outside the punctured neighbourhoods, all s, ell within the table, all m; all such pairs of well-formed Modes objects and all nonempty lists of rotors", "why_tests_cant": "a relation between two values at every rotor, for all indices and functions; the phase and the sign have to be right for every spin weight at once", "anchors": [{"file": "spherical_functions/SWSH/__init__.py", "symbols": ["SWSH"]}, {"file": "spherical_functions/SWSH_modes/utilities.py", "symbols": ["evaluate"]}]}
{"id": "C110", "title": "Reflection through the equatorial plane", "statement": "For a unit rotor R outside the punctured epsilon-neighbourhoods of the poles, the rotor z*R*x points in the direction of R reflected through the equatorial plane, and SWSH returns there for sYlm the value (-1)^(ell+s) times the complex conjugate of sYl(-m) at R. Hence, if the modes of g are (-1)^(ell+s) conj(f(ell,-m)), with the same spin weight and ell_max, then g.evaluate(R) is the complex conjugate of f.evaluate(z*R*x). In particular, if f(ell,-m) = (-1)^ell conj(f(ell,m)) for all modes, then f.evaluate(z*R*x) is (-1)^s times the complex conjugate of f.evaluate(R).", "quantifier": "all unit rotors outside the punctured neighbourhoods, all s, ell within the table, all m; all well-formed Modes objects with these relations and all nonempty lists of rotors", "why_tests_cant": "a relation between two values at every rotor, for all indices and functions; the phase and the sign have to be right for every spin weight at once", "anchors": [{"file": "spherical_functions/SWSH/__init__.py", "symbols": ["SWSH"]}, {"file": "spherical_functions/SWSH_modes/utilities.py", "symbols": ["evaluate"]}]}
{"id": "C111", "title": "Symmetric functions are the functions with symmetric modes", "statement": "For a Modes object f whose ell_max is within the table: (1) for n >= 1, f.evaluate returns the same values at Z*R and at R for every unit rotor R outside the punctured epsilon-neighbourhoods of the poles, with Z the rotation by 2 pi/n about the z axis, exactly if all the modes whose m is not divisible by n are zero. (2) f.evaluate at z*R*x (which points in the direction of R reflected through the equatorial plane) is (-1)^s times the complex conjugate of f.evaluate at R, for every such R, exactly if f(ell,-m) = (-1)^ell conj(f(ell,m)) for all modes. (3) For spin weight 0, the values of f.evaluate are real at every such R exactly if f.conjugate() returns the same modes and metadata as f, and exactly if f.real does.", "quantifier": "all well-formed Modes objects of any spin weight and leading shape with ell_max within the table, all n; the symmetry ranges over all rotors outside the punctured neighbourhoods", "why_tests_cant": "that a symmetry of the values implies one of the modes is a statement about the values at all rotors", "anchors": [{"file": "spherical_functions/SWSH_modes/utilities.py", "symbols": ["evaluate"]}, {"file": "spherical_functions/SWSH_modes/algebra.py", "symbols": ["conjugate", "_real_func"]}]}
