import Verif.Model.SWSHFloat
import Verif.Model.FloatIEEE

/-!
# The further operations of the harmonics with underflow and overflow

Extends `FloatOps.IEEE` (FloatIEEE) to the operations of `FloatOpsY` (SWSHFloat).
-/

set_option autoImplicit false

namespace SF

/-- Floating-point arithmetic with underflow and overflow.  `x ** n` (`n ≤ P`) has relative error of at most `n` roundings and absolute
error at most `η` if no power of `x` up to the `n`-th exceeds 4.  An inner product of length `N` has error `δ N` relative to the sum of
the moduli of the products, and absolute error `ζ N`, if that sum is at most `Ω/4` and `N` so small that `(1-u)^(N+2)` is
at least 1/2.  As for the other operations, nothing is assumed of larger results.  Refers to the arithmetic in
`spherical_functions/SWSH/__init__.py` (`_SWSH`, `_SWSHs`, `SWSH_grid`) and in `SWSH_modes/utilities.py` lines 83-92 (`evaluate`). -/
structure FloatOpsY.IEEE (F : FloatOpsY) (u w η ν Ω : ℝ) (P : ℕ) (δ ζ : ℕ → ℝ) : Prop extends F.toFloatOps.IEEE u w η ν Ω where
  sqrt : ∀ x, 0 < x → Real.sqrt x ≤ Ω → IErr u η ν (F.sqrt x) (Real.sqrt x)
  ipow : ∀ x (n : ℕ), n ≤ P → 0 < x → (∀ k ≤ n, x ^ k ≤ 4) →
    ∃ θ, (1 - u) ^ n ≤ θ ∧ θ * (1 - u) ^ n ≤ 1 ∧ |F.ipow x n - x ^ n * θ| ≤ η
  pi : RelErr u F.pi Real.pi
  dot_nonneg : ∀ N, 0 ≤ δ N
  dot : ∀ a b : List ℂ, a.length = b.length → 1 / 2 ≤ (1 - u) ^ (a.length + 2) → (List.zipWith (fun x y => ‖x‖ * ‖y‖) a b).sum ≤ Ω / 4 →
    ‖F.dot a b - (List.zipWith (· * ·) a b).sum‖ ≤ δ a.length * (List.zipWith (fun x y => ‖x‖ * ‖y‖) a b).sum + ζ a.length

/-- `x ** n` for `n ≥ 0` as numba computes it: `while exp != 0: if exp & 1: r *= a; exp >>= 1; a *= a`, starting with `r = 1`.
Used in `spherical_functions/SWSH/__init__.py` lines 170 and 211 (the powers of the moduli in `_SWSH`, likewise in `_SWSHs`); numba itself is not in /repo, so
this is only an instance of the hypotheses of C87, not an assumption. -/
noncomputable def powBin (F : FloatOps) (e : ℕ) (r a : ℝ) : ℝ :=
  if _h : e = 0 then r
  else powBin F (e / 2) (if e % 2 = 1 then F.mul r a else r) (F.mul a a)
termination_by e
decreasing_by omega

end SF
