import Verif.Lemmas.ShippedCheck
import Verif.Data.Wigner2
/-
The kernel evaluates the check of Lemmas/ShippedCheck.lean on the shipped Wigner coefficients for `36 ≤ 2 ell < 43`.
-/
set_option autoImplicit false
namespace SF

theorem wigner36_ok : blockOk 36 wigner36 0 1 = true := by decide +kernel
theorem wigner37_ok : blockOk 37 wigner37 0 1 = true := by decide +kernel
theorem wigner38_ok : blockOk 38 wigner38 0 1 = true := by decide +kernel
theorem wigner39_ok : blockOk 39 wigner39 0 1 = true := by decide +kernel
theorem wigner40_ok : blockOk 40 wigner40 0 1 = true := by decide +kernel
theorem wigner41_ok : blockOk 41 wigner41 0 1 = true := by decide +kernel
theorem wigner42_ok : blockOk 42 wigner42 0 1 = true := by decide +kernel

end SF
