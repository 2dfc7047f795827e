import Verif.Lemmas.ShippedCheck
import Verif.Data.Wigner5
/-
The kernel evaluates the check of Lemmas/ShippedCheck.lean on the shipped Wigner coefficients for `54 ≤ 2 ell < 58`.
-/
set_option autoImplicit false
namespace SF

theorem wigner54_ok : blockOk 54 wigner54 0 1 = true := by decide +kernel
theorem wigner55_ok : blockOk 55 wigner55 0 1 = true := by decide +kernel
theorem wigner56_ok : blockOk 56 wigner56 0 1 = true := by decide +kernel
theorem wigner57_ok : blockOk 57 wigner57 0 1 = true := by decide +kernel

end SF
