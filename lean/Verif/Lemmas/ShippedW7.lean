import Verif.Lemmas.ShippedCheck
import Verif.Data.Wigner7
/-
The kernel evaluates the check of Lemmas/ShippedCheck.lean on the shipped Wigner coefficients for `62 ≤ 2 ell < 65`.
-/
set_option autoImplicit false
namespace SF

theorem wigner62_ok : blockOk 62 wigner62 0 1 = true := by decide +kernel
theorem wigner63_ok : blockOk 63 wigner63 0 1 = true := by decide +kernel
theorem wigner64_ok : blockOk 64 wigner64 0 1 = true := by decide +kernel

end SF
