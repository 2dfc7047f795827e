import Verif.Lemmas.ShippedCheck
import Verif.Data.Wigner4
/-
The kernel evaluates the check of Lemmas/ShippedCheck.lean on the shipped Wigner coefficients for `49 ≤ 2 ell < 54`.
-/
set_option autoImplicit false
namespace SF

theorem wigner49_ok : blockOk 49 wigner49 0 1 = true := by decide +kernel
theorem wigner50_ok : blockOk 50 wigner50 0 1 = true := by decide +kernel
theorem wigner51_ok : blockOk 51 wigner51 0 1 = true := by decide +kernel
theorem wigner52_ok : blockOk 52 wigner52 0 1 = true := by decide +kernel
theorem wigner53_ok : blockOk 53 wigner53 0 1 = true := by decide +kernel

end SF
