import Verif.Lemmas.ShippedCheck
import Verif.Data.Wigner3
/-
The kernel evaluates the check of Lemmas/ShippedCheck.lean on the shipped Wigner coefficients for `43 ≤ 2 ell < 49`.
-/
set_option autoImplicit false
namespace SF

theorem wigner43_ok : blockOk 43 wigner43 0 1 = true := by decide +kernel
theorem wigner44_ok : blockOk 44 wigner44 0 1 = true := by decide +kernel
theorem wigner45_ok : blockOk 45 wigner45 0 1 = true := by decide +kernel
theorem wigner46_ok : blockOk 46 wigner46 0 1 = true := by decide +kernel
theorem wigner47_ok : blockOk 47 wigner47 0 1 = true := by decide +kernel
theorem wigner48_ok : blockOk 48 wigner48 0 1 = true := by decide +kernel

end SF
