import Verif.Lemmas.ShippedCheck
import Verif.Data.Wigner6
/-
The kernel evaluates the check of Lemmas/ShippedCheck.lean on the shipped Wigner coefficients for `58 ≤ 2 ell < 62`.
-/
set_option autoImplicit false
namespace SF

theorem wigner58_ok : blockOk 58 wigner58 0 1 = true := by decide +kernel
theorem wigner59_ok : blockOk 59 wigner59 0 1 = true := by decide +kernel
theorem wigner60_ok : blockOk 60 wigner60 0 1 = true := by decide +kernel
theorem wigner61_ok : blockOk 61 wigner61 0 1 = true := by decide +kernel

end SF
