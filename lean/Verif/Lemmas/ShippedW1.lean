import Verif.Lemmas.ShippedCheck
import Verif.Data.Wigner1
/-
The kernel evaluates the check of Lemmas/ShippedCheck.lean on the shipped Wigner coefficients for `27 ≤ 2 ell < 36`.
-/
set_option autoImplicit false
namespace SF

theorem wigner27_ok : blockOk 27 wigner27 0 1 = true := by decide +kernel
theorem wigner28_ok : blockOk 28 wigner28 0 1 = true := by decide +kernel
theorem wigner29_ok : blockOk 29 wigner29 0 1 = true := by decide +kernel
theorem wigner30_ok : blockOk 30 wigner30 0 1 = true := by decide +kernel
theorem wigner31_ok : blockOk 31 wigner31 0 1 = true := by decide +kernel
theorem wigner32_ok : blockOk 32 wigner32 0 1 = true := by decide +kernel
theorem wigner33_ok : blockOk 33 wigner33 0 1 = true := by decide +kernel
theorem wigner34_ok : blockOk 34 wigner34 0 1 = true := by decide +kernel
theorem wigner35_ok : blockOk 35 wigner35 0 1 = true := by decide +kernel

end SF
