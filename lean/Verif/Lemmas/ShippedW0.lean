import Verif.Lemmas.ShippedCheck
import Verif.Data.Wigner0
/-
The kernel evaluates the check of Lemmas/ShippedCheck.lean on the shipped Wigner coefficients for `0 ≤ 2 ell < 27`.
-/
set_option autoImplicit false
namespace SF

theorem wigner0_ok : blockOk 0 wigner0 0 1 = true := by decide +kernel
theorem wigner1_ok : blockOk 1 wigner1 0 1 = true := by decide +kernel
theorem wigner2_ok : blockOk 2 wigner2 0 1 = true := by decide +kernel
theorem wigner3_ok : blockOk 3 wigner3 0 1 = true := by decide +kernel
theorem wigner4_ok : blockOk 4 wigner4 0 1 = true := by decide +kernel
theorem wigner5_ok : blockOk 5 wigner5 0 1 = true := by decide +kernel
theorem wigner6_ok : blockOk 6 wigner6 0 1 = true := by decide +kernel
theorem wigner7_ok : blockOk 7 wigner7 0 1 = true := by decide +kernel
theorem wigner8_ok : blockOk 8 wigner8 0 1 = true := by decide +kernel
theorem wigner9_ok : blockOk 9 wigner9 0 1 = true := by decide +kernel
theorem wigner10_ok : blockOk 10 wigner10 0 1 = true := by decide +kernel
theorem wigner11_ok : blockOk 11 wigner11 0 1 = true := by decide +kernel
theorem wigner12_ok : blockOk 12 wigner12 0 1 = true := by decide +kernel
theorem wigner13_ok : blockOk 13 wigner13 0 1 = true := by decide +kernel
theorem wigner14_ok : blockOk 14 wigner14 0 1 = true := by decide +kernel
theorem wigner15_ok : blockOk 15 wigner15 0 1 = true := by decide +kernel
theorem wigner16_ok : blockOk 16 wigner16 0 1 = true := by decide +kernel
theorem wigner17_ok : blockOk 17 wigner17 0 1 = true := by decide +kernel
theorem wigner18_ok : blockOk 18 wigner18 0 1 = true := by decide +kernel
theorem wigner19_ok : blockOk 19 wigner19 0 1 = true := by decide +kernel
theorem wigner20_ok : blockOk 20 wigner20 0 1 = true := by decide +kernel
theorem wigner21_ok : blockOk 21 wigner21 0 1 = true := by decide +kernel
theorem wigner22_ok : blockOk 22 wigner22 0 1 = true := by decide +kernel
theorem wigner23_ok : blockOk 23 wigner23 0 1 = true := by decide +kernel
theorem wigner24_ok : blockOk 24 wigner24 0 1 = true := by decide +kernel
theorem wigner25_ok : blockOk 25 wigner25 0 1 = true := by decide +kernel
theorem wigner26_ok : blockOk 26 wigner26 0 1 = true := by decide +kernel

end SF
