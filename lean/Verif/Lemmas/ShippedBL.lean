import Verif.Lemmas.ShippedCheck
import Verif.Data.Binomial
import Verif.Data.Ladder
/-
The kernel evaluates the checks of Lemmas/ShippedCheck.lean on the shipped binomial and ladder coefficients.
-/
set_option autoImplicit false
namespace SF

theorem binomial_ok : binOk binomialData 0 = true := by decide +kernel

theorem ladder_ok : ladOk ladderData 0 = true := by decide +kernel

end SF
