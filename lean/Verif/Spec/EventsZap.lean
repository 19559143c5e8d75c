import Verif.Spec.Events
import Verif.Periphery.Exec
/-!
# What the events of the periphery contract say
-/

namespace Ibcx.Spec
open Ibcx

/-- A coin as text: the decimal digits of the amount, then the denom. -/
def coinText (amount : Nat) (denom : Denom) : String := toString amount ++ denom

/-- The name under which an operation is reported. -/
def zapName : Periphery.PExecMsg → String
  | .mintExactIn .. => "mint_exact_amount_in"
  | .mintExactOut .. => "mint_exact_amount_out"
  | .burnExactIn .. => "burn_exact_amount_in"
  | .burnExactOut .. => "burn_exact_amount_out"
  | .finishOperation .. => "finish_operation"

/-- The denom does not begin with a digit. -/
def plainDenom (d : Denom) : Prop := ∀ c, d.toList.head? = some c → ¬ c.isDigit = true

end Ibcx.Spec
