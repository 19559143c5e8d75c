import Verif.Spec.Core
/-!
# Vocabulary for zaps

Plain functions used to state the properties of the simulator, of the swap messages and of the periphery.
-/

namespace Ibcx.Spec
open Ibcx

/-- The coins an amount of index tokens stands for. -/
def basket (units : Core.Units) (index : Nat) : List Coin := units.map fun e => ⟨e.1, part e.2 index⟩

/-- The spending limit of a swap that buys an exact amount. -/
def spendLimit : Msg → Nat
  | .swapExactOut _ _ _ maxIn => maxIn
  | _ => 0

/-- The least proceeds of a swap that sells an exact amount. -/
def leastProceeds : Msg → Nat
  | .swapExactIn _ _ _ minOut => minOut
  | _ => 0

end Ibcx.Spec
