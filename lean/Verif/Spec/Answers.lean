import Verif.Spec.Link
/-!
# What an observer of the accepted messages knows

Which accepted message sets which setting, and the last value set in a history.
-/

namespace Ibcx.Spec
open Ibcx Ibcx.Core

/-- The last value that the accepted calls of a history set; `none` when no accepted call sets one.  `news s c` is the
value that the call `c`, delivered in state `s`, sets if it is accepted. -/
def lastSet {α : Type} (news : State → Call → Option α) : State → List Call → Option α
  | _, [] => none
  | s, c :: cs =>
    match lastSet news (step s c).1 cs with
    | some v => some v
    | none => if accepted s c then news s c else none

/-- The governance account: set by the nominee who accepts. -/
def newGov (_ : State) (c : Call) : Option Addr :=
  match c.msg with
  | .gov .acceptGov => some c.info.sender
  | _ => none

/-- The nominee. -/
def newNominee (_ : State) (c : Call) : Option (Option Addr) :=
  match c.msg with
  | .gov (.updateGov g) => some (some g)
  | .gov .acceptGov => some none
  | .gov .revokeGov => some none
  | _ => none

/-- The reserve denom. -/
def newReserveDenom (_ : State) (c : Call) : Option Denom :=
  match c.msg with
  | .gov (.updateReserveDenom d) => some d
  | _ => none

/-- The pause: `some none` for a pause without end, `some (some e)` for one that ends at `e`. -/
def newPause (_ : State) (c : Call) : Option (Option (Option Nat)) :=
  match c.msg with
  | .gov (.pause e) => some (some e)
  | .gov .release => some none
  | _ => none

/-- Fee collector, mint fee, burn fee and rate of the streaming fee. -/
def newFee (_ : State) (c : Call) : Option (Addr × Option Nat × Option Nat × Option Nat) :=
  match c.msg with
  | .gov (.updateFeeStrategy p) => some (p.collector, p.mintFee, p.burnFee, p.streamingFee.map (·.rate))
  | _ => none

/-- The rebalance plan: the deflation and inflation lists. -/
def newPlan (_ : State) (c : Call) : Option (Option (Units × Units)) :=
  match c.msg with
  | .rebalance (.init _ defl infl) => some (some (defl, infl))
  | .rebalance .finalize => some none
  | _ => none

/-- The rebalance manager. -/
def newManager (_ : State) (c : Call) : Option (Option Addr) :=
  match c.msg with
  | .rebalance (.init m _ _) => some m
  | .gov (.updateRebalanceManager m) => some m
  | .rebalance .finalize => some none
  | _ => none

/-- The settings of the route from denom `a` to denom `b`; it is filed under the denom after the first hop. -/
def newRoute (a b : Denom) (_ : State) (c : Call) : Option (List SwapRoute × Nat × Nat) :=
  match c.msg with
  | .gov (.updateTradeInfo d (r :: rs) cooldown limit) =>
    if d = a ∧ r.tokenDenom = b then some (r :: rs, cooldown, limit) else none
  | _ => none

/-- The time of the last swap over the route from `a` to `b`; new settings clear it, a trade of another denom than the
reserve denom sets it. -/
def newSwapTime (a b : Denom) (s : State) (c : Call) : Option (Option Nat) :=
  match c.msg with
  | .gov (.updateTradeInfo d (r :: _) _ _) => if d = a ∧ r.tokenDenom = b then some none else none
  | .rebalance (.trade (.deflate d _ _)) =>
    if d ≠ s.config.reserveDenom ∧ d = a ∧ s.config.reserveDenom = b then some (some c.env.now) else none
  | .rebalance (.trade (.inflate d _ _)) =>
    if d ≠ s.config.reserveDenom ∧ s.config.reserveDenom = a ∧ d = b then some (some c.env.now) else none
  | _ => none

end Ibcx.Spec
