import Verif.Core.State
/-!
# What an outside observer reads from events

Only texts are used: an event is a list of keys and values.
-/

namespace Ibcx.Spec
open Ibcx

/-- The value an event gives under a key. -/
def said (key : String) (event : List (String × String)) : Option String := event.lookup key

/-- The number a decimal text stands for. -/
def readNum (text : String) : Nat := text.toList.foldl (fun n c => 10 * n + (c.toNat - 48)) 0

/-- The number an event gives under a key. -/
def saidNum (key : String) (event : List (String × String)) : Nat := readNum ((said key event).getD "")

/-- What an observer of the core contract keeps track of: the supply, the governance account and the proposed
one, the text of the pause expiry (while the pause flag is set), the reserve denom, and the text of the
rebalance manager (while a rebalance is active). -/
structure Watch where
  supply : Nat
  gov : Addr
  pending : Option Addr
  pause : Option String
  reserveDenom : Denom
  manager : Option String
deriving DecidableEq

/-- The observer's update on seeing one event. -/
def note (w : Watch) (event : List (String × String)) : Watch :=
  match said "method" event with
  | some m =>
    if m = "mint" then { w with supply := w.supply + saidNum "amount" event }
    else if m = "burn" then { w with supply := w.supply - saidNum "amount" event }
    else if m = "gov::pause" then { w with pause := said "expires_at" event }
    else if m = "gov::release" then { w with pause := none }
    else if m = "gov::update_gov" then { w with pending := said "pending_gov" event }
    else if m = "gov::accept_gov" then { w with gov := (said "gov" event).getD "", pending := none }
    else if m = "gov::revoke_gov" then { w with pending := none }
    else if m = "gov::update_reserve_denom" then { w with reserveDenom := (said "new_denom" event).getD "" }
    else if m = "gov::update_rebalance_manager" then { w with manager := said "new_manager" event }
    else if m = "rebalance::init" then { w with manager := said "manager" event }
    else if m = "rebalance::finalize" then { w with manager := none }
    else w
  | none => w

/-- The text of a pause expiry. -/
def expiryText : Option Nat → String
  | none => "never"
  | some t => toString t

/-- What the observer should know about a state. -/
def watchOf (s : Core.State) : Watch :=
  { supply := s.totalSupply
    gov := s.config.gov
    pending := s.pendingGov
    pause := if s.config.paused.paused = true then some (expiryText s.config.paused.expiresAt) else none
    reserveDenom := s.config.reserveDenom
    manager := s.rebalance.map fun r => r.manager.getD "none" }

/-- The name under which a message is reported. -/
def methodOf : Core.ExecMsg → String
  | .mint .. => "mint"
  | .burn .. => "burn"
  | .realize => "realize"
  | .gov (.pause _) => "gov::pause"
  | .gov .release => "gov::release"
  | .gov (.updateGov _) => "gov::update_gov"
  | .gov .acceptGov => "gov::accept_gov"
  | .gov .revokeGov => "gov::revoke_gov"
  | .gov (.updateFeeStrategy _) => "gov::update_fee"
  | .gov (.updateRebalanceManager _) => "gov::update_rebalance_manager"
  | .gov (.updateReserveDenom _) => "gov::update_reserve_denom"
  | .gov (.updateTradeInfo ..) => "gov::update_trade_info"
  | .rebalance (.init ..) => "rebalance::init"
  | .rebalance .finalize => "rebalance::finalize"
  | .rebalance (.trade (.deflate ..)) => "deflate"
  | .rebalance (.trade (.inflate ..)) => "inflate"

/-- The total of the amounts in events of one name. -/
def reported (name : String) (log : List (List (String × String))) : Nat :=
  ((log.filter fun e => said "method" e == some name).map (saidNum "amount")).sum

end Ibcx.Spec
