import Verif.Spec.Events
import Verif.Airdrop.Exec
/-!
# What an outside observer reads from the events of the airdrop contract
-/

namespace Ibcx.Spec
open Ibcx

/-- What an observer keeps for each airdrop. -/
structure Seen where
  creator : Addr
  type : String
  signer : Option Addr
  root : String
  total : Nat
  claimed : Nat
  closed : Bool
  label : String
deriving DecidableEq

/-- Changing what is kept for one number. -/
def seenAt (w : Nat → Option Seen) (n : Nat) (f : Seen → Seen) : Nat → Option Seen :=
  fun i => if i = n then (w i).map f else w i

/-- The observer's update on seeing one event. -/
def noteDrop (w : Nat → Option Seen) (event : List (String × String)) : Nat → Option Seen :=
  if said "action" event = some "register" then
    fun i => if i = saidNum "id" event then
      some
        { creator := (said "executor" event).getD ""
          type := (said "type" event).getD ""
          signer := said "signer" event
          root := (said "merkle_root" event).getD ""
          total := saidNum "total_amount" event
          claimed := 0
          closed := false
          label := (said "label" event).getD "" }
      else w i
  else if said "action" event = some "fund" then
    seenAt w (saidNum "airdrop_id" event) fun x => { x with total := x.total + saidNum "amount" event }
  else if said "action" event = some "claim" then
    seenAt w (saidNum "airdrop_id" event) fun x => { x with claimed := x.claimed + saidNum "amount" event }
  else if said "method" event = some "close" then
    seenAt w (saidNum "airdrop_id" event) fun x => { x with closed := true }
  else w

/-- What the observer should know about an airdrop. -/
def seenOf (a : Airdrop.Drop) : Seen :=
  { creator := a.creator
    type := match a.kind with | .openAirdrop => "open" | .bearer _ _ => "bearer"
    signer := match a.kind with | .openAirdrop => none | .bearer signer _ => some signer
    root := a.merkleRoot
    total := a.totalAmount
    claimed := a.totalClaimed
    closed := a.closedAt.isSome
    label := a.label.getD "" }

/-- The full label of an airdrop as text: the sender's address, a slash and the given name; empty when there is
none. -/
def labelText (sender : Addr) : Option String → String
  | some l => sender ++ "/" ++ l
  | none => ""

/-- The name a message is reported under as `action`. -/
def actionOf : Airdrop.ExecMsg → Option String
  | .register _ => some "register"
  | .fund _ => some "fund"
  | .claim _ => some "claim"
  | .close _ => none

/-- The name a message is reported under as `method`. -/
def closingOf : Airdrop.ExecMsg → Option String
  | .close _ => some "close"
  | _ => none

end Ibcx.Spec
