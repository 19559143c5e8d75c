import Verif.Airdrop.Exec
import Verif.Spec.Core
/-!
# Vocabulary of the airdrop specifications

Plain functions used to state the properties; they use the data types of the model only.
-/

namespace Ibcx.Spec
open Ibcx Ibcx.Airdrop

/-- The number of the airdrop a message addresses. -/
def target (s : State) : DropId → Option Nat
  | .id n => some n
  | .label l => s.labels.get l

/-- The airdrop a claim addresses. -/
def claimDrop : ClaimPayload → DropId
  | .openDrop id _ _ _ => id
  | .bearer id _ _ _ _ _ => id

/-- The amount of a claim. -/
def claimAmount : ClaimPayload → Nat
  | .openDrop _ n _ _ => n
  | .bearer _ n _ _ _ _ => n

/-- The account of a claim: the given one, or the sender. -/
def claimer (info : Info) : ClaimPayload → Addr
  | .openDrop _ _ acc _ => acc.getD info.sender
  | .bearer _ _ acc _ _ _ => acc.getD info.sender

/-- What a claim uses up: the claimer (open airdrop) or the claim hash (bearer airdrop). -/
def claimKey (info : Info) : ClaimPayload → String
  | .openDrop _ _ acc _ => acc.getD info.sender
  | .bearer _ _ _ hash _ _ => hash

/-- The same claim addressed to another airdrop id. -/
def readdress (id : DropId) : ClaimPayload → ClaimPayload
  | .openDrop _ n acc proof => .openDrop id n acc proof
  | .bearer _ n acc hash sign proof => .bearer id n acc hash sign proof

/-- What is left in an airdrop. -/
def left (a : Drop) : Nat := if a.closedAt = none then a.totalAmount - a.totalClaimed else 0

/-- What is left of denom `d` in all airdrops. -/
def leftIn (d : Denom) (s : State) : Nat :=
  (s.drops.map (fun e => if e.2.denom = d then left e.2 else 0)).sum

/-- Sum of the recorded claims of an airdrop. -/
def recorded (n : Nat) (s : State) : Nat :=
  (s.claims.map (fun e => if e.1.1 = n then e.2 else 0)).sum

/-- Total of the attached coins. -/
def attached (info : Info) : Nat := (info.funds.map (·.amount)).sum

/-- Total of all coins sent by bank transfers. -/
def outflow : List Msg → Nat
  | [] => 0
  | .send _ cs :: ms => (cs.map (·.amount)).sum + outflow ms
  | _ :: ms => outflow ms

/-- What accepted `Register` and `Fund` messages of a history paid into airdrop number `n`. -/
def fundedBy (c : Crypto) (n : Nat) : State → List Call → Nat
  | _, [] => 0
  | s, call :: calls =>
    (match execute c s call.env call.info call.msg with
      | .error _ => 0
      | .ok _ =>
        match call.msg with
        | .register _ => if s.latest = n then attached call.info else 0
        | .fund id => if target s id = some n then attached call.info else 0
        | _ => 0) + fundedBy c n (step c s call).1 calls

/-- What accepted `Claim` messages of a history sent out for airdrop number `n`. -/
def claimedBy (c : Crypto) (n : Nat) : State → List Call → Nat
  | _, [] => 0
  | s, call :: calls =>
    (match execute c s call.env call.info call.msg with
      | .error _ => 0
      | .ok out =>
        match call.msg with
        | .claim p => if target s (claimDrop p) = some n then outflow out.2 else 0
        | _ => 0) + claimedBy c n (step c s call).1 calls

/-- What accepted `Close` messages of a history sent out for airdrop number `n`. -/
def refundedBy (c : Crypto) (n : Nat) : State → List Call → Nat
  | _, [] => 0
  | s, call :: calls =>
    (match execute c s call.env call.info call.msg with
      | .error _ => 0
      | .ok out =>
        match call.msg with
        | .close id => if target s id = some n then outflow out.2 else 0
        | _ => 0) + refundedBy c n (step c s call).1 calls

/-- Number of accepted claims for airdrop number `n` with claim key `k` in a history. -/
def timesClaimed (c : Crypto) (n : Nat) (k : String) : State → List Call → Nat
  | _, [] => 0
  | s, call :: calls =>
    (match execute c s call.env call.info call.msg with
      | .error _ => 0
      | .ok _ =>
        match call.msg with
        | .claim p => if target s (claimDrop p) = some n ∧ claimKey call.info p = k then 1 else 0
        | _ => 0) + timesClaimed c n k (step c s call).1 calls

/-- Number of accepted registrations in a history. -/
def registrations (c : Crypto) : State → List Call → Nat
  | _, [] => 0
  | s, call :: calls =>
    (match execute c s call.env call.info call.msg with
      | .error _ => 0
      | .ok _ =>
        match call.msg with
        | .register _ => 1
        | _ => 0) + registrations c (step c s call).1 calls

end Ibcx.Spec
