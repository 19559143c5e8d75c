import Verif.Airdrop.Exec
/-!
# Events of the airdrop contract

Models the `attr(…)` lists of `/repo/contracts/airdrop/src/execute/`.  Every function runs the handler modelled in
`Verif/Airdrop/Exec.lean` and then builds the attributes.  Simplified: the values are computed or read a second
time instead of being passed along.
-/

namespace Ibcx.Airdrop
open Ibcx

/-- `cosmwasm_std::Attribute`: a key and a value.  In the responses of `/repo/contracts/airdrop/src/execute/`, e.g.
`/repo/contracts/airdrop/src/execute/register.rs:39-49`. -/
abbrev Attr := String × String

/-- `AirdropType::to_string`, `/repo/packages/interface/src/airdrop.rs:31-44`. -/
def Kind.text : Kind → String
  | .openAirdrop => "open"
  | .bearer _ _ => "bearer"

/-- `register_open_event`, `/repo/contracts/airdrop/src/execute/register.rs:39-49`, and `register_bearer_event`,
`/repo/contracts/airdrop/src/execute/register.rs:96-107`. -/
def registerEvent (id : Nat) (a : Drop) : List Attr :=
  match a.kind with
  | .openAirdrop =>
    [("action", "register"), ("executor", a.creator), ("id", toString id), ("type", a.kind.text),
     ("merkle_root", a.merkleRoot), ("total_amount", toString a.totalAmount), ("label", a.label.getD "")]
  | .bearer signer _ =>
    [("action", "register"), ("executor", a.creator), ("id", toString id), ("type", a.kind.text),
     ("signer", signer), ("merkle_root", a.merkleRoot), ("total_amount", toString a.totalAmount),
     ("label", a.label.getD "")]

/-- `register` with its event, `/repo/contracts/airdrop/src/execute/register.rs:85-94,164-173`; the record is read
back from the new state. -/
def registerR (c : Crypto) (s : State) (env : Env) (info : Info) (p : RegisterPayload) : Res (Out × List Attr) := do
  let o ← register c s env info p
  let a ← o.1.drops.load s.latest
  .ok (o, registerEvent s.latest a)

/-- `fund_event`, `/repo/contracts/airdrop/src/execute/fund.rs:16-24`. -/
def fundEvent (sender : Addr) (kind : Kind) (id amount : Nat) : List Attr :=
  [("action", "fund"), ("executor", sender), ("airdrop_type", kind.text), ("airdrop_id", toString id),
   ("amount", toString amount)]

/-- `fund` with its event, `/repo/contracts/airdrop/src/execute/fund.rs:42-43,67-68`. -/
def fundR (s : State) (info : Info) (id : DropId) : Res (Out × List Attr) := do
  let o ← fund s info id
  let (n, a) ← loadAirdrop s id
  let extra ← mustPay info a.denom
  .ok (o, fundEvent info.sender a.kind n extra)

/-- `claim_open_event`, `/repo/contracts/airdrop/src/execute/claim.rs:49-64`. -/
def claimOpenEvent (sender : Addr) (kind : Kind) (id : Nat) (claimer : Addr) (amount : Nat) : List Attr :=
  [("action", "claim"), ("executor", sender), ("airdrop_type", kind.text), ("airdrop_id", toString id),
   ("claimer", claimer), ("amount", toString amount)]

/-- `claim_bearer_event`, `/repo/contracts/airdrop/src/execute/claim.rs:114-131`. -/
def claimBearerEvent (sender : Addr) (kind : Kind) (id : Nat) (signer claimer : Addr) (amount : Nat) : List Attr :=
  [("action", "claim"), ("executor", sender), ("airdrop_type", kind.text), ("airdrop_id", toString id),
   ("signer", signer), ("claimer", claimer), ("amount", toString amount)]

/-- `claim` with its event, `/repo/contracts/airdrop/src/execute/claim.rs:98-104,178-185`. -/
def claimR (c : Crypto) (s : State) (env : Env) (info : Info) (p : ClaimPayload) : Res (Out × List Attr) := do
  let o ← claim c s env info p
  match p with
  | .openDrop id amount account _ => do
    let claimer ← unwrapAddr env account info.sender
    let (n, _) ← loadAirdrop s id
    .ok (o, claimOpenEvent info.sender .openAirdrop n claimer amount)
  | .bearer id amount account _ _ _ => do
    let claimer ← unwrapAddr env account info.sender
    let (n, a) ← loadAirdrop s id
    match a.kind with
    | .openAirdrop => .error .wrongType
    | .bearer signer pub => .ok (o, claimBearerEvent info.sender (.bearer signer pub) n signer claimer amount)

/-- `close_event`, `/repo/contracts/airdrop/src/execute/close.rs:21-29`; unlike the others it uses the key `method`. -/
def closeEvent (sender : Addr) (kind : Kind) (id redeem : Nat) : List Attr :=
  [("method", "close"), ("executor", sender), ("airdrop_type", kind.text), ("airdrop_id", toString id),
   ("redeemed", toString redeem)]

/-- `close` with its event, `/repo/contracts/airdrop/src/execute/close.rs:56,89`. -/
def closeR (s : State) (env : Env) (info : Info) (id : DropId) : Res (Out × List Attr) := do
  let o ← close s env info id
  let (n, a) ← loadAirdrop s id
  let redeem ← sub a.totalAmount a.totalClaimed
  .ok (o, closeEvent info.sender a.kind n redeem)

/-- `execute` with events, `/repo/contracts/airdrop/src/contract.rs:22-41`. -/
def executeR (c : Crypto) (s : State) (env : Env) (info : Info) : ExecMsg → Res (Out × List Attr)
  | .register p => registerR c s env info p
  | .fund id => fundR s info id
  | .claim p => claimR c s env info p
  | .close id => closeR s env info id

/-- The events of a history: one list of attributes for every accepted message, in order.  Entry point
`/repo/contracts/airdrop/src/contract.rs:22-41`. -/
def eventLog (c : Crypto) (s : State) : List Call → List (List Attr)
  | [] => []
  | call :: calls =>
    match executeR c s call.env call.info call.msg with
    | .ok (o, attrs) => attrs :: eventLog c o.1 calls
    | .error _ => eventLog c s calls

end Ibcx.Airdrop
