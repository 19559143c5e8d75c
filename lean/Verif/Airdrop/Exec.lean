import Verif.Airdrop.State
/-!
# Messages of the airdrop contract

Models `/repo/contracts/airdrop/src/contract.rs:9-41` and `/repo/contracts/airdrop/src/execute/`.
The event attributes are in `Verif/Events/Airdrop.lean`.
-/

namespace Ibcx.Airdrop
open Ibcx

/-- New state and messages.  Result of `/repo/contracts/airdrop/src/contract.rs:22-41`. -/
abbrev Out := State × List Msg

/-- `RegisterPayload`, `/repo/packages/interface/src/airdrop.rs:47-77`. -/
inductive RegisterPayload where
  | openDrop (merkleRoot : String) (denom : Denom) (label : Option String)
  | bearer (merkleRoot : String) (denom : Denom) (signerPub signerSig : String) (label : Option String)
deriving DecidableEq, Repr

/-- `ClaimPayload`, `/repo/packages/interface/src/airdrop.rs:106-124`. -/
inductive ClaimPayload where
  | openDrop (airdrop : DropId) (amount : Nat) (account : Option String) (proof : List String)
  | bearer (airdrop : DropId) (amount : Nat) (account : Option String) (claimHash claimSign : String)
      (proof : List String)
deriving DecidableEq, Repr

/-- `ExecuteMsg`, `/repo/packages/interface/src/airdrop.rs:188-193`. -/
inductive ExecMsg where
  | register (p : RegisterPayload)
  | fund (id : DropId)
  | claim (p : ClaimPayload)
  | close (id : DropId)
deriving DecidableEq, Repr

/-- `instantiate`, `/repo/contracts/airdrop/src/contract.rs:9-20` (contract version: see `Verif/Iface/Version.lean`).
-/
def initial : State := { latest := 0, drops := [], labels := [], claims := [] }

/-- `label.map(|x| format!("{}/{x}", info.sender))`, `/repo/contracts/airdrop/src/execute/register.rs:67,129`. -/
def ownLabel (sender : Addr) (label : Option String) : Option String :=
  label.map (fun x => sender ++ "/" ++ x)

/-- `register_open`, `/repo/contracts/airdrop/src/execute/register.rs:51-94`. -/
def registerOpen (s : State) (env : Env) (info : Info) (root : String) (denom : Denom) (label : Option String) :
    Res Out := do
  let _ ← hexDecode32 root
  let id := s.latest
  let label := ownLabel info.sender label
  let total ← mustPay info denom
  let a : Drop :=
    { kind := .openAirdrop, creator := info.sender, denom := denom, totalAmount := total, totalClaimed := 0
      merkleRoot := root, label := label, createdAt := env.height, closedAt := none }
  let labels ← saveLabel s.labels id a.label
  let latest ← add64 id 1
  .ok ({ s with labels := labels, drops := s.drops.set id a, latest := latest }, [])

/-- `register_bearer`, `/repo/contracts/airdrop/src/execute/register.rs:111-173`. -/
def registerBearer (c : Crypto) (s : State) (env : Env) (info : Info) (root : String) (denom : Denom)
    (label : Option String) (signerPub signerSig : String) : Res Out := do
  let _ ← hexDecode32 root
  let id := s.latest
  let label := ownLabel info.sender label
  let pub ← hexDecode signerPub
  let sig ← hexDecode signerSig
  let signer := c.addrOf pub
  let digest := c.sha (utf8 signer)
  let verified ← c.verify digest sig pub
  require (verified = true) .invalidSignature
  let total ← mustPay info denom
  let signer ← validate env signer
  let a : Drop :=
    { kind := .bearer signer pub, creator := info.sender, denom := denom, totalAmount := total, totalClaimed := 0
      merkleRoot := root, label := label, createdAt := env.height, closedAt := none }
  let labels ← saveLabel s.labels id a.label
  let latest ← add64 id 1
  .ok ({ s with labels := labels, drops := s.drops.set id a, latest := latest }, [])

/-- `register`, `/repo/contracts/airdrop/src/execute/register.rs:8-37`. -/
def register (c : Crypto) (s : State) (env : Env) (info : Info) : RegisterPayload → Res Out
  | .openDrop root denom label => registerOpen s env info root denom label
  | .bearer root denom pub sig label => registerBearer c s env info root denom label pub sig

/-- `fund_open`, `/repo/contracts/airdrop/src/execute/fund.rs:26-49`. -/
def fundOpen (s : State) (info : Info) (id : Nat) (a : Drop) : Res Out := do
  require (a.creator = info.sender) .unauthorized
  require (a.closedAt = none) .closed
  let extra ← mustPay info a.denom
  let total ← add a.totalAmount extra
  .ok ({ s with drops := s.drops.set id { a with totalAmount := total } }, [])

/-- `fund_bearer`, `/repo/contracts/airdrop/src/execute/fund.rs:51-74`. -/
def fundBearer (s : State) (info : Info) (id : Nat) (a : Drop) : Res Out := do
  require (a.creator = info.sender) .unauthorized
  require (a.closedAt = none) .closed
  let extra ← mustPay info a.denom
  let total ← add a.totalAmount extra
  .ok ({ s with drops := s.drops.set id { a with totalAmount := total } }, [])

/-- `fund`, `/repo/contracts/airdrop/src/execute/fund.rs:7-14`. -/
def fund (s : State) (info : Info) (id : DropId) : Res Out := do
  let (n, a) ← loadAirdrop s id
  match a.kind with
  | .openAirdrop => fundOpen s info n a
  | .bearer _ _ => fundBearer s info n a

/-- `claim_open`, `/repo/contracts/airdrop/src/execute/claim.rs:66-112`. -/
def claimOpen (c : Crypto) (s : State) (id : DropId) (amount : Nat) (claimer : Addr) (proof : List String) :
    Res Out := do
  let (n, a) ← loadAirdrop s id
  let a ← a.unwrapOpen
  require (a.closedAt = none) .closed
  assertNotClaimed s n claimer
  verifyMerkleProof c a.merkleRoot proof claimer amount
  let claimed ← add a.totalClaimed amount
  let a := { a with totalClaimed := claimed }
  require (¬ a.totalAmount < a.totalClaimed) .insufficientAirdropFunds
  .ok ({ s with drops := s.drops.set n a, claims := s.claims.set (n, claimer) amount },
    [.send claimer [⟨a.denom, amount⟩]])

/-- `format!("{claim_hash}/{claimer}/{amount}")`, `/repo/contracts/airdrop/src/execute/claim.rs:156`. -/
def signText (claimHash : String) (claimer : Addr) (amount : Nat) : String :=
  claimHash ++ "/" ++ claimer ++ "/" ++ toString amount

/-- `claim_bearer`, `/repo/contracts/airdrop/src/execute/claim.rs:134-192`. -/
def claimBearer (c : Crypto) (s : State) (id : DropId) (amount : Nat) (claimer : Addr) (claimHash claimSign : String)
    (proof : List String) : Res Out := do
  let (n, a) ← loadAirdrop s id
  let (a, pub) ← a.unwrapBearer
  require (a.closedAt = none) .closed
  assertNotClaimed s n claimHash
  verifyMerkleProof c a.merkleRoot proof claimHash amount
  let digest := c.sha (utf8 (signText claimHash claimer amount))
  let sig ← hexDecode claimSign
  let ok ← c.verify digest sig pub
  require (ok = true) .invalidSignature
  let claimed ← add a.totalClaimed amount
  let a := { a with totalClaimed := claimed }
  require (¬ a.totalAmount < a.totalClaimed) .insufficientAirdropFunds
  .ok ({ s with drops := s.drops.set n a, claims := s.claims.set (n, claimHash) amount },
    [.send claimer [⟨a.denom, amount⟩]])

/-- `claim`, `/repo/contracts/airdrop/src/execute/claim.rs:9-47`: the claimer is the validated account, or the sender.
-/
def claim (c : Crypto) (s : State) (env : Env) (info : Info) : ClaimPayload → Res Out
  | .openDrop id amount account proof => do
    let claimer ← unwrapAddr env account info.sender
    claimOpen c s id amount claimer proof
  | .bearer id amount account hash sign proof => do
    let claimer ← unwrapAddr env account info.sender
    claimBearer c s id amount claimer hash sign proof

/-- `close_open`, `/repo/contracts/airdrop/src/execute/close.rs:31-62`. -/
def closeOpen (s : State) (env : Env) (info : Info) (id : Nat) (a : Drop) : Res Out := do
  require (a.creator = info.sender) .unauthorized
  require (a.closedAt = none) .closed
  let redeem ← sub a.totalAmount a.totalClaimed
  .ok ({ s with drops := s.drops.set id { a with closedAt := some env.height } },
    [.send a.creator [⟨a.denom, redeem⟩]])

/-- `close_bearer`, `/repo/contracts/airdrop/src/execute/close.rs:64-95`. -/
def closeBearer (s : State) (env : Env) (info : Info) (id : Nat) (a : Drop) : Res Out := do
  require (a.creator = info.sender) .unauthorized
  require (a.closedAt = none) .closed
  let redeem ← sub a.totalAmount a.totalClaimed
  .ok ({ s with drops := s.drops.set id { a with closedAt := some env.height } },
    [.send a.creator [⟨a.denom, redeem⟩]])

/-- `close`, `/repo/contracts/airdrop/src/execute/close.rs:7-19`. -/
def close (s : State) (env : Env) (info : Info) (id : DropId) : Res Out := do
  let (n, a) ← loadAirdrop s id
  match a.kind with
  | .openAirdrop => closeOpen s env info n a
  | .bearer _ _ => closeBearer s env info n a

/-- `execute`, `/repo/contracts/airdrop/src/contract.rs:22-41`. -/
def execute (c : Crypto) (s : State) (env : Env) (info : Info) : ExecMsg → Res Out
  | .register p => register c s env info p
  | .fund id => fund s info id
  | .claim p => claim c s env info p
  | .close id => close s env info id

/-- A message with its environment and sender.  Arguments of `/repo/contracts/airdrop/src/contract.rs:22-27`. -/
structure Call where
  env : Env
  info : Info
  msg : ExecMsg

/-- Delivery of a message: a failed message changes nothing and sends nothing.  Entry point
`/repo/contracts/airdrop/src/contract.rs:22-41`. -/
def step (c : Crypto) (s : State) (call : Call) : Out :=
  match execute c s call.env call.info call.msg with
  | .ok out => out
  | .error _ => (s, [])

/-- A history of messages; the result also collects all messages sent.  Entry point
`/repo/contracts/airdrop/src/contract.rs:22-41`. -/
def run (c : Crypto) (s : State) : List Call → Out
  | [] => (s, [])
  | call :: calls =>
    let (s', ms) := step c s call
    let (s'', ms') := run c s' calls
    (s'', ms ++ ms')

/-- States that occur after instantiation.  Entry points `/repo/contracts/airdrop/src/contract.rs:9-41`. -/
def Reachable (c : Crypto) (s : State) : Prop := ∃ calls, (run c initial calls).1 = s

end Ibcx.Airdrop
