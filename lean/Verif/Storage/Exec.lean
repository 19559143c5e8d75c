import Verif.Storage.Contracts
/-!
# The airdrop contract on the byte storage

The handlers of `/repo/contracts/airdrop/src/execute/` once more, this time reading and writing the byte storage through
the keys of cw-storage-plus: the order of reads and writes is that of the code, and `airdrops().save` maintains the
secondary indexes.  Where a stored value has the wrong type the code fails to parse it; here that is a generic error.
-/

namespace Ibcx.Storage
open Ibcx Ibcx.Iface Ibcx.Airdrop

/-- The value type of `cw2`'s `CONTRACT`, loaded in `/repo/packages/utils/src/lib.rs:12`. -/
def DropVal.asVersion : DropVal → Option ContractVersion
  | .version v => some v
  | _ => none

/-- The value type of `LATEST_AIRDROP_ID`, `/repo/contracts/airdrop/src/state.rs:42-43`. -/
def DropVal.asLatest : DropVal → Option Nat
  | .latest n => some n
  | _ => none

/-- The value type of `airdrops()`, `/repo/contracts/airdrop/src/state.rs:20-40`. -/
def DropVal.asDrop : DropVal → Option Drop
  | .drop a => some a
  | _ => none

/-- The value type of `LABELS`, `/repo/contracts/airdrop/src/state.rs:45-46`. -/
def DropVal.asLabel : DropVal → Option Nat
  | .label n => some n
  | _ => none

/-- The value type of `CLAIM_LOGS`, `/repo/contracts/airdrop/src/state.rs:48-49`. -/
def DropVal.asClaim : DropVal → Option Nat
  | .claim n => some n
  | _ => none

/-- How a stored value is written and how the bytes of a place are read as its declared type,
`/repo/contracts/airdrop/src/state.rs:20-49`.  Two ways follow: values kept as they are, and (in
`Verif/Json/Stored.lean`) the JSON texts the code keeps. -/
class DropCell (V : Type) where
  write : DropVal → V
  asVersion : V → Option ContractVersion
  asLatest : V → Option Nat
  asDrop : V → Option Drop
  asPkLen : V → Option Nat
  asLabel : V → Option Nat
  asClaim : V → Option Nat

/-- Values kept as they are, each with the type declared for its place, `/repo/contracts/airdrop/src/state.rs:20-49`. -/
instance dropValCell : DropCell DropVal where
  write v := v
  asVersion := DropVal.asVersion
  asLatest := DropVal.asLatest
  asDrop := DropVal.asDrop
  asPkLen := DropVal.asPkLen
  asLabel := DropVal.asLabel
  asClaim := DropVal.asClaim

section
variable {V : Type} [DropCell V]

/-- New storage and messages of a handler, `/repo/contracts/airdrop/src/contract.rs:22-41`. -/
abbrev RawOutOf (V : Type) := Raw V × List Msg

/-- The same for values kept as they are, `/repo/contracts/airdrop/src/contract.rs:22-41`. -/
abbrev RawOut := RawOutOf DropVal

/-- The bytes under a place, `/repo/contracts/airdrop/src/state.rs:20-49`. -/
def rawGet (m : Raw V) (p : DropPlace) : Res (Option V) := do
  let k ← p.slot.key
  .ok (m.get k)

/-- `save` of an item or a plain map, `/repo/contracts/airdrop/src/state.rs:42-49`. -/
def rawPut (m : Raw V) (p : DropPlace) (v : DropVal) : Res (Raw V) := do
  let k ← p.slot.key
  .ok (KV.set m k (DropCell.write v))

/-- `remove` of a map entry (used by the indexes), `/repo/contracts/airdrop/src/state.rs:20-40`. -/
def rawRemove (m : Raw V) (p : DropPlace) : Res (Raw V) := do
  let k ← p.slot.key
  .ok (m.filter (fun e => e.1 ≠ k))

/-- `may_load`: nothing, or a value that parses as the declared type, `/repo/contracts/airdrop/src/state.rs:20-49`. -/
def rawMay {α : Type} (m : Raw V) (p : DropPlace) (parse : V → Option α) : Res (Option α) := do
  match ← rawGet m p with
  | none => .ok none
  | some x =>
    match parse x with
    | some a => .ok (some a)
    | none => .error .generic

/-- `load`: like `may_load`, a missing value is an error, `/repo/contracts/airdrop/src/state.rs:20-49`. -/
def rawLoad {α : Type} (m : Raw V) (p : DropPlace) (parse : V → Option α) : Res α := do
  match ← rawMay m p parse with
  | some a => .ok a
  | none => .error .notFound

/-- `LATEST_AIRDROP_ID.load`, `/repo/contracts/airdrop/src/state.rs:42-43`. -/
def rawLatest (m : Raw V) : Res Nat := rawLoad m .latest DropCell.asLatest

/-- `airdrops().may_load`, `/repo/contracts/airdrop/src/state.rs:20-40`. -/
def rawMayDrop (m : Raw V) (id : Nat) : Res (Option Drop) := rawMay m (.drop id) DropCell.asDrop

/-- `airdrops().load`, `/repo/contracts/airdrop/src/state.rs:57`. -/
def rawDrop (m : Raw V) (id : Nat) : Res Drop := rawLoad m (.drop id) DropCell.asDrop

/-- `LABELS.load`, `/repo/contracts/airdrop/src/state.rs:54`. -/
def rawLabel (m : Raw V) (l : String) : Res Nat := rawLoad m (.label l) DropCell.asLabel

/-- `load_airdrop`, `/repo/contracts/airdrop/src/state.rs:51-60`. -/
def rawLoadAirdrop (m : Raw V) (id : DropId) : Res (Nat × Drop) := do
  let n ← match id with
    | .id n => .ok n
    | .label l => rawLabel m l
  let a ← rawDrop m n
  .ok (n, a)

/-- `save_label`, `/repo/contracts/airdrop/src/state.rs:62-78`. -/
def rawSaveLabel (m : Raw V) (id : Nat) (label : Option String) : Res (Raw V) :=
  match label with
  | some l => do
    let old ← rawGet m (.label l)
    require (old.isNone = true) .alreadyExists
    rawPut m (.label l) (.label id)
  | none => .ok m

/-- `assert_not_claimed`, `/repo/contracts/airdrop/src/state.rs:80-93`. -/
def rawNotClaimed (m : Raw V) (id : Nat) (key : String) : Res Unit := do
  let old ← rawMay m (.claim id key) DropCell.asClaim
  require (old = none) .alreadyClaimed

/-- `airdrops().save` (`IndexedMap::save` and `replace` of cw-storage-plus), `/repo/contracts/airdrop/src/state.rs:20-40`:
the index entries of the old value are removed, then those of the new value and the value itself are written. -/
def rawSaveDrop (m : Raw V) (id : Nat) (a : Drop) : Res (Raw V) := do
  let old ← rawMayDrop m id
  let m ← match old with
    | some o => do
      let m ← rawRemove m (.byType (typeName o) id)
      rawRemove m (.byCreator o.creator id)
    | none => .ok m
  let m ← rawPut m (.byType (typeName a) id) (.pkLen 8)
  let m ← rawPut m (.byCreator a.creator id) (.pkLen 8)
  rawPut m (.drop id) (.drop a)

/-- `instantiate`, `/repo/contracts/airdrop/src/contract.rs:9-20`. -/
def rawInstantiate (v : ContractVersion) : Res (Raw V) := do
  let m ← rawPut [] .version (.version v)
  rawPut m .latest (.latest 0)

/-- `register_open`, `/repo/contracts/airdrop/src/execute/register.rs:51-94`. -/
def rawRegisterOpen (m : Raw V) (env : Env) (info : Info) (root : String) (denom : Denom) (label : Option String) :
    Res (RawOutOf V) := do
  let _ ← hexDecode32 root
  let id ← rawLatest m
  let label := ownLabel info.sender label
  let total ← mustPay info denom
  let a : Drop :=
    { kind := .openAirdrop, creator := info.sender, denom := denom, totalAmount := total, totalClaimed := 0
      merkleRoot := root, label := label, createdAt := env.height, closedAt := none }
  let m ← rawSaveLabel m id a.label
  let m ← rawSaveDrop m id a
  let latest ← add64 id 1
  let m ← rawPut m .latest (.latest latest)
  .ok (m, [])

/-- `register_bearer`, `/repo/contracts/airdrop/src/execute/register.rs:111-173`. -/
def rawRegisterBearer (c : Crypto) (m : Raw V) (env : Env) (info : Info) (root : String) (denom : Denom)
    (label : Option String) (signerPub signerSig : String) : Res (RawOutOf V) := do
  let _ ← hexDecode32 root
  let id ← rawLatest m
  let label := ownLabel info.sender label
  let pub ← hexDecode signerPub
  let sig ← hexDecode signerSig
  let signer := c.addrOf pub
  let digest := c.sha (utf8 signer)
  let verified ← c.verify digest sig pub
  require (verified = true) .invalidSignature
  let total ← mustPay info denom
  let signer ← validate env signer
  let a : Drop :=
    { kind := .bearer signer pub, creator := info.sender, denom := denom, totalAmount := total, totalClaimed := 0
      merkleRoot := root, label := label, createdAt := env.height, closedAt := none }
  let m ← rawSaveLabel m id a.label
  let m ← rawSaveDrop m id a
  let latest ← add64 id 1
  let m ← rawPut m .latest (.latest latest)
  .ok (m, [])

/-- `register`, `/repo/contracts/airdrop/src/execute/register.rs:8-37`. -/
def rawRegister (c : Crypto) (m : Raw V) (env : Env) (info : Info) : RegisterPayload → Res (RawOutOf V)
  | .openDrop root denom label => rawRegisterOpen m env info root denom label
  | .bearer root denom pub sig label => rawRegisterBearer c m env info root denom label pub sig

/-- `fund`, `fund_open` and `fund_bearer`, `/repo/contracts/airdrop/src/execute/fund.rs:7-74`; the two variants do the
same. -/
def rawFund (m : Raw V) (info : Info) (id : DropId) : Res (RawOutOf V) := do
  let (n, a) ← rawLoadAirdrop m id
  require (a.creator = info.sender) .unauthorized
  require (a.closedAt = none) .closed
  let extra ← mustPay info a.denom
  let total ← add a.totalAmount extra
  let m ← rawSaveDrop m n { a with totalAmount := total }
  .ok (m, [])

/-- `claim_open`, `/repo/contracts/airdrop/src/execute/claim.rs:66-112`. -/
def rawClaimOpen (c : Crypto) (m : Raw V) (id : DropId) (amount : Nat) (claimer : Addr) (proof : List String) :
    Res (RawOutOf V) := do
  let (n, a) ← rawLoadAirdrop m id
  let a ← a.unwrapOpen
  require (a.closedAt = none) .closed
  rawNotClaimed m n claimer
  verifyMerkleProof c a.merkleRoot proof claimer amount
  let claimed ← add a.totalClaimed amount
  let a := { a with totalClaimed := claimed }
  require (¬ a.totalAmount < a.totalClaimed) .insufficientAirdropFunds
  let m ← rawSaveDrop m n a
  let m ← rawPut m (.claim n claimer) (.claim amount)
  .ok (m, [.send claimer [⟨a.denom, amount⟩]])

/-- `claim_bearer`, `/repo/contracts/airdrop/src/execute/claim.rs:134-192`. -/
def rawClaimBearer (c : Crypto) (m : Raw V) (id : DropId) (amount : Nat) (claimer : Addr)
    (claimHash claimSign : String) (proof : List String) : Res (RawOutOf V) := do
  let (n, a) ← rawLoadAirdrop m id
  let (a, pub) ← a.unwrapBearer
  require (a.closedAt = none) .closed
  rawNotClaimed m n claimHash
  verifyMerkleProof c a.merkleRoot proof claimHash amount
  let digest := c.sha (utf8 (signText claimHash claimer amount))
  let sig ← hexDecode claimSign
  let ok ← c.verify digest sig pub
  require (ok = true) .invalidSignature
  let claimed ← add a.totalClaimed amount
  let a := { a with totalClaimed := claimed }
  require (¬ a.totalAmount < a.totalClaimed) .insufficientAirdropFunds
  let m ← rawSaveDrop m n a
  let m ← rawPut m (.claim n claimHash) (.claim amount)
  .ok (m, [.send claimer [⟨a.denom, amount⟩]])

/-- `claim`, `/repo/contracts/airdrop/src/execute/claim.rs:9-47`. -/
def rawClaim (c : Crypto) (m : Raw V) (env : Env) (info : Info) : ClaimPayload → Res (RawOutOf V)
  | .openDrop id amount account proof => do
    let claimer ← unwrapAddr env account info.sender
    rawClaimOpen c m id amount claimer proof
  | .bearer id amount account hash sign proof => do
    let claimer ← unwrapAddr env account info.sender
    rawClaimBearer c m id amount claimer hash sign proof

/-- `close`, `close_open` and `close_bearer`, `/repo/contracts/airdrop/src/execute/close.rs:7-95`; the two variants do
the same. -/
def rawClose (m : Raw V) (env : Env) (info : Info) (id : DropId) : Res (RawOutOf V) := do
  let (n, a) ← rawLoadAirdrop m id
  require (a.creator = info.sender) .unauthorized
  require (a.closedAt = none) .closed
  let redeem ← sub a.totalAmount a.totalClaimed
  let m ← rawSaveDrop m n { a with closedAt := some env.height }
  .ok (m, [.send a.creator [⟨a.denom, redeem⟩]])

/-- `execute`, `/repo/contracts/airdrop/src/contract.rs:22-41`. -/
def rawExecute (c : Crypto) (m : Raw V) (env : Env) (info : Info) : ExecMsg → Res (RawOutOf V)
  | .register p => rawRegister c m env info p
  | .fund id => rawFund m info id
  | .claim p => rawClaim c m env info p
  | .close id => rawClose m env info id

/-- Delivery of a message: a failed message leaves the storage as it was, `/repo/contracts/airdrop/src/contract.rs:22-41`. -/
def rawStep (c : Crypto) (m : Raw V) (call : Call) : RawOutOf V :=
  match rawExecute c m call.env call.info call.msg with
  | .ok out => out
  | .error _ => (m, [])

/-- A history of messages, `/repo/contracts/airdrop/src/contract.rs:22-41`. -/
def rawRun (c : Crypto) (m : Raw V) : List Call → RawOutOf V
  | [] => (m, [])
  | call :: calls =>
    let (m', ms) := rawStep c m call
    let (m'', ms') := rawRun c m' calls
    (m'', ms ++ ms')

end

end Ibcx.Storage
