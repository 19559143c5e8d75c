import Verif.KV
import Verif.Airdrop.Verify
/-!
# State of the airdrop contract

Models `/repo/contracts/airdrop/src/state.rs` and `/repo/contracts/airdrop/src/airdrop.rs`.
-/

namespace Ibcx.Airdrop
open Ibcx

/-- The variant of an airdrop with the fields only bearer airdrops have,
`/repo/contracts/airdrop/src/airdrop.rs:28-31,50-54`. -/
inductive Kind where
  | openAirdrop
  | bearer (signer : Addr) (signerPub : Bytes)
deriving DecidableEq, Repr

/-- `Airdrop` (`OpenAirdrop`, `BearerAirdrop`), `/repo/contracts/airdrop/src/airdrop.rs:7-54`.  The common fields of
the two structs are
shared here; the variant is in `kind`. -/
structure Drop where
  kind : Kind
  creator : Addr
  denom : Denom
  totalAmount : Nat
  totalClaimed : Nat
  merkleRoot : String
  label : Option String
  createdAt : Nat
  closedAt : Option Nat
deriving DecidableEq, Repr

/-- Storage, `/repo/contracts/airdrop/src/state.rs:20-49`.  Simplified: the two secondary indexes (`by_type`,
`by_creator`) are not stored;
listings over them filter the primary map (the stored indexes are in `Verif/Storage/Contracts.lean`, C93). -/
structure State where
  latest : Nat                       -- LATEST_AIRDROP_ID
  drops : KV Nat Drop                -- airdrops()
  labels : KV String Nat             -- LABELS
  claims : KV (Nat × String) Nat     -- CLAIM_LOGS
deriving DecidableEq, Repr

/-- `AirdropId`, `/repo/packages/interface/src/airdrop.rs:10-13`. -/
inductive DropId where
  | id (n : Nat)
  | label (l : String)
deriving DecidableEq, Repr

/-- `load_airdrop`, `/repo/contracts/airdrop/src/state.rs:51-60`. -/
def loadAirdrop (s : State) (id : DropId) : Res (Nat × Drop) := do
  let n ← match id with
    | .id n => .ok n
    | .label l => s.labels.load l
  let a ← s.drops.load n
  .ok (n, a)

/-- `save_label`, `/repo/contracts/airdrop/src/state.rs:62-78`. -/
def saveLabel (labels : KV String Nat) (id : Nat) (label : Option String) : Res (KV String Nat) :=
  match label with
  | some l => do
    require (labels.get l = none) .alreadyExists
    .ok (labels.set l id)
  | none => .ok labels

/-- `assert_not_claimed`, `/repo/contracts/airdrop/src/state.rs:80-93`. -/
def assertNotClaimed (s : State) (id : Nat) (key : String) : Res Unit :=
  require (s.claims.get (id, key) = none) .alreadyClaimed

/-- `Airdrop::unwrap_open`, `/repo/contracts/airdrop/src/airdrop.rs:71-76`. -/
def Drop.unwrapOpen (a : Drop) : Res Drop :=
  match a.kind with
  | .openAirdrop => .ok a
  | .bearer _ _ => .error .wrongType

/-- `Airdrop::unwrap_bearer`, `/repo/contracts/airdrop/src/airdrop.rs:78-86`; also returns the signer's public key. -/
def Drop.unwrapBearer (a : Drop) : Res (Drop × Bytes) :=
  match a.kind with
  | .bearer _ pub => .ok (a, pub)
  | .openAirdrop => .error .wrongType

end Ibcx.Airdrop
