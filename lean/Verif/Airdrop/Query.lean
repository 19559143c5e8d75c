import Verif.Airdrop.Exec
import Verif.Iface.Page
/-!
# Queries of the airdrop contract

Models `/repo/contracts/airdrop/src/query/`.
-/

namespace Ibcx.Airdrop
open Ibcx Ibcx.Iface

/-- `get_airdrop`, `/repo/contracts/airdrop/src/query/airdrop.rs:16-18`; the response (`Airdrop::to_resp`,
`/repo/contracts/airdrop/src/airdrop.rs:88-116`) has the fields
of the stored record. -/
def getAirdrop (s : State) (id : DropId) : Res (Nat × Drop) := loadAirdrop s id

/-- `latest_airdrop_id`, `/repo/contracts/airdrop/src/query/airdrop.rs:20-22`. -/
def latestAirdropId (s : State) : Nat := s.latest

/-- `get_claim`, `/repo/contracts/airdrop/src/query/claim.rs:16-30`. -/
def getClaim (s : State) (id : DropId) (key : String) : Res Nat := do
  let (n, _) ← loadAirdrop s id
  s.claims.load (n, key)

/-- `list_claims`, `/repo/contracts/airdrop/src/query/claim.rs:32-65`: the entries under the prefix `airdrop_id`. -/
def listClaims (s : State) (id : DropId) (start : Option String) (limit : Option Nat) (order : Option RangeOrder) :
    Res (List (String × Nat)) := do
  let (n, _) ← loadAirdrop s id
  page strLt ((s.claims.filter (fun e => e.1.1 = n)).map (fun e => (e.1.2, e.2))) start limit order

/-- `label.split('/')`.  `/repo/contracts/airdrop/src/query/label.rs:13,33`. -/
def splitSlash : List Char → List (List Char)
  | [] => [[]]
  | c :: cs =>
    if c = '/' then [] :: splitSlash cs
    else
      match splitSlash cs with
      | [] => [[c]]
      | p :: ps => (c :: p) :: ps

/-- `parts.join("/")`.  `/repo/contracts/airdrop/src/query/label.rs:15,35`. -/
def joinSlash : List (List Char) → List Char
  | [] => []
  | [p] => p
  | p :: q :: ps => p ++ '/' :: joinSlash (q :: ps)

/-- `GetLabelResponse`, `/repo/packages/interface/src/airdrop.rs:384-388`. -/
structure LabelResp where
  creator : String
  label : String
  airdropId : Nat
deriving DecidableEq, Repr

/-- Splitting of a stored label, `/repo/contracts/airdrop/src/query/label.rs:13-15,33-35`. -/
def labelResp (label : String) (id : Nat) : LabelResp :=
  let parts := splitSlash label.toList
  { creator := String.ofList (parts.headD []), label := String.ofList (joinSlash parts.tail), airdropId := id }

/-- `get_label`, `/repo/contracts/airdrop/src/query/label.rs:10-22`. -/
def getLabel (s : State) (label : String) : Res LabelResp := do
  let id ← s.labels.load label
  .ok (labelResp label id)

/-- `list_labels`, `/repo/contracts/airdrop/src/query/label.rs:24-54`. -/
def listLabels (s : State) (start : Option String) (limit : Option Nat) (order : Option RangeOrder) :
    Res (List LabelResp) := do
  let es ← page strLt s.labels start limit order
  .ok (es.map (fun e => labelResp e.1 e.2))

/-- `ListAirdropsQueryOptions::ByID`, `/repo/contracts/airdrop/src/query/airdrop.rs:39-53`. -/
def listById (s : State) (start : Option Nat) (limit : Option Nat) (order : Option RangeOrder) :
    Res (List (Nat × Drop)) :=
  page natLt s.drops start limit order

/-- `AirdropType`, `/repo/packages/interface/src/airdrop.rs:26-29`. -/
inductive DropType where
  | openDrop
  | bearer
deriving DecidableEq, Repr

/-- `Airdrop::type_of`, `/repo/contracts/airdrop/src/airdrop.rs:57-62`. -/
def Drop.typeOf (a : Drop) : DropType :=
  match a.kind with
  | .openAirdrop => .openDrop
  | .bearer _ _ => .bearer

/-- `ListAirdropsQueryOptions::ByType`, `/repo/contracts/airdrop/src/query/airdrop.rs:55-73`. -/
def listByType (s : State) (typ : DropType) (start : Option Nat) (limit : Option Nat) (order : Option RangeOrder) :
    Res (List (Nat × Drop)) :=
  page natLt (s.drops.filter (fun e => e.2.typeOf = typ)) start limit order

/-- `ListAirdropsQueryOptions::ByCreator`, `/repo/contracts/airdrop/src/query/airdrop.rs:92-110`. -/
def listByCreator (s : State) (env : Env) (creator : String) (start : Option Nat) (limit : Option Nat)
    (order : Option RangeOrder) : Res (List (Nat × Drop)) := do
  let _ ← rangeOption start limit order
  let creator ← validate env creator
  page natLt (s.drops.filter (fun e => e.2.creator = creator)) start limit order

/-- Loading of the airdrops of a page of labels, `/repo/contracts/airdrop/src/query/airdrop.rs:31-36`. -/
def loadLabelled (s : State) : List (String × Nat) → Res (List (Nat × Drop))
  | [] => .ok []
  | e :: es => do
    let a ← s.drops.load e.2
    let rest ← loadLabelled s es
    .ok ((e.2, a) :: rest)

/-- `ListAirdropsQueryOptions::ByLabel`, `/repo/contracts/airdrop/src/query/airdrop.rs:75-90`. -/
def listByLabel (s : State) (start : Option String) (limit : Option Nat) (order : Option RangeOrder) :
    Res (List (Nat × Drop)) := do
  let es ← page strLt s.labels start limit order
  loadLabelled s es

/-- `verify_claim`, `/repo/contracts/airdrop/src/query/claim.rs:67-132`.  `.ok true` is the answer `valid`, `.ok
false` an answer with a
reason; `account.unwrap()` aborts when no account is given. -/
def verifyClaim (c : Crypto) (s : State) : ClaimPayload → Res Bool
  | .openDrop id amount account proof => do
    let (_, a) ← loadAirdrop s id
    let a ← a.unwrapOpen
    if a.closedAt ≠ none then .ok false
    else
      match account with
      | none => .error .panic
      | some acc =>
        match verifyMerkleProof c a.merkleRoot proof acc amount with
        | .ok _ => .ok true
        | .error _ => .ok false
  | .bearer id amount account hash sign proof =>
    match account with
    | none => .error .panic
    | some acc => do
      let (_, a) ← loadAirdrop s id
      let (a, pub) ← a.unwrapBearer
      if a.closedAt ≠ none then .ok false
      else
        match verifyMerkleProof c a.merkleRoot proof acc amount with
        | .error _ => .ok false
        | .ok _ => do
          let digest := c.sha (utf8 (signText hash acc amount))
          let sig ← hexDecode sign
          let ok ← c.verify digest sig pub
          .ok ok

end Ibcx.Airdrop
