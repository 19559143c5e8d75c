import Verif.Json.Contract
/-!
# Queries and migrations as the chain runs them

The `query` and `migrate` entry points on messages that are bytes and a storage of bytes.  The listings scan the storage and
read the keys (`KeyDeserialize` of cw-storage-plus 1.2.0) and the values they find.
-/

namespace Ibcx.Json
open Ibcx Ibcx.Storage

/-- `String::from_utf8` of the key bytes: `KeyDeserialize` for `String` and `&str`, under the listings
`/repo/contracts/core/src/query.rs:145-165`, `/repo/contracts/airdrop/src/query/claim.rs:46-62`. -/
def textKey (b : Bytes) : Option String := (fromUtf8 b).map String.ofList

/-- `u64::from_be_bytes` of exactly eight key bytes: `KeyDeserialize` for `u64`, under the listings
`/repo/contracts/airdrop/src/query/airdrop.rs:39-110`. -/
def u64Key (b : Bytes) : Option Nat :=
  if b.length = 8 then some (b.foldl (fun n x => n * 256 + x) 0) else none

/-- `deserialize_kv` for the entries of a scan, and `collect::<StdResult<_>>()?`: the first entry that cannot be read is an
error.  `/repo/contracts/core/src/query.rs:155-163`, `/repo/contracts/airdrop/src/query/airdrop.rs:46-50`. -/
def readEntries {K T : Type} (key : Bytes → Option K) (val : Bytes → Option T) : List (Bytes × Bytes) → Res (List (K × T))
  | [] => .ok []
  | e :: es =>
    match key e.1, val e.2 with
    | some k, some t => do
      let rest ← readEntries key val es
      .ok ((k, t) :: rest)
    | _, _ => .error .generic

/-- `Prefix::new` of cw-storage-plus 1.2.0 aborts on a part longer than `0xFFFF` bytes, after `range_option` has accepted the
limits.  `/repo/contracts/core/src/query.rs:152-155`, `/repo/contracts/airdrop/src/query/airdrop.rs:98-103`. -/
def checkPrefix (start : Option Bytes) (limit : Option Nat) (order : Option Iface.RangeOrder) (part : Bytes) : Res Unit := do
  let _ ← Iface.rangeOption start limit order
  require (part.length ≤ 0xFFFF) .panic

/-! ## Core -/

/-- `get_balance`, `/repo/contracts/core/src/query.rs:21-27`; the bank module's answer is a parameter. -/
def coreWasmBalance (bank : Addr → Denom → Nat) (b : Raw Bytes) (account : Addr) : Res Nat := do
  let config ← coreLoad b .config CoreCell.asConfig
  .ok (bank account config.indexDenom)

/-- `list_trade_info`, `/repo/contracts/core/src/query.rs:145-165`. -/
def coreWasmRoutes (b : Raw Bytes) (denomIn : Denom) (start : Option Denom) (limit : Option Nat)
    (order : Option Iface.RangeOrder) : Res (List TradePayload) := do
  checkPrefix (start.map textBytes) limit order (textBytes denomIn)
  let es ← rawListTradeInfo b denomIn start limit order
  let es ← readEntries textKey CoreCell.asTradeInfo es
  .ok (es.map fun e => convTradeInfo denomIn e.1 e.2)

/-- `query` of the core contract on the byte storage, `/repo/contracts/core/src/contract.rs:137-179`. -/
def coreWasmAnswer (bank : Addr → Denom → Nat) (b : Raw Bytes) (env : Env) : CoreQuery → Res Bytes
  | .getBalance a => answer u128 (coreWasmBalance bank b a)
  | .getTotalSupply => answer u128 (coreGetTotalSupply b)
  | .getConfig t => answer configResp (coreGetConfig b env t)
  | .getFee t => answer fee (coreGetFee b env t)
  | .getPortfolio t => answer portfolioResp (coreGetPortfolio b env t)
  | .getRebalance => answer rebalanceResp (coreGetRebalance b)
  | .getTradeInfo i o => answer tradeInfoResp ((coreGetTradeInfo b i o).map (Option.map (convTradeInfo i o)))
  | .listTradeInfo i start limit order => answer tradePayload.list (coreWasmRoutes b i start limit order)
  | .simulateMint amount funds t => answer simMintResp (coreSimulateMint b env amount funds t)
  | .simulateBurn amount t => answer simBurnResp (coreSimulateBurn b env amount t)

/-- `query` of the core contract, `/repo/contracts/core/src/contract.rs:137-179`. -/
def coreWasmQuery (bank : Addr → Denom → Nat) (b : Raw Bytes) (env : Env) (text : Bytes) : Res Bytes := do
  let q ← readMsg coreQuery text
  coreWasmAnswer bank b env q

/-- `migrate` of the core contract, `/repo/contracts/core/src/contract.rs:181-190`; `v` is the name and version of the new
code, `parse` is `Version::parse`. -/
def coreWasmMigrate (parse : String → Option Iface.Version) (v : Iface.ContractVersion) (b : Raw Bytes) (text : Bytes) :
    Res (Raw Bytes) := do
  let force ← readMsg migrateMsg text
  coreMigrate parse b v.contract v.version force

/-! ## Airdrop -/

/-- `get_claim`, `/repo/contracts/airdrop/src/query/claim.rs:16-30`. -/
def dropWasmClaim (b : Raw Bytes) (id : Airdrop.DropId) (key : String) : Res ClaimResp := do
  let (n, _) ← rawLoadAirdrop b id
  let amount ← rawLoad b (.claim n key) DropCell.asClaim
  .ok { id := n, amount := amount, claimKey := key }

/-- `list_claims`, `/repo/contracts/airdrop/src/query/claim.rs:32-65`. -/
def dropWasmClaims (b : Raw Bytes) (id : Airdrop.DropId) (start : Option String) (limit : Option Nat)
    (order : Option Iface.RangeOrder) : Res (List ClaimResp) := do
  let (n, _) ← rawLoadAirdrop b id
  let es ← rawListClaims b n start limit order
  let es ← readEntries textKey DropCell.asClaim es
  .ok (es.map fun e => { id := n, amount := e.2, claimKey := e.1 })

/-- `get_label`, `/repo/contracts/airdrop/src/query/label.rs:10-22`. -/
def dropWasmLabel (b : Raw Bytes) (label : String) : Res Airdrop.LabelResp := do
  let id ← rawLabel b label
  .ok (Airdrop.labelResp label id)

/-- `list_labels`, `/repo/contracts/airdrop/src/query/label.rs:24-54`. -/
def dropWasmLabels (b : Raw Bytes) (start : Option String) (limit : Option Nat) (order : Option Iface.RangeOrder) :
    Res (List Airdrop.LabelResp) := do
  let es ← rawListLabels b start limit order
  let es ← readEntries textKey DropCell.asLabel es
  .ok (es.map fun e => Airdrop.labelResp e.1 e.2)

/-- Loading of the airdrops of a page of labels, `/repo/contracts/airdrop/src/query/airdrop.rs:31-36`. -/
def loadLabelledRaw (b : Raw Bytes) : List (String × Nat) → Res (List (Nat × Airdrop.Drop))
  | [] => .ok []
  | e :: es => do
    let a ← rawDrop b e.2
    let rest ← loadLabelledRaw b es
    .ok ((e.2, a) :: rest)

/-- `list_airdrops`, `/repo/contracts/airdrop/src/query/airdrop.rs:24-112`. -/
def dropWasmList (b : Raw Bytes) (env : Env) : ListOption → Res (List (Nat × Airdrop.Drop))
  | .byId start limit order => do
    let es ← rawListById b start limit order
    readEntries u64Key DropCell.asDrop es
  | .byType t start limit order => do
    let es ← rawListByType DropCell.asPkLen b t start limit order
    readEntries u64Key DropCell.asDrop es
  | .byLabel start limit order => do
    let es ← rawListLabels b start limit order
    let es ← readEntries textKey DropCell.asLabel es
    loadLabelledRaw b es
  | .byCreator creator start limit order => do
    let _ ← Iface.rangeOption start limit order
    let creator ← validate env creator
    checkPrefix (start.map u64Bytes) limit order (textBytes creator)
    let es ← rawListByCreator DropCell.asPkLen b creator start limit order
    readEntries u64Key DropCell.asDrop es

/-- `verify_claim`, `/repo/contracts/airdrop/src/query/claim.rs:67-132`: what is checked when the airdrop is loaded.  Simplified:
the text of the reason is a parameter. -/
def dropWasmVerify (c : Airdrop.Crypto) (reason : Airdrop.ClaimPayload → String) (b : Raw Bytes) :
    Airdrop.ClaimPayload → Res VerifyResp
  | .openDrop id amount account proof => do
    let (_, a) ← rawLoadAirdrop b id
    let a ← a.unwrapOpen
    if a.closedAt ≠ none then .ok { valid := false, reason := some (reason (.openDrop id amount account proof)) }
    else
      match account with
      | none => .error .panic
      | some acc =>
        match Airdrop.verifyMerkleProof c a.merkleRoot proof acc amount with
        | .ok _ => .ok { valid := true, reason := none }
        | .error _ => .ok { valid := false, reason := some (reason (.openDrop id amount account proof)) }
  | .bearer id amount account hash sign proof =>
    match account with
    | none => .error .panic
    | some acc => do
      let no : VerifyResp := { valid := false, reason := some (reason (.bearer id amount account hash sign proof)) }
      let (_, a) ← rawLoadAirdrop b id
      let (a, pub) ← a.unwrapBearer
      if a.closedAt ≠ none then .ok no
      else
        match Airdrop.verifyMerkleProof c a.merkleRoot proof acc amount with
        | .error _ => .ok no
        | .ok _ => do
          let digest := c.sha (Airdrop.utf8 (Airdrop.signText hash acc amount))
          let sig ← Airdrop.hexDecode sign
          let ok ← c.verify digest sig pub
          if ok then .ok { valid := true, reason := none } else .ok no

/-- `query` of the airdrop contract on the byte storage, `/repo/contracts/airdrop/src/contract.rs:50-76`. -/
def dropWasmAnswer (c : Airdrop.Crypto) (reason : Airdrop.ClaimPayload → String) (b : Raw Bytes) (env : Env) :
    DropQuery → Res Bytes
  | .getAirdrop id => answer dropResp (rawLoadAirdrop b id)
  | .listAirdrops o => answer dropResp.list (dropWasmList b env o)
  | .latestAirdropId => answer (uint 64) (rawLatest b)
  | .getClaim id key => answer claimResp (dropWasmClaim b id key)
  | .verifyClaim p => answer verifyResp (dropWasmVerify c reason b p)
  | .listClaims id start limit order => answer claimResp.list (dropWasmClaims b id start limit order)
  | .getLabel l => answer labelResp (dropWasmLabel b l)
  | .listLabels start limit order => answer labelResp.list (dropWasmLabels b start limit order)

/-- `query` of the airdrop contract, `/repo/contracts/airdrop/src/contract.rs:50-76`. -/
def dropWasmQuery (c : Airdrop.Crypto) (reason : Airdrop.ClaimPayload → String) (b : Raw Bytes) (env : Env) (text : Bytes) :
    Res Bytes := do
  let q ← readMsg dropQuery text
  dropWasmAnswer c reason b env q

/-- `migrate` of the airdrop contract, `/repo/contracts/airdrop/src/contract.rs:78-87`, with `store_version` of
`/repo/packages/utils/src/lib.rs:7-31`; `v` is the name and version of the new code, `parse` is `Version::parse`. -/
def dropWasmMigrate (parse : String → Option Iface.Version) (v : Iface.ContractVersion) (b : Raw Bytes) (text : Bytes) :
    Res (Raw Bytes) := do
  let force ← readMsg migrateMsg text
  if force.getD false = false then do
    let stored ← rawLoad b .version DropCell.asVersion
    require (stored.contract = v.contract) .generic
    match parse stored.version, parse v.version with
    | some cv, some nv => do
      require (Iface.cmpVersion cv nv = .lt) .generic
      rawPut b .version (.version v)
    | _, _ => .error .generic
  else rawPut b .version (.version v)

end Ibcx.Json
