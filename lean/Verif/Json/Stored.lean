import Verif.Json.Messages
import Verif.Storage.CoreExec
import Verif.Storage.Exec
/-!
# Stored values as JSON, and the storage as bytes under bytes

`Item` and `Map` of cw-storage-plus 1.2.0 keep `to_json_vec` of a value and read it with `from_json`.  Models the types
declared in `/repo/contracts/core/src/state/` and `/repo/contracts/airdrop/src/airdrop.rs`.
-/

namespace Ibcx.Json
open Ibcx Ibcx.Storage

/-! ## Core -/

/-- `ContractVersion` of cw2 1.1.2, which allows other fields.  Stored by `/repo/contracts/core/src/contract.rs:22`, loaded by
`/repo/packages/utils/src/lib.rs:12`. -/
def versionRecord : Codec Iface.ContractVersion where
  enc v := .obj [("contract", text.enc v.contract), ("version", text.enc v.version)]
  dec j := do
    let fs ← fields j
    once ["contract", "version"] fs
    let contract ← req fs "contract" text
    let version ← req fs "version" text
    some { contract := contract, version := version }
  Fits _ := True

/-- `PauseInfo`, `/repo/contracts/core/src/state/pause.rs:6-11`, and `PausedResponse`,
`/repo/packages/interface/src/core.rs:141-145`. -/
def pauseInfo : Codec Core.PauseInfo where
  enc p := .obj [("paused", flag.enc p.paused), ("expires_at", (uint 64).opt.enc p.expiresAt)]
  dec j := do
    let fs ← record ["paused", "expires_at"] j
    let paused ← req fs "paused" flag
    let expiresAt ← optional fs "expires_at" (uint 64)
    some { paused := paused, expiresAt := expiresAt }
  Fits p := (uint 64).opt.Fits p.expiresAt

/-- `Config`, `/repo/contracts/core/src/state/config.rs:8-14`. -/
def config : Codec Core.Config where
  enc c := .obj [("gov", text.enc c.gov), ("paused", pauseInfo.enc c.paused), ("index_denom", text.enc c.indexDenom),
    ("reserve_denom", text.enc c.reserveDenom)]
  dec j := do
    let fs ← record ["gov", "paused", "index_denom", "reserve_denom"] j
    let gov ← req fs "gov" text
    let paused ← req fs "paused" pauseInfo
    let indexDenom ← req fs "index_denom" text
    let reserveDenom ← req fs "reserve_denom" text
    some { gov := gov, paused := paused, indexDenom := indexDenom, reserveDenom := reserveDenom }
  Fits c := pauseInfo.Fits c.paused

/-- `StreamingFee`, `/repo/contracts/core/src/state/fee.rs:34-41`, and `StreamingFeeResponse`,
`/repo/packages/interface/src/core.rs:156-162`. -/
def streamingFee : Codec Core.StreamingFee where
  enc f := .obj [("rate", decimal.enc f.rate), ("collected", coin.list.enc f.collected), ("freeze", flag.enc f.freeze),
    ("last_collected_at", (uint 64).enc f.lastCollectedAt)]
  dec j := do
    let fs ← record ["rate", "collected", "freeze", "last_collected_at"] j
    let rate ← req fs "rate" decimal
    let collected ← req fs "collected" coin.list
    let freeze ← req fs "freeze" flag
    let lastCollectedAt ← req fs "last_collected_at" (uint 64)
    some { rate := rate, collected := collected, freeze := freeze, lastCollectedAt := lastCollectedAt }
  Fits f := decimal.Fits f.rate ∧ coin.list.Fits f.collected ∧ (uint 64).Fits f.lastCollectedAt

/-- `Fee`, `/repo/contracts/core/src/state/fee.rs:94-101`, and `GetFeeResponse`,
`/repo/packages/interface/src/core.rs:164-170`. -/
def fee : Codec Core.Fee where
  enc f := .obj [("collector", text.enc f.collector), ("mint_fee", decimal.opt.enc f.mintFee),
    ("burn_fee", decimal.opt.enc f.burnFee), ("streaming_fee", streamingFee.opt.enc f.streamingFee)]
  dec j := do
    let fs ← record ["collector", "mint_fee", "burn_fee", "streaming_fee"] j
    let collector ← req fs "collector" text
    let mintFee ← optional fs "mint_fee" decimal
    let burnFee ← optional fs "burn_fee" decimal
    let streamingFee ← optional fs "streaming_fee" streamingFee
    some { collector := collector, mintFee := mintFee, burnFee := burnFee, streamingFee := streamingFee }
  Fits f := decimal.opt.Fits f.mintFee ∧ decimal.opt.Fits f.burnFee ∧ streamingFee.opt.Fits f.streamingFee

/-- `Rebalance`, `/repo/contracts/core/src/state/rebalance.rs:12-18`, and `RebalancePayload`,
`/repo/packages/interface/src/core.rs:179-184`. -/
def rebalance : Codec Core.Rebalance where
  enc r := .obj [("manager", text.opt.enc r.manager), ("deflation", units.enc r.deflation),
    ("inflation", units.enc r.inflation)]
  dec j := do
    let fs ← record ["manager", "deflation", "inflation"] j
    let manager ← optional fs "manager" text
    let deflation ← req fs "deflation" units
    let inflation ← req fs "inflation" units
    some { manager := manager, deflation := deflation, inflation := inflation }
  Fits r := units.Fits r.deflation ∧ units.Fits r.inflation

/-- `TradeInfo`, `/repo/contracts/core/src/state/rebalance.rs:90-96`. -/
def tradeInfo : Codec Core.TradeInfo where
  enc t := .obj [("routes", swapRoute.list.enc t.routes), ("cooldown", (uint 64).enc t.cooldown),
    ("max_trade_amount", u128.enc t.maxTradeAmount), ("last_traded_at", (uint 64).opt.enc t.lastTradedAt)]
  dec j := do
    let fs ← record ["routes", "cooldown", "max_trade_amount", "last_traded_at"] j
    let routes ← req fs "routes" swapRoute.list
    let cooldown ← req fs "cooldown" (uint 64)
    let max ← req fs "max_trade_amount" u128
    let last ← optional fs "last_traded_at" (uint 64)
    some { routes := routes, cooldown := cooldown, maxTradeAmount := max, lastTradedAt := last }
  Fits t := swapRoute.list.Fits t.routes ∧ (uint 64).Fits t.cooldown ∧ u128.Fits t.maxTradeAmount ∧
    (uint 64).opt.Fits t.lastTradedAt

/-- The text kept for a value, by the type declared for its place, `/repo/contracts/core/src/state/mod.rs:16-38`. -/
def coreValText : CoreVal → Bytes
  | .version v => versionRecord.toText v
  | .config c => config.toText c
  | .pendingGov a => text.toText a
  | .fee f => fee.toText f
  | .totalSupply n => u128.toText n
  | .units u => units.toText u
  | .rebalance r => rebalance.toText r
  | .tradeInfo t => tradeInfo.toText t

/-! ## Airdrop -/

/-- `OpenAirdrop`, `/repo/contracts/airdrop/src/airdrop.rs:7-19`. -/
def openDrop : Codec Airdrop.Drop where
  enc a := .obj [("creator", text.enc a.creator), ("denom", text.enc a.denom), ("total_amount", u128.enc a.totalAmount),
    ("total_claimed", u128.enc a.totalClaimed), ("merkle_root", text.enc a.merkleRoot), ("label", text.opt.enc a.label),
    ("created_at", (uint 64).enc a.createdAt), ("closed_at", (uint 64).opt.enc a.closedAt)]
  dec j := do
    let fs ← record ["creator", "denom", "total_amount", "total_claimed", "merkle_root", "label", "created_at", "closed_at"] j
    let creator ← req fs "creator" text
    let denom ← req fs "denom" text
    let totalAmount ← req fs "total_amount" u128
    let totalClaimed ← req fs "total_claimed" u128
    let merkleRoot ← req fs "merkle_root" text
    let label ← optional fs "label" text
    let createdAt ← req fs "created_at" (uint 64)
    let closedAt ← optional fs "closed_at" (uint 64)
    some { kind := .openAirdrop, creator := creator, denom := denom, totalAmount := totalAmount, totalClaimed := totalClaimed
           merkleRoot := merkleRoot, label := label, createdAt := createdAt, closedAt := closedAt }
  Fits a := a.kind = .openAirdrop ∧ u128.Fits a.totalAmount ∧ u128.Fits a.totalClaimed ∧ (uint 64).Fits a.createdAt ∧
    (uint 64).opt.Fits a.closedAt

/-- `BearerAirdrop`, `/repo/contracts/airdrop/src/airdrop.rs:27-41`; the key is written as base64. -/
def bearerDrop : Codec Airdrop.Drop where
  enc a :=
    let (signer, pub) := match a.kind with
      | .bearer s p => (s, p)
      | .openAirdrop => ("", [])
    .obj [("creator", text.enc a.creator), ("signer", text.enc signer), ("signer_pub", binary.enc pub),
      ("denom", text.enc a.denom), ("total_amount", u128.enc a.totalAmount), ("total_claimed", u128.enc a.totalClaimed),
      ("merkle_root", text.enc a.merkleRoot), ("label", text.opt.enc a.label), ("created_at", (uint 64).enc a.createdAt),
      ("closed_at", (uint 64).opt.enc a.closedAt)]
  dec j := do
    let fs ← record ["creator", "signer", "signer_pub", "denom", "total_amount", "total_claimed", "merkle_root", "label",
      "created_at", "closed_at"] j
    let creator ← req fs "creator" text
    let signer ← req fs "signer" text
    let signerPub ← req fs "signer_pub" binary
    let denom ← req fs "denom" text
    let totalAmount ← req fs "total_amount" u128
    let totalClaimed ← req fs "total_claimed" u128
    let merkleRoot ← req fs "merkle_root" text
    let label ← optional fs "label" text
    let createdAt ← req fs "created_at" (uint 64)
    let closedAt ← optional fs "closed_at" (uint 64)
    some { kind := .bearer signer signerPub, creator := creator, denom := denom, totalAmount := totalAmount
           totalClaimed := totalClaimed, merkleRoot := merkleRoot, label := label, createdAt := createdAt
           closedAt := closedAt }
  Fits a := a.kind ≠ .openAirdrop ∧ u128.Fits a.totalAmount ∧ u128.Fits a.totalClaimed ∧ (uint 64).Fits a.createdAt ∧
    (uint 64).opt.Fits a.closedAt

/-- `Airdrop`, `/repo/contracts/airdrop/src/airdrop.rs:49-54`. -/
def drop : Codec Airdrop.Drop where
  enc a := match a.kind with
    | .openAirdrop => variant "open" (openDrop.enc a)
    | .bearer _ _ => variant "bearer" (bearerDrop.enc a)
  dec := oneOf
    [("open", fun body => do
        let a ← openDrop.dec body
        some a),
     ("bearer", fun body => do
        let a ← bearerDrop.dec body
        some a)]
  Fits a := u128.Fits a.totalAmount ∧ u128.Fits a.totalClaimed ∧ (uint 64).Fits a.createdAt ∧
    (uint 64).opt.Fits a.closedAt

/-- The text kept for a value, by the type declared for its place, `/repo/contracts/airdrop/src/state.rs:20-49`; an index
entry keeps the length of the primary key as `u32`. -/
def dropValText : DropVal → Bytes
  | .version v => versionRecord.toText v
  | .latest n => (uint 64).toText n
  | .drop a => drop.toText a
  | .label n => (uint 64).toText n
  | .claim n => u128.toText n
  | .pkLen n => (uint 32).toText n

/-! ## The storage -/

/-- The storage of the core contract as the chain keeps it, bytes under bytes: `Item` and `Map` of cw-storage-plus 1.2.0 write
`to_json_vec` of a value and read it with `from_json`, by the type declared for the place,
`/repo/contracts/core/src/state/mod.rs:16-38`. -/
instance coreTextCell : CoreCell Bytes where
  write := coreValText
  asVersion := versionRecord.ofText
  asConfig := config.ofText
  asAddr := text.ofText
  asFee := fee.ofText
  asSupply := u128.ofText
  asUnits := units.ofText
  asRebalance := rebalance.ofText
  asTradeInfo := tradeInfo.ofText

/-- The storage of the airdrop contract as the chain keeps it, bytes under bytes,
`/repo/contracts/airdrop/src/state.rs:20-49`. -/
instance dropTextCell : DropCell Bytes where
  write := dropValText
  asVersion := versionRecord.ofText
  asLatest := (uint 64).ofText
  asDrop := drop.ofText
  asPkLen := (uint 32).ofText
  asLabel := (uint 64).ofText
  asClaim := u128.ofText

/-- The bytes of a storage whose values are given, `/repo/contracts/core/src/state/mod.rs:16-38`. -/
def texts {V : Type} (valText : V → Bytes) (m : Raw V) : Raw Bytes := m.map fun e => (e.1, valText e.2)

end Ibcx.Json
