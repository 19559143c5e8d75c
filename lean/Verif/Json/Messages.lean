import Verif.Json.Codec
import Verif.Core.State
import Verif.Airdrop.Query
import Verif.Periphery.Query
/-!
# The messages of the three contracts as JSON

Models the `#[cw_serde]` types of `/repo/packages/interface/src/core.rs`, `airdrop.rs`, `periphery.rs` and `types.rs`.
Names of variants are in snake case as serde computes it: an underscore before every capital but the first.
-/

namespace Ibcx.Json
open Ibcx

/-- `SwapRoute`, `/repo/packages/interface/src/types.rs:12-16`. -/
def swapRoute : Codec SwapRoute where
  enc r := .obj [("pool_id", (uint 64).enc r.poolId), ("token_denom", text.enc r.tokenDenom)]
  dec j := do
    let fs ← record ["pool_id", "token_denom"] j
    let poolId ← req fs "pool_id" (uint 64)
    let tokenDenom ← req fs "token_denom" text
    some ⟨poolId, tokenDenom⟩
  Fits r := (uint 64).Fits r.poolId

/-- `Units`, `Vec<(String, Decimal)>`: `/repo/packages/interface/src/core.rs:28`,
`/repo/contracts/core/src/state/units.rs:8-12`. -/
def units : Codec Core.Units := (text.pair decimal).list

/-- `RangeOrder`, `/repo/packages/interface/src/types.rs:151-155`. -/
def rangeOrder : Codec Iface.RangeOrder where
  enc | .asc => .str "asc" | .desc => .str "desc"
  dec | .str "asc" => some .asc | .str "desc" => some .desc | _ => none
  Fits _ := True

/-- `MigrateMsg` of all three contracts, `/repo/packages/interface/src/core.rs:221-224`,
`/repo/packages/interface/src/airdrop.rs:393-396`, `/repo/packages/interface/src/periphery.rs:195-198`: the field
`force`. -/
def migrateMsg : Codec (Option Bool) where
  enc f := .obj [("force", flag.opt.enc f)]
  dec j := do
    let fs ← record ["force"] j
    optional fs "force" flag
  Fits _ := True

/-! ## Core -/

/-- `StreamingFeePayload`, `/repo/packages/interface/src/core.rs:6-11`. -/
def streamingFeePayload : Codec Core.StreamingFeePayload where
  enc p := .obj [("rate", decimal.enc p.rate), ("freeze", flag.enc p.freeze)]
  dec j := do
    let fs ← record ["rate", "freeze"] j
    let rate ← req fs "rate" decimal
    let freeze ← req fs "freeze" flag
    some { rate := rate, freeze := freeze }
  Fits p := decimal.Fits p.rate

/-- `FeePayload`, `/repo/packages/interface/src/core.rs:13-20`. -/
def feePayload : Codec Core.FeePayload where
  enc p := .obj [("collector", text.enc p.collector), ("mint_fee", decimal.opt.enc p.mintFee),
    ("burn_fee", decimal.opt.enc p.burnFee), ("streaming_fee", streamingFeePayload.opt.enc p.streamingFee)]
  dec j := do
    let fs ← record ["collector", "mint_fee", "burn_fee", "streaming_fee"] j
    let collector ← req fs "collector" text
    let mintFee ← optional fs "mint_fee" decimal
    let burnFee ← optional fs "burn_fee" decimal
    let streamingFee ← optional fs "streaming_fee" streamingFeePayload
    some { collector := collector, mintFee := mintFee, burnFee := burnFee, streamingFee := streamingFee }
  Fits p := decimal.opt.Fits p.mintFee ∧ decimal.opt.Fits p.burnFee ∧ streamingFeePayload.opt.Fits p.streamingFee

/-- `InstantiateMsg` of the core contract, `/repo/packages/interface/src/core.rs:22-30`. -/
def coreInstantiate : Codec Core.InstantiateMsg where
  enc m := .obj [("gov", text.enc m.gov), ("fee", feePayload.enc m.fee), ("index_denom", text.enc m.indexDenom),
    ("index_units", units.enc m.indexUnits), ("reserve_denom", text.enc m.reserveDenom)]
  dec j := do
    let fs ← record ["gov", "fee", "index_denom", "index_units", "reserve_denom"] j
    let gov ← req fs "gov" text
    let fee ← req fs "fee" feePayload
    let indexDenom ← req fs "index_denom" text
    let indexUnits ← req fs "index_units" units
    let reserveDenom ← req fs "reserve_denom" text
    some { gov := gov, fee := fee, indexDenom := indexDenom, indexUnits := indexUnits, reserveDenom := reserveDenom }
  Fits m := feePayload.Fits m.fee ∧ units.Fits m.indexUnits

/-- `GovMsg`, `/repo/packages/interface/src/core.rs:32-53`. -/
def govMsg : Codec Core.GovMsg where
  enc
    | .pause e => variant "pause" (.obj [("expires_at", (uint 64).opt.enc e)])
    | .release => variant "release" (.obj [])
    | .updateGov g => variant "update_gov" (text.enc g)
    | .acceptGov => variant "accept_gov" (.obj [])
    | .revokeGov => variant "revoke_gov" (.obj [])
    | .updateFeeStrategy f => variant "update_fee_strategy" (feePayload.enc f)
    | .updateRebalanceManager m => variant "update_rebalance_manager" (text.opt.enc m)
    | .updateReserveDenom d => variant "update_reserve_denom" (text.enc d)
    | .updateTradeInfo d routes cooldown max => variant "update_trade_info" (.obj [("denom", text.enc d),
        ("routes", swapRoute.list.enc routes), ("cooldown", (uint 64).enc cooldown), ("max_trade_amount", u128.enc max)])
  dec := oneOf
    [("pause", fun body => do
        let fs ← record ["expires_at"] body
        let e ← optional fs "expires_at" (uint 64)
        some (.pause e)),
     ("release", fun body => do
        let _ ← record [] body
        some .release),
     ("update_gov", fun body => do
        let g ← text.dec body
        some (.updateGov g)),
     ("accept_gov", fun body => do
        let _ ← record [] body
        some .acceptGov),
     ("revoke_gov", fun body => do
        let _ ← record [] body
        some .revokeGov),
     ("update_fee_strategy", fun body => do
        let f ← feePayload.dec body
        some (.updateFeeStrategy f)),
     ("update_rebalance_manager", fun body => do
        let m ← text.opt.dec body
        some (.updateRebalanceManager m)),
     ("update_reserve_denom", fun body => do
        let d ← text.dec body
        some (.updateReserveDenom d)),
     ("update_trade_info", fun body => do
        let fs ← record ["denom", "routes", "cooldown", "max_trade_amount"] body
        let d ← req fs "denom" text
        let routes ← req fs "routes" swapRoute.list
        let cooldown ← req fs "cooldown" (uint 64)
        let max ← req fs "max_trade_amount" u128
        some (.updateTradeInfo d routes cooldown max))]
  Fits
    | .pause e => (uint 64).opt.Fits e
    | .updateFeeStrategy f => feePayload.Fits f
    | .updateTradeInfo _ routes cooldown max => swapRoute.list.Fits routes ∧ (uint 64).Fits cooldown ∧ u128.Fits max
    | _ => True

/-- `RebalanceTradeMsg`, `/repo/packages/interface/src/core.rs:55-69`. -/
def tradeMsg : Codec Core.TradeMsg where
  enc
    | .deflate d out max => variant "deflate" (.obj [("target_denom", text.enc d), ("amount_out", u128.enc out),
        ("max_amount_in", u128.enc max)])
    | .inflate d amount min => variant "inflate" (.obj [("target_denom", text.enc d), ("amount_in", u128.enc amount),
        ("min_amount_out", u128.enc min)])
  dec := oneOf
    [("deflate", fun body => do
        let fs ← record ["target_denom", "amount_out", "max_amount_in"] body
        let d ← req fs "target_denom" text
        let out ← req fs "amount_out" u128
        let max ← req fs "max_amount_in" u128
        some (.deflate d out max)),
     ("inflate", fun body => do
        let fs ← record ["target_denom", "amount_in", "min_amount_out"] body
        let d ← req fs "target_denom" text
        let amount ← req fs "amount_in" u128
        let min ← req fs "min_amount_out" u128
        some (.inflate d amount min))]
  Fits
    | .deflate _ out max => u128.Fits out ∧ u128.Fits max
    | .inflate _ amount min => u128.Fits amount ∧ u128.Fits min

/-- `RebalanceMsg`, `/repo/packages/interface/src/core.rs:71-80`. -/
def rebalanceMsg : Codec Core.RebalanceMsg where
  enc
    | .init manager deflation inflation => variant "init" (.obj [("manager", text.opt.enc manager),
        ("deflation", units.enc deflation), ("inflation", units.enc inflation)])
    | .trade m => variant "trade" (tradeMsg.enc m)
    | .finalize => variant "finalize" (.obj [])
  dec := oneOf
    [("init", fun body => do
        let fs ← record ["manager", "deflation", "inflation"] body
        let manager ← optional fs "manager" text
        let deflation ← req fs "deflation" units
        let inflation ← req fs "inflation" units
        some (.init manager deflation inflation)),
     ("trade", fun body => do
        let m ← tradeMsg.dec body
        some (.trade m)),
     ("finalize", fun body => do
        let _ ← record [] body
        some .finalize)]
  Fits
    | .init _ deflation inflation => units.Fits deflation ∧ units.Fits inflation
    | .trade m => tradeMsg.Fits m
    | .finalize => True

/-- `ExecuteMsg` of the core contract, `/repo/packages/interface/src/core.rs:82-96`. -/
def coreExecute : Codec Core.ExecMsg where
  enc
    | .mint amount receiver refundTo => variant "mint" (.obj [("amount", u128.enc amount),
        ("receiver", text.opt.enc receiver), ("refund_to", text.opt.enc refundTo)])
    | .burn redeemTo => variant "burn" (.obj [("redeem_to", text.opt.enc redeemTo)])
    | .realize => variant "realize" (.obj [])
    | .gov m => variant "gov" (govMsg.enc m)
    | .rebalance m => variant "rebalance" (rebalanceMsg.enc m)
  dec := oneOf
    [("mint", fun body => do
        let fs ← record ["amount", "receiver", "refund_to"] body
        let amount ← req fs "amount" u128
        let receiver ← optional fs "receiver" text
        let refundTo ← optional fs "refund_to" text
        some (.mint amount receiver refundTo)),
     ("burn", fun body => do
        let fs ← record ["redeem_to"] body
        let redeemTo ← optional fs "redeem_to" text
        some (.burn redeemTo)),
     ("realize", fun body => do
        let _ ← record [] body
        some .realize),
     ("gov", fun body => do
        let m ← govMsg.dec body
        some (.gov m)),
     ("rebalance", fun body => do
        let m ← rebalanceMsg.dec body
        some (.rebalance m))]
  Fits
    | .mint amount _ _ => u128.Fits amount
    | .gov m => govMsg.Fits m
    | .rebalance m => rebalanceMsg.Fits m
    | _ => True

/-- `QueryMsg` of the core contract, `/repo/packages/interface/src/core.rs:98-139`. -/
inductive CoreQuery where
  | getBalance (account : Addr)
  | getTotalSupply
  | getConfig (time : Option Nat)
  | getFee (time : Option Nat)
  | getPortfolio (time : Option Nat)
  | getRebalance
  | getTradeInfo (denomIn denomOut : Denom)
  | listTradeInfo (denomIn : Denom) (start : Option Denom) (limit : Option Nat) (order : Option Iface.RangeOrder)
  | simulateMint (amount : Nat) (funds : Option (List Coin)) (time : Option Nat)
  | simulateBurn (amount : Nat) (time : Option Nat)
deriving DecidableEq, Repr

/-- `QueryMsg` of the core contract as JSON, `/repo/packages/interface/src/core.rs:98-139`. -/
def coreQuery : Codec CoreQuery where
  enc
    | .getBalance a => variant "get_balance" (.obj [("account", text.enc a)])
    | .getTotalSupply => variant "get_total_supply" (.obj [])
    | .getConfig t => variant "get_config" (.obj [("time", (uint 64).opt.enc t)])
    | .getFee t => variant "get_fee" (.obj [("time", (uint 64).opt.enc t)])
    | .getPortfolio t => variant "get_portfolio" (.obj [("time", (uint 64).opt.enc t)])
    | .getRebalance => variant "get_rebalance" (.obj [])
    | .getTradeInfo i o => variant "get_trade_info" (.obj [("denom_in", text.enc i), ("denom_out", text.enc o)])
    | .listTradeInfo i start limit order => variant "list_trade_info" (.obj [("denom_in", text.enc i),
        ("start_after", text.opt.enc start), ("limit", (uint 32).opt.enc limit), ("order", rangeOrder.opt.enc order)])
    | .simulateMint amount funds t => variant "simulate_mint" (.obj [("amount", u128.enc amount),
        ("funds", coin.list.opt.enc funds), ("time", (uint 64).opt.enc t)])
    | .simulateBurn amount t => variant "simulate_burn" (.obj [("amount", u128.enc amount), ("time", (uint 64).opt.enc t)])
  dec := oneOf
    [("get_balance", fun body => do
        let fs ← record ["account"] body
        let a ← req fs "account" text
        some (.getBalance a)),
     ("get_total_supply", fun body => do
        let _ ← record [] body
        some .getTotalSupply),
     ("get_config", fun body => do
        let fs ← record ["time"] body
        let t ← optional fs "time" (uint 64)
        some (.getConfig t)),
     ("get_fee", fun body => do
        let fs ← record ["time"] body
        let t ← optional fs "time" (uint 64)
        some (.getFee t)),
     ("get_portfolio", fun body => do
        let fs ← record ["time"] body
        let t ← optional fs "time" (uint 64)
        some (.getPortfolio t)),
     ("get_rebalance", fun body => do
        let _ ← record [] body
        some .getRebalance),
     ("get_trade_info", fun body => do
        let fs ← record ["denom_in", "denom_out"] body
        let i ← req fs "denom_in" text
        let o ← req fs "denom_out" text
        some (.getTradeInfo i o)),
     ("list_trade_info", fun body => do
        let fs ← record ["denom_in", "start_after", "limit", "order"] body
        let i ← req fs "denom_in" text
        let start ← optional fs "start_after" text
        let limit ← optional fs "limit" (uint 32)
        let order ← optional fs "order" rangeOrder
        some (.listTradeInfo i start limit order)),
     ("simulate_mint", fun body => do
        let fs ← record ["amount", "funds", "time"] body
        let amount ← req fs "amount" u128
        let funds ← optional fs "funds" coin.list
        let t ← optional fs "time" (uint 64)
        some (.simulateMint amount funds t)),
     ("simulate_burn", fun body => do
        let fs ← record ["amount", "time"] body
        let amount ← req fs "amount" u128
        let t ← optional fs "time" (uint 64)
        some (.simulateBurn amount t))]
  Fits
    | .getConfig t | .getFee t | .getPortfolio t => (uint 64).opt.Fits t
    | .listTradeInfo _ _ limit _ => (uint 32).opt.Fits limit
    | .simulateMint amount funds t => u128.Fits amount ∧ coin.list.opt.Fits funds ∧ (uint 64).opt.Fits t
    | .simulateBurn amount t => u128.Fits amount ∧ (uint 64).opt.Fits t
    | _ => True

/-! ## Airdrop -/

/-- `InstantiateMsg` of the airdrop and the periphery contract, `/repo/packages/interface/src/airdrop.rs:6-7`,
`/repo/packages/interface/src/periphery.rs:8-9`: no fields. -/
def emptyMsg : Codec Unit where
  enc _ := .obj []
  dec j := do
    let _ ← record [] j
    some ()
  Fits _ := True

/-- `AirdropId`, `/repo/packages/interface/src/airdrop.rs:9-13`. -/
def dropId : Codec Airdrop.DropId where
  enc
    | .id n => variant "id" ((uint 64).enc n)
    | .label l => variant "label" (text.enc l)
  dec := oneOf
    [("id", fun body => do
        let n ← (uint 64).dec body
        some (.id n)),
     ("label", fun body => do
        let l ← text.dec body
        some (.label l))]
  Fits
    | .id n => (uint 64).Fits n
    | .label _ => True

/-- `AirdropType`, `/repo/packages/interface/src/airdrop.rs:25-29`. -/
def dropType : Codec Airdrop.DropType where
  enc | .openDrop => .str "open" | .bearer => .str "bearer"
  dec | .str "open" => some .openDrop | .str "bearer" => some .bearer | _ => none
  Fits _ := True

/-- `RegisterPayload`, `/repo/packages/interface/src/airdrop.rs:46-77`. -/
def registerPayload : Codec Airdrop.RegisterPayload where
  enc
    | .openDrop root denom label => variant "open" (.obj [("merkle_root", text.enc root), ("denom", text.enc denom),
        ("label", text.opt.enc label)])
    | .bearer root denom pub sig label => variant "bearer" (.obj [("merkle_root", text.enc root), ("denom", text.enc denom),
        ("signer_pub", text.enc pub), ("signer_sig", text.enc sig), ("label", text.opt.enc label)])
  dec := oneOf
    [("open", fun body => do
        let fs ← record ["merkle_root", "denom", "label"] body
        let root ← req fs "merkle_root" text
        let denom ← req fs "denom" text
        let label ← optional fs "label" text
        some (.openDrop root denom label)),
     ("bearer", fun body => do
        let fs ← record ["merkle_root", "denom", "signer_pub", "signer_sig", "label"] body
        let root ← req fs "merkle_root" text
        let denom ← req fs "denom" text
        let pub ← req fs "signer_pub" text
        let sig ← req fs "signer_sig" text
        let label ← optional fs "label" text
        some (.bearer root denom pub sig label))]
  Fits _ := True

/-- `ClaimPayload`, `/repo/packages/interface/src/airdrop.rs:105-124`. -/
def claimPayload : Codec Airdrop.ClaimPayload where
  enc
    | .openDrop id amount account proof => variant "open" (.obj [("airdrop", dropId.enc id), ("amount", u128.enc amount),
        ("account", text.opt.enc account), ("merkle_proof", text.list.enc proof)])
    | .bearer id amount account hash sign proof => variant "bearer" (.obj [("airdrop", dropId.enc id),
        ("amount", u128.enc amount), ("account", text.opt.enc account), ("claim_hash", text.enc hash),
        ("claim_sign", text.enc sign), ("merkle_proof", text.list.enc proof)])
  dec := oneOf
    [("open", fun body => do
        let fs ← record ["airdrop", "amount", "account", "merkle_proof"] body
        let id ← req fs "airdrop" dropId
        let amount ← req fs "amount" u128
        let account ← optional fs "account" text
        let proof ← req fs "merkle_proof" text.list
        some (.openDrop id amount account proof)),
     ("bearer", fun body => do
        let fs ← record ["airdrop", "amount", "account", "claim_hash", "claim_sign", "merkle_proof"] body
        let id ← req fs "airdrop" dropId
        let amount ← req fs "amount" u128
        let account ← optional fs "account" text
        let hash ← req fs "claim_hash" text
        let sign ← req fs "claim_sign" text
        let proof ← req fs "merkle_proof" text.list
        some (.bearer id amount account hash sign proof))]
  Fits
    | .openDrop id amount _ _ => dropId.Fits id ∧ u128.Fits amount
    | .bearer id amount _ _ _ _ => dropId.Fits id ∧ u128.Fits amount

/-- `ExecuteMsg` of the airdrop contract, `/repo/packages/interface/src/airdrop.rs:187-193`. -/
def dropExecute : Codec Airdrop.ExecMsg where
  enc
    | .register p => variant "register" (registerPayload.enc p)
    | .fund id => variant "fund" (dropId.enc id)
    | .claim p => variant "claim" (claimPayload.enc p)
    | .close id => variant "close" (dropId.enc id)
  dec := oneOf
    [("register", fun body => do
        let p ← registerPayload.dec body
        some (.register p)),
     ("fund", fun body => do
        let id ← dropId.dec body
        some (.fund id)),
     ("claim", fun body => do
        let p ← claimPayload.dec body
        some (.claim p)),
     ("close", fun body => do
        let id ← dropId.dec body
        some (.close id))]
  Fits
    | .register _ => True
    | .fund id => dropId.Fits id
    | .claim p => claimPayload.Fits p
    | .close id => dropId.Fits id

/-- `ListAirdropsQueryOptions`, `/repo/packages/interface/src/airdrop.rs:195-223`. -/
inductive ListOption where
  | byId (start : Option Nat) (limit : Option Nat) (order : Option Iface.RangeOrder)
  | byType (typ : Airdrop.DropType) (start : Option Nat) (limit : Option Nat) (order : Option Iface.RangeOrder)
  | byLabel (start : Option String) (limit : Option Nat) (order : Option Iface.RangeOrder)
  | byCreator (creator : String) (start : Option Nat) (limit : Option Nat) (order : Option Iface.RangeOrder)
deriving DecidableEq, Repr

/-- `ListAirdropsQueryOptions` as JSON, `/repo/packages/interface/src/airdrop.rs:195-223`; the name of `ByID` becomes
`by_i_d`. -/
def listOption : Codec ListOption where
  enc
    | .byId start limit order => variant "by_i_d" (.obj [("start_after", (uint 64).opt.enc start),
        ("limit", (uint 32).opt.enc limit), ("order", rangeOrder.opt.enc order)])
    | .byType typ start limit order => variant "by_type" (.obj [("type", dropType.enc typ),
        ("start_after", (uint 64).opt.enc start), ("limit", (uint 32).opt.enc limit), ("order", rangeOrder.opt.enc order)])
    | .byLabel start limit order => variant "by_label" (.obj [("start_after", text.opt.enc start),
        ("limit", (uint 32).opt.enc limit), ("order", rangeOrder.opt.enc order)])
    | .byCreator creator start limit order => variant "by_creator" (.obj [("creator", text.enc creator),
        ("start_after", (uint 64).opt.enc start), ("limit", (uint 32).opt.enc limit), ("order", rangeOrder.opt.enc order)])
  dec := oneOf
    [("by_i_d", fun body => do
        let fs ← record ["start_after", "limit", "order"] body
        let start ← optional fs "start_after" (uint 64)
        let limit ← optional fs "limit" (uint 32)
        let order ← optional fs "order" rangeOrder
        some (.byId start limit order)),
     ("by_type", fun body => do
        let fs ← record ["type", "start_after", "limit", "order"] body
        let typ ← req fs "type" dropType
        let start ← optional fs "start_after" (uint 64)
        let limit ← optional fs "limit" (uint 32)
        let order ← optional fs "order" rangeOrder
        some (.byType typ start limit order)),
     ("by_label", fun body => do
        let fs ← record ["start_after", "limit", "order"] body
        let start ← optional fs "start_after" text
        let limit ← optional fs "limit" (uint 32)
        let order ← optional fs "order" rangeOrder
        some (.byLabel start limit order)),
     ("by_creator", fun body => do
        let fs ← record ["creator", "start_after", "limit", "order"] body
        let creator ← req fs "creator" text
        let start ← optional fs "start_after" (uint 64)
        let limit ← optional fs "limit" (uint 32)
        let order ← optional fs "order" rangeOrder
        some (.byCreator creator start limit order))]
  Fits
    | .byId start limit _ => (uint 64).opt.Fits start ∧ (uint 32).opt.Fits limit
    | .byType _ start limit _ => (uint 64).opt.Fits start ∧ (uint 32).opt.Fits limit
    | .byLabel _ limit _ => (uint 32).opt.Fits limit
    | .byCreator _ start limit _ => (uint 64).opt.Fits start ∧ (uint 32).opt.Fits limit

/-- `QueryMsg` of the airdrop contract, `/repo/packages/interface/src/airdrop.rs:275-313`. -/
inductive DropQuery where
  | getAirdrop (id : Airdrop.DropId)
  | listAirdrops (option : ListOption)
  | latestAirdropId
  | getClaim (id : Airdrop.DropId) (key : String)
  | verifyClaim (claim : Airdrop.ClaimPayload)
  | listClaims (id : Airdrop.DropId) (start : Option String) (limit : Option Nat) (order : Option Iface.RangeOrder)
  | getLabel (label : String)
  | listLabels (start : Option String) (limit : Option Nat) (order : Option Iface.RangeOrder)
deriving DecidableEq, Repr

/-- `QueryMsg` of the airdrop contract as JSON, `/repo/packages/interface/src/airdrop.rs:275-313`. -/
def dropQuery : Codec DropQuery where
  enc
    | .getAirdrop id => variant "get_airdrop" (.obj [("id", dropId.enc id)])
    | .listAirdrops o => variant "list_airdrops" (.obj [("option", listOption.enc o)])
    | .latestAirdropId => variant "latest_airdrop_id" (.obj [])
    | .getClaim id key => variant "get_claim" (.obj [("airdrop", dropId.enc id), ("claim_key", text.enc key)])
    | .verifyClaim p => variant "verify_claim" (.obj [("claim", claimPayload.enc p)])
    | .listClaims id start limit order => variant "list_claims" (.obj [("airdrop", dropId.enc id),
        ("start_after", text.opt.enc start), ("limit", (uint 32).opt.enc limit), ("order", rangeOrder.opt.enc order)])
    | .getLabel l => variant "get_label" (.obj [("label", text.enc l)])
    | .listLabels start limit order => variant "list_labels" (.obj [("start_after", text.opt.enc start),
        ("limit", (uint 32).opt.enc limit), ("order", rangeOrder.opt.enc order)])
  dec := oneOf
    [("get_airdrop", fun body => do
        let fs ← record ["id"] body
        let id ← req fs "id" dropId
        some (.getAirdrop id)),
     ("list_airdrops", fun body => do
        let fs ← record ["option"] body
        let o ← req fs "option" listOption
        some (.listAirdrops o)),
     ("latest_airdrop_id", fun body => do
        let _ ← record [] body
        some .latestAirdropId),
     ("get_claim", fun body => do
        let fs ← record ["airdrop", "claim_key"] body
        let id ← req fs "airdrop" dropId
        let key ← req fs "claim_key" text
        some (.getClaim id key)),
     ("verify_claim", fun body => do
        let fs ← record ["claim"] body
        let p ← req fs "claim" claimPayload
        some (.verifyClaim p)),
     ("list_claims", fun body => do
        let fs ← record ["airdrop", "start_after", "limit", "order"] body
        let id ← req fs "airdrop" dropId
        let start ← optional fs "start_after" text
        let limit ← optional fs "limit" (uint 32)
        let order ← optional fs "order" rangeOrder
        some (.listClaims id start limit order)),
     ("get_label", fun body => do
        let fs ← record ["label"] body
        let l ← req fs "label" text
        some (.getLabel l)),
     ("list_labels", fun body => do
        let fs ← record ["start_after", "limit", "order"] body
        let start ← optional fs "start_after" text
        let limit ← optional fs "limit" (uint 32)
        let order ← optional fs "order" rangeOrder
        some (.listLabels start limit order))]
  Fits
    | .getAirdrop id => dropId.Fits id
    | .listAirdrops o => listOption.Fits o
    | .getClaim id _ => dropId.Fits id
    | .verifyClaim p => claimPayload.Fits p
    | .listClaims id _ limit _ => dropId.Fits id ∧ (uint 32).opt.Fits limit
    | .listLabels _ limit _ => (uint 32).opt.Fits limit
    | _ => True

/-! ## Periphery -/

/-- `SwapInfoCompact`, `/repo/packages/interface/src/periphery.rs:30-34`. -/
def compact : Codec Periphery.Compact where
  enc c := .obj [("key", text.enc c.key), ("routes", text.list.enc c.routes)]
  dec j := do
    let fs ← record ["key", "routes"] j
    let key ← req fs "key" text
    let routes ← req fs "routes" text.list
    some { key := key, routes := routes }
  Fits _ := True

/-- `ExecuteMsg` of the periphery contract, `/repo/packages/interface/src/periphery.rs:92-131`. -/
def zapExecute : Codec Periphery.PExecMsg where
  enc
    | .mintExactIn core input min si => variant "mint_exact_amount_in" (.obj [("core_addr", text.enc core),
        ("input_asset", text.enc input), ("min_output_amount", u128.enc min), ("swap_info", compact.list.enc si)])
    | .mintExactOut core output input si => variant "mint_exact_amount_out" (.obj [("core_addr", text.enc core),
        ("output_amount", u128.enc output), ("input_asset", text.enc input), ("swap_info", compact.list.enc si)])
    | .burnExactIn core output min si => variant "burn_exact_amount_in" (.obj [("core_addr", text.enc core),
        ("output_asset", text.enc output), ("min_output_amount", u128.enc min), ("swap_info", compact.list.enc si)])
    | .burnExactOut core output si => variant "burn_exact_amount_out" (.obj [("core_addr", text.enc core),
        ("output_asset", coin.enc output), ("swap_info", compact.list.enc si)])
    | .finishOperation refundTo asset => variant "finish_operation" (.obj [("refund_to", text.enc refundTo),
        ("refund_asset", text.enc asset)])
  dec := oneOf
    [("mint_exact_amount_in", fun body => do
        let fs ← record ["core_addr", "input_asset", "min_output_amount", "swap_info"] body
        let core ← req fs "core_addr" text
        let input ← req fs "input_asset" text
        let min ← req fs "min_output_amount" u128
        let si ← req fs "swap_info" compact.list
        some (.mintExactIn core input min si)),
     ("mint_exact_amount_out", fun body => do
        let fs ← record ["core_addr", "output_amount", "input_asset", "swap_info"] body
        let core ← req fs "core_addr" text
        let output ← req fs "output_amount" u128
        let input ← req fs "input_asset" text
        let si ← req fs "swap_info" compact.list
        some (.mintExactOut core output input si)),
     ("burn_exact_amount_in", fun body => do
        let fs ← record ["core_addr", "output_asset", "min_output_amount", "swap_info"] body
        let core ← req fs "core_addr" text
        let output ← req fs "output_asset" text
        let min ← req fs "min_output_amount" u128
        let si ← req fs "swap_info" compact.list
        some (.burnExactIn core output min si)),
     ("burn_exact_amount_out", fun body => do
        let fs ← record ["core_addr", "output_asset", "swap_info"] body
        let core ← req fs "core_addr" text
        let output ← req fs "output_asset" coin
        let si ← req fs "swap_info" compact.list
        some (.burnExactOut core output si)),
     ("finish_operation", fun body => do
        let fs ← record ["refund_to", "refund_asset"] body
        let refundTo ← req fs "refund_to" text
        let asset ← req fs "refund_asset" text
        some (.finishOperation refundTo asset))]
  Fits
    | .mintExactIn _ _ min _ => u128.Fits min
    | .mintExactOut _ output _ _ => u128.Fits output
    | .burnExactIn _ _ min _ => u128.Fits min
    | .burnExactOut _ output _ => coin.Fits output
    | .finishOperation _ _ => True

/-- `QueryMsg` of the periphery contract, `/repo/packages/interface/src/periphery.rs:133-165`. -/
inductive ZapQuery where
  | mintExactIn (coreAddr : Addr) (input : Coin) (swapInfo : List Periphery.Compact)
  | mintExactOut (coreAddr : Addr) (output : Nat) (input : Denom) (swapInfo : List Periphery.Compact)
  | burnExactIn (coreAddr : Addr) (input : Nat) (output : Denom) (swapInfo : List Periphery.Compact)
  | burnExactOut (coreAddr : Addr) (output : Coin) (swapInfo : List Periphery.Compact)
deriving DecidableEq, Repr

/-- `QueryMsg` of the periphery contract as JSON, `/repo/packages/interface/src/periphery.rs:133-165`. -/
def zapQuery : Codec ZapQuery where
  enc
    | .mintExactIn core input si => variant "simulate_mint_exact_amount_in" (.obj [("core_addr", text.enc core),
        ("input_asset", coin.enc input), ("swap_info", compact.list.enc si)])
    | .mintExactOut core output input si => variant "simulate_mint_exact_amount_out" (.obj [("core_addr", text.enc core),
        ("output_amount", u128.enc output), ("input_asset", text.enc input), ("swap_info", compact.list.enc si)])
    | .burnExactIn core input output si => variant "simulate_burn_exact_amount_in" (.obj [("core_addr", text.enc core),
        ("input_amount", u128.enc input), ("output_asset", text.enc output), ("swap_info", compact.list.enc si)])
    | .burnExactOut core output si => variant "simulate_burn_exact_amount_out" (.obj [("core_addr", text.enc core),
        ("output_asset", coin.enc output), ("swap_info", compact.list.enc si)])
  dec := oneOf
    [("simulate_mint_exact_amount_in", fun body => do
        let fs ← record ["core_addr", "input_asset", "swap_info"] body
        let core ← req fs "core_addr" text
        let input ← req fs "input_asset" coin
        let si ← req fs "swap_info" compact.list
        some (.mintExactIn core input si)),
     ("simulate_mint_exact_amount_out", fun body => do
        let fs ← record ["core_addr", "output_amount", "input_asset", "swap_info"] body
        let core ← req fs "core_addr" text
        let output ← req fs "output_amount" u128
        let input ← req fs "input_asset" text
        let si ← req fs "swap_info" compact.list
        some (.mintExactOut core output input si)),
     ("simulate_burn_exact_amount_in", fun body => do
        let fs ← record ["core_addr", "input_amount", "output_asset", "swap_info"] body
        let core ← req fs "core_addr" text
        let input ← req fs "input_amount" u128
        let output ← req fs "output_asset" text
        let si ← req fs "swap_info" compact.list
        some (.burnExactIn core input output si)),
     ("simulate_burn_exact_amount_out", fun body => do
        let fs ← record ["core_addr", "output_asset", "swap_info"] body
        let core ← req fs "core_addr" text
        let output ← req fs "output_asset" coin
        let si ← req fs "swap_info" compact.list
        some (.burnExactOut core output si))]
  Fits
    | .mintExactIn _ input _ => coin.Fits input
    | .mintExactOut _ output _ _ => u128.Fits output
    | .burnExactIn _ input _ _ => u128.Fits input
    | .burnExactOut _ output _ => coin.Fits output

end Ibcx.Json
