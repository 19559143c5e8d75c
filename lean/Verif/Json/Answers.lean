import Verif.Json.Stored
/-!
# Answers to queries as JSON, and the entry points on texts

Models the response types in `/repo/packages/interface/src/`, the `query` entry points, and what the macro `entry_point` of
cosmwasm-std 1.5.2 does around the entry points: it reads the message, and a text that cannot be read is an error.
-/

namespace Ibcx.Json
open Ibcx Ibcx.Storage

/-! ## Core -/

/-- `GetConfigResponse`, `/repo/packages/interface/src/core.rs:147-154`. -/
def configResp : Codec Core.ConfigResp where
  enc c := .obj [("gov", text.enc c.gov), ("pending_gov", text.opt.enc c.pendingGov), ("paused", pauseInfo.enc c.paused),
    ("index_denom", text.enc c.indexDenom), ("reserve_denom", text.enc c.reserveDenom)]
  dec j := do
    let fs ← record ["gov", "pending_gov", "paused", "index_denom", "reserve_denom"] j
    let gov ← req fs "gov" text
    let pendingGov ← optional fs "pending_gov" text
    let paused ← req fs "paused" pauseInfo
    let indexDenom ← req fs "index_denom" text
    let reserveDenom ← req fs "reserve_denom" text
    some { gov := gov, pendingGov := pendingGov, paused := paused, indexDenom := indexDenom, reserveDenom := reserveDenom }
  Fits c := pauseInfo.Fits c.paused

/-- `GetPortfolioResponse`, `/repo/packages/interface/src/core.rs:172-177`. -/
def portfolioResp : Codec Core.PortfolioResp where
  enc p := .obj [("total_supply", u128.enc p.totalSupply), ("assets", coin.list.enc p.assets), ("units", units.enc p.units)]
  dec j := do
    let fs ← record ["total_supply", "assets", "units"] j
    let totalSupply ← req fs "total_supply" u128
    let assets ← req fs "assets" coin.list
    let units ← req fs "units" units
    some { totalSupply := totalSupply, assets := assets, units := units }
  Fits p := u128.Fits p.totalSupply ∧ coin.list.Fits p.assets ∧ units.Fits p.units

/-- `GetRebalanceResponse`, `/repo/packages/interface/src/core.rs:186-189`. -/
def rebalanceResp : Codec (Option Core.Rebalance) where
  enc r := .obj [("rebalance", rebalance.opt.enc r)]
  dec j := do
    let fs ← record ["rebalance"] j
    optional fs "rebalance" rebalance
  Fits r := rebalance.opt.Fits r

/-- `TradeInfoPayload`, `/repo/packages/interface/src/core.rs:191-199`. -/
structure TradePayload where
  denomIn : Denom
  denomOut : Denom
  info : Core.TradeInfo
deriving DecidableEq, Repr

/-- `conv_trade_info`, `/repo/contracts/core/src/query.rs:122-131`. -/
def convTradeInfo (denomIn denomOut : Denom) (info : Core.TradeInfo) : TradePayload :=
  { denomIn := denomIn, denomOut := denomOut, info := info }

/-- `TradeInfoPayload` as JSON, `/repo/packages/interface/src/core.rs:191-199`. -/
def tradePayload : Codec TradePayload where
  enc t := .obj [("denom_in", text.enc t.denomIn), ("denom_out", text.enc t.denomOut),
    ("routes", swapRoute.list.enc t.info.routes), ("cooldown", (uint 64).enc t.info.cooldown),
    ("max_trade_amount", u128.enc t.info.maxTradeAmount), ("last_traded_at", (uint 64).opt.enc t.info.lastTradedAt)]
  dec j := do
    let fs ← record ["denom_in", "denom_out", "routes", "cooldown", "max_trade_amount", "last_traded_at"] j
    let denomIn ← req fs "denom_in" text
    let denomOut ← req fs "denom_out" text
    let routes ← req fs "routes" swapRoute.list
    let cooldown ← req fs "cooldown" (uint 64)
    let max ← req fs "max_trade_amount" u128
    let last ← optional fs "last_traded_at" (uint 64)
    some { denomIn := denomIn, denomOut := denomOut
           info := { routes := routes, cooldown := cooldown, maxTradeAmount := max, lastTradedAt := last } }
  Fits t := tradeInfo.Fits t.info

/-- `GetTradeInfoResponse`, `/repo/packages/interface/src/core.rs:200-203`. -/
def tradeInfoResp : Codec (Option TradePayload) where
  enc t := .obj [("trade_info", tradePayload.opt.enc t)]
  dec j := do
    let fs ← record ["trade_info"] j
    optional fs "trade_info" tradePayload
  Fits t := tradePayload.opt.Fits t

/-- `SimulateMintResponse`, `/repo/packages/interface/src/core.rs:208-213`. -/
def simMintResp : Codec Core.SimMintResp where
  enc r := .obj [("mint_amount", u128.enc r.mintAmount), ("refund_amount", coin.list.enc r.refundAmount),
    ("fund_spent", coin.list.enc r.fundSpent)]
  dec j := do
    let fs ← record ["mint_amount", "refund_amount", "fund_spent"] j
    let mintAmount ← req fs "mint_amount" u128
    let refundAmount ← req fs "refund_amount" coin.list
    let fundSpent ← req fs "fund_spent" coin.list
    some { mintAmount := mintAmount, refundAmount := refundAmount, fundSpent := fundSpent }
  Fits r := u128.Fits r.mintAmount ∧ coin.list.Fits r.refundAmount ∧ coin.list.Fits r.fundSpent

/-- `SimulateBurnResponse`, `/repo/packages/interface/src/core.rs:215-219`. -/
def simBurnResp : Codec Core.SimBurnResp where
  enc r := .obj [("burn_amount", u128.enc r.burnAmount), ("redeem_amount", coin.list.enc r.redeemAmount)]
  dec j := do
    let fs ← record ["burn_amount", "redeem_amount"] j
    let burnAmount ← req fs "burn_amount" u128
    let redeemAmount ← req fs "redeem_amount" coin.list
    some { burnAmount := burnAmount, redeemAmount := redeemAmount }
  Fits r := u128.Fits r.burnAmount ∧ coin.list.Fits r.redeemAmount

/-- `to_binary`, `/repo/contracts/core/src/contract.rs:130-135`, `/repo/contracts/airdrop/src/contract.rs:43-48`,
`/repo/contracts/periphery/src/contract.rs:94-98`. -/
def answer {α : Type} (c : Codec α) : Res α → Res Bytes
  | .ok a => .ok (c.toText a)
  | .error e => .error e

/-- `get_balance`, `/repo/contracts/core/src/query.rs:21-27`; the bank module's answer is a parameter. -/
def getBalance (bank : Addr → Denom → Nat) (s : Core.State) (account : Addr) : Nat := bank account s.config.indexDenom

/-- `query` of the core contract, `/repo/contracts/core/src/contract.rs:137-179`. -/
def coreAnswer (bank : Addr → Denom → Nat) (s : Core.State) (env : Env) : CoreQuery → Res Bytes
  | .getBalance a => answer u128 (.ok (getBalance bank s a))
  | .getTotalSupply => answer u128 (.ok (Core.getTotalSupply s))
  | .getConfig t => answer configResp (Core.getConfig s env t)
  | .getFee t => answer fee (Core.getFee s env t)
  | .getPortfolio t => answer portfolioResp (Core.getPortfolio s env t)
  | .getRebalance => answer rebalanceResp (.ok (Core.getRebalance s))
  | .getTradeInfo i o => answer tradeInfoResp (.ok ((Core.getTradeInfo s i o).map (convTradeInfo i o)))
  | .listTradeInfo i start limit order =>
    answer tradePayload.list ((Iface.listTradeInfo s i start limit order).map (List.map fun e => convTradeInfo i e.1 e.2))
  | .simulateMint amount funds t => answer simMintResp (Core.simulateMint s env amount funds t)
  | .simulateBurn amount t => answer simBurnResp (Core.simulateBurn s env amount t)

/-- Reading of a message before an entry point; a text that cannot be read is an error.  Macro `entry_point` of
cosmwasm-std 1.5.2 (`exports.rs`), `/repo/contracts/core/src/contract.rs:15,74,137,181`. -/
def readMsg {α : Type} (c : Codec α) (b : Bytes) : Res α :=
  match c.ofText b with
  | some a => .ok a
  | none => .error .generic

/-- `instantiate` of the core contract on a text, `/repo/contracts/core/src/contract.rs:15-72`. -/
def coreInstantiateText (env : Env) (b : Bytes) : Res Core.Out := do
  let msg ← readMsg coreInstantiate b
  Core.instantiate env msg

/-- `execute` of the core contract on a text, `/repo/contracts/core/src/contract.rs:74-106`. -/
def coreExecuteText (s : Core.State) (env : Env) (info : Info) (b : Bytes) : Res Core.Out := do
  let msg ← readMsg coreExecute b
  Core.execute s env info msg

/-- `query` of the core contract on a text, `/repo/contracts/core/src/contract.rs:137-179`. -/
def coreQueryText (bank : Addr → Denom → Nat) (s : Core.State) (env : Env) (b : Bytes) : Res Bytes := do
  let q ← readMsg coreQuery b
  coreAnswer bank s env q

/-! ## Airdrop -/

/-- A lower-case hex digit; `hex::encode` of the crate hex 0.4.3, `/repo/contracts/airdrop/src/airdrop.rs:105`. -/
def hexChar (n : Nat) : Char := if n < 10 then Char.ofNat (48 + n) else Char.ofNat (87 + n)

/-- `hex::encode` of the crate hex 0.4.3, `/repo/contracts/airdrop/src/airdrop.rs:105`. -/
def hexEncode (bs : Airdrop.Bytes) : String :=
  String.ofList (bs.flatMap fun b => [hexChar (b.toNat / 16), hexChar (b.toNat % 16)])

/-- Bytes as a hex text: `signer_pub`, `/repo/packages/interface/src/airdrop.rs:335`. -/
def hexBytes : Codec Airdrop.Bytes where
  enc b := .str (hexEncode b)
  dec
    | .str s => match Airdrop.hexDecode s with
      | .ok b => some b
      | .error _ => none
    | _ => none
  Fits _ := True

/-- `GetAirdropResponse`, `/repo/packages/interface/src/airdrop.rs:315-346`, made by `Airdrop::to_resp`,
`/repo/contracts/airdrop/src/airdrop.rs:88-116`. -/
def dropResp : Codec (Nat × Airdrop.Drop) where
  enc p := match p.2.kind with
    | .openAirdrop => variant "open" (.obj [("id", (uint 64).enc p.1), ("creator", text.enc p.2.creator),
        ("denom", text.enc p.2.denom), ("total_amount", u128.enc p.2.totalAmount),
        ("total_claimed", u128.enc p.2.totalClaimed), ("merkle_root", text.enc p.2.merkleRoot),
        ("label", text.opt.enc p.2.label), ("created_at", (uint 64).enc p.2.createdAt),
        ("closed_at", (uint 64).opt.enc p.2.closedAt)])
    | .bearer signer pub => variant "bearer" (.obj [("id", (uint 64).enc p.1), ("creator", text.enc p.2.creator),
        ("signer", text.enc signer), ("signer_pub", hexBytes.enc pub),
        ("denom", text.enc p.2.denom), ("total_amount", u128.enc p.2.totalAmount),
        ("total_claimed", u128.enc p.2.totalClaimed), ("merkle_root", text.enc p.2.merkleRoot),
        ("label", text.opt.enc p.2.label), ("created_at", (uint 64).enc p.2.createdAt),
        ("closed_at", (uint 64).opt.enc p.2.closedAt)])
  dec := oneOf
    [("open", fun body => do
        let fs ← record ["id", "creator", "denom", "total_amount", "total_claimed", "merkle_root", "label", "created_at",
          "closed_at"] body
        let id ← req fs "id" (uint 64)
        let creator ← req fs "creator" text
        let denom ← req fs "denom" text
        let totalAmount ← req fs "total_amount" u128
        let totalClaimed ← req fs "total_claimed" u128
        let merkleRoot ← req fs "merkle_root" text
        let label ← optional fs "label" text
        let createdAt ← req fs "created_at" (uint 64)
        let closedAt ← optional fs "closed_at" (uint 64)
        some (id, { kind := .openAirdrop, creator := creator, denom := denom, totalAmount := totalAmount
                    totalClaimed := totalClaimed, merkleRoot := merkleRoot, label := label, createdAt := createdAt
                    closedAt := closedAt })),
     ("bearer", fun body => do
        let fs ← record ["id", "creator", "signer", "signer_pub", "denom", "total_amount", "total_claimed", "merkle_root",
          "label", "created_at", "closed_at"] body
        let id ← req fs "id" (uint 64)
        let creator ← req fs "creator" text
        let signer ← req fs "signer" text
        let signerPub ← req fs "signer_pub" hexBytes
        let denom ← req fs "denom" text
        let totalAmount ← req fs "total_amount" u128
        let totalClaimed ← req fs "total_claimed" u128
        let merkleRoot ← req fs "merkle_root" text
        let label ← optional fs "label" text
        let createdAt ← req fs "created_at" (uint 64)
        let closedAt ← optional fs "closed_at" (uint 64)
        some (id, { kind := .bearer signer signerPub, creator := creator, denom := denom, totalAmount := totalAmount
                    totalClaimed := totalClaimed, merkleRoot := merkleRoot, label := label, createdAt := createdAt
                    closedAt := closedAt }))]
  Fits p := (uint 64).Fits p.1 ∧ drop.Fits p.2

/-- `GetClaimResponse`, `/repo/packages/interface/src/airdrop.rs:354-359`. -/
structure ClaimResp where
  id : Nat
  amount : Nat
  claimKey : String
deriving DecidableEq, Repr

/-- `GetClaimResponse` as JSON, `/repo/packages/interface/src/airdrop.rs:354-359`. -/
def claimResp : Codec ClaimResp where
  enc c := .obj [("id", (uint 64).enc c.id), ("amount", u128.enc c.amount), ("claim_key", text.enc c.claimKey)]
  dec j := do
    let fs ← record ["id", "amount", "claim_key"] j
    let id ← req fs "id" (uint 64)
    let amount ← req fs "amount" u128
    let claimKey ← req fs "claim_key" text
    some { id := id, amount := amount, claimKey := claimKey }
  Fits c := (uint 64).Fits c.id ∧ u128.Fits c.amount

/-- `VerifyClaimResponse`, `/repo/packages/interface/src/airdrop.rs:361-366`. -/
structure VerifyResp where
  valid : Bool
  reason : Option String
deriving DecidableEq, Repr

/-- `VerifyClaimResponse` as JSON, `/repo/packages/interface/src/airdrop.rs:361-366`. -/
def verifyResp : Codec VerifyResp where
  enc v := .obj [("valid", flag.enc v.valid), ("reason", text.opt.enc v.reason)]
  dec j := do
    let fs ← record ["valid", "reason"] j
    let valid ← req fs "valid" flag
    let reason ← optional fs "reason" text
    some { valid := valid, reason := reason }
  Fits _ := True

/-- `GetLabelResponse`, `/repo/packages/interface/src/airdrop.rs:383-388`. -/
def labelResp : Codec Airdrop.LabelResp where
  enc l := .obj [("creator", text.enc l.creator), ("label", text.enc l.label), ("airdrop_id", (uint 64).enc l.airdropId)]
  dec j := do
    let fs ← record ["creator", "label", "airdrop_id"] j
    let creator ← req fs "creator" text
    let label ← req fs "label" text
    let airdropId ← req fs "airdrop_id" (uint 64)
    some { creator := creator, label := label, airdropId := airdropId }
  Fits l := (uint 64).Fits l.airdropId

/-- `get_claim`, `/repo/contracts/airdrop/src/query/claim.rs:16-30`, with all fields of the answer. -/
def claimAnswer (s : Airdrop.State) (id : Airdrop.DropId) (key : String) : Res ClaimResp := do
  let (n, _) ← Airdrop.loadAirdrop s id
  let amount ← Airdrop.getClaim s id key
  .ok { id := n, amount := amount, claimKey := key }

/-- `list_claims`, `/repo/contracts/airdrop/src/query/claim.rs:32-65`, with all fields of the answers. -/
def claimAnswers (s : Airdrop.State) (id : Airdrop.DropId) (start : Option String) (limit : Option Nat)
    (order : Option Iface.RangeOrder) : Res (List ClaimResp) := do
  let (n, _) ← Airdrop.loadAirdrop s id
  let es ← Airdrop.listClaims s id start limit order
  .ok (es.map fun e => { id := n, amount := e.2, claimKey := e.1 })

/-- `verify_claim`, `/repo/contracts/airdrop/src/query/claim.rs:67-132`, as the record it answers with.  Simplified: the text
of the reason is a parameter. -/
def verifyAnswer (c : Airdrop.Crypto) (reason : Airdrop.ClaimPayload → String) (s : Airdrop.State)
    (p : Airdrop.ClaimPayload) : Res VerifyResp := do
  let ok ← Airdrop.verifyClaim c s p
  .ok { valid := ok, reason := if ok then none else some (reason p) }

/-- `list_airdrops`, `/repo/contracts/airdrop/src/query/airdrop.rs:24-112`. -/
def listAnswer (s : Airdrop.State) (env : Env) : ListOption → Res (List (Nat × Airdrop.Drop))
  | .byId start limit order => Airdrop.listById s start limit order
  | .byType t start limit order => Airdrop.listByType s t start limit order
  | .byLabel start limit order => Airdrop.listByLabel s start limit order
  | .byCreator creator start limit order => Airdrop.listByCreator s env creator start limit order

/-- `query` of the airdrop contract, `/repo/contracts/airdrop/src/contract.rs:50-76`. -/
def dropAnswer (c : Airdrop.Crypto) (reason : Airdrop.ClaimPayload → String) (s : Airdrop.State) (env : Env) :
    DropQuery → Res Bytes
  | .getAirdrop id => answer dropResp (Airdrop.getAirdrop s id)
  | .listAirdrops o => answer dropResp.list (listAnswer s env o)
  | .latestAirdropId => answer (uint 64) (.ok (Airdrop.latestAirdropId s))
  | .getClaim id key => answer claimResp (claimAnswer s id key)
  | .verifyClaim p => answer verifyResp (verifyAnswer c reason s p)
  | .listClaims id start limit order => answer claimResp.list (claimAnswers s id start limit order)
  | .getLabel l => answer labelResp (Airdrop.getLabel s l)
  | .listLabels start limit order => answer labelResp.list (Airdrop.listLabels s start limit order)

/-- `instantiate` of the airdrop contract on a text, `/repo/contracts/airdrop/src/contract.rs:8-20`. -/
def dropInstantiateText (b : Bytes) : Res Airdrop.State := do
  let _ ← readMsg emptyMsg b
  .ok Airdrop.initial

/-- `execute` of the airdrop contract on a text, `/repo/contracts/airdrop/src/contract.rs:22-41`. -/
def dropExecuteText (c : Airdrop.Crypto) (s : Airdrop.State) (env : Env) (info : Info) (b : Bytes) : Res Airdrop.Out := do
  let msg ← readMsg dropExecute b
  Airdrop.execute c s env info msg

/-- `query` of the airdrop contract on a text, `/repo/contracts/airdrop/src/contract.rs:50-76`. -/
def dropQueryText (c : Airdrop.Crypto) (reason : Airdrop.ClaimPayload → String) (s : Airdrop.State) (env : Env) (b : Bytes) :
    Res Bytes := do
  let q ← readMsg dropQuery b
  dropAnswer c reason s env q

/-! ## Periphery -/

/-- `SimulateMintExactAmountInResponse`, `SimulateMintExactAmountOutResponse`,
`/repo/packages/interface/src/periphery.rs:167-179`. -/
def zapMintResp : Codec Periphery.SimResp where
  enc r := .obj [("mint_amount", u128.enc r.amount), ("mint_spend_amount", coin.list.enc r.coins),
    ("swap_result_amount", coin.enc r.swapResult)]
  dec j := do
    let fs ← record ["mint_amount", "mint_spend_amount", "swap_result_amount"] j
    let amount ← req fs "mint_amount" u128
    let coins ← req fs "mint_spend_amount" coin.list
    let result ← req fs "swap_result_amount" coin
    some { amount := amount, coins := coins, swapResult := result }
  Fits r := u128.Fits r.amount ∧ coin.list.Fits r.coins ∧ coin.Fits r.swapResult

/-- `SimulateBurnExactAmountInResponse`, `SimulateBurnExactAmountOutResponse`,
`/repo/packages/interface/src/periphery.rs:181-193`. -/
def zapBurnResp : Codec Periphery.SimResp where
  enc r := .obj [("burn_amount", u128.enc r.amount), ("burn_redeem_amount", coin.list.enc r.coins),
    ("swap_result_amount", coin.enc r.swapResult)]
  dec j := do
    let fs ← record ["burn_amount", "burn_redeem_amount", "swap_result_amount"] j
    let amount ← req fs "burn_amount" u128
    let coins ← req fs "burn_redeem_amount" coin.list
    let result ← req fs "swap_result_amount" coin
    some { amount := amount, coins := coins, swapResult := result }
  Fits r := u128.Fits r.amount ∧ coin.list.Fits r.coins ∧ coin.Fits r.swapResult

/-- `query` of the periphery contract, `/repo/contracts/periphery/src/contract.rs:100-155`. -/
def zapAnswer (p : Periphery.PEnv) : ZapQuery → Res Bytes
  | .mintExactIn core input si => answer zapMintResp (do
      let infos ← Periphery.parseInfos si
      Periphery.simMintExactIn p core input infos)
  | .mintExactOut core output input si => answer zapMintResp (do
      let infos ← Periphery.parseInfos si
      Periphery.simMintExactOut p core output input infos)
  | .burnExactIn core input output si => answer zapBurnResp (do
      let infos ← Periphery.parseInfos si
      Periphery.simBurnExactIn p core input output infos)
  | .burnExactOut core output si => answer zapBurnResp (do
      let infos ← Periphery.parseInfos si
      Periphery.simBurnExactOut p core output infos)

/-- `execute` of the periphery contract on a text, `/repo/contracts/periphery/src/contract.rs:23-92`. -/
def zapExecuteText (p : Periphery.PEnv) (info : Info) (b : Bytes) : Res (List Periphery.PMsg) := do
  let msg ← readMsg zapExecute b
  Periphery.execute p info msg

/-- `query` of the periphery contract on a text, `/repo/contracts/periphery/src/contract.rs:100-155`. -/
def zapQueryText (p : Periphery.PEnv) (b : Bytes) : Res Bytes := do
  let q ← readMsg zapQuery b
  zapAnswer p q

/-! ## The helper of the interface package -/

/-- The message `IbcPeriphery::call` builds, `/repo/packages/interface/src/helpers/periphery.rs:16-24`: it writes a message of
the core contract (`use crate::core::ExecuteMsg`, line 4). -/
def callPeriphery (msg : Core.ExecMsg) : Bytes := coreExecute.toText msg

/-- The message `IbcCore::call` builds, `/repo/packages/interface/src/helpers/core.rs:22-30`. -/
def callCore (msg : Core.ExecMsg) : Bytes := coreExecute.toText msg

end Ibcx.Json
