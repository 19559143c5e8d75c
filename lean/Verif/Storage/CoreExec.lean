import Verif.Storage.Contracts
import Verif.Core.Exec
import Verif.Core.Query
/-!
# The core contract on the byte storage

The entry points of `/repo/contracts/core/src/` once more, this time reading and writing the byte storage through the
keys of cw-storage-plus: which item is loaded and saved, and in which order, is that of the code.  The computations on
the loaded values are those of `Verif/Core`.  Where a stored value has the wrong type the code fails to parse it; here
that is a generic error.
-/

namespace Ibcx.Storage
open Ibcx Ibcx.Iface Ibcx.Core

/-- The value type of `cw2`'s `CONTRACT`, loaded in `/repo/packages/utils/src/lib.rs:12`. -/
def CoreVal.asVersion : CoreVal → Option ContractVersion
  | .version v => some v
  | _ => none

/-- The value type of `CONFIG`, `/repo/contracts/core/src/state/mod.rs:16-17`. -/
def CoreVal.asConfig : CoreVal → Option Config
  | .config c => some c
  | _ => none

/-- The value type of `PENDING_GOV`, `/repo/contracts/core/src/state/mod.rs:19-20`. -/
def CoreVal.asAddr : CoreVal → Option Addr
  | .pendingGov a => some a
  | _ => none

/-- The value type of `FEE`, `/repo/contracts/core/src/state/mod.rs:22-23`. -/
def CoreVal.asFee : CoreVal → Option Fee
  | .fee f => some f
  | _ => none

/-- The value type of `TOTAL_SUPPLY`, `/repo/contracts/core/src/state/mod.rs:25-26`. -/
def CoreVal.asSupply : CoreVal → Option Nat
  | .totalSupply n => some n
  | _ => none

/-- The value type of `INDEX_UNITS` and `RESERVE_UNITS`, `/repo/contracts/core/src/state/mod.rs:28-29,34-35`. -/
def CoreVal.asUnits : CoreVal → Option Units
  | .units u => some u
  | _ => none

/-- The value type of `REBALANCE`, `/repo/contracts/core/src/state/mod.rs:31-32`. -/
def CoreVal.asRebalance : CoreVal → Option Rebalance
  | .rebalance r => some r
  | _ => none

/-- The value type of `TRADE_INFOS`, `/repo/contracts/core/src/state/mod.rs:37-38`. -/
def CoreVal.asTradeInfo : CoreVal → Option TradeInfo
  | .tradeInfo t => some t
  | _ => none

/-- How a stored value is written and how the bytes of a place are read as its declared type,
`/repo/contracts/core/src/state/mod.rs:16-38`.  Two ways follow: values kept as they are, and (in `Verif/Json/Stored.lean`)
the JSON texts the code keeps. -/
class CoreCell (V : Type) where
  write : CoreVal → V
  asVersion : V → Option ContractVersion
  asConfig : V → Option Config
  asAddr : V → Option Addr
  asFee : V → Option Fee
  asSupply : V → Option Nat
  asUnits : V → Option Units
  asRebalance : V → Option Rebalance
  asTradeInfo : V → Option TradeInfo

/-- Values kept as they are, each with the type declared for its place, `/repo/contracts/core/src/state/mod.rs:16-38`. -/
instance coreValCell : CoreCell CoreVal where
  write v := v
  asVersion := CoreVal.asVersion
  asConfig := CoreVal.asConfig
  asAddr := CoreVal.asAddr
  asFee := CoreVal.asFee
  asSupply := CoreVal.asSupply
  asUnits := CoreVal.asUnits
  asRebalance := CoreVal.asRebalance
  asTradeInfo := CoreVal.asTradeInfo

section
variable {V : Type} [CoreCell V]

/-- New storage and messages of a handler, `/repo/contracts/core/src/contract.rs:75-106`. -/
abbrev CoreOutOf (V : Type) := Raw V × List Msg

/-- The same for values kept as they are, `/repo/contracts/core/src/contract.rs:75-106`. -/
abbrev CoreOut := CoreOutOf CoreVal

/-- The bytes under a place, `/repo/contracts/core/src/state/mod.rs:16-38`. -/
def coreGet (m : Raw V) (p : CorePlace) : Res (Option V) := do
  let k ← p.slot.key
  .ok (m.get k)

/-- `save` of an item or a map entry, `/repo/contracts/core/src/state/mod.rs:16-38`. -/
def corePut (m : Raw V) (p : CorePlace) (v : CoreVal) : Res (Raw V) := do
  let k ← p.slot.key
  .ok (KV.set m k (CoreCell.write v))

/-- `remove` of an item, `/repo/contracts/core/src/state/mod.rs:16-38`. -/
def coreRemove (m : Raw V) (p : CorePlace) : Res (Raw V) := do
  let k ← p.slot.key
  .ok (m.filter (fun e => e.1 ≠ k))

/-- `may_load`: nothing, or a value that parses as the declared type, `/repo/contracts/core/src/state/mod.rs:16-38`. -/
def coreMay {α : Type} (m : Raw V) (p : CorePlace) (parse : V → Option α) : Res (Option α) := do
  match ← coreGet m p with
  | none => .ok none
  | some x =>
    match parse x with
    | some a => .ok (some a)
    | none => .error .generic

/-- `load`: like `may_load`, a missing value is an error, `/repo/contracts/core/src/state/mod.rs:16-38`. -/
def coreLoad {α : Type} (m : Raw V) (p : CorePlace) (parse : V → Option α) : Res α := do
  match ← coreMay m p parse with
  | some a => .ok a
  | none => .error .notFound

/-! ### Creation -/

/-- `instantiate`, `/repo/contracts/core/src/contract.rs:16-72`; `v` is the name and version of the code. -/
def coreInstantiate (v : ContractVersion) (env : Env) (msg : InstantiateMsg) : Res (CoreOutOf V) := do
  let m ← corePut [] .version (.version v)
  require (msg.indexUnits.checkDuplicate = false) .invalid
  let collector ← validate env msg.fee.collector
  let fee : Fee :=
    { collector := collector, mintFee := msg.fee.mintFee, burnFee := msg.fee.burnFee
      streamingFee := msg.fee.streamingFee.map (·.toState env.now) }
  fee.checkRates
  let gov ← validate env msg.gov
  let config : Config := { gov := gov, paused := {}, indexDenom := "undefined", reserveDenom := msg.reserveDenom }
  let m ← corePut m .fee (.fee fee)
  let m ← corePut m .config (.config config)
  let m ← corePut m .totalSupply (.totalSupply 0)
  let m ← corePut m .indexUnits (.units msg.indexUnits)
  .ok (m, [.createDenom env.contract msg.indexDenom])

/-- `reply`, `/repo/contracts/core/src/contract.rs:109-128`; `newDenom` as in `Core.reply`. -/
def coreReply (m : Raw V) (id : Nat) (newDenom : Option Denom) : Res (CoreOutOf V) :=
  if id = 0 then
    match newDenom with
    | none => .error .panic
    | some d => do
      let config ← coreLoad m .config CoreCell.asConfig
      let m ← corePut m .config (.config { config with indexDenom := d })
      .ok (m, [])
  else .error .unknownReplyId

/-! ### Fees, mint and burn -/

/-- `collect_streaming_fee`, `/repo/contracts/core/src/execute/fee.rs:10-23`. -/
def coreCollect (m : Raw V) (now : Nat) : Res (Raw V) := do
  let fee ← coreLoad m .fee CoreCell.asFee
  let supply ← coreLoad m .totalSupply CoreCell.asSupply
  match fee.streamingFee with
  | some sf => do
    let units ← coreLoad m .indexUnits CoreCell.asUnits
    let (sf', units') ← sf.collect units now supply
    let m ← corePut m .indexUnits (.units units')
    corePut m .fee (.fee { fee with streamingFee := some sf' })
  | none => corePut m .fee (.fee fee)

/-- `realize_streaming_fee`, `/repo/contracts/core/src/execute/fee.rs:25-49`. -/
def coreRealize (m : Raw V) (info : Info) : Res (CoreOutOf V) := do
  let fee ← coreLoad m .fee CoreCell.asFee
  assertSender fee.collector info.sender
  match fee.streamingFee with
  | some sf => do
    let m ← corePut m .fee (.fee { fee with streamingFee := some { sf with collected := [] } })
    .ok (m, [.send fee.collector sf.collected])
  | none => do
    let m ← corePut m .fee (.fee fee)
    .ok (m, [])

/-- `mint`, `/repo/contracts/core/src/execute/token.rs:36-111`. -/
def coreMint (m : Raw V) (env : Env) (info : Info) (amount : Nat) (receiver refundTo : Option Addr) :
    Res (CoreOutOf V) := do
  let config ← coreLoad m .config CoreCell.asConfig
  config.assertNotPaused env.now
  let reb ← coreMay m .rebalance CoreCell.asRebalance
  require (reb = none) .onRebalancing
  let receiver ← unwrapAddr env receiver info.sender
  let refundTo ← unwrapAddr env refundTo info.sender
  let fee ← coreLoad m .fee CoreCell.asFee
  let units ← coreLoad m .indexUnits CoreCell.asUnits
  let total ← coreLoad m .totalSupply CoreCell.asSupply
  let refund ← units.calcRefund info.funds amount
  let mintFee ← mintFeeAmount fee.mintFee amount
  let mintSend ← sub amount (mintFee.getD 0)
  let supply ← add total amount
  let m ← corePut m .totalSupply (.totalSupply supply)
  .ok (m,
    [.tfMint env.contract env.contract ⟨config.indexDenom, amount⟩]
    ++ feeMsg fee.collector config.indexDenom mintFee
    ++ [.send receiver [⟨config.indexDenom, mintSend⟩],
        .send refundTo refund])

/-- `burn`, `/repo/contracts/core/src/execute/token.rs:126-194`; the config is loaded twice. -/
def coreBurn (m : Raw V) (env : Env) (info : Info) (redeemTo : Option Addr) : Res (CoreOutOf V) := do
  let config ← coreLoad m .config CoreCell.asConfig
  config.assertNotPaused env.now
  let reb ← coreMay m .rebalance CoreCell.asRebalance
  require (reb = none) .onRebalancing
  let redeemTo ← unwrapAddr env redeemTo info.sender
  let config ← coreLoad m .config CoreCell.asConfig
  let fee ← coreLoad m .fee CoreCell.asFee
  let units ← coreLoad m .indexUnits CoreCell.asUnits
  let total ← coreLoad m .totalSupply CoreCell.asSupply
  let received ← mustPay info config.indexDenom
  let burnFee ← feeAmount fee.burnFee received
  let burnAmount ← sub received (burnFee.getD 0)
  let redeem ← units.calcRequire burnAmount
  let supply ← sub total burnAmount
  let m ← corePut m .totalSupply (.totalSupply supply)
  .ok (m,
    [.tfBurn env.contract env.contract ⟨config.indexDenom, burnAmount⟩]
    ++ feeMsg fee.collector config.indexDenom burnFee
    ++ [.send redeemTo (sortCoins redeem)])

/-! ### Governance -/

/-- `pause`, `/repo/contracts/core/src/execute/gov/pause.rs:9-54`. -/
def corePause (m : Raw V) (env : Env) (info : Info) (expiresAt : Option Nat) : Res (CoreOutOf V) := do
  let config ← coreLoad m .config CoreCell.asConfig
  config.checkGov info.sender
  config.assertNotPaused env.now
  match expiresAt with
  | some e => require (¬ e ≤ env.now) .invalid
  | none => .ok ()
  let m ← corePut m .config (.config { config with paused := { paused := true, expiresAt := expiresAt } })
  .ok (m, [])

/-- `release`, `/repo/contracts/core/src/execute/gov/pause.rs:56-78`. -/
def coreRelease (m : Raw V) (env : Env) (info : Info) : Res (CoreOutOf V) := do
  let config ← coreLoad m .config CoreCell.asConfig
  config.checkGov info.sender
  config.assertPaused env.now
  let m ← corePut m .config (.config { config with paused := {} })
  .ok (m, [])

/-- `update_gov`, `/repo/contracts/core/src/execute/gov/update.rs:14-31`. -/
def coreUpdateGov (m : Raw V) (env : Env) (info : Info) (newGov : Addr) : Res (CoreOutOf V) := do
  let config ← coreLoad m .config CoreCell.asConfig
  config.checkGov info.sender
  let pending ← coreMay m .pendingGov CoreCell.asAddr
  require (pending = none) .generic
  let g ← validate env newGov
  let m ← corePut m .pendingGov (.pendingGov g)
  .ok (m, [])

/-- `accept_gov`, `/repo/contracts/core/src/execute/gov/update.rs:33-51`. -/
def coreAcceptGov (m : Raw V) (info : Info) : Res (CoreOutOf V) := do
  let pending ← coreLoad m .pendingGov CoreCell.asAddr
  assertSender pending info.sender
  let m ← coreRemove m .pendingGov
  let config ← coreLoad m .config CoreCell.asConfig
  let m ← corePut m .config (.config { config with gov := pending })
  .ok (m, [])

/-- `revoke_gov`, `/repo/contracts/core/src/execute/gov/update.rs:53-69`. -/
def coreRevokeGov (m : Raw V) (info : Info) : Res (CoreOutOf V) := do
  let _pending ← coreLoad m .pendingGov CoreCell.asAddr
  let config ← coreLoad m .config CoreCell.asConfig
  config.checkGov info.sender
  let m ← coreRemove m .pendingGov
  .ok (m, [])

/-- `update_fee`, `/repo/contracts/core/src/execute/gov/update.rs:71-109`; all fields of the loaded fee are
overwritten. -/
def coreUpdateFee (m : Raw V) (env : Env) (info : Info) (p : FeePayload) : Res (CoreOutOf V) := do
  let config ← coreLoad m .config CoreCell.asConfig
  config.checkGov info.sender
  let reb ← coreMay m .rebalance CoreCell.asRebalance
  require (reb = none) .onRebalancing
  let fee ← coreLoad m .fee CoreCell.asFee
  let collector ← validate env p.collector
  let fee :=
    { fee with
      collector := collector
      mintFee := p.mintFee
      burnFee := p.burnFee
      streamingFee := p.streamingFee.map (·.toState env.now) }
  fee.checkRates
  let m ← corePut m .fee (.fee fee)
  .ok (m, [])

/-- `update_rebalance_manager`, `/repo/contracts/core/src/execute/gov/update.rs:111-146`. -/
def coreUpdateManager (m : Raw V) (env : Env) (info : Info) (manager : Option Addr) : Res (CoreOutOf V) := do
  let config ← coreLoad m .config CoreCell.asConfig
  config.checkGov info.sender
  match ← coreMay m .rebalance CoreCell.asRebalance with
  | none => .error .notOnRebalancing
  | some r => do
    let a ← validateOpt env manager
    let m ← corePut m .rebalance (.rebalance { r with manager := a })
    .ok (m, [])

/-- `update_reserve_denom`, `/repo/contracts/core/src/execute/gov/update.rs:148-178`. -/
def coreUpdateReserveDenom (m : Raw V) (info : Info) (d : Denom) : Res (CoreOutOf V) := do
  let config ← coreLoad m .config CoreCell.asConfig
  config.checkGov info.sender
  let reb ← coreMay m .rebalance CoreCell.asRebalance
  require (reb = none) .onRebalancing
  let m ← corePut m .config (.config { config with reserveDenom := d })
  .ok (m, [])

/-- `update_trade_info`, `/repo/contracts/core/src/execute/gov/update.rs:180-214`. -/
def coreUpdateTradeInfo (m : Raw V) (info : Info) (denomIn : Denom) (routes : List SwapRoute)
    (cooldown maxTradeAmount : Nat) : Res (CoreOutOf V) := do
  let config ← coreLoad m .config CoreCell.asConfig
  config.checkGov info.sender
  let denomOut ← denomLast routes
  let m ← corePut m (.tradeInfo denomIn denomOut) (.tradeInfo
    { routes := routes, cooldown := cooldown, maxTradeAmount := maxTradeAmount, lastTradedAt := none })
  .ok (m, [])

/-- `handle_msg`, `/repo/contracts/core/src/execute/gov/mod.rs:10-32`. -/
def coreGov (m : Raw V) (env : Env) (info : Info) : GovMsg → Res (CoreOutOf V)
  | .pause e => corePause m env info e
  | .release => coreRelease m env info
  | .updateGov g => coreUpdateGov m env info g
  | .acceptGov => coreAcceptGov m info
  | .revokeGov => coreRevokeGov m info
  | .updateFeeStrategy p => coreUpdateFee m env info p
  | .updateRebalanceManager a => coreUpdateManager m env info a
  | .updateReserveDenom d => coreUpdateReserveDenom m info d
  | .updateTradeInfo d r c x => coreUpdateTradeInfo m info d r c x

/-! ### Rebalancing -/

/-- `freeze_streaming_fee`, `/repo/contracts/core/src/execute/rebalance/init.rs:9-18`. -/
def coreFreeze (m : Raw V) : Res (Raw V) := do
  let fee ← coreLoad m .fee CoreCell.asFee
  corePut m .fee (.fee { fee with streamingFee := fee.streamingFee.map fun sf => { sf with freeze := true } })

/-- `init`, `/repo/contracts/core/src/execute/rebalance/init.rs:33-79`. -/
def coreInit (m : Raw V) (env : Env) (info : Info) (manager : Option Addr) (deflation inflation : Units) :
    Res (CoreOutOf V) := do
  let m ← coreFreeze m
  let config ← coreLoad m .config CoreCell.asConfig
  config.checkGov info.sender
  let reb ← coreMay m .rebalance CoreCell.asRebalance
  require (reb = none) .onRebalancing
  let manager ← validateOpt env manager
  let r : Rebalance := { manager := manager, deflation := deflation, inflation := inflation }
  let units ← coreLoad m .indexUnits CoreCell.asUnits
  r.validate units
  let m ← corePut m .rebalance (.rebalance r)
  let m ← corePut m .reserveUnits (.units [])
  .ok (m, [])

/-- `unfreeze_streaming_fee`, `/repo/contracts/core/src/execute/rebalance/finalize.rs:10-19`. -/
def coreUnfreeze (m : Raw V) (now : Nat) : Res (Raw V) := do
  let fee ← coreLoad m .fee CoreCell.asFee
  corePut m .fee (.fee { fee with
    streamingFee := fee.streamingFee.map fun sf => { sf with freeze := false, lastCollectedAt := now } })

/-- `finalize`, `/repo/contracts/core/src/execute/rebalance/finalize.rs:21-72`. -/
def coreFinalize (m : Raw V) (env : Env) (info : Info) : Res (CoreOutOf V) := do
  let m ← coreUnfreeze m env.now
  match ← coreMay m .rebalance CoreCell.asRebalance with
  | none => .error .notOnRebalancing
  | some r => do
    checkManager r info.sender
    let units ← coreLoad m .indexUnits CoreCell.asUnits
    checkTargets units r.deflation
    let reserve ← coreLoad m .reserveUnits CoreCell.asUnits
    require (reserve.checkEmpty = true) .unableToFinalize
    let m ← corePut m .indexUnits (.units units.pruneZero)
    let m ← coreRemove m .rebalance
    let m ← coreRemove m .reserveUnits
    .ok (m, [])

/-- `load_units`, `/repo/contracts/core/src/execute/rebalance/trade/mod.rs:17-23`. -/
def coreLoadUnits (m : Raw V) : Res (Units × Units × Nat) := do
  let index ← coreLoad m .indexUnits CoreCell.asUnits
  let reserve ← coreLoad m .reserveUnits CoreCell.asUnits
  let total ← coreLoad m .totalSupply CoreCell.asSupply
  .ok (index, reserve, total)

/-- `deflate_reserve`, `/repo/contracts/core/src/execute/rebalance/trade/deflate.rs:38-77`. -/
def coreDeflateReserve (m : Raw V) (denom : Denom) : Res (CoreOutOf V) := do
  let r ← coreLoad m .rebalance CoreCell.asRebalance
  let (index, reserve, total) ← coreLoadUnits m
  let target ← r.deflation.getKey! denom
  let current ← index.getKey! denom
  let gap ← sub current target
  let _amountGap ← mulInt gap total
  let index' ← index.subKey denom gap
  let reserve' ← inflateReserveUnit reserve gap r.inflation
  let m ← corePut m .indexUnits (.units index')
  let m ← corePut m .reserveUnits (.units reserve')
  .ok (m, [])

/-- `deflate`, `/repo/contracts/core/src/execute/rebalance/trade/deflate.rs:80-164`. -/
def coreDeflate (m : Raw V) (env : Env) (target : Denom) (amountOut maxAmountIn : Nat) : Res (CoreOutOf V) := do
  let config ← coreLoad m .config CoreCell.asConfig
  let r ← coreLoad m .rebalance CoreCell.asRebalance
  let t ← coreLoad m (.tradeInfo target config.reserveDenom) CoreCell.asTradeInfo
  let (index, reserve, total) ← coreLoadUnits m
  let targetUnit ← r.deflation.getKey! target
  let currentUnit ← index.getKey! target
  t.assertCooldown env.now
  require (¬ t.maxTradeAmount < amountOut) .tradeError
  let gap ← sub currentUnit targetUnit
  let amountGap ← mulInt gap total
  let simIn ← simSwapExactOut env t.routes ⟨config.reserveDenom, amountOut⟩
  require (¬ amountGap < simIn) .tradeError
  require (¬ maxAmountIn < simIn) .tradeError
  let deduct ← ratio simIn total
  let expand ← ratio amountOut total
  let index' ← index.subKey target deduct
  let reserve' ← inflateReserveUnit reserve expand r.inflation
  let m ← corePut m .indexUnits (.units index')
  let m ← corePut m .reserveUnits (.units reserve')
  let m ← corePut m (.tradeInfo target config.reserveDenom) (.tradeInfo { t with lastTradedAt := some env.now })
  .ok (m, [.swapExactOut env.contract t.routes ⟨config.reserveDenom, amountOut⟩ simIn])

/-- `inflate_reserve`, `/repo/contracts/core/src/execute/rebalance/trade/inflate.rs:12-42`. -/
def coreInflateReserve (m : Raw V) (denom : Denom) : Res (CoreOutOf V) := do
  let (index, reserve, total) ← coreLoadUnits m
  let unit ← reserve.getKey! denom
  let _amount ← mulInt unit total
  let index' ← index.addKey denom unit
  let reserve' ← reserve.subKey denom unit
  let m ← corePut m .indexUnits (.units index')
  let m ← corePut m .reserveUnits (.units reserve')
  .ok (m, [])

/-- `inflate`, `/repo/contracts/core/src/execute/rebalance/trade/inflate.rs:45-122`. -/
def coreInflate (m : Raw V) (env : Env) (target : Denom) (amountIn minAmountOut : Nat) : Res (CoreOutOf V) := do
  let config ← coreLoad m .config CoreCell.asConfig
  let t ← coreLoad m (.tradeInfo config.reserveDenom target) CoreCell.asTradeInfo
  let (index, reserve, total) ← coreLoadUnits m
  let reserveUnit ← reserve.getKey! target
  t.assertCooldown env.now
  require (¬ t.maxTradeAmount < amountIn) .tradeError
  let reserveAmount ← mulInt reserveUnit total
  require (¬ reserveAmount < amountIn) .tradeError
  let simOut ← simSwapExactIn env t.routes ⟨config.reserveDenom, amountIn⟩
  require (¬ simOut < minAmountOut) .tradeError
  let deduct ← ratio amountIn total
  let expand ← ratio simOut total
  let index' ← index.addKey target expand
  let reserve' ← reserve.subKey target deduct
  let m ← corePut m .indexUnits (.units index')
  let m ← corePut m .reserveUnits (.units reserve')
  let m ← corePut m (.tradeInfo config.reserveDenom target) (.tradeInfo { t with lastTradedAt := some env.now })
  .ok (m, [.swapExactIn env.contract t.routes ⟨config.reserveDenom, amountIn⟩ simOut])

/-- `trade`, `/repo/contracts/core/src/execute/rebalance/trade/mod.rs:26-67`. -/
def coreTrade (m : Raw V) (env : Env) (info : Info) (msg : TradeMsg) : Res (CoreOutOf V) := do
  match ← coreMay m .rebalance CoreCell.asRebalance with
  | none => .error .notOnRebalancing
  | some r => do
    checkManager r info.sender
    match msg with
    | .deflate target amountOut maxIn => do
      let config ← coreLoad m .config CoreCell.asConfig
      if config.reserveDenom = target then coreDeflateReserve m target
      else coreDeflate m env target amountOut maxIn
    | .inflate target amountIn minOut => do
      let config ← coreLoad m .config CoreCell.asConfig
      if config.reserveDenom = target then coreInflateReserve m target
      else coreInflate m env target amountIn minOut

/-- `handle_msg`, `/repo/contracts/core/src/execute/rebalance/mod.rs:14-31`. -/
def coreRebalance (m : Raw V) (env : Env) (info : Info) : RebalanceMsg → Res (CoreOutOf V)
  | .init a d i => coreInit m env info a d i
  | .trade t => coreTrade m env info t
  | .finalize => coreFinalize m env info

/-! ### Entry point -/

/-- The dispatch of `execute`, `/repo/contracts/core/src/contract.rs:94-105`. -/
def coreDispatch (m : Raw V) (env : Env) (info : Info) : ExecMsg → Res (CoreOutOf V)
  | .mint amount receiver refundTo => coreMint m env info amount receiver refundTo
  | .burn redeemTo => coreBurn m env info redeemTo
  | .realize => coreRealize m info
  | .gov msg => coreGov m env info msg
  | .rebalance msg => coreRebalance m env info msg

/-- `execute`, `/repo/contracts/core/src/contract.rs:75-106`. -/
def coreExecute (m : Raw V) (env : Env) (info : Info) (msg : ExecMsg) : Res (CoreOutOf V) := do
  let m ← if collectsFirst msg then coreCollect m env.now else .ok m
  coreDispatch m env info msg

/-- Delivery of a message: a failed message leaves the storage as it was, `/repo/contracts/core/src/contract.rs:75-106`. -/
def coreStep (m : Raw V) (call : Call) : CoreOutOf V :=
  match coreExecute m call.env call.info call.msg with
  | .ok out => out
  | .error _ => (m, [])

/-- A history of messages, `/repo/contracts/core/src/contract.rs:75-106`. -/
def coreRun (m : Raw V) : List Call → CoreOutOf V
  | [] => (m, [])
  | call :: calls =>
    let (m', ms) := coreStep m call
    let (m'', ms') := coreRun m' calls
    (m'', ms ++ ms')

/-- `migrate`, `/repo/contracts/core/src/contract.rs:181-190`, with `store_version` of
`/repo/packages/utils/src/lib.rs:7-31`; `parse` is `Version::parse`. -/
def coreMigrate (parse : String → Option Version) (m : Raw V) (name version : String) (force : Option Bool) :
    Res (Raw V) :=
  if force.getD false = false then do
    let stored ← coreLoad m .version CoreCell.asVersion
    require (stored.contract = name) .generic
    match parse stored.version, parse version with
    | some cv, some nv => do
      require (cmpVersion cv nv = .lt) .generic
      corePut m .version (.version { contract := name, version := version })
    | _, _ => .error .generic
  else corePut m .version (.version { contract := name, version := version })

/-! ### Queries -/

/-- `get_total_supply`, `/repo/contracts/core/src/query.rs:29-31`. -/
def coreGetTotalSupply (m : Raw V) : Res Nat := coreLoad m .totalSupply CoreCell.asSupply

/-- `get_config`, `/repo/contracts/core/src/query.rs:33-59`. -/
def coreGetConfig (m : Raw V) (env : Env) (time : Option Nat) : Res ConfigResp := do
  let t := time.getD env.now
  let config ← coreLoad m .config CoreCell.asConfig
  require (t * 10 ^ 9 < 2 ^ 64) .overflow
  let pending ← coreMay m .pendingGov CoreCell.asAddr
  .ok { gov := config.gov
        pendingGov := pending
        paused := config.paused.refresh t
        indexDenom := config.indexDenom
        reserveDenom := config.reserveDenom }

/-- `get_fee`, `/repo/contracts/core/src/query.rs:61-85`. -/
def coreGetFee (m : Raw V) (env : Env) (time : Option Nat) : Res Fee := do
  let total ← coreLoad m .totalSupply CoreCell.asSupply
  let fee ← coreLoad m .fee CoreCell.asFee
  match fee.streamingFee with
  | some sf => do
    let units ← coreLoad m .indexUnits CoreCell.asUnits
    let (sf', _) ← sf.collect units (time.getD env.now) total
    .ok { fee with streamingFee := some sf' }
  | none => .ok fee

/-- The fee and the units after a simulated accrual, `/repo/contracts/core/src/query.rs:94-101,180-187,213-220`. -/
def coreUnitsAt (fee : Fee) (units : Units) (total time : Nat) : Res Units :=
  match fee.streamingFee with
  | some sf => do
    let (_, units') ← sf.collect units time total
    .ok units'
  | none => .ok units

/-- `get_portfolio`, `/repo/contracts/core/src/query.rs:87-108`. -/
def coreGetPortfolio (m : Raw V) (env : Env) (time : Option Nat) : Res PortfolioResp := do
  let total ← coreLoad m .totalSupply CoreCell.asSupply
  let fee ← coreLoad m .fee CoreCell.asFee
  let units ← coreLoad m .indexUnits CoreCell.asUnits
  let units ← coreUnitsAt fee units total (time.getD env.now)
  let assets ← units.calcRequire total
  .ok { totalSupply := total, assets := assets, units := units }

/-- `get_rebalance`, `/repo/contracts/core/src/query.rs:110-120`. -/
def coreGetRebalance (m : Raw V) : Res (Option Rebalance) := coreMay m .rebalance CoreCell.asRebalance

/-- `get_trade_info`, `/repo/contracts/core/src/query.rs:133-143`. -/
def coreGetTradeInfo (m : Raw V) (denomIn denomOut : Denom) : Res (Option TradeInfo) :=
  coreMay m (.tradeInfo denomIn denomOut) CoreCell.asTradeInfo

/-- `simulate_mint`, `/repo/contracts/core/src/query.rs:167-199`. -/
def coreSimulateMint (m : Raw V) (env : Env) (amount : Nat) (funds : Option (List Coin)) (time : Option Nat) :
    Res SimMintResp := do
  let fee ← coreLoad m .fee CoreCell.asFee
  let total ← coreLoad m .totalSupply CoreCell.asSupply
  let units ← coreLoad m .indexUnits CoreCell.asUnits
  let units ← coreUnitsAt fee units total (time.getD env.now)
  let spent ← units.calcRequire amount
  let refund ← units.calcRefund (funds.getD spent) amount
  let mintFee ← feeAmount fee.mintFee amount
  let mintSend ← sub amount (mintFee.getD 0)
  .ok { mintAmount := mintSend, refundAmount := refund, fundSpent := spent }

/-- `simulate_burn`, `/repo/contracts/core/src/query.rs:201-230`. -/
def coreSimulateBurn (m : Raw V) (env : Env) (amount : Nat) (time : Option Nat) : Res SimBurnResp := do
  let fee ← coreLoad m .fee CoreCell.asFee
  let total ← coreLoad m .totalSupply CoreCell.asSupply
  let units ← coreLoad m .indexUnits CoreCell.asUnits
  let units ← coreUnitsAt fee units total (time.getD env.now)
  let burnFee ← feeAmount fee.burnFee amount
  let burnAmount ← sub amount (burnFee.getD 0)
  let redeem ← units.calcRequire burnAmount
  .ok { burnAmount := burnAmount, redeemAmount := redeem }

end

end Ibcx.Storage
