import Verif.Core.Fee
/-!
# Rebalancing

Models `/repo/contracts/core/src/state/rebalance.rs` and `/repo/contracts/core/src/execute/rebalance/`.
-/

namespace Ibcx.Core
open Ibcx

/-- The loop `/repo/contracts/core/src/state/rebalance.rs:40-65`: every deflation denom is popped from a copy of the
index units; its unit must not be below the target. -/
def checkDeflation : Units → Units → Res Unit
  | _, [] => .ok ()
  | base, (d, target) :: ds =>
    match base.popKey d with
    | none => .error .invalid
    | some (unit, rest) => do
      require (¬ unit < target) .invalid
      checkDeflation rest ds

/-- `Rebalance::validate`, `/repo/contracts/core/src/state/rebalance.rs:21-87`. -/
def Rebalance.validate (r : Rebalance) (indexUnits : Units) : Res Unit := do
  require (r.deflation ≠ []) .invalid
  require (r.inflation ≠ []) .invalid
  require (r.deflation.checkDuplicate = false) .invalid
  require (r.inflation.checkDuplicate = false) .invalid
  checkDeflation indexUnits r.deflation
  require (Units.checkDuplicate (r.deflation ++ r.inflation) = false) .invalid

/-- `TradeInfo::assert_cooldown`, `/repo/contracts/core/src/state/rebalance.rs:99-111`. -/
def TradeInfo.assertCooldown (t : TradeInfo) (now : Nat) : Res Unit :=
  match t.lastTradedAt with
  | none => .ok ()
  | some last => do
    let until_ ← add64 last t.cooldown
    require (¬ now < until_) .onTradeCooldown

/-- `freeze_streaming_fee`, `/repo/contracts/core/src/execute/rebalance/init.rs:9-18`. -/
def freezeStreamingFee (s : State) : State :=
  { s with fee := { s.fee with
      streamingFee := s.fee.streamingFee.map fun sf => { sf with freeze := true } } }

/-- `init`, `/repo/contracts/core/src/execute/rebalance/init.rs:33-79`. -/
def init (s : State) (env : Env) (info : Info) (manager : Option Addr)
    (deflation inflation : Units) : Res Out := do
  let s := freezeStreamingFee s
  s.config.checkGov info.sender
  require (s.rebalance = none) .onRebalancing
  let manager ← validateOpt env manager
  let r : Rebalance := { manager := manager, deflation := deflation, inflation := inflation }
  r.validate s.indexUnits
  .ok ({ s with rebalance := some r, reserveUnits := some [] }, [])

/-- `if let Some(manager) = rebalance.manager { assert_sender(..)? }`,
`/repo/contracts/core/src/execute/rebalance/finalize.rs:28-30`,
`/repo/contracts/core/src/execute/rebalance/trade/mod.rs:38-40`. -/
def checkManager (r : Rebalance) (sender : Addr) : Res Unit :=
  match r.manager with
  | none => .ok ()
  | some m => assertSender m sender

/-- `unfreeze_streaming_fee`, `/repo/contracts/core/src/execute/rebalance/finalize.rs:10-19`. -/
def unfreezeStreamingFee (s : State) (now : Nat) : State :=
  { s with fee := { s.fee with
      streamingFee := s.fee.streamingFee.map fun sf =>
        { sf with freeze := false, lastCollectedAt := now } } }

/-- The loop `/repo/contracts/core/src/execute/rebalance/finalize.rs:35-43`; a deflation denom missing from the units
aborts. -/
def checkTargets (indexUnits : Units) : Units → Res Unit
  | [] => .ok ()
  | (d, target) :: ds => do
    let current ← indexUnits.getKey! d
    require (¬ target < current) .unableToFinalize
    checkTargets indexUnits ds

/-- Load of an optional item that must exist (`RESERVE_UNITS.load`). 
`/repo/contracts/core/src/execute/rebalance/finalize.rs:46`,
`/repo/contracts/core/src/execute/rebalance/trade/mod.rs:17-23`. -/
def loadReserve (s : State) : Res Units :=
  match s.reserveUnits with
  | some r => .ok r
  | none => .error .notFound

/-- `finalize`, `/repo/contracts/core/src/execute/rebalance/finalize.rs:21-72`. -/
def finalize (s : State) (env : Env) (info : Info) : Res Out := do
  let s := unfreezeStreamingFee s env.now
  match s.rebalance with
  | none => .error .notOnRebalancing
  | some r => do
    checkManager r info.sender
    checkTargets s.indexUnits r.deflation
    let reserve ← loadReserve s
    require (reserve.checkEmpty = true) .unableToFinalize
    .ok ({ s with indexUnits := s.indexUnits.pruneZero, rebalance := none, reserveUnits := none }, [])

/-- `inflations.iter().map(|(_, v)| *v).sum::<Decimal>()`,
`/repo/contracts/core/src/execute/rebalance/trade/deflate.rs:26`; aborts on
overflow. -/
def sumWeights : Units → Res Nat
  | us => us.foldlM (fun acc e => add acc e.2) 0

/-- The loop of `inflate_reserve_unit`, `/repo/contracts/core/src/execute/rebalance/trade/deflate.rs:27-33`. -/
def inflateLoop : Units → Nat → Nat → Units → Res Units
  | reserve, _, _, [] => .ok reserve
  | reserve, expand, total, (d, w) :: ws => do
    let m ← decMul expand w
    let subUnit ← ratio m total
    let reserve' ← reserve.addKey d subUnit
    let expand' ← sub expand subUnit
    let total' ← sub total w
    inflateLoop reserve' expand' total' ws

/-- `inflate_reserve_unit`, `/repo/contracts/core/src/execute/rebalance/trade/deflate.rs:20-36`. -/
def inflateReserveUnit (reserve : Units) (inflateUnit : Nat) (inflations : Units) : Res Units := do
  let total ← sumWeights inflations
  inflateLoop reserve inflateUnit total inflations

/-- `deflate_reserve`, `/repo/contracts/core/src/execute/rebalance/trade/deflate.rs:38-77`.  `r` is the loaded
`REBALANCE`. -/
def deflateReserve (s : State) (r : Rebalance) (denom : Denom) : Res Out := do
  let reserve ← loadReserve s
  let target ← r.deflation.getKey! denom
  let current ← s.indexUnits.getKey! denom
  let gap ← sub current target
  let _amountGap ← mulInt gap s.totalSupply
  let index' ← s.indexUnits.subKey denom gap
  let reserve' ← inflateReserveUnit reserve gap r.inflation
  .ok ({ s with indexUnits := index', reserveUnits := some reserve' }, [])

/-- `SwapRoutes::sim_swap_exact_out`, `/repo/packages/interface/src/types.rs:96-116`. -/
def simSwapExactOut (env : Env) (routes : List SwapRoute) (tokenOut : Coin) : Res Nat :=
  match routes with
  | [] => .error .panic
  | _ :: _ => env.estIn routes tokenOut

/-- `SwapRoutes::sim_swap_exact_in`, `/repo/packages/interface/src/types.rs:79-94`. -/
def simSwapExactIn (env : Env) (routes : List SwapRoute) (tokenIn : Coin) : Res Nat :=
  match routes with
  | [] => .error .panic
  | _ :: _ => env.estOut routes tokenIn

/-- `deflate`, `/repo/contracts/core/src/execute/rebalance/trade/deflate.rs:80-164`. -/
def deflate (s : State) (env : Env) (r : Rebalance) (target : Denom)
    (amountOut maxAmountIn : Nat) : Res Out := do
  let rd := s.config.reserveDenom
  let t ← s.tradeInfos.load (target, rd)
  let reserve ← loadReserve s
  let targetUnit ← r.deflation.getKey! target
  let currentUnit ← s.indexUnits.getKey! target
  t.assertCooldown env.now
  require (¬ t.maxTradeAmount < amountOut) .tradeError
  let gap ← sub currentUnit targetUnit
  let amountGap ← mulInt gap s.totalSupply
  let simIn ← simSwapExactOut env t.routes ⟨rd, amountOut⟩
  require (¬ amountGap < simIn) .tradeError
  require (¬ maxAmountIn < simIn) .tradeError
  let deduct ← ratio simIn s.totalSupply
  let expand ← ratio amountOut s.totalSupply
  let index' ← s.indexUnits.subKey target deduct
  let reserve' ← inflateReserveUnit reserve expand r.inflation
  .ok ({ s with
        indexUnits := index'
        reserveUnits := some reserve'
        tradeInfos := s.tradeInfos.set (target, rd) { t with lastTradedAt := some env.now } },
    [.swapExactOut env.contract t.routes ⟨rd, amountOut⟩ simIn])

/-- `inflate_reserve`, `/repo/contracts/core/src/execute/rebalance/trade/inflate.rs:12-42`. -/
def inflateReserve (s : State) (denom : Denom) : Res Out := do
  let reserve ← loadReserve s
  let unit ← reserve.getKey! denom
  let _amount ← mulInt unit s.totalSupply
  let index' ← s.indexUnits.addKey denom unit
  let reserve' ← reserve.subKey denom unit
  .ok ({ s with indexUnits := index', reserveUnits := some reserve' }, [])

/-- `inflate`, `/repo/contracts/core/src/execute/rebalance/trade/inflate.rs:45-122`. -/
def inflate (s : State) (env : Env) (target : Denom) (amountIn minAmountOut : Nat) : Res Out := do
  let rd := s.config.reserveDenom
  let t ← s.tradeInfos.load (rd, target)
  let reserve ← loadReserve s
  let reserveUnit ← reserve.getKey! target
  t.assertCooldown env.now
  require (¬ t.maxTradeAmount < amountIn) .tradeError
  let reserveAmount ← mulInt reserveUnit s.totalSupply
  require (¬ reserveAmount < amountIn) .tradeError
  let simOut ← simSwapExactIn env t.routes ⟨rd, amountIn⟩
  require (¬ simOut < minAmountOut) .tradeError
  let deduct ← ratio amountIn s.totalSupply
  let expand ← ratio simOut s.totalSupply
  let index' ← s.indexUnits.addKey target expand
  let reserve' ← reserve.subKey target deduct
  .ok ({ s with
        indexUnits := index'
        reserveUnits := some reserve'
        tradeInfos := s.tradeInfos.set (rd, target) { t with lastTradedAt := some env.now } },
    [.swapExactIn env.contract t.routes ⟨rd, amountIn⟩ simOut])

/-- `trade`, `/repo/contracts/core/src/execute/rebalance/trade/mod.rs:26-67`. -/
def trade (s : State) (env : Env) (info : Info) (msg : TradeMsg) : Res Out :=
  match s.rebalance with
  | none => .error .notOnRebalancing
  | some r => do
    checkManager r info.sender
    match msg with
    | .deflate target amountOut maxIn =>
      if s.config.reserveDenom = target then deflateReserve s r target
      else deflate s env r target amountOut maxIn
    | .inflate target amountIn minOut =>
      if s.config.reserveDenom = target then inflateReserve s target
      else inflate s env target amountIn minOut

/-- `handle_msg`, `/repo/contracts/core/src/execute/rebalance/mod.rs:14-31`. -/
def handleRebalance (s : State) (env : Env) (info : Info) : RebalanceMsg → Res Out
  | .init m d i => init s env info m d i
  | .trade t => trade s env info t
  | .finalize => finalize s env info

end Ibcx.Core
