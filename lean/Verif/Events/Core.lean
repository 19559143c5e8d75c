import Verif.Core.Exec
/-!
# Events of the core contract

Models the `attr(…)` lists of `/repo/contracts/core/src/contract.rs` and `/repo/contracts/core/src/execute/`.
Every function below runs the handler modelled in `Verif/Core/` and then builds the attributes from the values
the handler computed.  Simplified: those values are computed a second time instead of being passed along.
-/

namespace Ibcx.Core
open Ibcx

/-- `cosmwasm_std::Attribute`: a key and a value.  In the responses of `/repo/contracts/core/src/execute/`, e.g.
`/repo/contracts/core/src/execute/token.rs:28-33`. -/
abbrev Attr := String × String

/-- A response: new state, messages, attributes.  Result of `/repo/contracts/core/src/contract.rs:75-106`. -/
abbrev Response := Out × List Attr

/-- `mint_event`, `/repo/contracts/core/src/execute/token.rs:21-34`. -/
def mintEvent (sender receiver refundTo : Addr) (amount : Nat) : List Attr :=
  [("method", "mint"), ("executor", sender), ("receiver", receiver), ("refund_to", refundTo),
   ("amount", toString amount)]

/-- `mint` with its event, `/repo/contracts/core/src/execute/token.rs:106-110`. -/
def mintR (s : State) (env : Env) (info : Info) (amount : Nat) (receiver refundTo : Option Addr) : Res Response := do
  let o ← mint s env info amount receiver refundTo
  let receiver ← unwrapAddr env receiver info.sender
  let refundTo ← unwrapAddr env refundTo info.sender
  .ok (o, mintEvent info.sender receiver refundTo amount)

/-- `burn_event`, `/repo/contracts/core/src/execute/token.rs:113-124`. -/
def burnEvent (sender redeemTo : Addr) (amount : Nat) : List Attr :=
  [("method", "burn"), ("executor", sender), ("redeem_to", redeemTo), ("amount", toString amount)]

/-- `burn` with its event, `/repo/contracts/core/src/execute/token.rs:189-193`. -/
def burnR (s : State) (env : Env) (info : Info) (redeemTo : Option Addr) : Res Response := do
  let o ← burn s env info redeemTo
  let redeemTo ← unwrapAddr env redeemTo info.sender
  let received ← mustPay info s.config.indexDenom
  let burnFee ← feeAmount s.fee.burnFee received
  let burnAmount ← sub received (burnFee.getD 0)
  .ok (o, burnEvent info.sender redeemTo burnAmount)

/-- `realize_streaming_fee` with its attributes, `/repo/contracts/core/src/execute/fee.rs:46-48`. -/
def realizeR (s : State) (info : Info) : Res Response := do
  let o ← realizeStreamingFee s info
  .ok (o, [("method", "realize"), ("executor", info.sender)])

/-- `format!("{routes:?}")`, `/repo/contracts/core/src/execute/gov/update.rs:206`, for the derived `Debug` of
`/repo/packages/interface/src/types.rs:11-27`.  Simplified: quotes, backslashes and control characters inside a
denom are not escaped. -/
def debugRoutes (routes : List SwapRoute) : String :=
  "SwapRoutes([" ++ ", ".intercalate (routes.map fun r =>
    "SwapRoute { pool_id: " ++ toString r.poolId ++ ", token_denom: \"" ++ r.tokenDenom ++ "\" }") ++ "])"

/-- `/repo/contracts/core/src/execute/gov/mod.rs:10-32` with the attributes of
`/repo/contracts/core/src/execute/gov/pause.rs:39-53,70-77` and
`/repo/contracts/core/src/execute/gov/update.rs:24-30,44-50,62-68,101-108,137-145,169-177,201-213`. -/
def govR (s : State) (env : Env) (info : Info) (m : GovMsg) : Res Response := do
  let o ← handleGov s env info m
  match m with
  | .pause e => .ok (o, [("method", "gov::pause"), ("executor", info.sender),
      ("expires_at", (e.map fun v => toString v).getD "never")])
  | .release => .ok (o, [("method", "gov::release"), ("executor", info.sender)])
  | .updateGov g => .ok (o, [("method", "gov::update_gov"), ("executor", info.sender), ("pending_gov", g)])
  | .acceptGov => .ok (o, [("method", "gov::accept_gov"), ("executor", info.sender), ("gov", o.1.config.gov)])
  | .revokeGov =>
    match s.pendingGov with
    | none => .error .notFound
    | some g => .ok (o, [("method", "gov::revoke_gov"), ("executor", info.sender), ("pending_gov", g)])
  | .updateFeeStrategy _ => .ok (o, [("method", "gov::update_fee"), ("executor", info.sender)])
  | .updateRebalanceManager m => .ok (o, [("method", "gov::update_rebalance_manager"), ("executor", info.sender),
      ("new_manager", m.getD "none")])
  | .updateReserveDenom d => .ok (o, [("method", "gov::update_reserve_denom"), ("executor", info.sender),
      ("new_denom", d)])
  | .updateTradeInfo d routes cooldown maxTradeAmount => do
    let denomOut ← denomLast routes
    .ok (o, [("method", "gov::update_trade_info"), ("executor", info.sender), ("denom_in", d),
      ("denom_out", denomOut), ("routes", debugRoutes routes), ("cooldown", toString cooldown),
      ("max_trade_amount", toString maxTradeAmount)])

/-- `init` with its attributes, `/repo/contracts/core/src/execute/rebalance/init.rs:69-78`. -/
def initR (s : State) (env : Env) (info : Info) (manager : Option Addr) (deflation inflation : Units) :
    Res Response := do
  let o ← init s env info manager deflation inflation
  .ok (o, [("method", "rebalance::init"), ("executor", info.sender), ("manager", manager.getD "none")])

/-- `finalize` with its attributes, `/repo/contracts/core/src/execute/rebalance/finalize.rs:64-71`. -/
def finalizeR (s : State) (env : Env) (info : Info) : Res Response := do
  let o ← finalize s env info
  .ok (o, [("method", "rebalance::finalize"), ("executor", info.sender), ("finalized_at", toString env.height)])

/-- The attributes of a trade, `/repo/contracts/core/src/execute/rebalance/trade/deflate.rs:67-74,154-161` and
`/repo/contracts/core/src/execute/rebalance/trade/inflate.rs:34-41,112-119`. -/
def tradeAttrs (method : String) (sender : Addr) (denom : Denom) (amountIn amountOut : Nat) (isReserve : String) :
    List Attr :=
  [("method", method), ("executor", sender), ("denom", denom), ("amount_in", toString amountIn),
   ("amount_out", toString amountOut), ("is_reserve", isReserve)]

/-- `deflate_reserve` with its attributes, `/repo/contracts/core/src/execute/rebalance/trade/deflate.rs:38-77`. -/
def deflateReserveR (s : State) (info : Info) (r : Rebalance) (denom : Denom) : Res Response := do
  let o ← deflateReserve s r denom
  let target ← r.deflation.getKey! denom
  let current ← s.indexUnits.getKey! denom
  let gap ← sub current target
  let amountGap ← mulInt gap s.totalSupply
  .ok (o, tradeAttrs "deflate" info.sender denom amountGap amountGap "true")

/-- `deflate` with its attributes, `/repo/contracts/core/src/execute/rebalance/trade/deflate.rs:80-164`. -/
def deflateR (s : State) (env : Env) (info : Info) (r : Rebalance) (target : Denom) (amountOut maxAmountIn : Nat) :
    Res Response := do
  let o ← deflate s env r target amountOut maxAmountIn
  let rd := s.config.reserveDenom
  let t ← s.tradeInfos.load (target, rd)
  let simIn ← simSwapExactOut env t.routes ⟨rd, amountOut⟩
  .ok (o, tradeAttrs "deflate" info.sender target simIn amountOut "false")

/-- `inflate_reserve` with its attributes, `/repo/contracts/core/src/execute/rebalance/trade/inflate.rs:12-42`. -/
def inflateReserveR (s : State) (info : Info) (denom : Denom) : Res Response := do
  let o ← inflateReserve s denom
  let reserve ← loadReserve s
  let unit ← reserve.getKey! denom
  let amount ← mulInt unit s.totalSupply
  .ok (o, tradeAttrs "inflate" info.sender denom amount amount "true")

/-- `inflate` with its attributes, `/repo/contracts/core/src/execute/rebalance/trade/inflate.rs:45-122`. -/
def inflateR (s : State) (env : Env) (info : Info) (target : Denom) (amountIn minAmountOut : Nat) :
    Res Response := do
  let o ← inflate s env target amountIn minAmountOut
  let rd := s.config.reserveDenom
  let t ← s.tradeInfos.load (rd, target)
  let simOut ← simSwapExactIn env t.routes ⟨rd, amountIn⟩
  .ok (o, tradeAttrs "inflate" info.sender target amountIn simOut "false")

/-- `trade` with attributes, `/repo/contracts/core/src/execute/rebalance/trade/mod.rs:26-67`. -/
def tradeR (s : State) (env : Env) (info : Info) (msg : TradeMsg) : Res Response :=
  match s.rebalance with
  | none => .error .notOnRebalancing
  | some r => do
    checkManager r info.sender
    match msg with
    | .deflate target amountOut maxIn =>
      if s.config.reserveDenom = target then deflateReserveR s info r target
      else deflateR s env info r target amountOut maxIn
    | .inflate target amountIn minOut =>
      if s.config.reserveDenom = target then inflateReserveR s info target
      else inflateR s env info target amountIn minOut

/-- `/repo/contracts/core/src/contract.rs:94-105` and `/repo/contracts/core/src/execute/rebalance/mod.rs:14-31` with
attributes. -/
def dispatchR (s : State) (env : Env) (info : Info) : ExecMsg → Res Response
  | .mint amount receiver refundTo => mintR s env info amount receiver refundTo
  | .burn redeemTo => burnR s env info redeemTo
  | .realize => realizeR s info
  | .gov m => govR s env info m
  | .rebalance (.init m d i) => initR s env info m d i
  | .rebalance (.trade t) => tradeR s env info t
  | .rebalance .finalize => finalizeR s env info

/-- `execute` with attributes, `/repo/contracts/core/src/contract.rs:75-106`. -/
def executeR (s : State) (env : Env) (info : Info) (msg : ExecMsg) : Res Response := do
  let s ← if collectsFirst msg then collectStreamingFee s env.now else .ok s
  dispatchR s env info msg

/-- `instantiate` with its attribute, `/repo/contracts/core/src/contract.rs:67-71`. -/
def instantiateR (env : Env) (msg : InstantiateMsg) : Res Response := do
  let o ← instantiate env msg
  .ok (o, [("method", "instantiate")])

/-- `reply` with its attributes, `/repo/contracts/core/src/contract.rs:109-128`. -/
def replyR (s : State) (id : Nat) (newDenom : Option Denom) : Res Response := do
  let o ← reply s id newDenom
  .ok (o, [("method", "reply_instantiate"), ("new_denom", o.1.config.indexDenom)])

/-- The events of a history: one list of attributes for every accepted message, in order.  Entry point
`/repo/contracts/core/src/contract.rs:75-106`. -/
def eventLog (s : State) : List Call → List (List Attr)
  | [] => []
  | c :: cs =>
    match executeR s c.env c.info c.msg with
    | .ok (o, attrs) => attrs :: eventLog o.1 cs
    | .error _ => eventLog s cs

end Ibcx.Core
