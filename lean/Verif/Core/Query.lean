import Verif.Core.Token
/-!
# Queries

Models `/repo/contracts/core/src/query.rs` (listing queries are in `Verif/Iface/Page.lean`).
-/

namespace Ibcx.Core
open Ibcx

/-- `get_total_supply`, `/repo/contracts/core/src/query.rs:29-31`. -/
def getTotalSupply (s : State) : Nat := s.totalSupply

/-- `GetConfigResponse`, `/repo/packages/interface/src/core.rs:147-155`. -/
structure ConfigResp where
  gov : Addr
  pendingGov : Option Addr
  paused : PauseInfo
  indexDenom : Denom
  reserveDenom : Denom
deriving DecidableEq, Repr

/-- `get_config`, `/repo/contracts/core/src/query.rs:33-59`.  `Timestamp::from_seconds` multiplies the requested time
by
`10^9` in `u64` and aborts on overflow. -/
def getConfig (s : State) (env : Env) (time : Option Nat) : Res ConfigResp := do
  let t := time.getD env.now
  require (t * 10 ^ 9 < 2 ^ 64) .overflow
  .ok { gov := s.config.gov
        pendingGov := s.pendingGov
        paused := s.config.paused.refresh t
        indexDenom := s.config.indexDenom
        reserveDenom := s.config.reserveDenom }

/-- `get_fee`, `/repo/contracts/core/src/query.rs:61-85`; the response has the fields of `Fee`. -/
def getFee (s : State) (env : Env) (time : Option Nat) : Res Fee :=
  match s.fee.streamingFee with
  | none => .ok s.fee
  | some sf => do
    let (sf', _) ← sf.collect s.indexUnits (time.getD env.now) s.totalSupply
    .ok { s.fee with streamingFee := some sf' }

/-- The units after a simulated accrual, `/repo/contracts/core/src/query.rs:94-101,180-187,213-220`. -/
def unitsAt (s : State) (time : Nat) : Res Units :=
  match s.fee.streamingFee with
  | none => .ok s.indexUnits
  | some sf => do
    let (_, units) ← sf.collect s.indexUnits time s.totalSupply
    .ok units

/-- `GetPortfolioResponse`.  `/repo/packages/interface/src/core.rs:173-177`. -/
structure PortfolioResp where
  totalSupply : Nat
  assets : List Coin
  units : Units
deriving DecidableEq, Repr

/-- `get_portfolio`, `/repo/contracts/core/src/query.rs:87-108`. -/
def getPortfolio (s : State) (env : Env) (time : Option Nat) : Res PortfolioResp := do
  let units ← unitsAt s (time.getD env.now)
  let assets ← units.calcRequire s.totalSupply
  .ok { totalSupply := s.totalSupply, assets := assets, units := units }

/-- `get_rebalance`, `/repo/contracts/core/src/query.rs:110-120`. -/
def getRebalance (s : State) : Option Rebalance := s.rebalance

/-- `get_trade_info`, `/repo/contracts/core/src/query.rs:133-143`. -/
def getTradeInfo (s : State) (denomIn denomOut : Denom) : Option TradeInfo :=
  s.tradeInfos.get (denomIn, denomOut)

/-- `SimulateMintResponse`.  `/repo/packages/interface/src/core.rs:209-213`. -/
structure SimMintResp where
  mintAmount : Nat
  refundAmount : List Coin
  fundSpent : List Coin
deriving DecidableEq, Repr

/-- `simulate_mint`, `/repo/contracts/core/src/query.rs:167-199`. -/
def simulateMint (s : State) (env : Env) (amount : Nat) (funds : Option (List Coin))
    (time : Option Nat) : Res SimMintResp := do
  let units ← unitsAt s (time.getD env.now)
  let spent ← units.calcRequire amount
  let refund ← units.calcRefund (funds.getD spent) amount
  let mintFee ← feeAmount s.fee.mintFee amount
  let mintSend ← sub amount (mintFee.getD 0)
  .ok { mintAmount := mintSend, refundAmount := refund, fundSpent := spent }

/-- `SimulateBurnResponse`.  `/repo/packages/interface/src/core.rs:216-219`. -/
structure SimBurnResp where
  burnAmount : Nat
  redeemAmount : List Coin
deriving DecidableEq, Repr

/-- `simulate_burn`, `/repo/contracts/core/src/query.rs:201-230`. -/
def simulateBurn (s : State) (env : Env) (amount : Nat) (time : Option Nat) : Res SimBurnResp := do
  let units ← unitsAt s (time.getD env.now)
  let burnFee ← feeAmount s.fee.burnFee amount
  let burnAmount ← sub amount (burnFee.getD 0)
  let redeem ← units.calcRequire burnAmount
  .ok { burnAmount := burnAmount, redeemAmount := redeem }

end Ibcx.Core
