import Verif.Core.Fee
/-!
# Governance messages

Models `/repo/contracts/core/src/execute/gov/pause.rs` and `/repo/contracts/core/src/execute/gov/update.rs`.
-/

namespace Ibcx.Core
open Ibcx

/-- `pause`, `/repo/contracts/core/src/execute/gov/pause.rs:9-54`. -/
def pause (s : State) (env : Env) (info : Info) (expiresAt : Option Nat) : Res Out := do
  s.config.checkGov info.sender
  s.config.assertNotPaused env.now
  match expiresAt with
  | some e => require (¬ e ≤ env.now) .invalid
  | none => .ok ()
  .ok ({ s with config := { s.config with paused := { paused := true, expiresAt := expiresAt } } }, [])

/-- `release`, `/repo/contracts/core/src/execute/gov/pause.rs:56-78`. -/
def release (s : State) (env : Env) (info : Info) : Res Out := do
  s.config.checkGov info.sender
  s.config.assertPaused env.now
  .ok ({ s with config := { s.config with paused := {} } }, [])

/-- `update_gov`, `/repo/contracts/core/src/execute/gov/update.rs:14-31`. -/
def updateGov (s : State) (env : Env) (info : Info) (newGov : Addr) : Res Out := do
  s.config.checkGov info.sender
  require (s.pendingGov = none) .generic
  let g ← validate env newGov
  .ok ({ s with pendingGov := some g }, [])

/-- `accept_gov`, `/repo/contracts/core/src/execute/gov/update.rs:33-51`. -/
def acceptGov (s : State) (info : Info) : Res Out :=
  match s.pendingGov with
  | none => .error .notFound
  | some g => do
    assertSender g info.sender
    .ok ({ s with pendingGov := none, config := { s.config with gov := g } }, [])

/-- `revoke_gov`, `/repo/contracts/core/src/execute/gov/update.rs:53-69`. -/
def revokeGov (s : State) (info : Info) : Res Out :=
  match s.pendingGov with
  | none => .error .notFound
  | some _ => do
    s.config.checkGov info.sender
    .ok ({ s with pendingGov := none }, [])

/-- The streaming fee record built from a payload, `/repo/contracts/core/src/execute/gov/update.rs:90-95` and
`/repo/contracts/core/src/contract.rs:35-40`. -/
def StreamingFeePayload.toState (p : StreamingFeePayload) (now : Nat) : StreamingFee :=
  { rate := p.rate, collected := [], lastCollectedAt := now, freeze := p.freeze }

/-- `update_fee`, `/repo/contracts/core/src/execute/gov/update.rs:71-109`. -/
def updateFee (s : State) (env : Env) (info : Info) (p : FeePayload) : Res Out := do
  s.config.checkGov info.sender
  require (s.rebalance = none) .onRebalancing
  let collector ← validate env p.collector
  let fee : Fee :=
    { collector := collector, mintFee := p.mintFee, burnFee := p.burnFee
      streamingFee := p.streamingFee.map (·.toState env.now) }
  fee.checkRates
  .ok ({ s with fee := fee }, [])

/-- `update_rebalance_manager`, `/repo/contracts/core/src/execute/gov/update.rs:111-146`. -/
def updateRebalanceManager (s : State) (env : Env) (info : Info) (m : Option Addr) : Res Out := do
  s.config.checkGov info.sender
  match s.rebalance with
  | none => .error .notOnRebalancing
  | some r => do
    let m ← validateOpt env m
    .ok ({ s with rebalance := some { r with manager := m } }, [])

/-- `update_reserve_denom`, `/repo/contracts/core/src/execute/gov/update.rs:148-178`. -/
def updateReserveDenom (s : State) (info : Info) (d : Denom) : Res Out := do
  s.config.checkGov info.sender
  require (s.rebalance = none) .onRebalancing
  .ok ({ s with config := { s.config with reserveDenom := d } }, [])

/-- `SwapRoutes::denom_last`, `/repo/packages/interface/src/types.rs:75-77`: despite its name it
is the denom of the FIRST hop; aborts on an empty route. -/
def denomLast (routes : List SwapRoute) : Res Denom :=
  match routes with
  | [] => .error .panic
  | r :: _ => .ok r.tokenDenom

/-- `update_trade_info`, `/repo/contracts/core/src/execute/gov/update.rs:180-214`. -/
def updateTradeInfo (s : State) (info : Info) (denomIn : Denom) (routes : List SwapRoute)
    (cooldown maxTradeAmount : Nat) : Res Out := do
  s.config.checkGov info.sender
  let denomOut ← denomLast routes
  let t : TradeInfo :=
    { routes := routes, cooldown := cooldown, maxTradeAmount := maxTradeAmount
      lastTradedAt := none }
  .ok ({ s with tradeInfos := s.tradeInfos.set (denomIn, denomOut) t }, [])

/-- `handle_msg`, `/repo/contracts/core/src/execute/gov/mod.rs:10-32`. -/
def handleGov (s : State) (env : Env) (info : Info) : GovMsg → Res Out
  | .pause e => pause s env info e
  | .release => release s env info
  | .updateGov g => updateGov s env info g
  | .acceptGov => acceptGov s info
  | .revokeGov => revokeGov s info
  | .updateFeeStrategy p => updateFee s env info p
  | .updateRebalanceManager m => updateRebalanceManager s env info m
  | .updateReserveDenom d => updateReserveDenom s info d
  | .updateTradeInfo d r c m => updateTradeInfo s info d r c m

end Ibcx.Core
