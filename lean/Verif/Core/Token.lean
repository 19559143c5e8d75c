import Verif.Core.Fee
/-!
# Mint and burn

Models `/repo/contracts/core/src/execute/token.rs`.
-/

namespace Ibcx.Core
open Ibcx

/-- `fee.mint_fee.map(|v| (v * amount).max(Uint128::one()))`, `/repo/contracts/core/src/execute/token.rs:63`. -/
def mintFeeAmount (rate : Option Nat) (amount : Nat) : Res (Option Nat) :=
  match rate with
  | none => .ok none
  | some v => do
    let a ← mulInt v amount
    .ok (some (max a 1))

/-- `fee.burn_fee.map(|v| v * received)`, `/repo/contracts/core/src/execute/token.rs:150`; also
`/repo/contracts/core/src/query.rs:191,222`. -/
def feeAmount (rate : Option Nat) (amount : Nat) : Res (Option Nat) :=
  match rate with
  | none => .ok none
  | some v => do
    let a ← mulInt v amount
    .ok (some a)

/-- The optional fee transfer, `/repo/contracts/core/src/execute/token.rs:79-82` and
`/repo/contracts/core/src/execute/token.rs:168-171`. -/
def feeMsg (collector : Addr) (denom : Denom) : Option Nat → List Msg
  | none => []
  | some v => [.send collector [⟨denom, v⟩]]

/-- `mint`, `/repo/contracts/core/src/execute/token.rs:36-111`. -/
def mint (s : State) (env : Env) (info : Info) (amount : Nat)
    (receiver refundTo : Option Addr) : Res Out := do
  s.config.assertNotPaused env.now
  require (s.rebalance = none) .onRebalancing
  let receiver ← unwrapAddr env receiver info.sender
  let refundTo ← unwrapAddr env refundTo info.sender
  let refund ← s.indexUnits.calcRefund info.funds amount
  let mintFee ← mintFeeAmount s.fee.mintFee amount
  let mintSend ← sub amount (mintFee.getD 0)
  let supply ← add s.totalSupply amount
  .ok ({ s with totalSupply := supply },
    [.tfMint env.contract env.contract ⟨s.config.indexDenom, amount⟩]
    ++ feeMsg s.fee.collector s.config.indexDenom mintFee
    ++ [.send receiver [⟨s.config.indexDenom, mintSend⟩],
        .send refundTo refund])

/-- `burn`, `/repo/contracts/core/src/execute/token.rs:126-194`. -/
def burn (s : State) (env : Env) (info : Info) (redeemTo : Option Addr) : Res Out := do
  s.config.assertNotPaused env.now
  require (s.rebalance = none) .onRebalancing
  let redeemTo ← unwrapAddr env redeemTo info.sender
  let received ← mustPay info s.config.indexDenom
  let burnFee ← feeAmount s.fee.burnFee received
  let burnAmount ← sub received (burnFee.getD 0)
  let redeem ← s.indexUnits.calcRequire burnAmount
  let supply ← sub s.totalSupply burnAmount
  .ok ({ s with totalSupply := supply },
    [.tfBurn env.contract env.contract ⟨s.config.indexDenom, burnAmount⟩]
    ++ feeMsg s.fee.collector s.config.indexDenom burnFee
    ++ [.send redeemTo (sortCoins redeem)])

end Ibcx.Core
