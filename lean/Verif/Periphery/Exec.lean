import Verif.Periphery.Text
import Verif.Core.Query
/-!
# The periphery contract

Models `/repo/contracts/periphery/src/{lib,execute,contract}.rs`.  The contract stores nothing but its version
(`/repo/contracts/periphery/src/contract.rs:9-21`; migration is `Verif/Iface/Version.lean`).  The attributes of the
responses are in
`Verif/Events/Periphery.lean`; the computations in them that can fail are here.
-/

namespace Ibcx.Periphery
open Ibcx Ibcx.Pool Ibcx.Core

/-- Messages of the periphery: swaps and transfers, calls of the core contract (`IbcCore::call_with_funds`,
`/repo/packages/interface/src/helpers/core.rs:32-45`), and the call to itself with `FinishOperation`. -/
inductive PMsg where
  | chain (m : Msg)
  | core (addr : Addr) (msg : Core.ExecMsg) (funds : List Coin)
  | finish (refundTo : Addr) (asset : Denom)
deriving DecidableEq, Repr

/-- What the contract can ask: block and address validation, the pools (`/repo/packages/pool/src/query.rs:64-79`), the
core contracts by address, and its own balance. -/
structure PEnv where
  env : Env
  pool : Nat → Res (Option Pool)
  core : Addr → Option Core.State
  balance : Denom → Nat

/-- `IbcCore(deps.api.addr_validate(&core_addr)?)` with the smart query to that contract; fails if there is none. 
`/repo/contracts/periphery/src/execute.rs:22,102,174,234`. -/
def findCore (p : PEnv) (addr : Addr) : Res Core.State := do
  let addr ← validate p.env addr
  match p.core addr with
  | some s => .ok s
  | none => .error .querier

/-- `deduct_fee`, `/repo/contracts/periphery/src/lib.rs:17-22`. -/
def deductFee : Option Nat → Res Nat
  | none => .ok ONE
  | some v => sub ONE v

/-- `expand_fee`, `/repo/contracts/periphery/src/lib.rs:24-31`. -/
def expandFee : Option Nat → Res Nat
  | none => .ok ONE
  | some v => do
    let k ← sub ONE v
    ratio ONE k

/-- The coins of a basket, `make_unit_converter`, `/repo/contracts/periphery/src/lib.rs:33-35` (and
`/repo/contracts/periphery/src/execute.rs:62-66`), sorted by
`coin_sorter`, `/repo/contracts/periphery/src/lib.rs:37-39`. -/
def basketCoins (units : Core.Units) (amount : Nat) : Res (List Coin) := do
  let cs ← units.mapM fun (d, u) => do
    let a ← mulInt u amount
    .ok (⟨d, a⟩ : Coin)
  .ok (sortCoins cs)

/-- `Simulator::new` with the pools of the routes, `/repo/contracts/periphery/src/execute.rs:31-35` and its copies. -/
def makeSim (p : PEnv) (infos : List SwapInfo) (units : Core.Units) : Res Simulator := do
  let pools ← queryPools p.pool (extractPoolIds infos)
  .ok { env := p.env, pools := pools, swapInfo := infos, units := units }

/-- `mint_exact_amount_in`, `/repo/contracts/periphery/src/execute.rs:12-90`. -/
def mintExactIn (p : PEnv) (info : Info) (coreAddr : Addr) (denom : Denom) (minIndex : Nat)
    (infos : List SwapInfo) : Res (List PMsg) := do
  let core ← findCore p coreAddr
  let fee ← getFee core p.env none
  let _ ← getConfig core p.env none
  let portfolio ← getPortfolio core p.env none
  let paid ← mustPay info denom
  let sim ← makeSim p infos portfolio.units
  let (_, est) ← estIndexForInput sim ⟨denom, paid⟩ (some minIndex) (some minIndex)
  match est with
  | none => .error .panic
  | some est => do
    let budget ← add est.spent 10000
    let swaps ← inMsgs est.routes p.env.contract budget
    let funds ← basketCoins portfolio.units est.index
    let rate ← deductFee fee.mintFee
    let _ ← mulInt rate est.index
    .ok (swaps.map PMsg.chain ++
      [.core coreAddr (.mint est.index (some info.sender) (some info.sender)) funds, .finish info.sender denom])

/-- `mint_exact_amount_out`, `/repo/contracts/periphery/src/execute.rs:92-162`. -/
def mintExactOut (p : PEnv) (info : Info) (coreAddr : Addr) (index : Nat) (denom : Denom)
    (infos : List SwapInfo) : Res (List PMsg) := do
  let core ← findCore p coreAddr
  let fee ← getFee core p.env none
  let _ ← getConfig core p.env none
  let portfolio ← getPortfolio core p.env none
  let paid ← mustPay info denom
  let sim ← makeSim p infos portfolio.units
  let (total, routes) ← tokenGivenIndexOut sim index denom
  let _ ← sub paid total
  let swaps ← inMsgs routes p.env.contract paid
  let funds ← basketCoins portfolio.units index
  let rate ← deductFee fee.mintFee
  let _ ← mulInt rate index
  .ok (swaps.map PMsg.chain ++
    [.core coreAddr (.mint index (some info.sender) (some info.sender)) funds, .finish info.sender denom])

/-- `burn_exact_amount_in`, `/repo/contracts/periphery/src/execute.rs:164-223`. -/
def burnExactIn (p : PEnv) (info : Info) (coreAddr : Addr) (output : Denom) (minOutput : Nat)
    (infos : List SwapInfo) : Res (List PMsg) := do
  let core ← findCore p coreAddr
  let fee ← getFee core p.env none
  let config ← getConfig core p.env none
  let portfolio ← getPortfolio core p.env none
  let paid ← mustPay info config.indexDenom
  let sim ← makeSim p infos portfolio.units
  let rate ← deductFee fee.burnFee
  let burnt ← mulInt rate paid
  let (_, routes) ← tokenGivenIndexIn sim burnt output
  let swaps ← outMsgs routes p.env.contract minOutput
  .ok (.core coreAddr (.burn none) [⟨config.indexDenom, paid⟩] :: (swaps.map PMsg.chain ++
    [.finish info.sender output]))

/-- `burn_exact_amount_out`, `/repo/contracts/periphery/src/execute.rs:225-306`. -/
def burnExactOut (p : PEnv) (info : Info) (coreAddr : Addr) (desired : Coin)
    (infos : List SwapInfo) : Res (List PMsg) := do
  let core ← findCore p coreAddr
  let fee ← getFee core p.env none
  let config ← getConfig core p.env none
  let portfolio ← getPortfolio core p.env none
  let paid ← mustPay info config.indexDenom
  let sim ← makeSim p infos portfolio.units
  let (min, _) ← estIndexForOutput sim desired (some paid) (some paid)
  let rate ← expandFee fee.burnFee
  let burn1 ← mulInt rate min.index
  let burn ← sub burn1 1
  require (¬ paid < burn) .tradeAmountExceeded
  let rate' ← deductFee fee.burnFee
  let burnt ← mulInt rate' burn
  let (total, routes) ← tokenGivenIndexIn sim burnt desired.denom
  let swaps ← outMsgs routes p.env.contract total
  .ok (.core coreAddr (.burn none) [⟨config.indexDenom, burn⟩] :: (swaps.map PMsg.chain ++
    [.finish info.sender config.indexDenom, .finish info.sender desired.denom]))

/-- `finish_operation`, `/repo/contracts/periphery/src/execute.rs:308-335`. -/
def finishOperation (p : PEnv) (info : Info) (refundTo : Addr) (asset : Denom) : Res (List PMsg) := do
  require (info.sender = p.env.contract) .panic
  let _ ← validate p.env refundTo
  .ok [.chain (.send refundTo [⟨asset, p.balance asset⟩])]

/-- `ExecuteMsg`, `/repo/packages/interface/src/periphery.rs:90-131`. -/
inductive PExecMsg where
  | mintExactIn (coreAddr : Addr) (input : Denom) (minOutput : Nat) (swapInfo : List Compact)
  | mintExactOut (coreAddr : Addr) (output : Nat) (input : Denom) (swapInfo : List Compact)
  | burnExactIn (coreAddr : Addr) (output : Denom) (minOutput : Nat) (swapInfo : List Compact)
  | burnExactOut (coreAddr : Addr) (output : Coin) (swapInfo : List Compact)
  | finishOperation (refundTo : Addr) (asset : Denom)
deriving DecidableEq, Repr

/-- `execute`, `/repo/contracts/periphery/src/contract.rs:23-92`. -/
def execute (p : PEnv) (info : Info) : PExecMsg → Res (List PMsg)
  | .mintExactIn core input min si => do
    let infos ← parseInfos si
    mintExactIn p info core input min infos
  | .mintExactOut core output input si => do
    let infos ← parseInfos si
    mintExactOut p info core output input infos
  | .burnExactIn core output min si => do
    let infos ← parseInfos si
    burnExactIn p info core output min infos
  | .burnExactOut core output si => do
    let infos ← parseInfos si
    burnExactOut p info core output infos
  | .finishOperation to asset => finishOperation p info to asset

end Ibcx.Periphery
