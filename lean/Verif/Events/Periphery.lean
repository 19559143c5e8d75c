import Verif.Periphery.Exec
/-!
# Events of the periphery contract

Models the `attr(…)` lists of `/repo/contracts/periphery/src/execute.rs`.  Every function runs the handler modelled
in `Verif/Periphery/Exec.lean` and then builds the attributes.  Simplified: the values are computed a second
time instead of being passed along.
-/

namespace Ibcx.Periphery
open Ibcx Ibcx.Pool Ibcx.Core

/-- `cosmwasm_std::Attribute`: a key and a value.  In the responses of
`/repo/contracts/periphery/src/execute.rs:12-335`. -/
abbrev Attr := String × String

/-- `Coin::to_string` (`cosmwasm_std`): amount and denom without a space,
`/repo/contracts/periphery/src/execute.rs:85`. -/
def coinString (c : Coin) : String := toString c.amount ++ c.denom

/-- `mint_exact_amount_in` with its attributes, `/repo/contracts/periphery/src/execute.rs:75-87`. -/
def mintExactInR (p : PEnv) (info : Info) (coreAddr : Addr) (denom : Denom) (minIndex : Nat)
    (infos : List SwapInfo) : Res (List PMsg × List Attr) := do
  let ms ← mintExactIn p info coreAddr denom minIndex infos
  let core ← findCore p coreAddr
  let fee ← getFee core p.env none
  let config ← getConfig core p.env none
  let portfolio ← getPortfolio core p.env none
  let paid ← mustPay info denom
  let sim ← makeSim p infos portfolio.units
  let (_, est) ← estIndexForInput sim ⟨denom, paid⟩ (some minIndex) (some minIndex)
  match est with
  | none => .error .panic
  | some est => do
    let rate ← deductFee fee.mintFee
    let act ← mulInt rate est.index
    .ok (ms, [("method", "mint_exact_amount_in"), ("executor", info.sender), ("input", coinString ⟨denom, paid⟩),
      ("min_output", coinString ⟨config.indexDenom, act⟩)])

/-- `mint_exact_amount_out` with its attributes, `/repo/contracts/periphery/src/execute.rs:118,146-159`. -/
def mintExactOutR (p : PEnv) (info : Info) (coreAddr : Addr) (index : Nat) (denom : Denom)
    (infos : List SwapInfo) : Res (List PMsg × List Attr) := do
  let ms ← mintExactOut p info coreAddr index denom infos
  let core ← findCore p coreAddr
  let fee ← getFee core p.env none
  let config ← getConfig core p.env none
  let portfolio ← getPortfolio core p.env none
  let paid ← mustPay info denom
  let sim ← makeSim p infos portfolio.units
  let (total, _) ← tokenGivenIndexOut sim index denom
  let refund ← sub paid total
  let rate ← deductFee fee.mintFee
  let act ← mulInt rate index
  .ok (ms, [("method", "mint_exact_amount_out"), ("executor", info.sender), ("max_input", coinString ⟨denom, paid⟩),
    ("output", coinString ⟨config.indexDenom, act⟩), ("refund", toString refund)])

/-- `burn_exact_amount_in` with its attributes, `/repo/contracts/periphery/src/execute.rs:211-220`. -/
def burnExactInR (p : PEnv) (info : Info) (coreAddr : Addr) (output : Denom) (minOutput : Nat)
    (infos : List SwapInfo) : Res (List PMsg × List Attr) := do
  let ms ← burnExactIn p info coreAddr output minOutput infos
  let core ← findCore p coreAddr
  let config ← getConfig core p.env none
  let paid ← mustPay info config.indexDenom
  .ok (ms, [("method", "burn_exact_amount_in"), ("executor", info.sender),
    ("input_amount", coinString ⟨config.indexDenom, paid⟩), ("min_output_amount", coinString ⟨output, minOutput⟩)])

/-- `burn_exact_amount_out` with its attributes, `/repo/contracts/periphery/src/execute.rs:294-303`. -/
def burnExactOutR (p : PEnv) (info : Info) (coreAddr : Addr) (desired : Coin)
    (infos : List SwapInfo) : Res (List PMsg × List Attr) := do
  let ms ← burnExactOut p info coreAddr desired infos
  let core ← findCore p coreAddr
  let config ← getConfig core p.env none
  let paid ← mustPay info config.indexDenom
  .ok (ms, [("method", "burn_exact_amount_out"), ("executor", info.sender),
    ("max_input", coinString ⟨config.indexDenom, paid⟩), ("output", coinString desired)])

/-- `finish_operation` with its attributes, `/repo/contracts/periphery/src/execute.rs:322-328`; the sender is not
among them. -/
def finishOperationR (p : PEnv) (info : Info) (refundTo : Addr) (asset : Denom) : Res (List PMsg × List Attr) := do
  let ms ← finishOperation p info refundTo asset
  .ok (ms, [("method", "finish_operation"), ("refund_to", refundTo), ("refund_asset", asset),
    ("amount", toString (p.balance asset))])

/-- `execute` with attributes, `/repo/contracts/periphery/src/contract.rs:23-92`. -/
def executeR (p : PEnv) (info : Info) : PExecMsg → Res (List PMsg × List Attr)
  | .mintExactIn core input min si => do
    let infos ← parseInfos si
    mintExactInR p info core input min infos
  | .mintExactOut core output input si => do
    let infos ← parseInfos si
    mintExactOutR p info core output input infos
  | .burnExactIn core output min si => do
    let infos ← parseInfos si
    burnExactInR p info core output min infos
  | .burnExactOut core output si => do
    let infos ← parseInfos si
    burnExactOutR p info core output infos
  | .finishOperation to asset => finishOperationR p info to asset

end Ibcx.Periphery
