import Verif.Chain.World
import Verif.Periphery.Exec
/-!
# The periphery and one core contract on their chain

A call of the periphery (`/repo/contracts/periphery/src/execute.rs`) with the execution of all its messages: swaps,
the call of the core contract with its own messages, and the call to itself.  Messages are executed in order, the
messages of a called contract before the next message of the caller (the rule of the wasm module).

Simplifications: there is one core contract, every other address answers no queries and accepts no calls; the bank is
that of `Verif/Chain/World.lean` (its extra rejections, for example of a refund of zero coins, are not modelled: they
only turn successful calls into failures, and the theorems are about successful calls).
-/

namespace Ibcx.Chain
open Ibcx Ibcx.Core Ibcx.Periphery

/-- Core contract and bank, and the addresses of both contracts.  Chain side of the messages of
`/repo/contracts/periphery/src/execute.rs:12-335`. -/
structure ZWorld where
  core : Core.State
  coreAddr : Addr
  zap : Addr
  bank : Bank

/-- What the periphery sees of the world.  Chain side of the messages of
`/repo/contracts/periphery/src/execute.rs:12-335`. -/
def ZWorld.penv (w : ZWorld) (env : Env) (pool : Nat → Res (Option Pool.Pool)) : PEnv :=
  { env := env, pool := pool, core := fun a => if a = w.coreAddr then some w.core else none
    balance := w.bank.bal w.zap }

/-- A call of the core contract by the periphery, with its messages.  The wasm module drops zero coins from the
attached funds.  The messages of `Mint` and `Burn` contain no swaps.  `WasmMsg::Execute` of
`/repo/packages/interface/src/helpers/core.rs:22-44`. -/
def callCore (w : ZWorld) (env : Env) (addr : Addr) (msg : Core.ExecMsg) (funds : List Coin) : Res ZWorld := do
  require (addr = w.coreAddr) .querier
  let funds := funds.filter fun c => c.amount ≠ 0
  let b ← w.bank.send w.zap w.coreAddr funds
  let (core, ms) ← Core.execute w.core { env with contract := w.coreAddr } ⟨w.zap, funds⟩ msg
  let b ← runMsgs w.coreAddr b [] ms
  .ok { w with core := core, bank := b }

/-- One message of the periphery.  Chain side of the messages of `/repo/contracts/periphery/src/execute.rs:12-335`. -/
def runPMsg (pool : Nat → Res (Option Pool.Pool)) (env : Env) (w : ZWorld) (market : List Nat) :
    PMsg → Res (ZWorld × List Nat)
  | .chain m => do
    let (b, market) ← runMsg w.zap w.bank market m
    .ok ({ w with bank := b }, market)
  | .core addr msg funds => do
    let w ← callCore w env addr msg funds
    .ok (w, market)
  | .finish refundTo asset => do
    let ms ← Periphery.execute (w.penv env pool) ⟨w.zap, []⟩ (.finishOperation refundTo asset)
    match ms with
    | [.chain m] => do
      let (b, market) ← runMsg w.zap w.bank market m
      .ok ({ w with bank := b }, market)
    | _ => .error .panic

/-- The messages of the periphery, in order.  Chain side of the messages of
`/repo/contracts/periphery/src/execute.rs:12-335`. -/
def runPMsgs (pool : Nat → Res (Option Pool.Pool)) (env : Env) (w : ZWorld) (market : List Nat) :
    List PMsg → Res ZWorld
  | [] => .ok w
  | m :: ms => do
    let (w, market) ← runPMsg pool env w market m
    runPMsgs pool env w market ms

/-- A transaction calling the periphery.  `pool` is what the pool queries answer and `market` holds the amounts at
which the swaps settle (anything within the limits of the messages).  Chain side of the messages of
`/repo/contracts/periphery/src/execute.rs:12-335`. -/
def zapTx (w : ZWorld) (env : Env) (pool : Nat → Res (Option Pool.Pool)) (market : List Nat) (info : Info)
    (msg : PExecMsg) : Res ZWorld := do
  require (env.contract = w.zap ∧ w.zap ≠ w.coreAddr ∧ info.sender ≠ w.zap ∧ info.sender ≠ w.coreAddr ∧
    (info.funds.map (·.denom)).Nodup) .bank
  let b ← w.bank.send info.sender w.zap info.funds
  let w := { w with bank := b }
  let ms ← Periphery.execute (w.penv env pool) info msg
  runPMsgs pool env w market ms

end Ibcx.Chain
