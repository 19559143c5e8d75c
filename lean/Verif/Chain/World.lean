import Verif.Core.Exec
/-!
# The core contract on its chain

Bank balances, token factory and pool manager as far as the core contract's messages reach them
(`/repo/contracts/core/src/execute/token.rs:65-97`, `:153-180`, `/repo/contracts/core/src/execute/fee.rs:41-44`,
`/repo/packages/interface/src/types.rs:118-148`).  The modules themselves are not part of `/repo`;
what is assumed of them is written here.

Simplifications: the balances of liquidity pools are not tracked (a swap only changes the
contract's balances); the bank's extra rejections (for example a transfer consisting of zero
coins only) are not modelled: a rejected transaction changes nothing, so a stricter bank only
removes transactions from a history, and the theorems hold for all histories.
-/

namespace Ibcx.Chain
open Ibcx Ibcx.Core

/-- Balances and supplies kept by the bank module.  Chain side of the messages of
`/repo/contracts/core/src/execute/token.rs:72-94,161-178`, `/repo/contracts/core/src/execute/fee.rs:34`. -/
structure Bank where
  bal : Addr → Denom → Nat
  supply : Denom → Nat

/-- Bank transfer (`BankMsg::Send`, and the transfer of attached funds): fails if the sender lacks a coin.  Chain side
of the messages of `/repo/contracts/core/src/execute/token.rs:72-94,161-178`,
`/repo/contracts/core/src/execute/fee.rs:34`. -/
def Bank.send (b : Bank) (src dst : Addr) (cs : List Coin) : Res Bank :=
  if cs.all (fun c => decide (amountOf c.denom cs ≤ b.bal src c.denom)) then
    .ok { b with bal := fun a d =>
      (if a = src then b.bal a d - amountOf d cs else b.bal a d) + (if a = dst then amountOf d cs else 0) }
  else .error .bank

/-- Creation of coins (token-factory `MsgMint`; also used for coins that enter the chain).  Chain side of the messages
of `/repo/contracts/core/src/execute/token.rs:72-94,161-178`, `/repo/contracts/core/src/execute/fee.rs:34`. -/
def Bank.create (b : Bank) (to : Addr) (c : Coin) : Bank :=
  { bal := fun a d => b.bal a d + (if a = to ∧ d = c.denom then c.amount else 0)
    supply := fun d => b.supply d + (if d = c.denom then c.amount else 0) }

/-- Removal of coins of a holder.  Chain side of the messages of
`/repo/contracts/core/src/execute/token.rs:72-94,161-178`, `/repo/contracts/core/src/execute/fee.rs:34`. -/
def Bank.debit (b : Bank) (src : Addr) (c : Coin) : Res Bank :=
  if c.amount ≤ b.bal src c.denom then
    .ok { b with bal := fun a d => b.bal a d - (if a = src ∧ d = c.denom then c.amount else 0) }
  else .error .bank

/-- Token-factory `MsgBurn`: the holder must have the coins (and the supply must contain them).  Chain side of the
messages of `/repo/contracts/core/src/execute/token.rs:72-94,161-178`, `/repo/contracts/core/src/execute/fee.rs:34`. -/
def Bank.destroy (b : Bank) (src : Addr) (c : Coin) : Res Bank := do
  require (c.amount ≤ b.supply c.denom) .bank
  let b ← b.debit src c
  .ok { b with supply := fun d => b.supply d - (if d = c.denom then c.amount else 0) }

/-- Adds coins bought from a pool.  Chain side of the swap messages of
`/repo/packages/interface/src/types.rs:118-148`. -/
def Bank.credit (b : Bank) (to : Addr) (c : Coin) : Bank :=
  { b with bal := fun a d => b.bal a d + (if a = to ∧ d = c.denom then c.amount else 0) }

/-- Every hop of an exact-amount-in swap trades two different denoms (the pool module rejects
"cannot trade same denomination in and out").  Chain side of the swap messages of
`/repo/packages/interface/src/types.rs:118-148`. -/
def hopsInOk : Denom → List SwapRoute → Bool
  | _, [] => true
  | d, r :: rs => decide (d ≠ r.tokenDenom) && hopsInOk r.tokenDenom rs

/-- The same for an exact-amount-out swap, whose hops name their input denoms.  Chain side of the swap messages of
`/repo/packages/interface/src/types.rs:118-148`. -/
def hopsOutOk : List SwapRoute → Denom → Bool
  | [], _ => true
  | [r], out => decide (r.tokenDenom ≠ out)
  | r :: r' :: rs, out => decide (r.tokenDenom ≠ r'.tokenDenom) && hopsOutOk (r' :: rs) out

/-- One message sent by the contract `self`.  `market` holds the amounts at which the pools settle the
swaps of the transaction, in order: any amount within the limit given in the message is possible.  Chain side of the
messages of `/repo/contracts/core/src/execute/token.rs:72-94,161-178`, `/repo/contracts/core/src/execute/fee.rs:34`,
`/repo/packages/interface/src/types.rs:118-148`. -/
def runMsg (self : Addr) (b : Bank) (market : List Nat) : Msg → Res (Bank × List Nat)
  | .createDenom _ _ => .ok (b, market)
  | .tfMint _ to c => .ok (b.create to c, market)
  | .tfBurn _ src c => do
    let b ← b.destroy src c
    .ok (b, market)
  | .send to cs => do
    let b ← b.send self to cs
    .ok (b, market)
  | .swapExactIn sender routes tokenIn minOut =>
    match market, routes.getLast? with
    | out :: market, some last => do
      require (hopsInOk tokenIn.denom routes = true) .bank
      require (minOut ≤ out) .bank
      let b ← b.debit sender tokenIn
      .ok (b.credit sender ⟨last.tokenDenom, out⟩, market)
    | _, _ => .error .bank
  | .swapExactOut sender routes tokenOut maxIn =>
    match market, routes with
    | spent :: market, first :: rs => do
      require (hopsOutOk (first :: rs) tokenOut.denom = true) .bank
      require (spent ≤ maxIn) .bank
      let b ← b.debit sender ⟨first.tokenDenom, spent⟩
      .ok (b.credit sender tokenOut, market)
    | _, _ => .error .bank

/-- The messages of a response, in order.  Chain side of the messages of
`/repo/contracts/core/src/execute/token.rs:72-94,161-178`, `/repo/contracts/core/src/execute/fee.rs:34`,
`/repo/packages/interface/src/types.rs:118-148`. -/
def runMsgs (self : Addr) (b : Bank) (market : List Nat) : List Msg → Res Bank
  | [] => .ok b
  | m :: ms => do
    let (b, market) ← runMsg self b market m
    runMsgs self b market ms

/-- Contract, bank and the contract's own address.  Entry point `/repo/contracts/core/src/contract.rs:75-106`. -/
structure World where
  core : State
  bank : Bank
  self : Addr

/-- What can happen on the chain: a message to the contract (with the settlement of its swaps), a transfer
between other accounts or into the contract, and coins entering the chain (from other chains, as rewards).  Entry
point `/repo/contracts/core/src/contract.rs:75-106`. -/
inductive Tx where
  | call (env : Env) (info : Info) (msg : ExecMsg) (market : List Nat)
  | transfer (src dst : Addr) (cs : List Coin)
  | inflow (to : Addr) (c : Coin)

/-- Result of a transaction.  A message's funds must list each denom once (chain rule for coin lists); the
contract is never the sender of a message to itself (it emits no `WasmMsg`) and never makes transfers except
through its messages; index tokens are only created through the token factory.  Entry point
`/repo/contracts/core/src/contract.rs:75-106`. -/
def apply (w : World) : Tx → Res World
  | .call env info msg market => do
    require (env.contract = w.self ∧ info.sender ≠ w.self ∧ (info.funds.map (·.denom)).Nodup) .bank
    let b ← w.bank.send info.sender w.self info.funds
    let (core, ms) ← execute w.core env info msg
    let b ← runMsgs w.self b market ms
    .ok { w with core := core, bank := b }
  | .transfer src dst cs => do
    require (src ≠ w.self) .bank
    let b ← w.bank.send src dst cs
    .ok { w with bank := b }
  | .inflow to c => do
    require (c.denom ≠ w.core.config.indexDenom) .bank
    .ok { w with bank := w.bank.create to c }

/-- Delivery: a failed transaction changes nothing.  Entry point `/repo/contracts/core/src/contract.rs:75-106`. -/
def deliver (w : World) (tx : Tx) : World :=
  match apply w tx with
  | .ok w' => w'
  | .error _ => w

/-- A history of transactions.  Entry point `/repo/contracts/core/src/contract.rs:75-106`. -/
def runTxs (w : World) : List Tx → World
  | [] => w
  | tx :: txs => runTxs (deliver w tx) txs

/-- The world right after the creation of the contract: nobody holds index tokens; all other balances are
arbitrary.  After `/repo/contracts/core/src/contract.rs:16-72` and `/repo/contracts/core/src/contract.rs:109-128`. -/
def Start (w : World) : Prop :=
  Fresh w.core ∧ w.bank.supply w.core.config.indexDenom = 0 ∧
    ∀ a, w.bank.bal a w.core.config.indexDenom = 0

end Ibcx.Chain
