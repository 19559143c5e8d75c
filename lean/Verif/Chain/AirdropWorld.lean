import Verif.Airdrop.Exec
import Verif.Chain.World
/-!
# The airdrop contract on its chain

Bank balances as in `Verif/Chain/World.lean`; the airdrop contract only sends bank transfers
(`/repo/contracts/airdrop/src/execute/claim.rs:107-110`, `:187-190`,
`/repo/contracts/airdrop/src/execute/close.rs:55-60`, `:88-93`).
-/

namespace Ibcx.Chain.Airdrop
open Ibcx Ibcx.Airdrop Ibcx.Chain

/-- Airdrop contract, bank and the contract's own address.  Chain side of
`/repo/contracts/airdrop/src/contract.rs:22-41`. -/
structure World where
  drop : State
  bank : Bank
  self : Addr

/-- A message to the contract, a transfer between other accounts or into the contract, coins entering the chain. 
Chain side of `/repo/contracts/airdrop/src/contract.rs:22-41`. -/
inductive Tx where
  | call (call : Call)
  | transfer (src dst : Addr) (cs : List Coin)
  | inflow (to : Addr) (c : Coin)

/-- Result of a transaction.  The contract is never the sender of a message to itself (it emits no `WasmMsg`) and
never makes transfers except through its messages.  Chain side of `/repo/contracts/airdrop/src/contract.rs:22-41`. -/
def apply (c : Crypto) (w : World) : Tx → Res World
  | .call call => do
    require (call.info.sender ≠ w.self) .bank
    let b ← w.bank.send call.info.sender w.self call.info.funds
    let (drop, ms) ← execute c w.drop call.env call.info call.msg
    let b ← runMsgs w.self b [] ms
    .ok { w with drop := drop, bank := b }
  | .transfer src dst cs => do
    require (src ≠ w.self) .bank
    let b ← w.bank.send src dst cs
    .ok { w with bank := b }
  | .inflow to c => .ok { w with bank := w.bank.create to c }

/-- Delivery: a failed transaction changes nothing.  Chain side of `/repo/contracts/airdrop/src/contract.rs:22-41`. -/
def deliver (c : Crypto) (w : World) (tx : Tx) : World :=
  match apply c w tx with
  | .ok w' => w'
  | .error _ => w

/-- A history of transactions.  Chain side of `/repo/contracts/airdrop/src/contract.rs:22-41`. -/
def runTxs (c : Crypto) (w : World) : List Tx → World
  | [] => w
  | tx :: txs => runTxs c (deliver c w tx) txs

end Ibcx.Chain.Airdrop
