import Verif.Json.Answers
/-!
# Histories of calls given as texts

What the chain delivers: a text nobody has checked.  A text that cannot be read fails the call, and a failed call changes
nothing.
-/

namespace Ibcx.Json
open Ibcx
open Ibcx.Storage (Bytes)

/-- One call of a contract as the chain delivers it: the arguments of `execute`, `/repo/contracts/core/src/contract.rs:75-80`
and `/repo/contracts/airdrop/src/contract.rs:23-28`, with the message not yet read. -/
structure TextCall where
  env : Env
  info : Info
  text : Bytes

/-- Delivery of one text to the core contract: a failed call changes nothing and sends nothing (transaction atomicity of the
chain).  Entry point `/repo/contracts/core/src/contract.rs:75-106`. -/
def coreTextStep (s : Core.State) (c : TextCall) : Core.Out :=
  match coreExecuteText s c.env c.info c.text with
  | .ok o => o
  | .error _ => (s, [])

/-- Delivery of many texts to the core contract, with all messages sent.  Entry point
`/repo/contracts/core/src/contract.rs:75-106`. -/
def coreTextRun (s : Core.State) : List TextCall → Core.Out
  | [] => (s, [])
  | c :: cs =>
    let (s1, m1) := coreTextStep s c
    let (s2, m2) := coreTextRun s1 cs
    (s2, m1 ++ m2)

/-- Creation of the core contract from a text: `instantiate`, `/repo/contracts/core/src/contract.rs:16-72`, and then `reply`
with the denom the chain made, `/repo/contracts/core/src/contract.rs:109-128`. -/
def coreTextCreate (env : Env) (text : Bytes) (denom : Denom) : Res Core.State := do
  let (s0, _) ← coreInstantiateText env text
  let (s, _) ← Core.reply s0 0 (some denom)
  .ok s

/-- Delivery of one text to the airdrop contract: a failed call changes nothing and sends nothing.  Entry point
`/repo/contracts/airdrop/src/contract.rs:22-41`. -/
def dropTextStep (c : Airdrop.Crypto) (s : Airdrop.State) (t : TextCall) : Airdrop.Out :=
  match dropExecuteText c s t.env t.info t.text with
  | .ok o => o
  | .error _ => (s, [])

/-- Delivery of many texts to the airdrop contract, with all messages sent.  Entry point
`/repo/contracts/airdrop/src/contract.rs:22-41`. -/
def dropTextRun (c : Airdrop.Crypto) (s : Airdrop.State) : List TextCall → Airdrop.Out
  | [] => (s, [])
  | t :: ts =>
    let (s1, m1) := dropTextStep c s t
    let (s2, m2) := dropTextRun c s1 ts
    (s2, m1 ++ m2)

end Ibcx.Json
