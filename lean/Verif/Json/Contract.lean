import Verif.Json.History
/-!
# The contracts as the chain runs them

Messages are bytes, and the storage holds bytes under bytes.  The entry points read the message, and the handlers of
`Verif/Storage/CoreExec.lean` and `Verif/Storage/Exec.lean` read and write the JSON texts of the stored values.
-/

namespace Ibcx.Json
open Ibcx Ibcx.Storage

/-! ## Core -/

/-- `instantiate`, `/repo/contracts/core/src/contract.rs:15-72`; `v` is the name and version of the code. -/
def coreWasmInstantiate (v : Iface.ContractVersion) (env : Env) (b : Bytes) : Res (CoreOutOf Bytes) := do
  let msg ← readMsg coreInstantiate b
  Storage.coreInstantiate v env msg

/-- Creation: `instantiate`, `/repo/contracts/core/src/contract.rs:15-72`, and then `reply` with the denom the chain made,
`/repo/contracts/core/src/contract.rs:108-128`. -/
def coreWasmCreate (v : Iface.ContractVersion) (env : Env) (b : Bytes) (denom : Denom) : Res (Raw Bytes) := do
  let (m0, _) ← coreWasmInstantiate v env b
  let (m, _) ← coreReply m0 0 (some denom)
  .ok m

/-- `execute`, `/repo/contracts/core/src/contract.rs:74-106`. -/
def coreWasmExecute (m : Raw Bytes) (env : Env) (info : Info) (b : Bytes) : Res (CoreOutOf Bytes) := do
  let msg ← readMsg coreExecute b
  Storage.coreExecute m env info msg

/-- Delivery of one text: a failed call changes nothing and sends nothing (transaction atomicity of the chain).  Entry point
`/repo/contracts/core/src/contract.rs:74-106`. -/
def coreWasmStep (m : Raw Bytes) (c : TextCall) : CoreOutOf Bytes :=
  match coreWasmExecute m c.env c.info c.text with
  | .ok o => o
  | .error _ => (m, [])

/-- Delivery of many texts, with all messages sent.  Entry point `/repo/contracts/core/src/contract.rs:74-106`. -/
def coreWasmRun (m : Raw Bytes) : List TextCall → CoreOutOf Bytes
  | [] => (m, [])
  | c :: cs =>
    let (m1, o1) := coreWasmStep m c
    let (m2, o2) := coreWasmRun m1 cs
    (m2, o1 ++ o2)

/-! ## Airdrop -/

/-- `instantiate`, `/repo/contracts/airdrop/src/contract.rs:8-20`; `v` is the name and version of the code. -/
def dropWasmInstantiate (v : Iface.ContractVersion) (b : Bytes) : Res (Raw Bytes) := do
  let _ ← readMsg emptyMsg b
  rawInstantiate v

/-- `execute`, `/repo/contracts/airdrop/src/contract.rs:22-41`. -/
def dropWasmExecute (c : Airdrop.Crypto) (m : Raw Bytes) (env : Env) (info : Info) (b : Bytes) : Res (RawOutOf Bytes) := do
  let msg ← readMsg dropExecute b
  rawExecute c m env info msg

/-- Delivery of one text: a failed call changes nothing and sends nothing.  Entry point
`/repo/contracts/airdrop/src/contract.rs:22-41`. -/
def dropWasmStep (c : Airdrop.Crypto) (m : Raw Bytes) (t : TextCall) : RawOutOf Bytes :=
  match dropWasmExecute c m t.env t.info t.text with
  | .ok o => o
  | .error _ => (m, [])

/-- Delivery of many texts, with all messages sent.  Entry point `/repo/contracts/airdrop/src/contract.rs:22-41`. -/
def dropWasmRun (c : Airdrop.Crypto) (m : Raw Bytes) : List TextCall → RawOutOf Bytes
  | [] => (m, [])
  | t :: ts =>
    let (m1, o1) := dropWasmStep c m t
    let (m2, o2) := dropWasmRun c m1 ts
    (m2, o1 ++ o2)

end Ibcx.Json
