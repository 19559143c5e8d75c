import Verif.Json.Zap
import Verif.Proto.Wire
import Verif.Events.Core
import Verif.Events.Airdrop
import Verif.Events.Periphery
/-!
# Responses as the chain reads them

The entry points give the chain a JSON text of their `Response`: the messages to send and the attributes.  Failures have no
text here; the chain sees a text with the reason, which is not modelled.
-/

namespace Ibcx.Json
open Ibcx Ibcx.Core Ibcx.Periphery
open Ibcx.Storage (Bytes)

/-! ## Writing -/

/-- `Binary`, written as base64 text (cosmwasm-std 1.5.2 `binary.rs`).  `/repo/packages/interface/src/helpers/core.rs:40`. -/
def bytesText (b : Bytes) : Json := .str (String.ofList (Pool.toBase64 b))

/-- `CosmosMsg` of cosmwasm-std 1.5.2 `results/cosmos_msg.rs`: `BankMsg::Send` (`/repo/contracts/core/src/execute/fee.rs:34-39`),
`WasmMsg::Execute` (`/repo/packages/interface/src/helpers/core.rs:38-44`) and `Stargate`, which the messages of osmosis-std become
(`/repo/contracts/core/src/execute/token.rs:72-76`). -/
def cosmosMsg : WMsg → Json
  | .chain (.send to_ coins) =>
    variant "bank" (variant "send" (.obj [("to_address", .str to_), ("amount", coin.list.enc coins)]))
  | .chain m =>
    match Proto.stargate m with
    | some (url, b) => variant "stargate" (.obj [("type_url", .str url), ("value", bytesText b)])
    | none => .null
  | .wasm addr msg funds => variant "wasm" (variant "execute"
      (.obj [("contract_addr", .str addr), ("msg", bytesText msg), ("funds", coin.list.enc funds)]))

/-- `SubMsg` of cosmwasm-std 1.5.2 `results/submessages.rs`, without gas limit: with `reply_on_success` and an identifier, or with
`new`, which wants no reply.  `/repo/contracts/core/src/contract.rs:59-65`. -/
structure SubMsg where
  reply : Option Nat
  msg : WMsg
deriving DecidableEq, Repr

/-- The text of a `SubMsg`.  cosmwasm-std 1.5.2 `results/submessages.rs`, under `/repo/contracts/core/src/contract.rs:59-65`. -/
def subMsg (m : SubMsg) : Json :=
  .obj [("id", .num (m.reply.getD 0)), ("msg", cosmosMsg m.msg), ("gas_limit", .null),
    ("reply_on", .str (if m.reply.isSome then "success" else "never"))]

/-- `Attribute` of cosmwasm-std 1.5.2 `results/events.rs`.  `/repo/contracts/core/src/contract.rs:119-122`. -/
def attributeJson (a : String × String) : Json := .obj [("key", .str a.1), ("value", .str a.2)]

/-- `ContractResult::Ok` of a `Response` with messages and attributes, without events and data.  cosmwasm-std 1.5.2
`results/contract_result.rs` and `results/response.rs`, under `/repo/contracts/core/src/contract.rs:67-71`. -/
def okJson (ms : List SubMsg) (as : List (String × String)) : Json :=
  variant "ok" (.obj [("messages", .arr (ms.map subMsg)), ("attributes", .arr (as.map attributeJson)), ("events", .arr []),
    ("data", .null)])

/-- The text of the response.  The macro `entry_point` of cosmwasm-std, `/repo/contracts/core/src/contract.rs:74`. -/
def okText (ms : List SubMsg) (as : List (String × String)) : Bytes := toBytes (okJson ms as)

/-- Messages without a reply: `add_message`, `add_messages`.  For example `/repo/contracts/core/src/execute/fee.rs:48`. -/
def noReply (ms : List Msg) : List SubMsg := ms.map fun m => ⟨none, .chain m⟩

/-- A message of the periphery with the text in it, `/repo/packages/interface/src/helpers/core.rs:32-45` and
`/repo/contracts/periphery/src/execute.rs:50-57`. -/
def zapMsg (self : Addr) : PMsg → WMsg
  | .chain m => .chain m
  | .core addr msg funds => coreMsg addr msg funds
  | .finish refundTo asset => .wasm self (zapExecute.toText (.finishOperation refundTo asset)) []

/-! ## Reading the reply -/

/-- `Attribute` of an event.  cosmwasm-std 1.5.2 `results/events.rs`, under `/repo/contracts/core/src/contract.rs:109`. -/
def readAttribute (j : Json) : Option Unit := do
  let fs ← fields j
  once ["key", "value"] fs
  let _ ← req fs "key" text
  let _ ← req fs "value" text
  some ()

/-- `Event`.  cosmwasm-std 1.5.2 `results/events.rs`, under `/repo/contracts/core/src/contract.rs:109`.  Simplified: what it says
is not kept, as `reply` does not look at it. -/
def readEvent (j : Json) : Option Unit := do
  let fs ← fields j
  once ["type", "attributes"] fs
  let _ ← req fs "type" text
  match ← field fs "attributes" with
  | .arr as => do
    let _ ← as.mapM readAttribute
    some ()
  | _ => none

/-- `SubMsgResponse`: the events and the data.  cosmwasm-std 1.5.2 `results/submessages.rs`, under
`/repo/contracts/core/src/contract.rs:112`. -/
def readSubResponse (j : Json) : Option (Option (List UInt8)) := do
  let fs ← fields j
  once ["events", "data"] fs
  match ← field fs "events" with
  | .arr es => do
    let _ ← es.mapM readEvent
    optional fs "data" binary
  | _ => none

/-- `Reply`: the identifier and the result, `none` for an error.  cosmwasm-std 1.5.2 `results/submessages.rs`, under
`/repo/contracts/core/src/contract.rs:109`. -/
def readReply (j : Json) : Option (Nat × Option (Option (List UInt8))) := do
  let fs ← fields j
  once ["id", "result"] fs
  let id ← req fs "id" (uint 64)
  let r ← field fs "result"
  let res ← oneOf [("ok", fun j => (readSubResponse j).map some), ("error", fun j => (text.dec j).map fun _ => none)] r
  some (id, res)

/-! ## Entry points from text to text -/

/-- `execute` of the core contract, `/repo/contracts/core/src/contract.rs:74-106`. -/
def coreCall (s : Core.State) (env : Env) (info : Info) (b : Bytes) : Res (Core.State × Bytes) := do
  let msg ← readMsg coreExecute b
  let ((s', ms), as) ← Core.executeR s env info msg
  .ok (s', okText (noReply ms) as)

/-- `instantiate` of the core contract, `/repo/contracts/core/src/contract.rs:15-72`: a reply is wanted to the creation of the
denom, with `REPLY_ID_DENOM_CREATION` (`/repo/contracts/core/src/lib.rs:16`). -/
def coreStart (env : Env) (b : Bytes) : Res (Core.State × Bytes) := do
  let msg ← readMsg coreInstantiate b
  let ((s, ms), as) ← Core.instantiateR env msg
  .ok (s, okText (ms.map fun m => ⟨some 0, .chain m⟩) as)

/-- `reply` of the core contract, `/repo/contracts/core/src/contract.rs:108-128`: an error of the message, missing data and data
that cannot be read all fail. -/
def coreReplied (s : Core.State) (b : Bytes) : Res (Core.State × Bytes) :=
  match (ofBytes b).bind readReply with
  | none => .error .generic
  | some (id, res) => do
    let data : Option Bytes := res.bind fun d => d.map fun bs => bs.map UInt8.toNat
    let ((s', ms), as) ← Core.replyR s id (data.bind Proto.readDenom)
    .ok (s', okText (noReply ms) as)

/-- `execute` of the airdrop contract, `/repo/contracts/airdrop/src/contract.rs:22-41`. -/
def dropCall (c : Airdrop.Crypto) (s : Airdrop.State) (env : Env) (info : Info) (b : Bytes) : Res (Airdrop.State × Bytes) := do
  let msg ← readMsg dropExecute b
  let ((s', ms), as) ← Airdrop.executeR c s env info msg
  .ok (s', okText (noReply ms) as)

/-- `execute` of the periphery contract, `/repo/contracts/periphery/src/contract.rs:23-92`. -/
def zapCall (p : PEnv) (info : Info) (b : Bytes) : Res Bytes := do
  let msg ← readMsg zapExecute b
  let (ms, as) ← Periphery.executeR p info msg
  .ok (okText (ms.map fun m => ⟨none, zapMsg p.env.contract m⟩) as)

/-- `instantiate` of the airdrop contract, `/repo/contracts/airdrop/src/contract.rs:8-20`: the default response. -/
def dropStart (b : Bytes) : Res Bytes := do
  let _ ← readMsg emptyMsg b
  .ok (okText [] [])

/-- `instantiate` of the periphery contract, `/repo/contracts/periphery/src/contract.rs:9-21`. -/
def zapStart (b : Bytes) : Res Bytes := do
  let _ ← readMsg emptyMsg b
  .ok (okText [] [("method", "instantiate")])

end Ibcx.Json
