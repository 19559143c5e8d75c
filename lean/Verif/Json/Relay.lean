import Verif.Json.Response
/-!
# The test-querier contract

A contract that reads any question to the chain, writes it again and hands it over.
-/

namespace Ibcx.Json
open Ibcx
open Ibcx.Storage (Bytes)

/-- `QueryRequest<Empty>` of cosmwasm-std 1.5.2 `query/mod.rs`, with the variants that are there under the feature `stargate`
(`/repo/Cargo.toml:26`): `BankQuery`, `Custom`, `Stargate`, `IbcQuery` and `WasmQuery`.
`/repo/contracts/test-querier/src/lib.rs:26`. -/
inductive Request where
  | balance (address denom : String)
  | allBalances (address : String)
  | custom
  | stargate (path : String) (data : List UInt8)
  | portId
  | listChannels (port : Option String)
  | channel (channel : String) (port : Option String)
  | smart (contract : String) (msg : List UInt8)
  | raw (contract : String) (key : List UInt8)
  | contractInfo (contract : String)
  deriving DecidableEq, Repr

/-- The fields of a record that ignores other fields.  Derived `Deserialize` of the types of cosmwasm-std 1.5.2 `query/*.rs`, which
do not have `deny_unknown_fields`, under `/repo/contracts/test-querier/src/lib.rs:26`. -/
def openFields (names : List String) (j : Json) : Option (List (String × Json)) := do
  let fs ← fields j
  once names fs
  some fs

/-- `BankQuery`, cosmwasm-std 1.5.2 `query/bank.rs`, under `/repo/contracts/test-querier/src/lib.rs:26`. -/
def readBank (j : Json) : Option Request :=
  oneOf [("balance", fun j => do
      let fs ← openFields ["address", "denom"] j
      let address ← req fs "address" text
      let denom ← req fs "denom" text
      some (.balance address denom)),
    ("all_balances", fun j => do
      let fs ← openFields ["address"] j
      let address ← req fs "address" text
      some (.allBalances address))] j

/-- The variant `Stargate`, cosmwasm-std 1.5.2 `query/mod.rs`, under `/repo/contracts/test-querier/src/lib.rs:26`. -/
def readStargate (j : Json) : Option Request := do
  let fs ← openFields ["path", "data"] j
  let path ← req fs "path" text
  let data ← req fs "data" binary
  some (.stargate path data)

/-- `IbcQuery`, cosmwasm-std 1.5.2 `query/ibc.rs`, under `/repo/contracts/test-querier/src/lib.rs:26`. -/
def readIbc (j : Json) : Option Request :=
  oneOf [("port_id", fun j => do
      let _ ← fields j
      some .portId),
    ("list_channels", fun j => do
      let fs ← openFields ["port_id"] j
      let port ← optional fs "port_id" text
      some (.listChannels port)),
    ("channel", fun j => do
      let fs ← openFields ["channel_id", "port_id"] j
      let channel ← req fs "channel_id" text
      let port ← optional fs "port_id" text
      some (.channel channel port))] j

/-- `WasmQuery`, cosmwasm-std 1.5.2 `query/wasm.rs`, under `/repo/contracts/test-querier/src/lib.rs:26`. -/
def readWasm (j : Json) : Option Request :=
  oneOf [("smart", fun j => do
      let fs ← openFields ["contract_addr", "msg"] j
      let contract ← req fs "contract_addr" text
      let msg ← req fs "msg" binary
      some (.smart contract msg)),
    ("raw", fun j => do
      let fs ← openFields ["contract_addr", "key"] j
      let contract ← req fs "contract_addr" text
      let key ← req fs "key" binary
      some (.raw contract key)),
    ("contract_info", fun j => do
      let fs ← openFields ["contract_addr"] j
      let contract ← req fs "contract_addr" text
      some (.contractInfo contract))] j

/-- The tree that is written of a question.  Derived `Serialize` of `QueryRequest`,
`/repo/contracts/test-querier/src/lib.rs:27-29`. -/
def writeRequest : Request → Json
  | .balance a d => variant "bank" (variant "balance" (.obj [("address", .str a), ("denom", .str d)]))
  | .allBalances a => variant "bank" (variant "all_balances" (.obj [("address", .str a)]))
  | .custom => variant "custom" (.obj [])
  | .stargate p d => variant "stargate" (.obj [("path", .str p), ("data", binary.enc d)])
  | .portId => variant "ibc" (variant "port_id" (.obj []))
  | .listChannels p => variant "ibc" (variant "list_channels" (.obj [("port_id", text.opt.enc p)]))
  | .channel c p => variant "ibc" (variant "channel" (.obj [("channel_id", .str c), ("port_id", text.opt.enc p)]))
  | .smart c m => variant "wasm" (variant "smart" (.obj [("contract_addr", .str c), ("msg", binary.enc m)]))
  | .raw c k => variant "wasm" (variant "raw" (.obj [("contract_addr", .str c), ("key", binary.enc k)]))
  | .contractInfo c => variant "wasm" (variant "contract_info" (.obj [("contract_addr", .str c)]))

/-- `QueryRequest<Empty>` as a text.  `/repo/contracts/test-querier/src/lib.rs:26-29`. -/
def request : Codec Request where
  enc := writeRequest
  dec := oneOf [("bank", readBank), ("custom", fun j => do
      let _ ← fields j
      some .custom), ("stargate", readStargate), ("ibc", readIbc), ("wasm", readWasm)]
  Fits _ := True

/-- What the chain says to a question: `SystemResult<ContractResult<Binary>>`, without the texts of the errors.
`/repo/contracts/test-querier/src/lib.rs:31-38`. -/
inductive Said where
  | systemError
  | contractError
  | value (b : Bytes)
  deriving DecidableEq, Repr

/-- `query` of the test-querier contract, given what the chain says to a text.
`/repo/contracts/test-querier/src/lib.rs:24-39`. -/
def relay (chain : Bytes → Said) (b : Bytes) : Res Bytes := do
  let msg ← readMsg request b
  match chain (request.toText msg) with
  | .systemError => .error .generic
  | .contractError => .error .generic
  | .value v => .ok v

/-- `Empty` of cosmwasm-std 1.5.2 `results/empty.rs`: an object, whatever its fields.
`/repo/contracts/test-querier/src/lib.rs:17`. -/
def anyEmpty : Codec Unit where
  enc _ := .obj []
  dec j := do
    let _ ← fields j
    some ()
  Fits _ := True

/-- `instantiate` of the test-querier contract, without the version that it stores.
`/repo/contracts/test-querier/src/lib.rs:11-22`. -/
def relayStart (b : Bytes) : Res Bytes := do
  let _ ← readMsg anyEmpty b
  .ok (okText [] [])

end Ibcx.Json
