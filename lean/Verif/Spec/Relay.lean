import Verif.Spec.Response
import Verif.Json.Relay
/-!
# What a text asks the chain

By the names of the members of objects, whatever their order and whatever else is in them.
-/

namespace Ibcx.Spec.Relay
open Ibcx Ibcx.Json Ibcx.Spec.Response
open Ibcx.Storage (Bytes)

/-- The only member of the tree with the name is a text with these bytes in base64, whose padding may be missing. -/
def Holds (j : Json) (name : String) (bs : List UInt8) : Prop :=
  ∃ t k, Member j name (.str t) ∧ t.toList ++ List.replicate k '=' = Texts.base64 bs

/-- The tree is an object that may leave out the member, or give it once as `null` or as a text. -/
def MayHold (j : Json) (name : String) : Option String → Prop
  | some t => Member j name (.str t)
  | none => Member j name .null ∨ ∃ fs, j = .obj fs ∧ name ∉ fs.map (·.1)

/-- The tree is an object. -/
def IsObject (j : Json) : Prop := ∃ fs, j = .obj fs

/-- The tree asks the question. -/
def Asks (j : Json) (q : Request) : Prop :=
  match q with
  | .balance a d => ∃ x, j = .obj [("bank", .obj [("balance", x)])] ∧ Member x "address" (.str a) ∧ Member x "denom" (.str d)
  | .allBalances a => ∃ x, j = .obj [("bank", .obj [("all_balances", x)])] ∧ Member x "address" (.str a)
  | .custom => ∃ x, j = .obj [("custom", x)] ∧ IsObject x
  | .stargate p d => ∃ x, j = .obj [("stargate", x)] ∧ Member x "path" (.str p) ∧ Holds x "data" d
  | .portId => ∃ x, j = .obj [("ibc", .obj [("port_id", x)])] ∧ IsObject x
  | .listChannels p => ∃ x, j = .obj [("ibc", .obj [("list_channels", x)])] ∧ MayHold x "port_id" p
  | .channel c p => ∃ x, j = .obj [("ibc", .obj [("channel", x)])] ∧ Member x "channel_id" (.str c) ∧ MayHold x "port_id" p
  | .smart c m => ∃ x, j = .obj [("wasm", .obj [("smart", x)])] ∧ Member x "contract_addr" (.str c) ∧ Holds x "msg" m
  | .raw c k => ∃ x, j = .obj [("wasm", .obj [("raw", x)])] ∧ Member x "contract_addr" (.str c) ∧ Holds x "key" k
  | .contractInfo c => ∃ x, j = .obj [("wasm", .obj [("contract_info", x)])] ∧ Member x "contract_addr" (.str c)

/-- The bytes ask the question. -/
def AsksText (b : Bytes) (q : Request) : Prop := ∃ j, Text b j ∧ Asks j q

/-- What is heard when a contract with this `query` is asked: its answer, or an error of the contract. -/
def heard (query : Bytes → Res Bytes) (b : Bytes) : Said :=
  match query b with
  | .ok v => .value v
  | .error _ => .contractError

end Ibcx.Spec.Relay
