import Verif.Spec.JsonText
import Verif.Spec.Proto
import Verif.Spec.StoredTexts
import Verif.Json.Zap
/-!
# What the text of a response says

How the chain understands the text that an entry point hands over, and the text of a reply that it hands to the contract: by
the names of the members of objects, whatever their order.
-/

namespace Ibcx.Spec.Response
open Ibcx Ibcx.Json Ibcx.Spec.JsonText
open Ibcx.Storage (Bytes)

/-- The bytes are a JSON text of the tree. -/
def Text (b : Bytes) (j : Json) : Prop := ∃ cs, b = (cs.flatMap String.utf8EncodeChar).map UInt8.toNat ∧ IsText cs j

/-- The tree is an object with exactly one member of the name, whose value is `v`. -/
def Member (j : Json) (name : String) (v : Json) : Prop :=
  ∃ fs, j = .obj fs ∧ fs.filter (fun f => f.1 = name) = [(name, v)]

/-- `Member`, several levels down. -/
def Under : Json → List String → Json → Prop
  | j, [], v => j = v
  | j, name :: path, v => ∃ w, Member j name w ∧ Under w path v

/-- An enum: an object with this member only. -/
def Kind (j : Json) (name : String) : Prop := ∃ v, j = .obj [(name, v)]

/-- Bytes in base64. -/
def Bytes64 (b : Bytes) (j : Json) : Prop :=
  ∃ bs : List UInt8, b = bs.map UInt8.toNat ∧ j = .str (String.ofList (Texts.base64 bs))

/-- A coin: denom and decimal amount. -/
def IsCoin (c : Coin) (j : Json) : Prop := Under j ["denom"] (.str c.denom) ∧ Under j ["amount"] (.str (toString c.amount))

/-- Coins in order. -/
def IsCoins (cs : List Coin) (j : Json) : Prop := ∃ l, j = .arr l ∧ List.Forall₂ IsCoin cs l

/-- A message: a transfer, a call of a contract, or protobuf bytes with the name of their type. -/
def IsMsg (m : WMsg) (j : Json) : Prop :=
  match m with
  | .chain (.send to_ coins) => Kind j "bank" ∧ Under j ["bank", "send", "to_address"] (.str to_) ∧
      ∃ cs, Under j ["bank", "send", "amount"] cs ∧ IsCoins coins cs
  | .wasm addr msg funds => Kind j "wasm" ∧ Under j ["wasm", "execute", "contract_addr"] (.str addr) ∧
      (∃ t, Under j ["wasm", "execute", "msg"] t ∧ Bytes64 msg t) ∧ ∃ cs, Under j ["wasm", "execute", "funds"] cs ∧ IsCoins funds cs
  | .chain m => Kind j "stargate" ∧ ∃ url b t, Under j ["stargate", "type_url"] (.str url) ∧ Under j ["stargate", "value"] t ∧
      Bytes64 b t ∧ Proto.Says url b m

/-- A message with what should happen when it is done: nothing, or, if it succeeds, a reply with an identifier. -/
def IsSub (reply : Option Nat) (m : WMsg) (j : Json) : Prop :=
  (∃ v, Under j ["msg"] v ∧ IsMsg m v) ∧ Under j ["gas_limit"] .null ∧
    match reply with
    | none => Under j ["reply_on"] (.str "never")
    | some id => Under j ["reply_on"] (.str "success") ∧ Under j ["id"] (.num id)

/-- An attribute. -/
def IsAttr (a : String × String) (j : Json) : Prop := Under j ["key"] (.str a.1) ∧ Under j ["value"] (.str a.2)

/-- A response of success with these messages and attributes, in this order, and nothing else. -/
def IsResponse (ms : List (Option Nat × WMsg)) (as : List (String × String)) (b : Bytes) : Prop :=
  ∃ j, Text b j ∧ Kind j "ok" ∧ (∃ l, Under j ["ok", "messages"] (.arr l) ∧ List.Forall₂ (fun m x => IsSub m.1 m.2 x) ms l) ∧
    (∃ l, Under j ["ok", "attributes"] (.arr l) ∧ List.Forall₂ IsAttr as l) ∧ Under j ["ok", "events"] (.arr []) ∧
    Under j ["ok", "data"] .null

/-- An event in a reply. -/
def IsEvent (j : Json) : Prop :=
  (∃ t, Under j ["type"] (.str t)) ∧ ∃ l, Under j ["attributes"] (.arr l) ∧ ∀ x ∈ l, ∃ a, IsAttr a x

/-- A reply of success with an identifier and data.  The padding of base64 may be missing. -/
def IsReply (b : Bytes) (id : Nat) (data : Bytes) : Prop :=
  ∃ j r, Text b j ∧ id < 2 ^ 64 ∧ Under j ["id"] (.num id) ∧ Under j ["result"] r ∧ Kind r "ok" ∧
    (∃ l, Under r ["ok", "events"] (.arr l) ∧ ∀ e ∈ l, IsEvent e) ∧
    ∃ t bs k, Under r ["ok", "data"] (.str t) ∧ data = bs.map UInt8.toNat ∧
      t.toList ++ List.replicate k '=' = Texts.base64 bs

end Ibcx.Spec.Response
