import Verif.Spec.QueryTexts
import Verif.Storage.PlaceLemmas
/-!
# What the contracts store, as texts

For every place of a contract the text that stands there, written with texts only.
-/

namespace Ibcx.Spec.Texts
open Ibcx Ibcx.Storage

/-- The name and version of the code. -/
def version (v : Iface.ContractVersion) : String := obj [("contract", quoted v.contract), ("version", quoted v.version)]

/-- The stored configuration. -/
def storedConfig (c : Core.Config) : String :=
  obj [("gov", quoted c.gov), ("paused", paused c.paused), ("index_denom", quoted c.indexDenom),
    ("reserve_denom", quoted c.reserveDenom)]

/-- A stored trade route. -/
def storedRoute (t : Core.TradeInfo) : String :=
  obj [("routes", arr (t.routes.map hop)), ("cooldown", toString t.cooldown), ("max_trade_amount", amount t.maxTradeAmount),
    ("last_traded_at", orNull toString t.lastTradedAt)]

/-- The text at a place of the core contract, if there is one. -/
def coreCell (dec : Nat → String) (v : Iface.ContractVersion) (s : Core.State) : CorePlace → Option String
  | .version => some (version v)
  | .config => some (storedConfig s.config)
  | .pendingGov => s.pendingGov.map quoted
  | .fee => some (fees dec s.fee)
  | .totalSupply => some (amount s.totalSupply)
  | .indexUnits => some (units dec s.indexUnits)
  | .rebalance => s.rebalance.map (rebalanceState dec)
  | .reserveUnits => s.reserveUnits.map (units dec)
  | .tradeInfo i o => (s.tradeInfos.get (i, o)).map storedRoute

/-- A digit of base64. -/
def sixBits (n : Nat) : Char :=
  "ABCDEFGHIJKLMNOPQRSTUVWXYZabcdefghijklmnopqrstuvwxyz0123456789+/".toList.getD (n % 64) '='

/-- Base64: every three bytes are one number, written with four digits; what is missing at the end is filled up. -/
def base64 : List UInt8 → List Char
  | [] => []
  | [a] =>
    let n := a.toNat * 65536
    [sixBits (n / 262144), sixBits (n / 4096), '=', '=']
  | [a, b] =>
    let n := a.toNat * 65536 + b.toNat * 256
    [sixBits (n / 262144), sixBits (n / 4096), sixBits (n / 64), '=']
  | a :: b :: c :: r =>
    let n := a.toNat * 65536 + b.toNat * 256 + c.toNat
    [sixBits (n / 262144), sixBits (n / 4096), sixBits (n / 64), sixBits n] ++ base64 r

/-- A stored airdrop. -/
def storedDrop (a : Airdrop.Drop) : String :=
  match a.kind with
  | .openAirdrop => obj [("open", obj [("creator", quoted a.creator), ("denom", quoted a.denom),
      ("total_amount", amount a.totalAmount), ("total_claimed", amount a.totalClaimed), ("merkle_root", quoted a.merkleRoot),
      ("label", orNull quoted a.label), ("created_at", toString a.createdAt), ("closed_at", orNull toString a.closedAt)])]
  | .bearer signer pub => obj [("bearer", obj [("creator", quoted a.creator), ("signer", quoted signer),
      ("signer_pub", quoted (String.ofList (base64 pub))), ("denom", quoted a.denom),
      ("total_amount", amount a.totalAmount), ("total_claimed", amount a.totalClaimed), ("merkle_root", quoted a.merkleRoot),
      ("label", orNull quoted a.label), ("created_at", toString a.createdAt), ("closed_at", orNull toString a.closedAt)])]

/-- The name of the kind of an airdrop. -/
def kindName (a : Airdrop.Drop) : String :=
  match a.kind with
  | .openAirdrop => "open"
  | .bearer _ _ => "bearer"

/-- The text at a place of the airdrop contract, if there is one.  An index entry tells the length of a number. -/
def dropCell (v : Iface.ContractVersion) (s : Airdrop.State) : DropPlace → Option String
  | .version => some (version v)
  | .latest => some (toString s.latest)
  | .drop n => (s.drops.get n).map storedDrop
  | .byType t n => (s.drops.get n).bind fun a => if kindName a = t then some "8" else none
  | .byCreator c n => (s.drops.get n).bind fun a => if a.creator = c then some "8" else none
  | .label l => (s.labels.get l).map toString
  | .claim n key => (s.claims.get (n, key)).map amount

/-- The storage `b` holds the state `s` of the core contract: under the key of every place the text of that place, and nothing
under any other key. -/
structure CoreStored (dec : Nat → String) (v : Iface.ContractVersion) (b : Raw Bytes) (s : Core.State) : Prop where
  once : (b.map (·.1)).Nodup
  text : ∀ p : CorePlace, p.Fits → b.get p.slot.bytes = (coreCell dec v s p).map textBytes
  only : ∀ k, b.get k ≠ none → ∃ p : CorePlace, p.Fits ∧ k = p.slot.bytes

/-- The storage `b` holds the state `s` of the airdrop contract. -/
structure DropStored (v : Iface.ContractVersion) (b : Raw Bytes) (s : Airdrop.State) : Prop where
  once : (b.map (·.1)).Nodup
  text : ∀ p : DropPlace, p.Fits → b.get p.slot.bytes = (dropCell v s p).map textBytes
  only : ∀ k, b.get k ≠ none → ∃ p : DropPlace, p.Fits ∧ k = p.slot.bytes

end Ibcx.Spec.Texts
