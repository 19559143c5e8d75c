import Verif.Storage.Raw
import Verif.Iface.Version
import Verif.Airdrop.Query
/-!
# What the contracts store where

Models the declarations in `/repo/contracts/core/src/state/mod.rs:16-38` and `/repo/contracts/airdrop/src/state.rs:6-49`
and the listing queries on the raw storage.  `cw2` stores its record under `contract_info`.
-/

namespace Ibcx.Storage
open Ibcx Ibcx.Iface

/-! ### Core -/

/-- The places of the core contract, `/repo/contracts/core/src/state/mod.rs:16-38`. -/
inductive CorePlace where
  | version
  | config
  | pendingGov
  | fee
  | totalSupply
  | indexUnits
  | rebalance
  | reserveUnits
  | tradeInfo (denomIn denomOut : Denom)
deriving DecidableEq, Repr

/-- Names and prefixes, `/repo/contracts/core/src/state/mod.rs:16-38`. -/
def CorePlace.slot : CorePlace → Slot
  | .version => .item "contract_info"
  | .config => .item "config"
  | .pendingGov => .item "pending_gov"
  | .fee => .item "fee"
  | .totalSupply => .item "total_supply"
  | .indexUnits => .item "index_units"
  | .rebalance => .item "rebalances"
  | .reserveUnits => .item "reserve_units"
  | .tradeInfo i o => .entry "trade_infos" [textBytes i] (textBytes o)

/-- The types of the stored values, `/repo/contracts/core/src/state/mod.rs:16-38`. -/
inductive CoreVal where
  | version (v : ContractVersion)
  | config (c : Core.Config)
  | pendingGov (a : Addr)
  | fee (f : Core.Fee)
  | totalSupply (n : Nat)
  | units (u : Core.Units)
  | rebalance (r : Core.Rebalance)
  | tradeInfo (t : Core.TradeInfo)
deriving DecidableEq, Repr

/-- All stored places of the core contract with their values; items that were removed are absent. 
`/repo/contracts/core/src/state/mod.rs:16-38`. -/
def corePlaces (v : ContractVersion) (s : Core.State) : List (CorePlace × CoreVal) :=
  [(.version, .version v), (.config, .config s.config), (.fee, .fee s.fee), (.totalSupply, .totalSupply s.totalSupply),
    (.indexUnits, .units s.indexUnits)] ++
  (s.pendingGov.toList.map fun a => (.pendingGov, .pendingGov a)) ++
  (s.rebalance.toList.map fun r => (.rebalance, .rebalance r)) ++
  (s.reserveUnits.toList.map fun u => (.reserveUnits, .units u)) ++
  s.tradeInfos.map fun e => (.tradeInfo e.1.1 e.1.2, .tradeInfo e.2)

/-- The raw storage of the core contract.  `/repo/contracts/core/src/state/mod.rs:16-38`. -/
def coreRaw (v : ContractVersion) (s : Core.State) : Raw CoreVal :=
  (corePlaces v s).map fun e => (e.1.slot.bytes, e.2)

/-- `list_trade_info` on the raw storage, `/repo/contracts/core/src/query.rs:145-165`. -/
def rawListTradeInfo {V : Type} (m : Raw V) (denomIn : Denom) (start : Option Denom) (limit : Option Nat)
    (order : Option RangeOrder) : Res (List (Bytes × V)) :=
  rawPage m (prefixBytes "trade_infos" [textBytes denomIn]) (start.map textBytes) limit order

/-! ### Airdrop -/

/-- The places of the airdrop contract, `/repo/contracts/airdrop/src/state.rs:6-49`; the two secondary indexes have
their own namespaces. -/
inductive DropPlace where
  | version
  | latest
  | drop (id : Nat)
  | byType (typ : String) (id : Nat)
  | byCreator (creator : Addr) (id : Nat)
  | label (l : String)
  | claim (id : Nat) (key : String)
deriving DecidableEq, Repr

/-- Names and prefixes, `/repo/contracts/airdrop/src/state.rs:20-49`. -/
def DropPlace.slot : DropPlace → Slot
  | .version => .item "contract_info"
  | .latest => .item "latest_airdrop"
  | .drop id => .entry "airdrops" [] (u64Bytes id)
  | .byType typ id => .entry "airdrops__by_type" [textBytes typ] (u64Bytes id)
  | .byCreator creator id => .entry "airdrops__by_creator" [textBytes creator] (u64Bytes id)
  | .label l => .entry "labels" [] (textBytes l)
  | .claim id key => .entry "claim_logs" [u64Bytes id] (textBytes key)

/-- The types of the stored values, `/repo/contracts/airdrop/src/state.rs:20-49`; an index entry holds the length of
the primary key. -/
inductive DropVal where
  | version (v : ContractVersion)
  | latest (n : Nat)
  | drop (a : Airdrop.Drop)
  | pkLen (n : Nat)
  | label (id : Nat)
  | claim (amount : Nat)
deriving DecidableEq, Repr

/-- The first index function, `/repo/contracts/airdrop/src/state.rs:22-29`. -/
def typeName (a : Airdrop.Drop) : String :=
  match a.kind with
  | .openAirdrop => "open"
  | .bearer _ _ => "bearer"

/-- `AirdropType::to_string`, `/repo/packages/interface/src/airdrop.rs:31-38`: the prefix of the listing by type. -/
def typeText : Airdrop.DropType → String
  | .openDrop => "open"
  | .bearer => "bearer"

/-- All stored places of the airdrop contract with their values.  `/repo/contracts/airdrop/src/state.rs:6-49`. -/
def dropPlaces (v : ContractVersion) (s : Airdrop.State) : List (DropPlace × DropVal) :=
  [(.version, .version v), (.latest, .latest s.latest)] ++
  (s.drops.map fun e => (.drop e.1, .drop e.2)) ++
  (s.drops.map fun e => (.byType (typeName e.2) e.1, .pkLen 8)) ++
  (s.drops.map fun e => (.byCreator e.2.creator e.1, .pkLen 8)) ++
  (s.labels.map fun e => (.label e.1, .label e.2)) ++
  s.claims.map fun e => (.claim e.1.1 e.1.2, .claim e.2)

/-- The raw storage of the airdrop contract.  `/repo/contracts/airdrop/src/state.rs:6-49`. -/
def dropRaw (v : ContractVersion) (s : Airdrop.State) : Raw DropVal :=
  (dropPlaces v s).map fun e => (e.1.slot.bytes, e.2)

/-- The value type of the index maps inside `airdrops()`, `/repo/contracts/airdrop/src/state.rs:20-40`: the length of the
primary key. -/
def DropVal.asPkLen : DropVal → Option Nat
  | .pkLen n => some n
  | _ => none

/-- `deserialize_multi_kv` of cw-storage-plus: the value of an index entry is read from the primary map; the primary key
are the last bytes of the key, as many as the entry says (`asLen`).
Under `/repo/contracts/airdrop/src/query/airdrop.rs:55-73,92-110`. -/
def loadIndexed {V : Type} (asLen : V → Option Nat) (m : Raw V) (e : Bytes × V) : Res (Bytes × V) :=
  match asLen e.2 with
  | some n =>
    if n ≤ e.1.length then
      match m.get (prefixBytes "airdrops" [] ++ e.1.drop (e.1.length - n)) with
      | some v => .ok (e.1.drop (e.1.length - n), v)
      | none => .error .generic
    else .error .panic
  | none => .error .generic

/-- `ListAirdropsQueryOptions::ByID` on the raw storage, `/repo/contracts/airdrop/src/query/airdrop.rs:39-53`. -/
def rawListById {V : Type} (m : Raw V) (start : Option Nat) (limit : Option Nat) (order : Option RangeOrder) :
    Res (List (Bytes × V)) :=
  rawPage m (prefixBytes "airdrops" []) (start.map u64Bytes) limit order

/-- `ListAirdropsQueryOptions::ByType` on the raw storage, `/repo/contracts/airdrop/src/query/airdrop.rs:55-73`. -/
def rawListByType {V : Type} (asLen : V → Option Nat) (m : Raw V) (typ : Airdrop.DropType)
    (start : Option Nat) (limit : Option Nat) (order : Option RangeOrder) : Res (List (Bytes × V)) := do
  let es ← rawPage m (prefixBytes "airdrops__by_type" [textBytes (typeText typ)]) (start.map u64Bytes) limit order
  es.mapM (loadIndexed asLen m)

/-- `ListAirdropsQueryOptions::ByCreator` on the raw storage, `/repo/contracts/airdrop/src/query/airdrop.rs:92-110`,
for a valid creator address. -/
def rawListByCreator {V : Type} (asLen : V → Option Nat) (m : Raw V) (creator : Addr)
    (start : Option Nat) (limit : Option Nat) (order : Option RangeOrder) : Res (List (Bytes × V)) := do
  let es ← rawPage m (prefixBytes "airdrops__by_creator" [textBytes creator]) (start.map u64Bytes) limit order
  es.mapM (loadIndexed asLen m)

/-- The scan of `list_labels` and `ByLabel` on the raw storage, `/repo/contracts/airdrop/src/query/label.rs:45-50`,
`/repo/contracts/airdrop/src/query/airdrop.rs:75-90`. -/
def rawListLabels {V : Type} (m : Raw V) (start : Option String) (limit : Option Nat) (order : Option RangeOrder) :
    Res (List (Bytes × V)) :=
  rawPage m (prefixBytes "labels" []) (start.map textBytes) limit order

/-- The scan of `list_claims` on the raw storage, `/repo/contracts/airdrop/src/query/claim.rs:46-53`. -/
def rawListClaims {V : Type} (m : Raw V) (id : Nat) (start : Option String) (limit : Option Nat)
    (order : Option RangeOrder) : Res (List (Bytes × V)) :=
  rawPage m (prefixBytes "claim_logs" [u64Bytes id]) (start.map textBytes) limit order

end Ibcx.Storage
