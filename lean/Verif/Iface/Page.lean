import Verif.KV
import Verif.Core.State
/-!
# Paged listings

Models `/repo/packages/interface/src/lib.rs:12-52` and the `range(..).take(limit)` pattern of the listing queries
(`Map::range`, `Prefix::range` of cw-storage-plus 1.2.0).
-/

namespace Ibcx.Iface
open Ibcx

/-- `MAX_LIMIT`, `/repo/packages/interface/src/lib.rs:13`. -/
def MAX_LIMIT : Nat := 30

/-- `DEFAULT_LIMIT`, `/repo/packages/interface/src/lib.rs:14`. -/
def DEFAULT_LIMIT : Nat := 10

/-- `get_and_check_limit`, `/repo/packages/interface/src/lib.rs:16-30`. -/
def getAndCheckLimit (limit : Option Nat) (max dflt : Nat) : Res Nat :=
  match limit with
  | some l => if l ≤ max then .ok l else .error .generic
  | none => .ok dflt

/-- `RangeOrder`, `/repo/packages/interface/src/types.rs:151-163` (`Order` of cosmwasm-std). -/
inductive RangeOrder where
  | asc
  | desc
deriving DecidableEq, Repr

/-- Result of `range_option`: exclusive bounds, limit and order.  `/repo/packages/interface/src/lib.rs:39-52`. -/
structure RangeOpt (K : Type) where
  min : Option K
  max : Option K
  limit : Nat
  order : RangeOrder

/-- `range_option`, `/repo/packages/interface/src/lib.rs:39-52`. -/
def rangeOption {K : Type} (start : Option K) (limit : Option Nat) (order : Option RangeOrder) :
    Res (RangeOpt K) := do
  let limit ← getAndCheckLimit limit MAX_LIMIT DEFAULT_LIMIT
  let order := order.getD .asc
  match order with
  | .asc => .ok { min := start, max := none, limit := limit, order := order }
  | .desc => .ok { min := none, max := start, limit := limit, order := order }

/-- Insertion of an entry at its place in key order; `lt` is the order of the keys' bytes. 
`/repo/packages/interface/src/lib.rs:39-52`. -/
def insertKey {K V : Type} (lt : K → K → Bool) (e : K × V) : List (K × V) → List (K × V)
  | [] => [e]
  | x :: xs => if lt e.1 x.1 then e :: x :: xs else x :: insertKey lt e xs

/-- The entries of a store in key order (storage iteration).  `/repo/packages/interface/src/lib.rs:39-52`. -/
def sortKeys {K V : Type} (lt : K → K → Bool) : List (K × V) → List (K × V)
  | [] => []
  | e :: es => insertKey lt e (sortKeys lt es)

/-- The key lies strictly above the lower and strictly below the upper bound (`Bound::exclusive`). 
`/repo/packages/interface/src/lib.rs:39-52`. -/
def inBounds {K : Type} (lt : K → K → Bool) (min max : Option K) (k : K) : Bool :=
  (match min with | some a => lt a k | none => true) && (match max with | some b => lt k b | none => true)

/-- `Map::range(storage, min, max, order)` of cw-storage-plus: entries within the exclusive bounds in the given
order.  The model sorts the association list; real storage is kept in byte order. 
`/repo/packages/interface/src/lib.rs:39-52`. -/
def range {K V : Type} (lt : K → K → Bool) (m : KV K V) (min max : Option K) (order : RangeOrder) : List (K × V) :=
  let es := (sortKeys lt m).filter (fun e => inBounds lt min max e.1)
  match order with
  | .asc => es
  | .desc => es.reverse

/-- The common listing pattern: `range_option(..)?` then `.range(..).take(limit)`. 
`/repo/packages/interface/src/lib.rs:39-52`. -/
def page {K V : Type} (lt : K → K → Bool) (m : KV K V) (start : Option K) (limit : Option Nat)
    (order : Option RangeOrder) : Res (List (K × V)) := do
  let o ← rangeOption start limit order
  .ok ((range lt m o.min o.max o.order).take o.limit)

/-- Byte order of string keys (for UTF-8 the order of code points).  `/repo/packages/interface/src/lib.rs:39-52`. -/
def strLt (a b : String) : Bool := decide (a < b)

/-- Byte order of `u64` keys (big endian).  `/repo/packages/interface/src/lib.rs:39-52`. -/
def natLt (a b : Nat) : Bool := decide (a < b)

/-- `list_trade_info`, `/repo/contracts/core/src/query.rs:145-165`: the entries under the prefix `denom_in`. -/
def listTradeInfo (s : Core.State) (denomIn : Denom) (start : Option Denom) (limit : Option Nat)
    (order : Option RangeOrder) : Res (List (Denom × Core.TradeInfo)) :=
  page strLt ((s.tradeInfos.filter (fun e => e.1.1 = denomIn)).map (fun e => (e.1.2, e.2))) start limit order

end Ibcx.Iface
