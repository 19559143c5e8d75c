import Verif.Core.State
/-!
# Units: the basket

Models `/repo/contracts/core/src/state/units.rs`.  The Rust code finds entries with
`iter().position(..)` (first match) and mutates them in place; here the same is written by
recursion over the list.
-/

namespace Ibcx.Core.Units
open Ibcx

/-- `Units::get_key`, `/repo/contracts/core/src/state/units.rs:107-113`: the unit of the first entry with the denom. -/
def getKey : Units → Denom → Option Nat
  | [], _ => none
  | (d, u) :: us, k => if d = k then some u else getKey us k

/-- `units.get_key(k).unwrap().1`: aborts when the denom is missing. 
`/repo/contracts/core/src/execute/rebalance/finalize.rs:36`,
`/repo/contracts/core/src/execute/rebalance/trade/deflate.rs:48-49,95-96`. -/
def getKey! (us : Units) (k : Denom) : Res Nat :=
  match us.getKey k with
  | some u => .ok u
  | none => .error .panic

/-- `Units::add_key`, `/repo/contracts/core/src/state/units.rs:81-92`. -/
def addKey : Units → Denom → Nat → Res Units
  | [], k, v => .ok [(k, v)]
  | (d, u) :: us, k, v =>
    if d = k then do
      let w ← add u v
      .ok ((d, w) :: us)
    else do
      let us' ← addKey us k v
      .ok ((d, u) :: us')

/-- `Units::sub_key`, `/repo/contracts/core/src/state/units.rs:94-105`. -/
def subKey : Units → Denom → Nat → Res Units
  | [], _, _ => .error .notFound
  | (d, u) :: us, k, v =>
    if d = k then do
      let w ← sub u v
      .ok ((d, w) :: us)
    else do
      let us' ← subKey us k v
      .ok ((d, u) :: us')

/-- `Units::pop_key`, `/repo/contracts/core/src/state/units.rs:115-121`: removes the first entry with the denom. -/
def popKey : Units → Denom → Option (Nat × Units)
  | [], _ => none
  | (d, u) :: us, k =>
    if d = k then some (u, us)
    else match popKey us k with
      | some (w, us') => some (w, (d, u) :: us')
      | none => none

/-- The filter used by `finalize`, `/repo/contracts/core/src/execute/rebalance/finalize.rs:52-59`
(same as `Units::prune_zero`, `/repo/contracts/core/src/state/units.rs:123-125`). -/
def pruneZero (us : Units) : Units := us.filter (fun e => e.2 ≠ 0)

/-- `Units::calc_require_amount`, `/repo/contracts/core/src/state/units.rs:127-132`. -/
def calcRequire (us : Units) (amount : Nat) : Res (List Coin) :=
  us.mapM fun (d, u) => do
    let a ← mulInt u amount
    .ok ⟨d, a⟩

/-- One iteration of the loop `/repo/contracts/core/src/state/units.rs:146-154`: find the first fund with the denom,
mark it as
used and subtract.  The Rust code keeps the marks in a parallel vector `denoms` (`None` = used);
here the mark is paired with the coin (`true` = used). -/
def takeRequired : List (Coin × Bool) → Coin → Res (List (Coin × Bool))
  | [], _ => .error .insufficientFunds
  | (f, m) :: fs, c =>
    if f.denom = c.denom then do
      let a ← sub f.amount c.amount
      .ok ((⟨f.denom, a⟩, true) :: fs)
    else do
      let fs' ← takeRequired fs c
      .ok ((f, m) :: fs')

/-- `Units::calc_refund_amount`, `/repo/contracts/core/src/state/units.rs:134-162`. -/
def calcRefund (us : Units) (funds : List Coin) (amount : Nat) : Res (List Coin) := do
  let req ← us.calcRequire amount
  let required := req.map fun c => (⟨c.denom, max c.amount 1⟩ : Coin)
  let left ← required.foldlM takeRequired (funds.map fun f => (f, false))
  require (left.all (·.2) = true) .generic
  .ok ((left.map (·.1)).filter (fun c => c.amount ≠ 0))

/-- `Units::check_empty`, `/repo/contracts/core/src/state/units.rs:164-166`. -/
def checkEmpty (us : Units) : Bool := us.all (fun e => e.2 = 0)

/-- `Units::check_duplicate`, `/repo/contracts/core/src/state/units.rs:168-175`: is some denom listed twice?  The
`BTreeMap`
of seen denoms is the list `seen`. -/
def hasDup : List Denom → Units → Bool
  | _, [] => false
  | seen, (d, _) :: us => if d ∈ seen then true else hasDup (d :: seen) us

/-- `Units::check_duplicate`, `/repo/contracts/core/src/state/units.rs:168-175`. -/
def checkDuplicate (us : Units) : Bool := hasDup [] us

/-- The denoms of a basket.  First components of `/repo/contracts/core/src/state/units.rs:8-12`. -/
def denoms (us : Units) : List Denom := us.map (·.1)

end Ibcx.Core.Units
