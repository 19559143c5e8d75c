import Verif.Iface.Page
/-!
# Raw storage

The byte level of the storage of a contract: where cw-storage-plus 1.2.0 puts the items and maps declared in
`/repo/contracts/core/src/state/mod.rs` and `/repo/contracts/airdrop/src/state.rs`, and how it iterates over them.
cw-storage-plus is not part of the repository; the functions follow its source.  Bytes are natural numbers below 256.
Simplified: stored values are not serialized.
-/

namespace Ibcx.Storage
open Ibcx Ibcx.Iface

/-- A byte string.
Keys of `/repo/contracts/core/src/state/mod.rs:16-38`, `/repo/contracts/airdrop/src/state.rs:20-49`. -/
abbrev Bytes := List Nat

/-- UTF-8 encoding of a character (keys of type `&str`, `String`, `Addr`).
Text keys of `/repo/contracts/core/src/state/mod.rs:16-38`, `/repo/contracts/airdrop/src/state.rs:20-49`. -/
def utf8Char (c : Char) : Bytes :=
  let n := c.toNat
  if n < 0x80 then [n]
  else if n < 0x800 then [0xC0 + n / 0x40, 0x80 + n % 0x40]
  else if n < 0x10000 then [0xE0 + n / 0x1000, 0x80 + n / 0x40 % 0x40, 0x80 + n % 0x40]
  else [0xF0 + n / 0x40000, 0x80 + n / 0x1000 % 0x40, 0x80 + n / 0x40 % 0x40, 0x80 + n % 0x40]

/-- `str::as_bytes`: the key bytes of a text.
Text keys of `/repo/contracts/core/src/state/mod.rs:16-38`, `/repo/contracts/airdrop/src/state.rs:20-49`. -/
def textBytes (s : String) : Bytes := s.toList.flatMap utf8Char

/-- The `k` lowest bytes of a number, highest first.
Numeric keys of `/repo/contracts/airdrop/src/state.rs:20-49`. -/
def bigEndian : Nat → Nat → Bytes
  | 0, _ => []
  | k + 1, n => n / 256 ^ k % 256 :: bigEndian k (n % 256 ^ k)

/-- `u64::to_be_bytes`: the key bytes of a number.
Numeric keys of `/repo/contracts/airdrop/src/state.rs:20-49`. -/
def u64Bytes (n : Nat) : Bytes := bigEndian 8 n

/-- `encode_length` and the part itself (`helpers.rs`): two bytes of length, then the part.
Under `/repo/contracts/core/src/state/mod.rs:16-38`, `/repo/contracts/airdrop/src/state.rs:20-49`. -/
def lenPrefixed (b : Bytes) : Bytes := b.length / 256 :: b.length % 256 :: b

/-- Byte order of keys in the storage.
Under the listings, `/repo/packages/interface/src/lib.rs:39-52`. -/
def bytesLt : Bytes → Bytes → Bool
  | _, [] => false
  | [], _ :: _ => true
  | a :: as, b :: bs => if a < b then true else if b < a then false else bytesLt as bs

/-- A place in the storage: an `Item` with its name, or an entry of a `Map` with its namespace, the parts of the key
before the last one and the last part.
Declared in `/repo/contracts/core/src/state/mod.rs:16-38`, `/repo/contracts/airdrop/src/state.rs:20-49`. -/
inductive Slot where
  | item (name : String)
  | entry (ns : String) (parts : List Bytes) (last : Bytes)
deriving DecidableEq, Repr

/-- `namespaces_with_key` (`helpers.rs`) for the namespace and all parts but the last.
Under `/repo/contracts/core/src/state/mod.rs:16-38`, `/repo/contracts/airdrop/src/state.rs:20-49`. -/
def prefixBytes (ns : String) (parts : List Bytes) : Bytes :=
  lenPrefixed (textBytes ns) ++ parts.flatMap lenPrefixed

/-- The key bytes of a place: the bare name of an item (`Item::new`), length prefixed parts and the bare last part of a
map entry (`Path::new`).
Under `/repo/contracts/core/src/state/mod.rs:16-38`, `/repo/contracts/airdrop/src/state.rs:20-49`. -/
def Slot.bytes : Slot → Bytes
  | .item name => textBytes name
  | .entry ns parts last => prefixBytes ns parts ++ last

/-- `encode_length` aborts on parts longer than `0xFFFF` bytes.
Under `/repo/contracts/core/src/state/mod.rs:16-38`, `/repo/contracts/airdrop/src/state.rs:20-49`. -/
def Slot.key (s : Slot) : Res Bytes :=
  match s with
  | .item _ => .ok s.bytes
  | .entry ns parts _ =>
    if (textBytes ns).length ≤ 0xFFFF ∧ ∀ p ∈ parts, p.length ≤ 0xFFFF then .ok s.bytes else .error .panic

/-- The storage: values under key bytes.
`deps.storage` of `/repo/contracts/core/src/state/mod.rs:16-38`, `/repo/contracts/airdrop/src/state.rs:20-49`. -/
abbrev Raw (V : Type) := KV Bytes V

/-- `Storage::range(Some(start), Some(end), order)`: the keys from `lo` on and below `hi`.
Under the listings, `/repo/packages/interface/src/lib.rs:39-52`. -/
def dbRange {V : Type} (m : Raw V) (lo hi : Bytes) (order : RangeOrder) : List (Bytes × V) :=
  let es := (sortKeys bytesLt m).filter (fun e => !bytesLt e.1 lo && bytesLt e.1 hi)
  match order with
  | .asc => es
  | .desc => es.reverse

/-- The loop of `increment_last_byte` (`prefix.rs`) from the end: trailing 255 become 0, the byte before grows.
Under the listings, `/repo/packages/interface/src/lib.rs:39-52`. -/
def incrRev : Bytes → Bytes
  | [] => []
  | b :: bs => if b = 255 then 0 :: incrRev bs else (b + 1) :: bs

/-- `increment_last_byte` (`prefix.rs`).
Under the listings, `/repo/packages/interface/src/lib.rs:39-52`. -/
def increment (p : Bytes) : Bytes := (incrRev p.reverse).reverse

/-- `calc_start_bound` (`prefix.rs`) for an exclusive bound.
Bounds of `/repo/packages/interface/src/lib.rs:46-49`. -/
def startBound (p : Bytes) : Option Bytes → Bytes
  | none => p
  | some k => p ++ (k ++ [0])

/-- `calc_end_bound` (`prefix.rs`) for an exclusive bound.
Bounds of `/repo/packages/interface/src/lib.rs:46-49`. -/
def endBound (p : Bytes) : Option Bytes → Bytes
  | none => increment p
  | some k => p ++ k

/-- `range_with_prefix` (`prefix.rs`): the prefix is cut off from the keys.
Under the listings, `/repo/packages/interface/src/lib.rs:39-52`. -/
def rangeWithPrefix {V : Type} (m : Raw V) (p : Bytes) (min max : Option Bytes) (order : RangeOrder) : List (Bytes × V) :=
  (dbRange m (startBound p min) (endBound p max) order).map (fun e => (e.1.drop p.length, e.2))

/-- The listing pattern of the queries on the raw storage: `range_option(..)?`, then `.prefix(..).range(..).take(limit)`.
`/repo/packages/interface/src/lib.rs:39-52`. -/
def rawPage {V : Type} (m : Raw V) (p : Bytes) (start : Option Bytes) (limit : Option Nat) (order : Option RangeOrder) :
    Res (List (Bytes × V)) := do
  let o ← rangeOption start limit order
  .ok ((rangeWithPrefix m p o.min o.max o.order).take o.limit)

end Ibcx.Storage
