import Verif.Json.Text
import Verif.Pool.Decode
/-!
# Values as JSON trees

What `#[cw_serde]` (cosmwasm-schema 1.5.2: serde's derived `Serialize` and `Deserialize` with `deny_unknown_fields` and
names in snake case) makes of the types of the contracts, and the texts of the number types of cosmwasm-std 1.5.2.
-/

namespace Ibcx.Json
open Ibcx

/-- How a type is written and read, and which numbers of the model its values may contain (those that fit the number
types of the code).  `#[cw_serde]`, for example `/repo/packages/interface/src/core.rs:6`. -/
structure Codec (α : Type) where
  enc : α → Json
  dec : Json → Option α
  Fits : α → Prop

/-! ## Number texts -/

/-- An optional plus sign.  `str::parse::<u128>()` of the Rust standard library, under the `Uint128` fields, for example
`/repo/packages/interface/src/core.rs:85`. -/
def dropPlus : List Char → List Char
  | '+' :: ds => ds
  | ds => ds

/-- `str::parse::<u128>()` of the Rust standard library: an optional plus sign and at least one digit, value below
`2^128`.  Under the `Uint128` fields, for example `/repo/packages/interface/src/core.rs:85`. -/
def parseU128 (cs : List Char) : Option Nat :=
  let ds := dropPlus cs
  if ds = [] then none
  else if ds.all Char.isDigit then
    let n := ds.foldl (fun n c => 10 * n + (c.toNat - 48)) 0
    if n < U128 then some n else none
  else none

/-- Digits after an optional plus sign, with a value of so many bits: `str::parse::<u64>()` of the Rust standard library
under `/repo/packages/pool/src/weighted.rs:209`, and `Uint256::from_str` of cosmwasm-std 1.5.2 `math/uint256.rs` (which is
`from_str_radix` of bnum 0.8.1) under `/repo/packages/pool/src/weighted.rs:57`. -/
def parseUnsigned (bits : Nat) (cs : List Char) : Option Nat :=
  let ds := dropPlus cs
  if ds = [] then none
  else if ds.all Char.isDigit then
    let n := ds.foldl (fun n c => 10 * n + (c.toNat - 48)) 0
    if n < 2 ^ bits then some n else none
  else none

/-- `str::split('.')` of the Rust standard library.  Under the `Decimal` fields, for example
`/repo/packages/interface/src/core.rs:9`. -/
def splitDot : List Char → List (List Char)
  | [] => [[]]
  | c :: cs =>
    if c = '.' then [] :: splitDot cs
    else match splitDot cs with
      | [] => [[c]]
      | w :: ws => (c :: w) :: ws

/-- The eighteen digits after the point, with leading zeros (`{:0>18}` in cosmwasm-std 1.5.2 `math/decimal.rs`).  Under
the `Decimal` fields, for example `/repo/packages/interface/src/core.rs:9`. -/
def padded (n : Nat) : List Char :=
  List.replicate (18 - (toString n).toList.length) '0' ++ (toString n).toList

/-- `trim_end_matches('0')`.  Under the `Decimal` fields, for example `/repo/packages/interface/src/core.rs:9`. -/
def trimZeros (cs : List Char) : List Char := (cs.reverse.dropWhile (· = '0')).reverse

/-- `Display for Decimal` of cosmwasm-std 1.5.2 `math/decimal.rs`; a decimal is its number of `10^-18` parts.  Under
the `Decimal` fields, for example `/repo/packages/interface/src/core.rs:9`. -/
def decimalText (n : Nat) : List Char :=
  if n % ONE = 0 then (toString (n / ONE)).toList
  else (toString (n / ONE)).toList ++ '.' :: trimZeros (padded (n % ONE))

/-- `FromStr for Decimal` of cosmwasm-std 1.5.2 `math/decimal.rs`: at most one point and at most eighteen digits after
it.  Under the `Decimal` fields, for example `/repo/packages/interface/src/core.rs:9`. -/
def parseDecimal (cs : List Char) : Option Nat :=
  match splitDot cs with
  | [w] => do
    let n ← parseU128 w
    if ONE * n < U128 then some (ONE * n) else none
  | [w, f] => do
    let n ← parseU128 w
    let m ← parseU128 f
    if f.length ≤ 18 ∧ ONE * n + m * 10 ^ (18 - f.length) < U128 then some (ONE * n + m * 10 ^ (18 - f.length)) else none
  | _ => none

/-- The value of a character of base64.  `Binary::from_base64` of cosmwasm-std 1.5.2 `binary.rs`, under
`/repo/contracts/airdrop/src/airdrop.rs:31`. -/
def base64Value (c : Char) : Option Nat :=
  if 65 ≤ c.toNat ∧ c.toNat ≤ 90 then some (c.toNat - 65)
  else if 97 ≤ c.toNat ∧ c.toNat ≤ 122 then some (c.toNat - 71)
  else if c.isDigit then some (c.toNat + 4)
  else if c = '+' then some 62
  else if c = '/' then some 63
  else none

/-- One byte from two characters, the unused bits being zero.  `Binary::from_base64` of cosmwasm-std 1.5.2
`binary.rs`, under `/repo/contracts/airdrop/src/airdrop.rs:31`. -/
def lastOne (a b : Char) : Option (List Nat) := do
  let a ← base64Value a
  let b ← base64Value b
  if b % 16 = 0 then some [a * 4 + b / 16] else none

/-- Two bytes from three characters, the unused bits being zero.  `Binary::from_base64` of cosmwasm-std 1.5.2
`binary.rs`, under `/repo/contracts/airdrop/src/airdrop.rs:31`. -/
def lastTwo (a b c : Char) : Option (List Nat) := do
  let a ← base64Value a
  let b ← base64Value b
  let c ← base64Value c
  if c % 4 = 0 then some [a * 4 + b / 16, b % 16 * 16 + c / 4] else none

/-- `Binary::from_base64` of cosmwasm-std 1.5.2 `binary.rs`: padding may be present or left out.  Under
`/repo/contracts/airdrop/src/airdrop.rs:31`. -/
def fromBase64 : List Char → Option (List Nat)
  | [] => some []
  | [_] => none
  | [a, b] => lastOne a b
  | [a, b, c] => if c = '=' then lastOne a b else lastTwo a b c
  | a :: b :: c :: d :: r =>
    if r = [] ∧ c = '=' ∧ d = '=' then lastOne a b
    else if r = [] ∧ d = '=' then lastTwo a b c
    else do
      let a ← base64Value a
      let b ← base64Value b
      let c ← base64Value c
      let d ← base64Value d
      let bs ← fromBase64 r
      some ((a * 4 + b / 16) :: (b % 16 * 16 + c / 4) :: (c % 4 * 64 + d) :: bs)

/-! ## Simple types -/

/-- `String`, `Addr`.  For example `/repo/packages/interface/src/core.rs:16`. -/
def text : Codec String where
  enc := .str
  dec | .str s => some s | _ => none
  Fits _ := True

/-- `bool`.  For example `/repo/packages/interface/src/core.rs:10`. -/
def flag : Codec Bool where
  enc := .bool
  dec | .bool b => some b | _ => none
  Fits _ := True

/-- An unsigned number type, written as digits: `u64`, `u32`.  For example `/repo/packages/interface/src/core.rs:36`. -/
def uint (bits : Nat) : Codec Nat where
  enc := .num
  dec | .num n => if n < 2 ^ bits then some n else none | _ => none
  Fits n := n < 2 ^ bits

/-- `Uint128`, written as a text (cosmwasm-std 1.5.2 `math/uint128.rs`).  For example
`/repo/packages/interface/src/core.rs:85`. -/
def u128 : Codec Nat where
  enc n := .str (toString n)
  dec | .str s => parseU128 s.toList | _ => none
  Fits n := n < U128

/-- `Uint256`, written as a text (cosmwasm-std 1.5.2 `math/uint256.rs`).  `/repo/packages/pool/src/weighted.rs:57`. -/
def u256 : Codec Nat where
  enc n := .str (toString n)
  dec | .str s => parseUnsigned 256 s.toList | _ => none
  Fits n := n < 2 ^ 256

/-- `Decimal`, written as a text (cosmwasm-std 1.5.2 `math/decimal.rs`).  For example
`/repo/packages/interface/src/core.rs:9`. -/
def decimal : Codec Nat where
  enc n := .str (String.ofList (decimalText n))
  dec | .str s => parseDecimal s.toList | _ => none
  Fits n := n < U128

/-- `Binary`, written as base64 text (cosmwasm-std 1.5.2 `binary.rs`).  `/repo/contracts/airdrop/src/airdrop.rs:31`. -/
def binary : Codec (List UInt8) where
  enc b := .str (String.ofList (Pool.toBase64 (b.map UInt8.toNat)))
  dec | .str s => (fromBase64 s.toList).map (·.map UInt8.ofNat) | _ => none
  Fits _ := True

/-- `Option`.  For example `/repo/packages/interface/src/core.rs:17`. -/
def Codec.opt {α : Type} (c : Codec α) : Codec (Option α) where
  enc | some a => c.enc a | none => .null
  dec | .null => some none | j => (c.dec j).map some
  Fits o := ∀ a ∈ o, c.Fits a

/-- `Vec`.  For example `/repo/packages/interface/src/core.rs:28`. -/
def Codec.list {α : Type} (c : Codec α) : Codec (List α) where
  enc xs := .arr (xs.map c.enc)
  dec | .arr js => js.mapM c.dec | _ => none
  Fits xs := ∀ a ∈ xs, c.Fits a

/-- A pair.  For example `/repo/packages/interface/src/core.rs:28`. -/
def Codec.pair {α β : Type} (c : Codec α) (d : Codec β) : Codec (α × β) where
  enc p := .arr [c.enc p.1, d.enc p.2]
  dec | .arr [x, y] => do
        let a ← c.dec x
        let b ← d.dec y
        some (a, b)
      | _ => none
  Fits p := c.Fits p.1 ∧ d.Fits p.2

/-! ## Records and variants -/

/-- The value of a field.  serde derived `Deserialize`, for example `/repo/packages/interface/src/core.rs:6-11`. -/
def field (fs : List (String × Json)) (name : String) : Option Json :=
  (fs.find? fun f => f.1 = name).map (·.2)

/-- A field that must be there.  serde derived `Deserialize`, for example `/repo/packages/interface/src/core.rs:9`. -/
def req {α : Type} (fs : List (String × Json)) (name : String) (c : Codec α) : Option α := do
  let j ← field fs name
  c.dec j

/-- A field of type `Option`: absent counts as `None`.  serde derived `Deserialize`, for example
`/repo/packages/interface/src/core.rs:17`. -/
def optional {α : Type} (fs : List (String × Json)) (name : String) (c : Codec α) : Option (Option α) :=
  match field fs name with
  | none => some none
  | some j => c.opt.dec j

/-- No field twice, and no field but those named (`deny_unknown_fields`).  `#[cw_serde]`, for example
`/repo/packages/interface/src/core.rs:6`. -/
def only (names : List String) (fs : List (String × Json)) : Option Unit :=
  if (fs.map (·.1)).Nodup ∧ ∀ f ∈ fs, f.1 ∈ names then some () else none

/-- No known field twice; other fields are ignored.  Derived `Deserialize` without `deny_unknown_fields`, as of `Coin` and
`ContractVersion`, for example `/repo/packages/interface/src/core.rs:133`. -/
def once (names : List String) (fs : List (String × Json)) : Option Unit :=
  if ((fs.map (·.1)).filter (· ∈ names)).Nodup then some () else none

/-- The fields of a record.  serde derived `Deserialize`, for example `/repo/packages/interface/src/core.rs:6-11`. -/
def fields : Json → Option (List (String × Json))
  | .obj fs => some fs
  | _ => none

/-- The fields of a record of a `#[cw_serde]` type with the given fields.  For example
`/repo/packages/interface/src/core.rs:6-11`. -/
def record (names : List String) (j : Json) : Option (List (String × Json)) := do
  let fs ← fields j
  only names fs
  some fs

/-- A variant with contents: an object with one field.  serde derived `Serialize` of enums, for example
`/repo/packages/interface/src/core.rs:32-53`. -/
def variant (name : String) (j : Json) : Json := .obj [(name, j)]

/-- The name and contents of a variant; a bare text is a variant without contents.  serde-json-wasm 0.5.1 `de/enum_.rs`,
for example `/repo/packages/interface/src/core.rs:32-53`. -/
def asVariant : Json → Option (String × Option Json)
  | .obj [(name, j)] => some (name, some j)
  | .str name => some (name, none)
  | _ => none

/-- A value of an enum all of whose variants have contents, given how the contents of each variant are read.  serde derived
`Deserialize` of enums, for example `/repo/packages/interface/src/core.rs:32-53`. -/
def oneOf {α : Type} (cases : List (String × (Json → Option α))) (j : Json) : Option α := do
  let (name, body) ← asVariant j
  let body ← body
  let case ← cases.find? fun c => c.1 = name
  case.2 body

/-- `Coin` of cosmwasm-std 1.5.2 `coin.rs`.  For example `/repo/packages/interface/src/core.rs:133`. -/
def coin : Codec Coin where
  enc c := .obj [("denom", .str c.denom), ("amount", u128.enc c.amount)]
  dec j := do
    let fs ← fields j
    once ["denom", "amount"] fs
    let denom ← req fs "denom" text
    let amount ← req fs "amount" u128
    some ⟨denom, amount⟩
  Fits c := u128.Fits c.amount

/-- The text of a value: `to_json_vec`, `to_json_binary`.  `/repo/contracts/core/src/contract.rs:132`. -/
def Codec.toText {α : Type} (c : Codec α) (a : α) : Storage.Bytes := toBytes (c.enc a)

/-- Reading a value from a text: `from_json`.  `/repo/packages/pool/src/query.rs:58-60`; before the entry points, the
macro `entry_point` of cosmwasm-std, `/repo/contracts/core/src/contract.rs:20,48`. -/
def Codec.ofText {α : Type} (c : Codec α) (b : Storage.Bytes) : Option α := do
  let j ← ofBytes b
  c.dec j

end Ibcx.Json
