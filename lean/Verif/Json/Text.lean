import Verif.Storage.Raw
/-!
# JSON texts

The contracts receive, send and store JSON texts: `to_json_binary` and `from_json` of cosmwasm-std 1.5.2, which are
`to_vec` and `from_slice` of serde-json-wasm 0.5.1 (`/repo/Cargo.lock:1998-2005`).  The library reads a text directly
into the expected type; here a text is first read into a tree, and `Verif.Json.Codec` reads the tree.
-/

namespace Ibcx.Json
open Ibcx

/-- The trees written and read.  The library's numbers with a sign, a fraction or an exponent do not occur in any
type of the contracts and are left out.  Under `/repo/contracts/core/src/contract.rs:132`. -/
inductive Json where
  | null
  | bool (b : Bool)
  | num (n : Nat)
  | str (s : String)
  | arr (xs : List Json)
  | obj (fs : List (String × Json))
deriving Repr, Inhabited

/-! ## Writing -/

/-- A digit of base sixteen, upper case.  serde-json-wasm 0.5.1 `ser/mod.rs`, under
`/repo/contracts/core/src/contract.rs:132`. -/
def hexUpper (n : Nat) : Char := if n < 10 then Char.ofNat (48 + n) else Char.ofNat (55 + n)

/-- How one character is written inside a text: quote, backslash and the control characters are escaped.
serde-json-wasm 0.5.1 `ser/mod.rs` (`serialize_str`), under `/repo/contracts/core/src/contract.rs:132`. -/
def escape (c : Char) : List Char :=
  if c = '"' then ['\\', '"']
  else if c = '\\' then ['\\', '\\']
  else if c.toNat = 8 then ['\\', 'b']
  else if c.toNat = 9 then ['\\', 't']
  else if c.toNat = 10 then ['\\', 'n']
  else if c.toNat = 12 then ['\\', 'f']
  else if c.toNat = 13 then ['\\', 'r']
  else if c.toNat < 32 then ['\\', 'u', '0', '0', hexUpper (c.toNat / 16), hexUpper (c.toNat % 16)]
  else [c]

/-- A text in quotes.  serde-json-wasm 0.5.1 `ser/mod.rs` (`serialize_str`), under
`/repo/contracts/core/src/contract.rs:132`. -/
def writeStr (s : String) : List Char := '"' :: (s.toList.flatMap escape ++ ['"'])

mutual
/-- `to_json_binary`, as characters: no white space, fields in the order of declaration.
`/repo/contracts/core/src/contract.rs:132`, `/repo/contracts/airdrop/src/contract.rs:45`,
`/repo/contracts/periphery/src/contract.rs:97`. -/
def write : Json → List Char
  | .null => ['n', 'u', 'l', 'l']
  | .bool true => ['t', 'r', 'u', 'e']
  | .bool false => ['f', 'a', 'l', 's', 'e']
  | .num n => (toString n).toList
  | .str s => writeStr s
  | .arr [] => ['[', ']']
  | .arr (x :: xs) => '[' :: (write x ++ (writeItems xs ++ [']']))
  | .obj [] => ['{', '}']
  | .obj ((k, x) :: fs) => '{' :: (writeStr k ++ (':' :: (write x ++ (writeFields fs ++ ['}']))))

/-- The items after the first.  Under `/repo/contracts/core/src/contract.rs:132`. -/
def writeItems : List Json → List Char
  | [] => []
  | x :: xs => ',' :: (write x ++ writeItems xs)

/-- The fields after the first.  Under `/repo/contracts/core/src/contract.rs:132`. -/
def writeFields : List (String × Json) → List Char
  | [] => []
  | (k, x) :: fs => ',' :: (writeStr k ++ (':' :: (write x ++ writeFields fs)))
end

/-! ## Reading -/

/-- White space between tokens.  serde-json-wasm 0.5.1 `de/mod.rs` (`parse_whitespace`), under
`/repo/packages/pool/src/query.rs:58-60`. -/
def skipWs : List Char → List Char
  | c :: r => if c = ' ' ∨ c = '\n' ∨ c = '\t' ∨ c = '\r' then skipWs r else c :: r
  | [] => []

/-- The value of a digit of base sixteen, of either case.  serde-json-wasm 0.5.1 `de/unescape.rs`, under
`/repo/packages/pool/src/query.rs:58-60`. -/
def hexValue (c : Char) : Option Nat :=
  if c.isDigit then some (c.toNat - 48)
  else if 65 ≤ c.toNat ∧ c.toNat ≤ 70 then some (c.toNat - 55)
  else if 97 ≤ c.toNat ∧ c.toNat ≤ 102 then some (c.toNat - 87)
  else none

/-- Four digits of base sixteen.  serde-json-wasm 0.5.1 `de/unescape.rs`, under
`/repo/packages/pool/src/query.rs:58-60`. -/
def hexFour (a b c d : Char) : Option Nat := do
  let a ← hexValue a
  let b ← hexValue b
  let c ← hexValue c
  let d ← hexValue d
  some (((a * 16 + b) * 16 + c) * 16 + d)

/-- The character after a backslash, other than `u`.  serde-json-wasm 0.5.1 `de/unescape.rs`, under
`/repo/packages/pool/src/query.rs:58-60`. -/
def unescape (c : Char) : Option Char :=
  if c = '"' then some '"'
  else if c = '\\' then some '\\'
  else if c = '/' then some '/'
  else if c = 'b' then some (Char.ofNat 8)
  else if c = 't' then some (Char.ofNat 9)
  else if c = 'n' then some (Char.ofNat 10)
  else if c = 'f' then some (Char.ofNat 12)
  else if c = 'r' then some (Char.ofNat 13)
  else none

/-- The rest of a text after its opening quote: the characters and what follows the closing quote.  A code number
from `D800` to `DFFF` must be the first half of a pair.  serde-json-wasm 0.5.1 `de/unescape.rs`, under
`/repo/packages/pool/src/query.rs:58-60`. -/
def readStr : List Char → Option (List Char × List Char)
  | [] => none
  | '"' :: r => some ([], r)
  | '\\' :: 'u' :: a :: b :: c :: d :: r => do
    let n ← hexFour a b c d
    if 0xD800 ≤ n ∧ n ≤ 0xDFFF then
      match r with
      | '\\' :: 'u' :: a' :: b' :: c' :: d' :: r' => do
        let m ← hexFour a' b' c' d'
        if n < 0xDC00 ∧ 0xDC00 ≤ m ∧ m ≤ 0xDFFF then do
          let (s, r) ← readStr r'
          some (Char.ofNat (0x10000 + (n - 0xD800) * 0x400 + (m - 0xDC00)) :: s, r)
        else none
      | _ => none
    else do
      let (s, r) ← readStr r
      some (Char.ofNat n :: s, r)
  | '\\' :: c :: r => do
    let c ← unescape c
    let (s, r) ← readStr r
    some (c :: s, r)
  | c :: r => do
    let (s, r) ← readStr r
    some (c :: s, r)

/-- The digits of a number after its first one.  serde-json-wasm 0.5.1 `de/mod.rs` (`deserialize_unsigned`), under
`/repo/packages/pool/src/query.rs:58-60`. -/
def readNum (n : Nat) : List Char → Nat × List Char
  | c :: r => if c.isDigit then readNum (10 * n + (c.toNat - 48)) r else (n, c :: r)
  | [] => (n, [])

/-- The rest of a word.  serde-json-wasm 0.5.1 `de/mod.rs` (`parse_ident`), under
`/repo/packages/pool/src/query.rs:58-60`. -/
def readWord (w : List Char) (cs : List Char) : Option (List Char) :=
  if w.isPrefixOf cs then some (cs.drop w.length) else none

mutual
/-- One value and what follows it; the first argument bounds the number of steps.  A number does not begin with a
zero and another digit.  serde-json-wasm 0.5.1 `de/mod.rs`, under `/repo/packages/pool/src/query.rs:58-60`. -/
def readValue : Nat → List Char → Option (Json × List Char)
  | 0, _ => none
  | k + 1, cs =>
    match skipWs cs with
    | [] => none
    | c :: r =>
      if c = 'n' then (readWord ['u', 'l', 'l'] r).map fun r => (.null, r)
      else if c = 't' then (readWord ['r', 'u', 'e'] r).map fun r => (.bool true, r)
      else if c = 'f' then (readWord ['a', 'l', 's', 'e'] r).map fun r => (.bool false, r)
      else if c = '"' then (readStr r).map fun x => (.str (String.ofList x.1), x.2)
      else if c = '[' then
        match skipWs r with
        | ']' :: r => some (.arr [], r)
        | r => (readItems k r).map fun x => (.arr x.1, x.2)
      else if c = '{' then
        match skipWs r with
        | '}' :: r => some (.obj [], r)
        | r => (readFields k r).map fun x => (.obj x.1, x.2)
      else if c = '0' then some (.num 0, r)
      else if c.isDigit then some (.num (readNum (c.toNat - 48) r).1, (readNum (c.toNat - 48) r).2)
      else none

/-- At least one item and the closing bracket.  serde-json-wasm 0.5.1 `de/seq.rs`, under
`/repo/packages/pool/src/query.rs:58-60`. -/
def readItems : Nat → List Char → Option (List Json × List Char)
  | 0, _ => none
  | k + 1, cs => do
    let (x, r) ← readValue k cs
    match skipWs r with
    | ',' :: r => do
      let (xs, r) ← readItems k r
      some (x :: xs, r)
    | ']' :: r => some ([x], r)
    | _ => none

/-- At least one field and the closing brace.  serde-json-wasm 0.5.1 `de/map.rs`, under
`/repo/packages/pool/src/query.rs:58-60`. -/
def readFields : Nat → List Char → Option (List (String × Json) × List Char)
  | 0, _ => none
  | k + 1, cs =>
    match skipWs cs with
    | '"' :: r => do
      let (key, r) ← readStr r
      match skipWs r with
      | ':' :: r => do
        let (x, r) ← readValue k r
        match skipWs r with
        | ',' :: r => do
          let (fs, r) ← readFields k r
          some ((String.ofList key, x) :: fs, r)
        | '}' :: r => some ([(String.ofList key, x)], r)
        | _ => none
      | _ => none
    | _ => none
end

/-- A whole text: one value and nothing but white space after it.  serde-json-wasm 0.5.1 `de/mod.rs` (`from_slice`),
under `/repo/packages/pool/src/query.rs:58-60`. -/
def read (cs : List Char) : Option Json := do
  let (j, r) ← readValue (2 * cs.length) cs
  if skipWs r = [] then some j else none

/-! ## Bytes -/

/-- A later byte of a character: the six bits it carries.  `str::from_utf8` of the Rust standard library, under
`/repo/packages/pool/src/query.rs:50`. -/
def tailBits (b : Nat) : Option Nat := if 0x80 ≤ b ∧ b < 0xC0 then some (b - 0x80) else none

/-- UTF-8 bytes to characters: the shortest form only and no half of a pair.  `str::from_utf8` of the Rust standard
library, under `/repo/packages/pool/src/query.rs:50`. -/
def fromUtf8 : Storage.Bytes → Option (List Char)
  | [] => some []
  | a :: r =>
    if a < 0x80 then do
      let cs ← fromUtf8 r
      some (Char.ofNat a :: cs)
    else if 0xC2 ≤ a ∧ a < 0xE0 then
      match r with
      | b :: r => do
        let b ← tailBits b
        let cs ← fromUtf8 r
        some (Char.ofNat ((a - 0xC0) * 0x40 + b) :: cs)
      | _ => none
    else if 0xE0 ≤ a ∧ a < 0xF0 then
      match r with
      | b :: c :: r => do
        let b ← tailBits b
        let c ← tailBits c
        let n := (a - 0xE0) * 0x1000 + b * 0x40 + c
        if 0x800 ≤ n ∧ ¬ (0xD800 ≤ n ∧ n ≤ 0xDFFF) then do
          let cs ← fromUtf8 r
          some (Char.ofNat n :: cs)
        else none
      | _ => none
    else if 0xF0 ≤ a ∧ a < 0xF5 then
      match r with
      | b :: c :: d :: r => do
        let b ← tailBits b
        let c ← tailBits c
        let d ← tailBits d
        let n := (a - 0xF0) * 0x40000 + b * 0x1000 + c * 0x40 + d
        if 0x10000 ≤ n ∧ n < 0x110000 then do
          let cs ← fromUtf8 r
          some (Char.ofNat n :: cs)
        else none
      | _ => none
    else none

/-- `to_json_vec`: the bytes of the text.  `/repo/packages/utils/src/lib.rs:38`. -/
def toBytes (j : Json) : Storage.Bytes := (write j).flatMap Storage.utf8Char

/-- `from_json` up to the tree.  `/repo/packages/pool/src/query.rs:58-60`. -/
def ofBytes (b : Storage.Bytes) : Option Json := do
  let cs ← fromUtf8 b
  read cs

end Ibcx.Json
