import Verif.Pool.Sim
/-!
# The compact route text

Models `/repo/packages/interface/src/periphery.rs:30-88`.  Texts are lists of characters.
-/

namespace Ibcx.Periphery
open Ibcx Ibcx.Pool

/-- `str::split(',')`: the parts between the commas, at least one.  `/repo/packages/interface/src/periphery.rs:47,56`.
-/
def splitComma : List Char → List (List Char)
  | [] => [[]]
  | c :: cs =>
    if c = ',' then [] :: splitComma cs
    else match splitComma cs with
      | [] => [[c]]
      | w :: ws => (c :: w) :: ws

/-- The digits of a decimal number, after a value already read.  Under `/repo/packages/interface/src/periphery.rs:58`.
-/
def readDigits : Nat → List Char → Option Nat
  | n, [] => some n
  | n, c :: cs => if c.isDigit then readDigits (10 * n + (c.toNat - 48)) cs else none

/-- `str::parse::<u64>()` of the Rust standard library: an optional plus sign and at least one digit, value below
`2^64`.  `/repo/packages/interface/src/periphery.rs:58`. -/
def parseU64 (cs : List Char) : Option Nat :=
  let ds := match cs with
    | '+' :: ds => ds
    | ds => ds
  match ds with
  | [] => none
  | _ => match readDigits 0 ds with
    | some n => if n < 2 ^ 64 then some n else none
    | none => none

/-- `SwapInfoCompact`, `/repo/packages/interface/src/periphery.rs:30-34`. -/
structure Compact where
  key : String
  routes : List String
deriving DecidableEq, Repr

/-- One route, `/repo/packages/interface/src/periphery.rs:55-65`: first and last part; aborts if the first is no
number. -/
def parseRoute (r : String) : Res SwapRoute :=
  let parts := splitComma r.toList
  match parseU64 (parts.headD []) with
  | some id => .ok ⟨id, String.ofList (parts.getLastD [])⟩
  | none => .error .panic

/-- `From<SwapInfoCompact> for SwapInfo`, `/repo/packages/interface/src/periphery.rs:45-70`. -/
def parseInfo (c : Compact) : Res SwapInfo := do
  let keys := splitComma c.key.toList
  let routes ← c.routes.mapM parseRoute
  .ok { src := String.ofList (keys.headD []), dst := String.ofList (keys.getLastD []), routes := routes }

/-- `From<SwapInfosCompact> for Vec<SwapInfo>`, `/repo/packages/interface/src/periphery.rs:84-88`. -/
def parseInfos (cs : List Compact) : Res (List SwapInfo) := cs.mapM parseInfo

end Ibcx.Periphery
