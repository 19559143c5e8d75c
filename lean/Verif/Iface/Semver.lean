import Verif.Iface.Version
/-!
# The version parser

Models `semver::Version::parse`, called in `/repo/packages/utils/src/lib.rs:19-20`.  The crate `semver` 1.0.21 is not
part of the repository; the functions below follow its source (`src/parse.rs`).  Texts are lists of characters instead
of bytes: all characters the parser looks for are ASCII, so that the bytes of other characters behave like the
characters.
-/

namespace Ibcx.Iface
open Ibcx

/-- The loop of `numeric_identifier` after `len` digits with the given value: no leading zero, value below `2^64`.  `semver`, reached from
`/repo/packages/utils/src/lib.rs:19-20`. -/
def numLoop (value len : Nat) : List Char → Option (Nat × List Char)
  | [] => if len = 0 then none else some (value, [])
  | c :: cs =>
    if c.isDigit then
      if value = 0 ∧ len > 0 then none
      else if 10 * value + (c.toNat - 48) < 2 ^ 64 then numLoop (10 * value + (c.toNat - 48)) (len + 1) cs
      else none
    else if len = 0 then none else some (value, c :: cs)

/-- `numeric_identifier`.  `semver`, reached from
`/repo/packages/utils/src/lib.rs:19-20`. -/
def numericIdent (cs : List Char) : Option (Nat × List Char) := numLoop 0 0 cs

/-- `dot`.  `semver`, reached from
`/repo/packages/utils/src/lib.rs:19-20`. -/
def dot : List Char → Option (List Char)
  | '.' :: cs => some cs
  | _ => none

/-- The characters of an identifier: letters, digits and the hyphen.  `semver`, reached from
`/repo/packages/utils/src/lib.rs:19-20`. -/
def identChar (c : Char) : Bool := c.isAlpha || c.isDigit || c = '-'

/-- A numeric pre-release identifier with a leading zero, which the parser rejects.  `semver`, reached from
`/repo/packages/utils/src/lib.rs:19-20`. -/
def leadingZero (seg : List Char) : Bool := seg.all Char.isDigit && decide (1 < seg.length) && seg.head? == some '0'

/-- The loop of `identifier` after the segments `acc` and the characters `seg` of the current one.  `semver`, reached from
`/repo/packages/utils/src/lib.rs:19-20`. -/
def identLoop (pre : Bool) (acc : List (List Char)) (seg : List Char) : List Char → Option (List (List Char) × List Char)
  | [] =>
    if seg = [] then (if acc = [] then some ([], []) else none)
    else if pre && leadingZero seg then none
    else some (acc ++ [seg], [])
  | c :: cs =>
    if identChar c then identLoop pre acc (seg ++ [c]) cs
    else if seg = [] then (if acc = [] ∧ c ≠ '.' then some ([], c :: cs) else none)
    else if pre && leadingZero seg then none
    else if c = '.' then identLoop pre (acc ++ [seg]) [] cs
    else some (acc ++ [seg], c :: cs)

/-- `identifier`: the dot separated segments and the rest of the text.  `semver`, reached from
`/repo/packages/utils/src/lib.rs:19-20`. -/
def identifier (pre : Bool) (cs : List Char) : Option (List (List Char) × List Char) := identLoop pre [] [] cs

/-- The value of a text of digits.  `semver`, reached from
`/repo/packages/utils/src/lib.rs:19-20`. -/
def digitsValue (ds : List Char) : Nat := ds.foldl (fun n c => 10 * n + (c.toNat - 48)) 0

/-- How the order of pre-releases reads a segment: as a number if it consists of digits.  `semver`, reached from
`/repo/packages/utils/src/lib.rs:19-20`. -/
def toPreId (seg : List Char) : PreId :=
  if seg.all Char.isDigit then .num (digitsValue seg) else .text (String.ofList seg)

/-- How the order of build metadata reads a segment.  `semver`, reached from
`/repo/packages/utils/src/lib.rs:19-20`. -/
def toBuildId (seg : List Char) : BuildId :=
  if seg.all Char.isDigit then .num (digitsValue seg) seg.length else .text (String.ofList seg)

/-- An optional part of the version after `mark`: empty without the mark, not empty with it.  `semver`, reached from
`/repo/packages/utils/src/lib.rs:19-20`. -/
def optPart (mark : Char) (pre : Bool) (cs : List Char) : Option (List (List Char) × List Char) :=
  match cs with
  | c :: rest =>
    if c = mark then
      match identifier pre rest with
      | some ([], _) => none
      | r => r
    else some ([], cs)
  | [] => some ([], [])

/-- `Version::from_str`.  `semver`, reached from
`/repo/packages/utils/src/lib.rs:19-20`. -/
def parseChars (cs : List Char) : Option Version := do
  let (major, cs) ← numericIdent cs
  let cs ← dot cs
  let (minor, cs) ← numericIdent cs
  let cs ← dot cs
  let (patch, cs) ← numericIdent cs
  let (pre, cs) ← optPart '-' true cs
  let (build, cs) ← optPart '+' false cs
  if cs = [] then some ⟨major, minor, patch, pre.map toPreId, build.map toBuildId⟩ else none

/-- `Version::parse`, called in `/repo/packages/utils/src/lib.rs:19-20`. -/
def parseVersion (s : String) : Option Version := parseChars s.toList

end Ibcx.Iface
