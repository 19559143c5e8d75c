import Verif.Iface.Version
/-!
# Version texts, independently of the parser

`major.minor.patch-pre+build`: the semantic version grammar (semver.org, paragraphs 2, 9 and 10), with numbers below
`2^64` for the first three.
-/

namespace Ibcx.Spec
open Ibcx.Iface

/-- Texts joined by dots. -/
def dotted : List (List Char) → List Char
  | [] => []
  | [a] => a
  | a :: b :: rest => a ++ '.' :: dotted (b :: rest)

/-- The text of a pre-release identifier. -/
def preText : PreId → List Char
  | .num n => (toString n).toList
  | .text s => s.toList

/-- The text of a build identifier: the number filled up with zeros. -/
def buildText : BuildId → List Char
  | .num n len => List.replicate (len - (toString n).toList.length) '0' ++ (toString n).toList
  | .text s => s.toList

/-- A text of letters, digits and hyphens that is not a number. -/
def Word (s : String) : Prop :=
  (∀ c ∈ s.toList, c.isAlpha ∨ c.isDigit ∨ c = '-') ∧ ∃ c ∈ s.toList, ¬ c.isDigit

/-- What a pre-release identifier may be. -/
def PreOk : PreId → Prop
  | .num _ => True
  | .text s => Word s

/-- What a build identifier may be. -/
def BuildOk : BuildId → Prop
  | .num n len => (toString n).toList.length ≤ len
  | .text s => Word s

/-- What a version may be. -/
def VersionOk (v : Version) : Prop :=
  v.major < 2 ^ 64 ∧ v.minor < 2 ^ 64 ∧ v.patch < 2 ^ 64 ∧ (∀ p ∈ v.pre, PreOk p) ∧ ∀ b ∈ v.build, BuildOk b

/-- The text of a version. -/
def versionText (v : Version) : List Char :=
  (toString v.major).toList ++ '.' :: (toString v.minor).toList ++ '.' :: (toString v.patch).toList ++
    (if v.pre = [] then [] else '-' :: dotted (v.pre.map preText)) ++
    (if v.build = [] then [] else '+' :: dotted (v.build.map buildText))

end Ibcx.Spec
