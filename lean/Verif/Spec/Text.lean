import Verif.Pool.Sim
/-!
# Vocabulary for the compact route text
-/

namespace Ibcx.Spec
open Ibcx Ibcx.Pool

/-- The characters of the digits. -/
def digitChars : List Char := ['0', '1', '2', '3', '4', '5', '6', '7', '8', '9']

/-- The value of a list of decimal digits, most significant first. -/
def decimal (ds : List (Fin 10)) : Nat := ds.foldl (fun n d => 10 * n + d.val) 0

/-- `text` is a numeral for `n`: at least one decimal digit, with or without a plus sign in front. -/
def Numeral (text : List Char) (n : Nat) : Prop :=
  ∃ ds : List (Fin 10), ds ≠ [] ∧ n = decimal ds ∧
    (text = ds.map (digitChars.getD ·.val '0') ∨ text = '+' :: ds.map (digitChars.getD ·.val '0'))

/-- `part` is what stands before the first comma of `text` (all of it if there is none). -/
def FirstPart (text part : List Char) : Prop := ',' ∉ part ∧ (text = part ∨ ∃ rest, text = part ++ ',' :: rest)

/-- `part` is what stands after the last comma of `text` (all of it if there is none). -/
def LastPart (text part : List Char) : Prop := ',' ∉ part ∧ (text = part ∨ ∃ rest, text = rest ++ ',' :: part)

/-- A hop written as text. -/
def hopText (r : SwapRoute) : String := toString r.poolId ++ "," ++ r.tokenDenom

/-- A pair of denoms written as text. -/
def keyText (i : SwapInfo) : String := i.src ++ "," ++ i.dst

/-- A denom without commas. -/
def Plain (d : Denom) : Prop := ',' ∉ d.toList

end Ibcx.Spec
