import Verif.Json.Text
/-!
# JSON as a grammar

Which texts are JSON texts and what they say, as a grammar in the manner of RFC 8259, with two differences that the
library has: numbers are whole and without a sign, and control characters may stand inside quotes as they are.
-/

namespace Ibcx.Spec.JsonText
open Ibcx Ibcx.Json

/-- White space: blanks, line feeds, tabs and carriage returns. -/
def Blank (cs : List Char) : Prop := ∀ c ∈ cs, c = ' ' ∨ c = '\n' ∨ c = '\t' ∨ c = '\r'

/-- The short escapes: what stands after the backslash, and the character meant. -/
def short : List (Char × Char) :=
  [('"', '"'), ('\\', '\\'), ('/', '/'), ('b', '\x08'), ('t', '\t'), ('n', '\n'), ('f', '\x0c'), ('r', '\r')]

/-- `c` is the digit of base sixteen with value `v`, in either case. -/
def HexDigit (c : Char) (v : Nat) : Prop :=
  "0123456789abcdef".toList[v]? = some c ∨ "0123456789ABCDEF".toList[v]? = some c

/-- Four digits of base sixteen with value `n`. -/
inductive Hex4 : List Char → Nat → Prop
  | intro {a b c d : Char} {x y z w : Nat} (ha : HexDigit a x) (hb : HexDigit b y) (hc : HexDigit c z)
      (hd : HexDigit d w) : Hex4 [a, b, c, d] (4096 * x + 256 * y + 16 * z + w)

/-- What may stand between quotes, and the characters it means.  A character outside the sixteen-bit range may be
written as a high and a low half. -/
inductive Inside : List Char → List Char → Prop
  | nil : Inside [] []
  | plain {c : Char} {t s : List Char} (h1 : c ≠ '"') (h2 : c ≠ '\\') (h : Inside t s) : Inside (c :: t) (c :: s)
  | escape {e c : Char} {t s : List Char} (he : (e, c) ∈ short) (h : Inside t s) : Inside ('\\' :: e :: t) (c :: s)
  | code {u t s : List Char} {c : Char} (hu : Hex4 u c.toNat) (h : Inside t s) :
      Inside ('\\' :: 'u' :: (u ++ t)) (c :: s)
  | pair {u v t s : List Char} {c : Char} {high low : Nat} (hu : Hex4 u high) (hv : Hex4 v low)
      (h1 : 0xD800 ≤ high ∧ high < 0xDC00) (h2 : 0xDC00 ≤ low ∧ low < 0xE000)
      (hc : c.toNat = 0x10000 + 0x400 * (high - 0xD800) + (low - 0xDC00)) (h : Inside t s) :
      Inside ('\\' :: 'u' :: (u ++ '\\' :: 'u' :: (v ++ t))) (c :: s)

mutual
/-- A value, without white space around it. -/
inductive Value : List Char → Json → Prop
  | null : Value "null".toList .null
  | yes : Value "true".toList (.bool true)
  | no : Value "false".toList (.bool false)
  | number (n : Nat) : Value (toString n).toList (.num n)
  | text {t s : List Char} (h : Inside t s) : Value ('"' :: (t ++ ['"'])) (.str (String.ofList s))
  | emptyList {b : List Char} (h : Blank b) : Value ('[' :: (b ++ [']'])) (.arr [])
  | list {t : List Char} {xs : List Json} (h : Items t xs) : Value ('[' :: (t ++ [']'])) (.arr xs)
  | emptyObject {b : List Char} (h : Blank b) : Value ('{' :: (b ++ ['}'])) (.obj [])
  | object {t : List Char} {fs : List (String × Json)} (h : Members t fs) : Value ('{' :: (t ++ ['}'])) (.obj fs)

/-- One or more values with white space around them, separated by commas. -/
inductive Items : List Char → List Json → Prop
  | last {b t b' : List Char} {x : Json} (hb : Blank b) (h : Value t x) (hb' : Blank b') : Items (b ++ (t ++ b')) [x]
  | more {b t b' ts : List Char} {x : Json} {xs : List Json} (hb : Blank b) (h : Value t x) (hb' : Blank b')
      (hs : Items ts xs) : Items (b ++ (t ++ (b' ++ ',' :: ts))) (x :: xs)

/-- One or more names with values, a colon between name and value, white space around each, separated by commas. -/
inductive Members : List Char → List (String × Json) → Prop
  | last {b u b1 b2 t b' s : List Char} {x : Json} (hb : Blank b) (hk : Inside u s) (hb1 : Blank b1) (hb2 : Blank b2)
      (h : Value t x) (hb' : Blank b') :
      Members (b ++ '"' :: (u ++ '"' :: (b1 ++ ':' :: (b2 ++ (t ++ b'))))) [(String.ofList s, x)]
  | more {b u b1 b2 t b' s ts : List Char} {x : Json} {fs : List (String × Json)} (hb : Blank b) (hk : Inside u s)
      (hb1 : Blank b1) (hb2 : Blank b2) (h : Value t x) (hb' : Blank b') (hs : Members ts fs) :
      Members (b ++ '"' :: (u ++ '"' :: (b1 ++ ':' :: (b2 ++ (t ++ (b' ++ ',' :: ts)))))) ((String.ofList s, x) :: fs)
end

/-- A JSON text: a value with white space around it. -/
def IsText (cs : List Char) (j : Json) : Prop :=
  ∃ b t b', cs = b ++ (t ++ b') ∧ Blank b ∧ Value t j ∧ Blank b'

end Ibcx.Spec.JsonText
