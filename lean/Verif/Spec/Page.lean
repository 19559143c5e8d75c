import Verif.Iface.Page
/-!
# Vocabulary of the paging specification
-/

namespace Ibcx.Spec
open Ibcx Ibcx.Iface

/-- A strict linear order. -/
structure Strict {K : Type} (lt : K → K → Bool) : Prop where
  irrefl : ∀ a, lt a a = false
  trans : ∀ a b c, lt a b = true → lt b c = true → lt a c = true
  total : ∀ a b, a ≠ b → lt a b = true ∨ lt b a = true

/-- `a` comes before `b` when listing in the given order. -/
def before {K : Type} (lt : K → K → Bool) : RangeOrder → K → K → Prop
  | .asc, a, b => lt a b = true
  | .desc, a, b => lt b a = true

/-- A client following the pages of a listing: asks for a page, then again with the last key as cursor, until a page
is empty (at most `n` requests). -/
def follow {K E : Type} (ask : Option K → Res (List E)) (key : E → K) : Nat → Option K → Res (List E)
  | 0, _ => .ok []
  | n + 1, start => do
    let p ← ask start
    match p.getLast? with
    | none => .ok []
    | some e => do
      let rest ← follow ask key n (some (key e))
      .ok (p ++ rest)

end Ibcx.Spec
