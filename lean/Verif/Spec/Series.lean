import Mathlib.Algebra.BigOperators.Group.Finset.Basic
/-!
# The binomial series with eighteen digits

Numbers stand for multiples of 10^-18; every division rounds down.
-/

namespace Ibcx.Spec

/-- The distance of two numbers. -/
def apart (a b : Nat) : Nat := max a b - min a b

/-- The size of a term of the series of `(1 + (base - 1)) ^ exp`: the one before it times `|exp - k| * |base - 1|` divided by
`k + 1`. -/
def seriesTerm (base exp : Nat) : Nat → Nat
  | 0 => 10 ^ 18
  | k + 1 => seriesTerm base exp k * (apart exp (10 ^ 18 * k) * apart base (10 ^ 18) / 10 ^ 18) / 10 ^ 18 / (k + 1)

/-- The sign of a term: after the first one they alternate for bases above one, beginning with plus, and are all negative for
the others. -/
def seriesSign (base k : Nat) : Int :=
  if k = 0 then 1 else if base ≤ 10 ^ 18 then -1 else if k % 2 = 0 then -1 else 1

end Ibcx.Spec
