import Verif.Pool.Weighted
/-!
# Vocabulary for weighted pools
-/

namespace Ibcx.Spec
open Ibcx Ibcx.Pool

/-- The amount of a denom a pool holds. -/
def held (p : WeightedPool) (d : Denom) : Nat := ((p.assets.filter fun a => decide (a.denom = d)).map (·.amount)).sum

/-- The assets of a pool without their amounts. -/
def shape (p : WeightedPool) : List (Denom × Nat) := p.assets.map fun a => (a.denom, a.weight)

/-- No denom is listed twice. -/
def Distinct (p : WeightedPool) : Prop := (p.assets.map (·.denom)).Nodup

/-- The amount of a denom in a coin. -/
def coinOf (c : Coin) (d : Denom) : Nat := if c.denom = d then c.amount else 0

/-- A sequence of simulated swaps between different denoms, recording what went in and what came out. -/
inductive Swaps : WeightedPool → List (Coin × Coin) → WeightedPool → Prop where
  | done (p) : Swaps p [] p
  | exactIn {p p' q : WeightedPool} {input : Coin} {d : Denom} {spread out : Nat} {l : List (Coin × Coin)} :
      input.denom ≠ d → p.swapExactIn input d spread = .ok (out, p') → Swaps p' l q → Swaps p ((input, ⟨d, out⟩) :: l) q
  | exactOut {p p' q : WeightedPool} {output : Coin} {d : Denom} {spread inp : Nat} {l : List (Coin × Coin)} :
      d ≠ output.denom → p.swapExactOut d output spread = .ok (inp, p') → Swaps p' l q →
        Swaps p ((⟨d, inp⟩, output) :: l) q

end Ibcx.Spec
