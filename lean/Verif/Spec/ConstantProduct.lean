import Verif.Pool.Weighted
/-!
# Pools of two denoms with equal weights
-/

namespace Ibcx.Spec
open Ibcx Ibcx.Pool

/-- The first entries of denoms `d` and `d'` in the pool have equal weights and the balances `n` and `n'`. -/
def EqualPair (p : WeightedPool) (d d' : Denom) (n n' : Nat) : Prop :=
  ∃ w, p.assets.find? (fun a => decide (a.denom = d)) = some ⟨d, n, w⟩ ∧
    p.assets.find? (fun a => decide (a.denom = d')) = some ⟨d', n', w⟩

/-- What is left of a payment after a fee in parts of 10^18, rounded down. -/
def afterFee (fee x : Nat) : Nat := x * (10 ^ 18 - fee) / 10 ^ 18

/-- What the pool pays, when `a` is added to the balance `n` of the denom sold, out of the balance `n'` of the denom bought:
the share of the balance after the sale that was there before is rounded down to 18 digits. -/
def constantProduct (n n' a : Nat) : Nat := n' * (10 ^ 18 - 10 ^ 18 * n / (n + a)) / 10 ^ 18

end Ibcx.Spec
