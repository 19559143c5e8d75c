import Verif.Pool.Weighted
/-!
# Pools of two denoms with any weights
-/

namespace Ibcx.Spec
open Ibcx Ibcx.Pool

/-- The first entries of denoms `d` and `d'` in the pool have the weights `w` and `w'` and the balances `n` and `n'`. -/
def WeightedPair (p : WeightedPool) (d d' : Denom) (n n' w w' : Nat) : Prop :=
  p.assets.find? (fun a => decide (a.denom = d)) = some ⟨d, n, w⟩ ∧
    p.assets.find? (fun a => decide (a.denom = d')) = some ⟨d', n', w'⟩

/-- Two weights of which neither is more than `K` times the other, and neither is zero. -/
def WithinRatio (K w w' : Nat) : Prop := 0 < w ∧ 0 < w' ∧ w ≤ K * w' ∧ w' ≤ K * w

/-- `n` sales one after another lead from the first pool to the second: each sells `d` for `d'` or `d'` for `d`, at any fee, and at
most as much as the pool has of the denom sold. -/
inductive Sales (d d' : Denom) : Nat → WeightedPool → WeightedPool → Prop
  | none (p : WeightedPool) : Sales d d' 0 p p
  | there {n : Nat} {p q r : WeightedPool} {R U w w' x fee out : Nat} (h : Sales d d' n p q) (hq : WeightedPair q d d' R U w w')
      (hx : x ≤ R) (hs : q.swapExactIn ⟨d, x⟩ d' fee = .ok (out, r)) : Sales d d' (n + 1) p r
  | back {n : Nat} {p q r : WeightedPool} {R U w w' x fee out : Nat} (h : Sales d d' n p q) (hq : WeightedPair q d d' R U w w')
      (hx : x ≤ U) (hs : q.swapExactIn ⟨d', x⟩ d fee = .ok (out, r)) : Sales d d' (n + 1) p r

end Ibcx.Spec
