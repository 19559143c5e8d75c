import Verif.Core.State
/-!
# When a rebalance can be completed (specification of C98)

A swap moves whole base units; the units of a basket are counted per index token in `10^-18`.  Nothing here refers to the
handlers.
-/

namespace Ibcx.Spec
open Ibcx Ibcx.Core

/-- The amount `gap` (per index token, in `10^-18`) can be brought to zero by swaps of whole base units, each of at most
what the gap is worth over the whole supply; a swap of `n` base units takes `⌊n / supply⌋` off the gap. -/
inductive Closable (supply : Nat) : Nat → Prop
  | done : Closable supply 0
  | swap {gap : Nat} (n : Nat) (hs : 0 < supply) (hn : 0 < n)
      (fits : n * 1000000000000000000 ≤ gap * supply)
      (rest : Closable supply (gap - n * 1000000000000000000 / supply)) : Closable supply gap

/-- The market gives nothing for nothing: buying a positive amount costs a positive amount. -/
def NoGifts (env : Env) : Prop :=
  ∀ routes out n, env.estIn routes out = .ok n → 0 < out.amount → 0 < n

end Ibcx.Spec
