import Verif.Spec.Core
/-!
# Vocabulary for the exact effect of rebalance messages

Only data types of the model are used.
-/

namespace Ibcx.Spec
open Ibcx Ibcx.Core

/-- The basket with `v` more of `d`: added to the entry of `d`, or listed at the end. -/
def credited (us : Units) (d : Denom) (v : Nat) : Units :=
  if d ∈ us.map (·.1) then us.map (fun e => if e.1 = d then (d, e.2 + v) else e) else us ++ [(d, v)]

/-- The basket with `v` less of `d`. -/
def debited (us : Units) (d : Denom) (v : Nat) : Units :=
  us.map (fun e => if e.1 = d then (d, e.2 - v) else e)

/-- The sum of all units (or weights) of a list. -/
def weightSum (ws : Units) : Nat := (ws.map (·.2)).sum

/-- The share of a weight `w` out of the remaining weight `T` in the remaining proceeds `P`: the product is
rounded down to 18 decimals before the division, the quotient again. -/
def shareOf (P w T : Nat) : Nat := P * w / 1000000000000000000 * 1000000000000000000 / T

/-- `SplitInto res P T ws res'`: distributing the proceeds `P` over the weights `ws`, one after the other,
each time giving the share of the weight in the remaining weight `T`, takes the reserve `res` to `res'`
without leaving 128 bits or dividing by zero. -/
inductive SplitInto : Units → Nat → Nat → Units → Units → Prop
  | done {res : Units} {P T : Nat} : SplitInto res P T [] res
  | next {res res' : Units} {P T w : Nat} {d : Denom} {ws : Units} :
      T ≠ 0 → w ≤ T → P * w / 1000000000000000000 < 2 ^ 128 → shareOf P w T < 2 ^ 128 →
      (∀ u, (d, u) ∈ res → u + shareOf P w T < 2 ^ 128) →
      SplitInto (credited res d (shareOf P w T)) (P - shareOf P w T) (T - w) ws res' →
      SplitInto res P T ((d, w) :: ws) res'

/-- The swap pair of the trade info is not cooling down at time `now`. -/
def cooledDown (t : TradeInfo) (now : Nat) : Prop :=
  ∀ l, t.lastTradedAt = some l → l + t.cooldown < 2 ^ 64 ∧ l + t.cooldown ≤ now

end Ibcx.Spec
