import Verif.Spec.Texts
/-!
# Numbers that fit the number types

Which states of the contracts can be stored: every amount and decimal has sixteen bytes, every time, height, pool id and
airdrop id eight.
-/

namespace Ibcx.Spec.Texts
open Ibcx

/-- The numbers of a trade route fit. -/
def InfoFits (t : Core.TradeInfo) : Prop :=
  (∀ r ∈ t.routes, Number r.poolId) ∧ Number t.cooldown ∧ Amount t.maxTradeAmount ∧ ∀ n ∈ t.lastTradedAt, Number n

/-- The numbers of a streaming fee fit. -/
def StreamFits (f : Core.StreamingFee) : Prop :=
  Amount f.rate ∧ (∀ c ∈ f.collected, Amount c.amount) ∧ Number f.lastCollectedAt

/-- The numbers of a basket fit. -/
def BasketFits (us : List (Denom × Nat)) : Prop := ∀ e ∈ us, Amount e.2

/-- All numbers of a state of the core contract fit. -/
structure CoreStateFits (s : Core.State) : Prop where
  pause : ∀ n ∈ s.config.paused.expiresAt, Number n
  mintFee : ∀ n ∈ s.fee.mintFee, Amount n
  burnFee : ∀ n ∈ s.fee.burnFee, Amount n
  stream : ∀ f ∈ s.fee.streamingFee, StreamFits f
  supply : Amount s.totalSupply
  index : BasketFits s.indexUnits
  reserve : ∀ us ∈ s.reserveUnits, BasketFits us
  targets : ∀ r ∈ s.rebalance, BasketFits r.deflation ∧ BasketFits r.inflation
  infos : ∀ e ∈ s.tradeInfos, InfoFits e.2

/-- All numbers of an airdrop fit. -/
def OneDropFits (a : Airdrop.Drop) : Prop :=
  Amount a.totalAmount ∧ Amount a.totalClaimed ∧ Number a.createdAt ∧ ∀ n ∈ a.closedAt, Number n

/-- All numbers of a state of the airdrop contract fit. -/
structure DropStateFits (s : Airdrop.State) : Prop where
  latest : Number s.latest
  drops : ∀ e ∈ s.drops, Number e.1 ∧ OneDropFits e.2
  labels : ∀ e ∈ s.labels, Number e.2
  claims : ∀ e ∈ s.claims, Number e.1.1 ∧ Amount e.2

end Ibcx.Spec.Texts
