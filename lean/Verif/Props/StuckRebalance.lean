import Verif.Props.Stuck
import Verif.Props.CollateralAll
/-!
# What gets stuck in rebalances

C118 bounds what stays on the contract as long as no rebalance is started. Here rebalances are allowed.
-/

namespace Ibcx.Props
open Ibcx Ibcx.Core Ibcx.Spec Ibcx.Chain

/-- The route stored for selling `k` for the reserve denom. -/
def sellingRoute (s : State) (k : Denom) : List SwapRoute :=
  ((s.tradeInfos.get (k, s.config.reserveDenom)).map (·.routes)).getD []

/-- What distributing proceeds over the weights of the running rebalance loses at most, in units of `10^-18` per index
token: one and the inverse of the last weight. -/
def splitLoss (s : State) : Nat :=
  match s.rebalance with
  | some r =>
    match r.inflation.getLast? with
    | some (_, w) => 1 + 1000000000000000000 / w
    | none => 0
  | none => 0

/-- Coins of denom `d` that no index token stands for any more, or never stood for, after an accepted trade. A sale of `d`
takes the estimated amount of `d` out of the basket, but the swap does not take it from the contract. A purchase brings coins
of the denom at the end of its route: if this is the denom to be bought, the basket grows by the estimate only. -/
def orphanedBy (d : Denom) (w : World) (tx : Tx) : Nat :=
  match tx with
  | .call env _ (.rebalance (.trade (.deflate k amount _))) _ =>
    if txAccepted w tx ∧ k ≠ w.core.config.reserveDenom ∧ d = k then
      (env.estIn (sellingRoute w.core k) ⟨w.core.config.reserveDenom, amount⟩).toOption.getD 0
    else 0
  | .call env _ (.rebalance (.trade (.inflate k amount _))) market =>
    if txAccepted w tx ∧ k ≠ w.core.config.reserveDenom ∧
        (buyingRoute w.core k).getLast?.map (·.tokenDenom) = some d then
      market.headD 0 -
        (if d = k then (env.estOut (buyingRoute w.core k) ⟨w.core.config.reserveDenom, amount⟩).toOption.getD 0 else 0)
    else 0
  | _ => 0

/-- The same over a history. -/
def orphaned (d : Denom) (w : World) : List Tx → Nat
  | [] => 0
  | tx :: txs => orphanedBy d w tx + orphaned d (deliver w tx) txs

/-- Rounding in an accepted trade, in multiples of `10^-18` base units of denom `d`: dividing a bought amount by the supply
loses less than the supply, distributing proceeds loses at most `splitLoss` for each index token. -/
def tradeRoundingBy (d : Denom) (w : World) (tx : Tx) : Nat :=
  match tx with
  | .call _ _ (.rebalance (.trade (.deflate k _ _))) _ =>
    if txAccepted w tx ∧ d = w.core.config.reserveDenom then
      (if k = d then 0 else w.core.totalSupply - 1) + splitLoss w.core * w.core.totalSupply
    else 0
  | .call _ _ (.rebalance (.trade (.inflate k _ _))) _ =>
    if txAccepted w tx ∧ k ≠ w.core.config.reserveDenom ∧ d = k then w.core.totalSupply - 1 else 0
  | _ => 0

/-- The same over a history. -/
def tradeRounding (d : Denom) (w : World) : List Tx → Nat
  | [] => 0
  | tx :: txs => tradeRoundingBy d w tx + tradeRounding d (deliver w tx) txs

/-- Number of accepted starts of a rebalance; each rounds the fee that is charged with it. -/
def startsBy (w : World) (tx : Tx) : Nat :=
  match tx with
  | .call _ _ (.rebalance (.init ..)) _ => if txAccepted w tx then 1 else 0
  | _ => 0

/-- The same over a history. -/
def starts (w : World) : List Tx → Nat
  | [] => 0
  | tx :: txs => startsBy w tx + starts (deliver w tx) txs

/-! ### One step of the contract -/

private theorem split_bound {P a b e w x : Nat} (h : (a + e - b) * w < P + w) (hw : w ≠ 0) (hx : x = P / w) :
    a + e ≤ b + (1 + x) := by
  by_contra hlt
  have h1 : 2 + x ≤ a + e - b := by omega
  have h2 := Nat.mul_le_mul_right w h1
  have h3 : P < (x + 1) * w := by
    rw [hx]; exact Nat.lt_mul_of_div_lt (Nat.lt_succ_self _) (Nat.pos_of_ne_zero hw)
  have h4 : (2 + x) * w = (x + 1) * w + w := by ring
  omega

/-- Distributing proceeds loses at most `splitLoss`. -/
private theorem split_up {s : State} {r : Rebalance} {res res' : Units} {e : Nat} (hr : Reachable s)
    (hreb : s.rebalance = some r) (h : inflateReserveUnit res e r.inflation = .ok res') :
    (res.map (·.2)).sum + e ≤ (res'.map (·.2)).sum + splitLoss s := by
  cases hl : r.inflation.getLast? with
  | none => exact absurd (List.getLast?_eq_none_iff.1 hl) (hr.inv.rebNe r hreb).2
  | some x =>
    obtain ⟨k, w⟩ := x
    obtain ⟨ws, hws⟩ := List.getLast?_eq_some_iff.1 hl
    have hw : w ≠ 0 := by
      rintro rfl
      rw [hws] at h
      exact inflateReserveUnit_last_zero h
    have hs : splitLoss s = 1 + 1000000000000000000 / w := by simp only [splitLoss, hreb, hl]
    simp only [inflateReserveUnit, bind_eq_ok] at h
    obtain ⟨t, ht, h⟩ := h
    rw [sumWeights_eq_ok ht, hws] at h
    rw [hs]
    refine split_bound (P := 1000000000000000000) ?_ hw rfl
    have := inflateLoop_leftover h
    rwa [ONE_eq] at this

private theorem up_units {u u' S K x : Nat} (h : u ≤ u' + x) : u * S + K ≤ u' * S + K + x * S := by
  have := Nat.mul_le_mul_right S h
  rw [Nat.add_mul] at this
  omega

/-- Starting a rebalance. -/
private theorem owed_init_up {s s' : State} {env : Env} {info : Info} {m : Option Addr} {de inf : Units} {ms : List Msg}
    (hr : Reachable s) (h : execute s env info (.rebalance (.init m de inf)) = .ok (s', ms)) (d : Denom) :
    owed s d ≤ 999999999999999999 + owed s' d ∧ ms = [] := by
  obtain ⟨s1, hc, hx⟩ := execute_eq_ok.1 h
  have hle := owed_collect_up hr hc d
  obtain ⟨_, _, _, f4, f5, _⟩ := collectStreamingFee_frame hc
  obtain ⟨_, hreb, _, _, _, _, _, rfl, rfl⟩ := init_eq_ok.1 hx
  have hn : s1.reserveUnits = none := by rw [f5]; exact hr.inv.resNone (by rw [← f4]; exact hreb)
  refine ⟨le_trans hle (Nat.add_le_add_left (le_of_eq ?_) _), rfl⟩
  cases hp : s1.fee.streamingFee <;> simp [owed, unitIn, parked, uncollected, hn, hp]

private theorem sum_zero {res : Units} (h : ∀ e ∈ res, e.2 = 0) : (res.map (·.2)).sum = 0 := by
  rw [List.sum_eq_zero_iff]
  intro x hx
  obtain ⟨e, he, rfl⟩ := List.mem_map.1 hx
  exact h e he

/-- Finishing a rebalance. -/
private theorem owed_finalize_up {s s' : State} {env : Env} {info : Info} {ms : List Msg}
    (hr : Reachable s) (h : execute s env info (.rebalance .finalize) = .ok (s', ms)) (d : Denom) :
    owed s d ≤ owed s' d ∧ ms = [] := by
  obtain ⟨s1, hc, hx⟩ := execute_eq_ok.1 h
  simp [collectsFirst] at hc; subst hc
  obtain ⟨r, res, _, hres, _, _, hz, rfl, rfl⟩ := finalize_eq_ok.1 hx
  refine ⟨le_of_eq ?_, rfl⟩
  have hu : (Option.getD (List.lookup d (s1.indexUnits.filter (fun e => e.2 ≠ 0))) 0) =
      Option.getD (List.lookup d s1.indexUnits) 0 := by
    rw [lookup_eq, lookup_eq, getKey_filter hr.inv.nodup]
    cases hk : s1.indexUnits.getKey d with
    | none => rfl
    | some v =>
      simp only [Option.bind_some, Option.getD_some]
      split <;> simp_all
  have hp : parked s1 = 0 := by simp [parked, hres, sum_zero hz]
  unfold owed
  rw [hp]
  simp only [unitIn, hu, parked, Option.getD_none, List.map_nil, List.sum_nil, ite_self]
  cases hp : s1.fee.streamingFee <;> simp [uncollected, hp]

/-- Trades within the reserve denom. -/
private theorem owed_deflate_reserve_up {s s' : State} {env : Env} {info : Info} {o x : Nat} {ms : List Msg} (hr : Reachable s)
    (h : execute s env info (.rebalance (.trade (.deflate s.config.reserveDenom o x))) = .ok (s', ms)) (d : Denom) :
    owed s d ≤ owed s' d + (if d = s.config.reserveDenom then splitLoss s * s.totalSupply else 0) ∧ ms = [] := by
  obtain ⟨r, hreb, _, h⟩ := trade_eq_ok.1 (execute_trade.1 h)
  rcases h with ⟨d', _, _, e, hd', h⟩ | ⟨d', _, _, e, hd', h⟩ | ⟨d', _, _, e, _⟩ | ⟨d', _, _, e, _⟩ <;> cases e
  · obtain ⟨res, target', current, us', res', h1, h2, h3, h4, _, h6, h7, rfl, rfl⟩ := deflateReserve_eq_ok.1 h
    obtain ⟨u, k1, k2, k3, _⟩ := Units.subKey_eq_ok h6
    have hs := split_up hr hreb h7
    refine ⟨?_, rfl⟩
    by_cases e : d = s.config.reserveDenom
    · subst e
      simp only [owed, unitIn, parked, uncollected, lookup_eq, h1, Option.getD_some, if_true, k3, k1]
      refine up_units ?_
      omega
    · simp only [owed, unitIn, parked, uncollected, lookup_eq, if_neg e, k3]
      exact le_refl _
  · exact absurd rfl hd'

private theorem owed_inflate_reserve_up {s s' : State} {env : Env} {info : Info} {o x : Nat} {ms : List Msg}
    (h : execute s env info (.rebalance (.trade (.inflate s.config.reserveDenom o x))) = .ok (s', ms)) (d : Denom) :
    owed s d ≤ owed s' d ∧ ms = [] := by
  obtain ⟨r, hreb, _, h⟩ := trade_eq_ok.1 (execute_trade.1 h)
  rcases h with ⟨d', _, _, e, hd', h⟩ | ⟨d', _, _, e, hd', h⟩ | ⟨d', _, _, e, hd', h⟩ | ⟨d', _, _, e, hd', h⟩ <;> cases e
  · obtain ⟨res, unit, us', res', h1, h2, _, h4, h5, rfl, rfl⟩ := inflateReserve_eq_ok.1 h
    have k3 := (Units.addKey_eq_ok h4).1
    have i6' : (res'.map (·.2)).sum + unit = (res.map (·.2)).sum := subKey_total h5
    refine ⟨?_, rfl⟩
    by_cases e : d = s.config.reserveDenom
    · subst e
      simp only [owed, unitIn, parked, uncollected, lookup_eq, h1, Option.getD_some, if_true, k3]
      refine Nat.add_le_add_right (Nat.mul_le_mul_right _ ?_) _
      omega
    · simp only [owed, unitIn, parked, uncollected, lookup_eq, if_neg e, k3]
      exact le_refl _
  · exact absurd rfl hd'

private theorem up_sale {u p p' q S K P out l : Nat} (h1 : p + q ≤ p' + l) (h2 : out * P ≤ (S - 1) + q * S) :
    (u + p) * S + K + P * out ≤ (u + p') * S + K + ((S - 1) + l * S) := by
  have h3 : (u + p + q) * S ≤ (u + p' + l) * S := Nat.mul_le_mul_right _ (by omega)
  rw [Nat.add_mul (u + p), Nat.add_mul (u + p')] at h3
  rw [Nat.mul_comm P]
  omega

private theorem up_sold {u q S K P est : Nat} (h2 : q * S ≤ est * P) :
    u * S + K ≤ (u - q) * S + K + P * est := by
  have := Nat.mul_le_mul_right S (show u ≤ u - q + q by omega)
  rw [Nat.add_mul] at this
  rw [Nat.mul_comm P]
  omega

private theorem up_bought {u q S K P est : Nat} (h : est * P ≤ (S - 1) + q * S) :
    u * S + K + P * est ≤ (u + q) * S + K + (S - 1) := by
  rw [Nat.add_mul, Nat.mul_comm P]
  omega

private theorem up_paid {u p p' q S K P a : Nat} (h1 : p' + q = p) (h2 : q * S ≤ a * P) :
    (u + p) * S + K ≤ (u + p') * S + K + P * a := by
  rw [← h1, Nat.mul_comm P]
  have : (u + (p' + q)) * S = (u + p') * S + q * S := by ring
  omega

/-- What a denom other than the reserve denom is owed when only its unit changes. -/
private theorem owed_unit {s s' : State} {d : Denom} {u : Nat} (hd : d ≠ s.config.reserveDenom) (h1 : unitIn s' d = u)
    (h2 : s'.totalSupply = s.totalSupply) (h3 : s'.config = s.config) (h4 : s'.fee = s.fee) :
    owed s' d = u * s.totalSupply + ONE * uncollected s d ∧ owed s d = unitIn s d * s.totalSupply + ONE * uncollected s d := by
  have : uncollected s' d = uncollected s d := by unfold uncollected; rw [h4]
  rw [owed_eq, owed_eq, h1, h2, h3, this]
  constructor <;> rw [if_neg hd, Nat.add_zero]

/-- What the reserve denom is owed when only the parked units change. -/
private theorem owed_parked {s s' : State} {p p' : Nat} (h0 : parked s = p) (h1 : parked s' = p')
    (hu : unitIn s' s.config.reserveDenom = unitIn s s.config.reserveDenom)
    (h2 : s'.totalSupply = s.totalSupply) (h3 : s'.config = s.config) (h4 : s'.fee = s.fee) :
    owed s' s.config.reserveDenom =
        (unitIn s s.config.reserveDenom + p') * s.totalSupply + ONE * uncollected s s.config.reserveDenom ∧
    owed s s.config.reserveDenom =
        (unitIn s s.config.reserveDenom + p) * s.totalSupply + ONE * uncollected s s.config.reserveDenom := by
  have : uncollected s' s.config.reserveDenom = uncollected s s.config.reserveDenom := by unfold uncollected; rw [h4]
  rw [owed_eq, owed_eq, hu, h2, h3, h0, h1, this]
  constructor <;> rw [if_pos (by rfl)]

/-- Sales with a swap. -/
private theorem owed_deflate_up {s s' : State} {env : Env} {info : Info} {k : Denom} {out maxIn : Nat} {ms : List Msg}
    (hr : Reachable s) (hk : k ≠ s.config.reserveDenom)
    (h : execute s env info (.rebalance (.trade (.deflate k out maxIn))) = .ok (s', ms)) :
    ∃ est, env.estIn (sellingRoute s k) ⟨s.config.reserveDenom, out⟩ = .ok est ∧
      owed s s.config.reserveDenom + ONE * out ≤
        owed s' s.config.reserveDenom + ((s.totalSupply - 1) + splitLoss s * s.totalSupply) ∧
      owed s k ≤ owed s' k + ONE * est ∧
      ∀ d, d ≠ k → d ≠ s.config.reserveDenom → owed s d = owed s' d := by
  obtain ⟨r, hreb, _, h⟩ := trade_eq_ok.1 (execute_trade.1 h)
  rcases h with ⟨d', _, _, e, hd', _⟩ | ⟨d', _, _, e, _, h⟩ | ⟨d', _, _, e, _⟩ | ⟨d', _, _, e, _⟩ <;> cases e
  · exact absurd hd'.symm hk
  · obtain ⟨t, res, target, current, est, us', res', h1, h2, h3, h4, _, _, _, _, _, hest, _, _, hS, _, _, h6, h7, hs', rfl⟩ :=
      deflate_eq_ok.1 h
    obtain ⟨u, k1, k2, k3, _⟩ := Units.subKey_eq_ok h6
    have hs := split_up hr hreb h7
    have f1 : s'.totalSupply = s.totalSupply := by rw [hs']
    have f2 : s'.config = s.config := by rw [hs']
    have f3 : s'.fee = s.fee := by rw [hs']
    have f4 : ∀ d, unitIn s' d = ((if d = k then some (u - est * ONE / s.totalSupply) else s.indexUnits.getKey d).getD 0) := by
      intro d
      rw [unitIn, lookup_eq, hs', k3]
    have f5 : ∀ d, unitIn s d = (s.indexUnits.getKey d).getD 0 := fun d => by rw [unitIn, lookup_eq]
    have f6 : parked s' = (res'.map (·.2)).sum := by rw [hs']; rfl
    have f7 : parked s = (res.map (·.2)).sum := by rw [parked, h2, Option.getD_some]
    refine ⟨est, by simpa [sellingRoute, h1] using hest, ?_, ?_, ?_⟩
    · obtain ⟨e1, e2⟩ := owed_parked f7 f6 (by rw [f4, f5, if_neg (Ne.symm hk)]) f1 f2 f3
      rw [e1, e2]
      exact up_sale hs (le_div_mul_add _ _ hS)
    · obtain ⟨e1, e2⟩ := owed_unit (d := k) hk (by rw [f4, if_pos rfl, Option.getD_some]) f1 f2 f3
      rw [e1, e2, f5, k1, Option.getD_some]
      exact up_sold (Nat.div_mul_le_self _ _)
    · intro d e1 e2
      obtain ⟨e3, e4⟩ := owed_unit (d := d) e2 (by rw [f4, if_neg e1, ← f5]) f1 f2 f3
      rw [e3, e4]

/-- Purchases with a swap. -/
private theorem owed_inflate_up {s s' : State} {env : Env} {info : Info} {k : Denom} {amtIn minOut : Nat} {ms : List Msg}
    (hk : k ≠ s.config.reserveDenom)
    (h : execute s env info (.rebalance (.trade (.inflate k amtIn minOut))) = .ok (s', ms)) :
    ∃ est, env.estOut (buyingRoute s k) ⟨s.config.reserveDenom, amtIn⟩ = .ok est ∧
      ms = [.swapExactIn env.contract (buyingRoute s k) ⟨s.config.reserveDenom, amtIn⟩ est] ∧
      owed s k + ONE * est ≤ owed s' k + (s.totalSupply - 1) ∧
      owed s s.config.reserveDenom ≤ owed s' s.config.reserveDenom + ONE * amtIn ∧
      ∀ d, d ≠ k → d ≠ s.config.reserveDenom → owed s d = owed s' d := by
  obtain ⟨r, hreb, _, h⟩ := trade_eq_ok.1 (execute_trade.1 h)
  rcases h with ⟨d', _, _, e, _⟩ | ⟨d', _, _, e, _⟩ | ⟨d', _, _, e, hd', _⟩ | ⟨d', _, _, e, _, h⟩ <;> cases e
  · exact absurd hd'.symm hk
  · obtain ⟨t, res, unit, est, us', res', h1, h2, h3, _, _, _, _, _, hest, _, hS, _, _, h4, h5, hs', hms⟩ :=
      inflate_eq_ok.1 h
    have k3 := (Units.addKey_eq_ok h4).1
    have i6' : (res'.map (·.2)).sum + amtIn * ONE / s.totalSupply = (res.map (·.2)).sum := subKey_total h5
    have hroute : buyingRoute s k = t.routes := by simp [buyingRoute, h1]
    have f1 : s'.totalSupply = s.totalSupply := by rw [hs']
    have f2 : s'.config = s.config := by rw [hs']
    have f3 : s'.fee = s.fee := by rw [hs']
    have f4 : ∀ d, unitIn s' d =
        ((if d = k then some ((s.indexUnits.getKey k).getD 0 + est * ONE / s.totalSupply) else s.indexUnits.getKey d).getD 0) := by
      intro d
      rw [unitIn, lookup_eq, hs', k3]
    have f5 : ∀ d, unitIn s d = (s.indexUnits.getKey d).getD 0 := fun d => by rw [unitIn, lookup_eq]
    have f6 : parked s' = (res'.map (·.2)).sum := by rw [hs']; rfl
    have f7 : parked s = (res.map (·.2)).sum := by rw [parked, h2, Option.getD_some]
    refine ⟨est, by rw [hroute]; exact hest, by rw [hroute]; exact hms, ?_, ?_, ?_⟩
    · obtain ⟨e1, e2⟩ := owed_unit (d := k) hk (by rw [f4, if_pos rfl, Option.getD_some]) f1 f2 f3
      rw [e1, e2, f5]
      exact up_bought (le_div_mul_add _ _ hS)
    · obtain ⟨e1, e2⟩ := owed_parked f7 f6 (by rw [f4, f5, if_neg (Ne.symm hk)]) f1 f2 f3
      rw [e1, e2]
      exact up_paid i6' (Nat.div_mul_le_self _ _)
    · intro d e1 e2
      obtain ⟨e3, e4⟩ := owed_unit (d := d) e2 (by rw [f4, if_neg e1, ← f5]) f1 f2 f3
      rw [e3, e4]

/-! ### One step of the chain -/

private theorem put_reb {o o' f b b' Q P g x l : Nat} (h1 : o ≤ Q + o') (h3 : b' ≤ b + f) (hg : Q ≤ P * g + l) :
    o + P * b' ≤ P * (b + (f + (g + x))) + l + o' := by
  have := Nat.mul_le_mul_left P h3
  rw [Nat.mul_add] at this
  rw [Nat.mul_add, Nat.mul_add, Nat.mul_add]
  omega

private theorem put_sale {o o' f b b' P out l spent : Nat} (h1 : o + P * out ≤ o' + l) (h3 : b' = b + f - spent + out) :
    o + P * b' ≤ P * (b + f) + l + o' := by
  have := Nat.mul_le_mul_left P (show b' ≤ b + f + out by omega)
  rw [Nat.mul_add] at this
  omega

private theorem put_sold {o o' f b b' P est : Nat} (h1 : o ≤ o' + P * est) (h3 : b' = b + f) :
    o + P * b' ≤ P * (b + (f + est)) + 0 + o' := by
  rw [h3, Nat.mul_add, Nat.mul_add, Nat.mul_add]
  omega

private theorem put_bought {o o' f b b' P est out l : Nat} (h1 : o + P * est ≤ o' + l) (h2 : est ≤ out)
    (h3 : b' = b + f + out) : o + P * b' ≤ P * (b + (f + (out - est))) + l + o' := by
  obtain ⟨x, rfl⟩ := Nat.exists_eq_add_of_le h2
  rw [h3, Nat.add_sub_cancel_left, Nat.mul_add, Nat.mul_add, Nat.mul_add, Nat.mul_add, Nat.mul_add]
  omega

private theorem put_paid {o o' f b b' P a x : Nat} (h1 : o ≤ o' + P * a) (h2 : a ≤ b + f) (h3 : b' = b + f - a + x) :
    o + P * b' ≤ P * (b + (f + x)) + 0 + o' := by
  have := Nat.mul_le_mul_left P (show b' + a ≤ b + (f + x) by omega)
  rw [Nat.mul_add] at this
  omega

/-- What can get stuck in one transaction, in base units. -/
def strandedBy (d : Denom) (w : World) (tx : Tx) : Nat :=
  givenBy d w tx + thrownBy d w tx + roundingsBy w tx + startsBy w tx + orphanedBy d w tx

/-- What can get stuck over a history, in base units: gifts, fees thrown away, orphaned coins, and one coin for each rounding. -/
def stranded (d : Denom) (w : World) (txs : List Tx) : Nat :=
  given d w txs + thrown d w txs + roundings w txs + starts w txs + orphaned d w txs

private theorem stuck_reb {w w' : World} {env : Env} {info : Info} {m : RebalanceMsg} {market : List Nat} {d : Denom}
    (hi : WInv w) (hd : d ≠ w.core.config.indexDenom) (h : apply w (.call env info (.rebalance m) market) = .ok w') :
    owed w.core d + 1000000000000000000 * w'.bank.bal w.self d ≤
      1000000000000000000 * (w.bank.bal w.self d + strandedBy d w (.call env info (.rebalance m) market)) +
        tradeRoundingBy d w (.call env info (.rebalance m) market) + owed w'.core d := by
  have hacc : txAccepted w (.call env info (.rebalance m) market) = true := by simp [txAccepted, h]
  obtain ⟨b, core, ms, b', henv, hsnd, hdis, hb, hx, hrun, rfl⟩ := apply_call.1 h
  obtain ⟨_, rfl⟩ := send_eq_ok.1 hb
  have hbal : ∀ d, (if w.self = info.sender then w.bank.bal w.self d - total d info.funds else w.bank.bal w.self d)
      + (if True then total d info.funds else 0) = w.bank.bal w.self d + total d info.funds := by
    intro d
    rw [if_neg (Ne.symm hsnd), if_pos trivial]
  have hrep : repliesOf w (.call env info (.rebalance m) market) = ms := by simp [repliesOf, hx]
  have hstr : ∀ (hz : sentTo w.self d ms = 0), strandedBy d w (.call env info (.rebalance m) market) =
      total d info.funds + (startsBy w (.call env info (.rebalance m) market) +
        orphanedBy d w (.call env info (.rebalance m) market)) := by
    intro hz
    simp only [strandedBy, givenBy, hacc, if_true, thrownBy, roundingsBy, hrep, hz]
    omega
  have hnil : ms = [] → b'.bal w.self d ≤ w.bank.bal w.self d + total d info.funds := by
    rintro rfl
    simp only [runMsgs, Except.ok.injEq] at hrun
    rw [← hrun]
    simp only [hbal]
    exact le_refl _
  cases m with
  | init mg de inf =>
    obtain ⟨h1, rfl⟩ := owed_init_up hi.reach hx d
    have hs : startsBy w (.call env info (.rebalance (.init mg de inf)) market) = 1 := by
      simp [startsBy, hacc]
    rw [hstr rfl, hs]
    exact put_reb h1 (hnil rfl) (by omega)
  | finalize =>
    obtain ⟨h1, rfl⟩ := owed_finalize_up hi.reach hx d
    rw [hstr rfl]
    exact put_reb (Q := 0) (by rw [Nat.zero_add]; exact h1) (hnil rfl) (Nat.zero_le _)
  | trade m =>
    cases m with
    | deflate k o x =>
      by_cases hk : k = w.core.config.reserveDenom
      · subst hk
        obtain ⟨h1, rfl⟩ := owed_deflate_reserve_up hi.reach hx d
        rw [hstr rfl]
        refine put_reb (g := startsBy w _) (by rw [Nat.add_comm]; exact h1) (hnil rfl) ?_
        by_cases e : d = w.core.config.reserveDenom
        · simp [tradeRoundingBy, hacc, e]
        · simp [e]
      · obtain ⟨est, g1, g2, g3, g4⟩ := owed_deflate_up hi.reach hk hx
        obtain ⟨t, r, target, cur, cost, f1, _, _, _, _, _, _, _, _, rfl⟩ := C24_deflate_limits hk hx
        obtain ⟨r, rs, f2, f3⟩ := hi.reach.inv.routes _ _ _ f1
        rw [ONE_eq] at g2 g3
        rw [hstr rfl]
        simp only [runMsgs, bind_eq_ok] at hrun
        obtain ⟨⟨b2, mk⟩, h7, h8⟩ := hrun
        simp only [Except.ok.injEq] at h8
        subst h8
        simp only [runMsg, f2] at h7
        split at h7
        · rename_i spent mk' first rs' heq
          simp only [List.cons.injEq] at heq
          obtain ⟨rfl, rfl⟩ := heq
          simp only [bind_eq_ok, require_eq_ok, debit_eq_ok, Except.ok.injEq, Prod.mk.injEq] at h7
          obtain ⟨_, _, _, hmax, b3, ⟨hle, rfl⟩, rfl, rfl⟩ := h7
          simp only [f3, henv, Bank.credit, true_and, hbal] at hle ⊢
          by_cases e3 : d = w.core.config.reserveDenom
          · subst e3
            have hl : tradeRoundingBy w.core.config.reserveDenom w
                (.call env info (.rebalance (.trade (.deflate k o x))) (spent :: mk')) =
                (w.core.totalSupply - 1) + splitLoss w.core * w.core.totalSupply := by
              simp [tradeRoundingBy, hacc, hk]
            have ho : orphanedBy w.core.config.reserveDenom w
                (.call env info (.rebalance (.trade (.deflate k o x))) (spent :: mk')) = 0 := by
              simp [orphanedBy, Ne.symm hk]
            have hs : startsBy w (.call env info (.rebalance (.trade (.deflate k o x))) (spent :: mk')) = 0 := rfl
            rw [hl, ho, hs, if_pos rfl, if_pos rfl]
            exact put_sale g2 rfl
          · rw [if_neg e3, if_neg e3]
            have hl : tradeRoundingBy d w (.call env info (.rebalance (.trade (.deflate k o x))) (spent :: mk')) = 0 := by
              simp [tradeRoundingBy, e3]
            have hs : startsBy w (.call env info (.rebalance (.trade (.deflate k o x))) (spent :: mk')) = 0 := rfl
            rw [hl, hs]
            by_cases e4 : d = k
            · subst e4
              have ho : orphanedBy d w (.call env info (.rebalance (.trade (.deflate d o x))) (spent :: mk')) = est := by
                simp [orphanedBy, hacc, hk, g1, Except.toOption]
              rw [ho]
              exact put_sold (by rw [Nat.zero_add]; exact g3) rfl
            · rw [g4 d e4 e3]
              exact put_reb (Q := 0) (by omega) (le_refl _) (Nat.zero_le _)
        · cases h7
    | inflate k o x =>
      by_cases hk : k = w.core.config.reserveDenom
      · subst hk
        obtain ⟨h1, rfl⟩ := owed_inflate_reserve_up hx d
        rw [hstr rfl]
        exact put_reb (Q := 0) (by rw [Nat.zero_add]; exact h1) (hnil rfl) (Nat.zero_le _)
      · obtain ⟨est, g1, rfl, g2, g3, g4⟩ := owed_inflate_up hk hx
        rw [ONE_eq] at g2 g3
        rw [hstr rfl]
        simp only [runMsgs, bind_eq_ok] at hrun
        obtain ⟨⟨b2, mk⟩, h7, h8⟩ := hrun
        simp only [Except.ok.injEq] at h8
        subst h8
        simp only [runMsg] at h7
        split at h7
        · rename_i out mk' last hlast
          simp only [bind_eq_ok, require_eq_ok, debit_eq_ok, Except.ok.injEq, Prod.mk.injEq] at h7
          obtain ⟨_, _, _, hmin, b3, ⟨hle, rfl⟩, rfl, rfl⟩ := h7
          simp only [henv, Bank.credit, true_and, hbal] at hle ⊢
          have hs : startsBy w (.call env info (.rebalance (.trade (.inflate k o x))) (out :: mk')) = 0 := rfl
          have ho : orphanedBy d w (.call env info (.rebalance (.trade (.inflate k o x))) (out :: mk')) =
              if last.tokenDenom = d then out - (if d = k then est else 0) else 0 := by
            simp [orphanedBy, hacc, hk, hlast, g1, Except.toOption]
          have hl : tradeRoundingBy d w (.call env info (.rebalance (.trade (.inflate k o x))) (out :: mk')) =
              if d = k then w.core.totalSupply - 1 else 0 := by
            simp [tradeRoundingBy, hacc, hk]
          rw [hs, ho, hl, Nat.zero_add]
          by_cases e1 : d = k
          · subst e1
            rw [if_neg hk, Nat.sub_zero, if_pos rfl, if_pos rfl]
            by_cases e3 : last.tokenDenom = d
            · rw [if_pos e3.symm, if_pos e3]
              exact put_bought g2 hmin rfl
            · rw [if_neg (Ne.symm e3), if_neg e3]
              have := put_reb (P := 1000000000000000000) (Q := w.core.totalSupply - 1) (g := 0) (x := 0)
                (l := w.core.totalSupply - 1) (show owed w.core d ≤ w.core.totalSupply - 1 + owed core d by omega)
                (le_refl (w.bank.bal w.self d + total d info.funds)) (by omega)
              exact this
          · rw [if_neg e1, if_neg e1, Nat.sub_zero]
            have e5 : (if d = last.tokenDenom then out else 0) = if last.tokenDenom = d then out else 0 := by
              simp only [eq_comm]
            by_cases e2 : d = w.core.config.reserveDenom
            · subst e2
              rw [if_pos rfl, e5]
              exact put_paid g3 hle rfl
            · rw [g4 d e1 e2, if_neg e2, e5]
              exact put_paid (a := 0) (by omega) (Nat.zero_le _) rfl
        · cases h7

/-- One accepted transaction. -/
theorem stranded_step {w w' : World} {tx : Tx} {d : Denom} (hi : WInv w) (hd : d ≠ w.core.config.indexDenom)
    (h : apply w tx = .ok w') :
    owed w.core d + 1000000000000000000 * w'.bank.bal w.self d ≤
      1000000000000000000 * (w.bank.bal w.self d + strandedBy d w tx) + tradeRoundingBy d w tx + owed w'.core d := by
  by_cases hq : ∃ env info m mk, tx = .call env info (.rebalance m) mk
  · obtain ⟨env, info, m, mk, rfl⟩ := hq
    exact stuck_reb hi hd h
  · have h1 := stuck_plain hi hd (fun env info m mk e => hq ⟨env, info, m, mk, e⟩) h
    have h2 : givenBy d w tx + (thrownBy d w tx + roundingsBy w tx) ≤ strandedBy d w tx := by
      unfold strandedBy; omega
    have h3 := Nat.mul_le_mul_left 1000000000000000000 (Nat.add_le_add_left h2 (w.bank.bal w.self d))
    omega

private theorem stranded_rejected {d : Denom} {w : World} {tx : Tx} (h : txAccepted w tx = false) :
    strandedBy d w tx = 0 ∧ tradeRoundingBy d w tx = 0 := by
  obtain ⟨h1, h2, h3⟩ := stuck_rejected (d := d) h
  have h4 : startsBy w tx = 0 := by unfold startsBy; split <;> simp [h]
  have h5 : orphanedBy d w tx = 0 := by unfold orphanedBy; split <;> simp [h]
  refine ⟨by unfold strandedBy; omega, ?_⟩
  unfold tradeRoundingBy; split <;> simp [h]

private theorem stranded_cons (d : Denom) (w : World) (tx : Tx) (txs : List Tx) :
    stranded d w (tx :: txs) = strandedBy d w tx + stranded d (deliver w tx) txs := by
  simp only [stranded, strandedBy, given, thrown, roundings, starts, orphaned]
  omega

private theorem stranded_history {d : Denom} : ∀ (txs : List Tx) (w : World), WInv w →
    d ≠ w.core.config.indexDenom →
    Reachable (runTxs w txs).core ∧
    owed w.core d + 1000000000000000000 * (runTxs w txs).bank.bal w.self d ≤
      1000000000000000000 * (w.bank.bal w.self d + stranded d w txs) + tradeRounding d w txs + owed (runTxs w txs).core d
  | [], w, hi, _ => by
    refine ⟨hi.reach, ?_⟩
    simp only [runTxs, stranded, given, thrown, roundings, starts, orphaned, tradeRounding, Nat.add_zero]
    omega
  | tx :: txs, w, hi, hd => by
    rw [stranded_cons]
    simp only [runTxs, tradeRounding]
    cases ha : apply w tx with
    | error x =>
      have e : deliver w tx = w := by simp [deliver, ha]
      obtain ⟨z1, z2⟩ := stranded_rejected (d := d) (w := w) (tx := tx) (by simp [txAccepted, ha])
      rw [e, z1, z2]
      obtain ⟨i1, i2⟩ := stranded_history txs w hi hd
      exact ⟨i1, by omega⟩
    | ok w' =>
      have e : deliver w tx = w' := by simp [deliver, ha]
      have h2 := stranded_step hi hd ha
      obtain ⟨a1, a2, a3⟩ := hi.apply ha
      rw [e]
      obtain ⟨i1, i2⟩ := stranded_history txs w' a1 (by rw [a3]; exact hd)
      rw [a2] at i2
      exact ⟨i1, by omega⟩

/-! ### The claims -/

/-- **C121.** Take the chain right after the creation of the contract and any transactions, rebalances included. Of every denom
other than the index denom the contract then holds at most: what it held at first, what was given to it, the fees that fee changes
threw away, the coins that trades orphaned, one coin for each rounding outside of trades, the rounding of trades, and what
it owes. All amounts are multiples of `10^-18` base units. -/
theorem C121_stranded {w : World} {txs : List Tx} (hw : Start w) {d : Denom} (hd : d ≠ w.core.config.indexDenom) :
    1000000000000000000 * (runTxs w txs).bank.bal w.self d ≤
      1000000000000000000 * (w.bank.bal w.self d + stranded d w txs) + tradeRounding d w txs + owed (runTxs w txs).core d := by
  have := (stranded_history (d := d) txs w (start_inv hw) hd).2
  omega

/-- A mint, a one-hop route for buying uion, a rebalance from uosmo to uion with all its trades, and its end. The purchase of
uion is estimated at 999 and brings 1005. -/
def swapTxs : List Tx :=
  [.call (Demo.env 1000) Demo.mintInfo (.mint 10000 none none) [],
   .call (Demo.env 1000) ⟨"gov", []⟩ (.gov (.updateTradeInfo "uosmo" [⟨2, "uion"⟩] 60 1000)) [],
   .call (Demo.env 1000) ⟨"gov", []⟩ (.rebalance (.init none [("uosmo", 1400000000000000000)] [("uion", 1000000000000000000)])) [],
   .call (Demo.env 2000) ⟨"bob", []⟩ (.rebalance (.trade (.deflate "uosmo" 0 0))) [],
   .call (Demo.env 2000) ⟨"bob", []⟩ (.rebalance (.trade (.inflate "uion" 1000 900))) [1005],
   .call (Demo.env 2000) ⟨"bob", []⟩ (.rebalance .finalize) []]

/-- In the history with longer routes 510 ujuno get orphaned, and 901 uatom, which are sold only on paper. -/
example : Start demoWorld ∧ "ujuno" ≠ demoWorld.core.config.indexDenom ∧ orphaned "ujuno" demoWorld longTxs = 510 ∧
    orphaned "uatom" demoWorld longTxs = 901 ∧ (runTxs demoWorld longTxs).bank.bal "core" "ujuno" = 510 ∧
    owed (runTxs demoWorld longTxs).core "ujuno" = 0 :=
  ⟨demoWorld_start, by decide +kernel, by decide +kernel, by decide +kernel, by decide +kernel, by decide +kernel⟩

private theorem coins_up {P Q u S K q b B D : Nat} (hQ : Q + 1 = P) (h : P * b ≤ P * B + D + (u * S + P * K))
    (hq : u * S ≤ Q + P * q) : b ≤ B + (D + Q) / P + q + K := by
  have h1 : D + Q < P * ((D + Q) / P) + P := by
    have := Nat.div_add_mod (D + Q) P
    have := Nat.mod_lt (D + Q) (show 0 < P by omega)
    omega
  by_contra hlt
  have h2 : P * (B + (D + Q) / P + q + K + 1) ≤ P * b := Nat.mul_le_mul_left _ (by omega)
  rw [Nat.mul_add, Nat.mul_add, Nat.mul_add, Nat.mul_add, Nat.mul_one] at h2
  omega

/-- **C121 (between rebalances).** When no rebalance is running, the contract holds at most what it held at first, what got
stranded, the rounding of trades (rounded up), the basket of all index tokens, and the fees not yet collected. -/
theorem C121_stranded_coins {w : World} {txs : List Tx} (hw : Start w) {d : Denom} (hd : d ≠ w.core.config.indexDenom)
    (hq : (runTxs w txs).core.rebalance = none) :
    (runTxs w txs).bank.bal w.self d ≤
      w.bank.bal w.self d + stranded d w txs +
        (tradeRounding d w txs + 999999999999999999) / 1000000000000000000 +
        part (unitIn (runTxs w txs).core d) (runTxs w txs).core.totalSupply + uncollected (runTxs w txs).core d := by
  obtain ⟨h1, _⟩ := stranded_history (d := d) txs w (start_inv hw) hd
  have h2 := C121_stranded (txs := txs) hw hd
  rw [owed_quiet hq h1] at h2
  exact coins_up (Q := 999999999999999999) (by norm_num) h2 (le_part_mul _ _)

/-- The hypotheses hold after the rebalance: 1005 uion are held, 999 are the basket, 6 were brought beyond the estimate; and
of uosmo 14000 are held, all of them the basket. -/
example : Start demoWorld ∧ (runTxs demoWorld swapTxs).core.rebalance = none ∧ (runTxs demoWorld swapTxs).core.totalSupply = 10000 ∧
    (runTxs demoWorld swapTxs).bank.bal "core" "uion" = 1005 ∧
    part (unitIn (runTxs demoWorld swapTxs).core "uion") 10000 = 999 ∧ stranded "uion" demoWorld swapTxs = 9 ∧
    orphaned "uion" demoWorld swapTxs = 6 ∧
    tradeRounding "uion" demoWorld swapTxs = 9999 ∧ tradeRounding "uosmo" demoWorld swapTxs = 20000 ∧
    (runTxs demoWorld swapTxs).bank.bal "core" "uosmo" = 14000 ∧ part (unitIn (runTxs demoWorld swapTxs).core "uosmo") 10000 = 14000 :=
  ⟨demoWorld_start, by decide +kernel, by decide +kernel, by decide +kernel, by decide +kernel, by decide +kernel,
    by decide +kernel, by decide +kernel, by decide +kernel, by decide +kernel, by decide +kernel⟩

/-- What accepted purchases of `d` brought beyond the estimate. -/
def beyondEstimate (d : Denom) (w : World) : List Tx → Nat
  | [] => 0
  | tx :: txs =>
    (match tx with
      | .call env _ (.rebalance (.trade (.inflate k amount _))) market =>
        if txAccepted w tx ∧ k ≠ w.core.config.reserveDenom ∧ d = k then
          market.headD 0 - (env.estOut (buyingRoute w.core k) ⟨w.core.config.reserveDenom, amount⟩).toOption.getD 0
        else 0
      | _ => 0) + beyondEstimate d (deliver w tx) txs

/-- **C121 (routes with one hop).** When all routes that governance stores have one hop, the only coins that trades orphan are
those that a purchase brings beyond its estimate. -/
theorem C121_one_hop {w : World} {txs : List Tx} (hw : Start w) (ho : OneHop txs) (d : Denom) :
    orphaned d w txs = beyondEstimate d w txs := by
  have key : ∀ (txs : List Tx) (w : World), WInv w → StoredOneHop w.core → OneHop txs →
      orphaned d w txs = beyondEstimate d w txs := by
    intro txs
    induction txs with
    | nil => intros; rfl
    | cons tx txs ih =>
      intro w hi hs ho
      have ho' : OneHop txs := fun env info d rs c m mk hm => ho env info d rs c m mk (List.mem_cons_of_mem _ hm)
      have hrest : orphaned d (deliver w tx) txs = beyondEstimate d (deliver w tx) txs := by
        cases ha : apply w tx with
        | error x =>
          have e : deliver w tx = w := by simp [deliver, ha]
          rw [e]
          exact ih w hi hs ho'
        | ok w' =>
          have e : deliver w tx = w' := by simp [deliver, ha]
          rw [e]
          exact ih w' (hi.apply ha).1 (storedOneHop_apply hs ho ha) ho'
      simp only [orphaned, beyondEstimate, hrest]
      congr 1
      unfold orphanedBy
      split
      · rename_i env info k o x mk
        rw [if_neg]
        rintro ⟨h1, h2, _⟩
        unfold txAccepted at h1
        cases ha : apply w (.call env info (.rebalance (.trade (.deflate k o x))) mk) with
        | error e => rw [ha] at h1; cases h1
        | ok w' => exact one_hop_deflation_fails hi.reach hs h2 w' ha
      · rename_i env info k o x mk
        dsimp only
        by_cases h1 : txAccepted w (.call env info (.rebalance (.trade (.inflate k o x))) mk) = true ∧
            k ≠ w.core.config.reserveDenom
        · have hlast : (buyingRoute w.core k).getLast?.map (·.tokenDenom) = some k := by
            have h2 := h1.1
            unfold txAccepted at h2
            cases ha : apply w (.call env info (.rebalance (.trade (.inflate k o x))) mk) with
            | error e => rw [ha] at h2; cases h2
            | ok w' =>
              obtain ⟨b, core, ms, b', _, _, _, _, hx, _, _⟩ := apply_call.1 ha
              obtain ⟨t, _, _, _, f1, _⟩ := C24_inflate_limits h1.2 hx
              obtain ⟨r, rs, g5, g6⟩ := hi.reach.inv.routes _ _ _ f1
              have hlen := hs _ _ f1
              rw [g5] at hlen
              have : rs = [] := by
                cases rs with
                | nil => rfl
                | cons a b => simp at hlen
              subst this
              simp [buyingRoute, f1, g5, g6]
          by_cases e : d = k
          · subst e
            rw [if_pos ⟨h1.1, h1.2, hlast⟩, if_pos rfl, if_pos ⟨h1.1, h1.2, rfl⟩]
          · rw [if_neg (by rintro ⟨_, _, h⟩; rw [hlast] at h; cases h; exact e rfl), if_neg (by rintro ⟨_, _, h⟩; exact e h)]
        · rw [if_neg (by rintro ⟨a, b, _⟩; exact h1 ⟨a, b⟩), if_neg (by rintro ⟨a, b, _⟩; exact h1 ⟨a, b⟩)]
      · rename_i h1 h2
        split
        · exact absurd rfl (h2 _ _ _ _ _ _)
        · rfl
  exact key txs w (start_inv hw) (start_oneHop hw) ho

/-- The hypotheses hold for the rebalance above, where 6 uion come beyond the estimate. -/
example : Start demoWorld ∧ OneHop swapTxs ∧ beyondEstimate "uion" demoWorld swapTxs = 6 :=
  ⟨demoWorld_start, by
    intro env info d rs c m mk h
    simp only [swapTxs, List.mem_cons, List.not_mem_nil, or_false] at h
    rcases h with h | h | h | h | h | h <;> cases h
    decide, by decide +kernel⟩

/-- **C121 (orphans do get stuck).** The orphaned coins cannot be left out of the bound. -/
theorem C121_orphans_are_stuck :
    ¬ ∀ (w : World) (txs : List Tx) (d : Denom), Start w → d ≠ w.core.config.indexDenom →
      1000000000000000000 * (runTxs w txs).bank.bal w.self d ≤
        1000000000000000000 * (w.bank.bal w.self d + (given d w txs + thrown d w txs + roundings w txs + starts w txs)) +
          tradeRounding d w txs + owed (runTxs w txs).core d := by
  intro h
  exact absurd (h demoWorld longTxs "ujuno" demoWorld_start (by decide)) (by decide +kernel)

/-- The same history in numbers: 510 ujuno, and 3 roundings. -/
example : (runTxs demoWorld longTxs).bank.bal "core" "ujuno" = 510 ∧ roundings demoWorld longTxs = 2 ∧
    starts demoWorld longTxs = 1 ∧ given "ujuno" demoWorld longTxs = 0 :=
  ⟨by decide +kernel, by decide +kernel, by decide +kernel, by decide +kernel⟩

end Ibcx.Props
