import Verif.Props.Accept
/-!
# C78, C79: governance messages, burning, realizing and creation, exactly
-/

namespace Ibcx.Props
open Ibcx Ibcx.Core Ibcx.Spec

/-- The rates of a fee payload are allowed: mint and burn fee strictly between zero and one, the streaming fee
positive and at most `0.000000021979553` per second. -/
def ratesAllowed (p : FeePayload) : Prop :=
  (∀ r, p.mintFee = some r → 0 < r ∧ r < 1000000000000000000) ∧
  (∀ r, p.burnFee = some r → 0 < r ∧ r < 1000000000000000000) ∧
  (∀ sf, p.streamingFee = some sf → 0 < sf.rate ∧ sf.rate ≤ 21979553000)

/-- The fee record made of a payload at time `now`: nothing collected, accrual starts now. -/
def feeOf (p : FeePayload) (now : Nat) : Fee :=
  { collector := p.collector, mintFee := p.mintFee, burnFee := p.burnFee
    streamingFee := p.streamingFee.map fun sf =>
      { rate := sf.rate, collected := [], freeze := sf.freeze, lastCollectedAt := now } }

/-- What each governance message demands and does, in plain words: the conditions on the stored state `s` and
the state afterwards, where `s1` is the state after collecting the pending streaming fee (only the fee update
collects first). -/
def govEffect (s : State) (env : Env) (info : Info) (s' : State) : GovMsg → Prop
  | .pause expiry =>
    info.sender = s.config.gov ∧ ¬ pausedAt s env.now ∧ (∀ e, expiry = some e → env.now < e) ∧
    s' = { s with config := { s.config with paused := { paused := true, expiresAt := expiry } } }
  | .release =>
    info.sender = s.config.gov ∧ pausedAt s env.now ∧
    s' = { s with config := { s.config with paused := { paused := false, expiresAt := none } } }
  | .updateGov g =>
    info.sender = s.config.gov ∧ s.pendingGov = none ∧ env.validAddr g = true ∧ s' = { s with pendingGov := some g }
  | .acceptGov =>
    s.pendingGov = some info.sender ∧
    s' = { s with pendingGov := none, config := { s.config with gov := info.sender } }
  | .revokeGov =>
    info.sender = s.config.gov ∧ s.pendingGov ≠ none ∧ s' = { s with pendingGov := none }
  | .updateFeeStrategy p =>
    info.sender = s.config.gov ∧ s.rebalance = none ∧ env.validAddr p.collector = true ∧ ratesAllowed p ∧
    ∃ s1, collectStreamingFee s env.now = .ok s1 ∧ s' = { s1 with fee := feeOf p env.now }
  | .updateRebalanceManager m =>
    info.sender = s.config.gov ∧ (∀ a, m = some a → env.validAddr a = true) ∧
    ∃ r, s.rebalance = some r ∧ s' = { s with rebalance := some { r with manager := m } }
  | .updateReserveDenom d =>
    info.sender = s.config.gov ∧ s.rebalance = none ∧ s' = { s with config := { s.config with reserveDenom := d } }
  | .updateTradeInfo d routes cooldown limit =>
    info.sender = s.config.gov ∧ ∃ first rest, routes = first :: rest ∧
    s' = { s with
      tradeInfos := s.tradeInfos.set (d, first.tokenDenom)
        { routes := routes, cooldown := cooldown, maxTradeAmount := limit, lastTradedAt := none } }

/-- **C78.** Every governance message is accepted exactly under the conditions listed in `govEffect`, changes
exactly what is listed there, and sends nothing. -/
theorem C78_governance_accepted_iff {s s' : State} {env : Env} {info : Info} {m : GovMsg} {ms : List Msg} :
    execute s env info (.gov m) = .ok (s', ms) ↔ govEffect s env info s' m ∧ ms = [] := by
  rw [execute_eq_ok]
  cases m with
  | pause e =>
    simp only [collectsFirst, Bool.false_eq_true, if_false, exists_eq_left, dispatch, handleGov, pause_eq_ok,
      not_pausedAt_iff, govEffect]
    constructor
    · rintro ⟨h1, h2, h3, h4, h5⟩; exact ⟨⟨h1.symm, h2, h3, h4⟩, h5⟩
    · rintro ⟨⟨h1, h2, h3, h4⟩, h5⟩; exact ⟨h1.symm, h2, h3, h4, h5⟩
  | release =>
    simp only [collectsFirst, Bool.false_eq_true, if_false, exists_eq_left, dispatch, handleGov, release_eq_ok,
      pausedAt_iff, govEffect]
    constructor
    · rintro ⟨h1, h2, h4, h5⟩; exact ⟨⟨h1.symm, h2, h4⟩, h5⟩
    · rintro ⟨⟨h1, h2, h4⟩, h5⟩; exact ⟨h1.symm, h2, h4, h5⟩
  | updateGov g =>
    simp only [collectsFirst, Bool.false_eq_true, if_false, exists_eq_left, dispatch, handleGov, updateGov_eq_ok,
      govEffect]
    constructor
    · rintro ⟨h1, h2, h3, h4, h5⟩; exact ⟨⟨h1.symm, h2, h3, h4⟩, h5⟩
    · rintro ⟨⟨h1, h2, h3, h4⟩, h5⟩; exact ⟨h1.symm, h2, h3, h4, h5⟩
  | acceptGov =>
    simp only [collectsFirst, Bool.false_eq_true, if_false, exists_eq_left, dispatch, handleGov, acceptGov_eq_ok,
      govEffect, and_assoc]
  | revokeGov =>
    simp only [collectsFirst, Bool.false_eq_true, if_false, exists_eq_left, dispatch, handleGov, revokeGov_eq_ok,
      govEffect, Option.isSome_iff_ne_none]
    constructor
    · rintro ⟨h1, h2, h4, h5⟩; exact ⟨⟨h2.symm, h1, h4⟩, h5⟩
    · rintro ⟨⟨h1, h2, h4⟩, h5⟩; exact ⟨h2, h1.symm, h4, h5⟩
  | updateFeeStrategy p =>
    simp only [collectsFirst, if_true, dispatch, handleGov, updateFee_eq_ok, govEffect, ratesAllowed, feeOf]
    have e1 : MAX_STREAMING_FEE_RATE = 21979553000 := rfl
    rw [ONE_eq, e1]
    constructor
    · rintro ⟨s1, hc, h1, h2, h3, h4, h5, h6, h7, h8⟩
      obtain ⟨f1, f2, f3, f4, -⟩ := collectStreamingFee_frame hc
      rw [f1] at h1
      rw [f4] at h2
      exact ⟨⟨h1.symm, h2, h3, ⟨h4, h5, h6⟩, s1, hc, h7⟩, h8⟩
    · rintro ⟨⟨h1, h2, h3, ⟨h4, h5, h6⟩, s1, hc, h7⟩, h8⟩
      obtain ⟨f1, f2, f3, f4, -⟩ := collectStreamingFee_frame hc
      exact ⟨s1, hc, by rw [f1]; exact h1.symm, by rw [f4]; exact h2, h3, h4, h5, h6, h7, h8⟩
  | updateRebalanceManager m =>
    simp only [collectsFirst, Bool.false_eq_true, if_false, exists_eq_left, dispatch, handleGov,
      updateRebalanceManager_eq_ok, govEffect]
    constructor
    · rintro ⟨h1, h2, h4, h5⟩; exact ⟨⟨h1.symm, h2, h4⟩, h5⟩
    · rintro ⟨⟨h1, h2, h4⟩, h5⟩; exact ⟨h1.symm, h2, h4, h5⟩
  | updateReserveDenom d =>
    simp only [collectsFirst, Bool.false_eq_true, if_false, exists_eq_left, dispatch, handleGov,
      updateReserveDenom_eq_ok, govEffect]
    constructor
    · rintro ⟨h1, h2, h4, h5⟩; exact ⟨⟨h1.symm, h2, h4⟩, h5⟩
    · rintro ⟨⟨h1, h2, h4⟩, h5⟩; exact ⟨h1.symm, h2, h4, h5⟩
  | updateTradeInfo d routes cd mx =>
    simp only [collectsFirst, Bool.false_eq_true, if_false, exists_eq_left, dispatch, handleGov,
      updateTradeInfo_eq_ok, govEffect]
    constructor
    · rintro ⟨h1, h4, h5⟩; exact ⟨⟨h1.symm, h4⟩, h5⟩
    · rintro ⟨⟨h1, h4⟩, h5⟩; exact ⟨h1.symm, h4, h5⟩

/-- A few of them, accepted and rejected: a pause that would end now is rejected, a nomination while another
is pending is rejected, the fee rate limit is met exactly. -/
example : accepted Demo.s1 ⟨Demo.env 2000, ⟨"gov", []⟩, .gov (.pause (some 2001))⟩ ∧
    ¬ accepted Demo.s1 ⟨Demo.env 2000, ⟨"gov", []⟩, .gov (.pause (some 2000))⟩ ∧
    accepted Demo.s1 ⟨Demo.env 2000, ⟨"gov", []⟩, .gov (.updateGov "bob")⟩ ∧
    ¬ accepted (run Demo.s1 [⟨Demo.env 2000, ⟨"gov", []⟩, .gov (.updateGov "bob")⟩]).1
      ⟨Demo.env 2000, ⟨"gov", []⟩, .gov (.updateGov "carol")⟩ ∧
    accepted Demo.s1 ⟨Demo.env 2000, ⟨"gov", []⟩,
      .gov (.updateFeeStrategy ⟨"bob", none, some 999999999999999999, some ⟨21979553000, false⟩⟩)⟩ ∧
    ¬ accepted Demo.s1 ⟨Demo.env 2000, ⟨"gov", []⟩,
      .gov (.updateFeeStrategy ⟨"bob", none, none, some ⟨21979553001, false⟩⟩)⟩ ∧
    ¬ accepted Demo.s1 ⟨Demo.env 2000, ⟨"gov", []⟩, .gov (.updateTradeInfo "uosmo" [] 60 1000)⟩ := by
  decide +kernel

/-! ### C79 -/

theorem sorted_unique {l m : List Coin} (hm : (m.map (·.denom)).Nodup) :
    (l.Perm m ∧ (l.map (·.denom)).Pairwise (· < ·)) ↔ l = sortCoins m := by
  have hs : ((sortCoins m).map (·.denom)).Pairwise (· < ·) := by
    have h1 := sortCoins_sorted m
    have h2 : ((sortCoins m).map (·.denom)).Nodup := ((sortCoins_perm m).map _).nodup_iff.2 hm
    rw [List.pairwise_map]
    rw [List.Nodup, List.pairwise_map] at h2
    exact (h1.and h2).imp fun {a b} h => by
      by_contra hn
      exact h.2 (String.le_antisymm h.1 (String.not_lt.1 hn))
  constructor
  · rintro ⟨h1, h2⟩
    rw [List.pairwise_map] at h2 hs
    exact (h1.trans (sortCoins_perm m).symm).eq_of_pairwise
      (fun a b _ _ h h' => absurd (String.lt_trans h h') (String.lt_irrefl _)) h2 hs
  · rintro rfl
    exact ⟨sortCoins_perm m, hs⟩

/-- **C79 (1).** `Burn` is accepted exactly when: the pending streaming fee can be collected (giving `s1`), the
contract is neither paused nor rebalancing, the redeemer's address is valid, exactly one coin is attached, of
the index denom and not zero, the burned amount (what is left after the fee) is at most the supply and all
products fit in 128 bits.  Then the supply falls by the burned amount, the fee goes to the collector and the
redeemer is paid the basket of the burned amount sorted by denom. -/
theorem C79_burn_accepted_iff {s s' : State} {env : Env} {info : Info} {redeemTo : Option Addr}
    {ms : List Msg} (hr : Reachable s) :
    execute s env info (.burn redeemTo) = .ok (s', ms) ↔
      ∃ s1 received redeem, collectStreamingFee s env.now = .ok s1 ∧
      ¬ pausedAt s env.now ∧ s.rebalance = none ∧
      (∀ x, redeemTo = some x → env.validAddr x = true) ∧
      info.funds = [⟨s.config.indexDenom, received⟩] ∧ received ≠ 0 ∧
      part ((s.fee.burnFee).getD 0) received < 2 ^ 128 ∧
      (∀ e ∈ s1.indexUnits, part e.2 (received - burnFeeOf s received) < 2 ^ 128) ∧
      received - burnFeeOf s received ≤ s.totalSupply ∧
      redeem.Perm (s1.indexUnits.map fun e => (⟨e.1, part e.2 (received - burnFeeOf s received)⟩ : Coin)) ∧
      (redeem.map (·.denom)).Pairwise (· < ·) ∧
      s' = { s1 with totalSupply := s.totalSupply - (received - burnFeeOf s received) } ∧
      ms = [.tfBurn env.contract env.contract ⟨s.config.indexDenom, received - burnFeeOf s received⟩]
        ++ feeTransfer s.fee.burnFee s.fee.collector s.config.indexDenom (burnFeeOf s received)
        ++ [.send (redeemTo.getD info.sender) redeem] := by
  rw [burn_accepted_iff hr]
  have key : ∀ {s1 : State}, collectStreamingFee s env.now = .ok s1 → ∀ (f : Nat → Nat) (l : List Coin),
      (l.Perm (s1.indexUnits.map fun e => (⟨e.1, f e.2⟩ : Coin)) ∧ (l.map (·.denom)).Pairwise (· < ·)) ↔
        l = sortCoins (s1.indexUnits.map fun e => (⟨e.1, f e.2⟩ : Coin)) := by
    intro s1 hc f l
    have hn : s1.indexUnits.denoms.Nodup := (hr.inv.collect hc).nodup
    have hnd : ((s1.indexUnits.map fun e => (⟨e.1, f e.2⟩ : Coin)).map (·.denom)).Nodup := by
      rw [List.map_map]; exact hn
    exact sorted_unique hnd
  constructor
  · rintro ⟨s1, received, hc, h1, h2, h3, h4, h5, h6, h7, h8, rfl, rfl⟩
    obtain ⟨p1, p2⟩ := (key hc (fun u => part u (received - burnFeeOf s received)) _).2 rfl
    exact ⟨s1, received, _, hc, h1, h2, h3, h4, h5, h6, h7, h8, p1, p2, rfl, rfl⟩
  · rintro ⟨s1, received, redeem, hc, h1, h2, h3, h4, h5, h6, h7, h8, p1, p2, rfl, rfl⟩
    have := (key hc (fun u => part u (received - burnFeeOf s received)) redeem).1 ⟨p1, p2⟩
    subst this
    exact ⟨s1, received, hc, h1, h2, h3, h4, h5, h6, h7, h8, rfl, rfl⟩

/-- A burn of 1000 of 10000 is accepted; with a second coin, with another denom or with nothing it is not. -/
example : Reachable Demo.s1 ∧
    accepted Demo.s1 ⟨Demo.env 1010, ⟨"alice", [⟨"factory/core/ibcx", 1000⟩]⟩, .burn none⟩ ∧
    ¬ accepted Demo.s1 ⟨Demo.env 1010, ⟨"alice", [⟨"factory/core/ibcx", 1000⟩, ⟨"uosmo", 1⟩]⟩, .burn none⟩ ∧
    ¬ accepted Demo.s1 ⟨Demo.env 1010, ⟨"alice", [⟨"uosmo", 1⟩]⟩, .burn none⟩ ∧
    ¬ accepted Demo.s1 ⟨Demo.env 1010, ⟨"alice", []⟩, .burn none⟩ :=
  ⟨Demo.s1_reachable, by decide +kernel, by decide +kernel, by decide +kernel, by decide +kernel⟩

/-- **C79 (2).** `Realize` is accepted exactly when the pending streaming fee can be collected (giving `s1`) and
the sender is the collector.  Then everything recorded is sent to the collector and the record is emptied;
without a streaming fee nothing happens. -/
theorem C79_realize_accepted_iff {s s' : State} {env : Env} {info : Info} {ms : List Msg} :
    execute s env info .realize = .ok (s', ms) ↔
      ∃ s1, collectStreamingFee s env.now = .ok s1 ∧ info.sender = s.fee.collector ∧
      s' = { s1 with fee := { s1.fee with
        streamingFee := s1.fee.streamingFee.map fun sf => { sf with collected := [] } } } ∧
      ms = (match s1.fee.streamingFee with
        | some sf => [.send s.fee.collector sf.collected]
        | none => []) := by
  rw [execute_eq_ok]
  apply exists_congr
  intro s1
  simp only [collectsFirst, if_true]
  apply and_congr_right
  intro hc
  obtain ⟨f1, f2, f3, f4, f5, f6, f7, f8, f9, f10, f11⟩ := collectStreamingFee_frame hc
  change realizeStreamingFee s1 info = .ok (s', ms) ↔ _
  rw [realize_eq_ok]
  cases hs : s1.fee.streamingFee with
  | none =>
    have e : { s1 with fee := { s1.fee with streamingFee := none } } = s1 := by rw [← hs]
    constructor
    · rintro ⟨h1, ⟨_, h2, h3⟩ | ⟨sf, h, _⟩⟩
      · exact ⟨by rw [← f7]; exact h1.symm, h2.trans e.symm, h3⟩
      · exact absurd h (by simp)
    · rintro ⟨h1, h2, h3⟩
      exact ⟨by rw [f7]; exact h1.symm, .inl ⟨rfl, h2.trans e, h3⟩⟩
  | some sf =>
    constructor
    · rintro ⟨h1, ⟨h, _⟩ | ⟨sf', h, h2, h3⟩⟩
      · exact absurd h (by simp)
      · cases h
        exact ⟨by rw [← f7]; exact h1.symm, h2, by rw [h3, f7]⟩
    · rintro ⟨h1, h2, h3⟩
      exact ⟨by rw [f7]; exact h1.symm, .inr ⟨sf, rfl, h2, by rw [h3, f7]⟩⟩

/-- After a day the collector takes 25 uosmo and 4 uatom; the governance account cannot. -/
example : (execute Demo.s1 (Demo.env 87400) ⟨"collector", []⟩ .realize).map
      (fun o => (o.2, o.1.fee.streamingFee.map (·.collected))) =
      .ok ([.send "collector" [⟨"uosmo", 25⟩, ⟨"uatom", 4⟩]], some []) ∧
    ¬ accepted Demo.s1 ⟨Demo.env 87400, ⟨"gov", []⟩, .realize⟩ := by
  decide +kernel

/-- **C79 (3).** Creation is accepted exactly when no denom is listed twice, the collector and the governance
address are valid and the fee rates are allowed; it starts with the given basket, no supply, not paused, no
rebalance and no routes, and asks for the creation of the index denom. -/
theorem C79_instantiate_accepted_iff {env : Env} {msg : InstantiateMsg} {s : State} {ms : List Msg} :
    instantiate env msg = .ok (s, ms) ↔
      (msg.indexUnits.map (·.1)).Nodup ∧ env.validAddr msg.gov = true ∧
      env.validAddr msg.fee.collector = true ∧ ratesAllowed msg.fee ∧
      s = { config := { gov := msg.gov, paused := { paused := false, expiresAt := none }
                        indexDenom := "undefined", reserveDenom := msg.reserveDenom }
            pendingGov := none
            fee := feeOf msg.fee env.now
            totalSupply := 0
            indexUnits := msg.indexUnits
            rebalance := none
            reserveUnits := none
            tradeInfos := [] } ∧
      ms = [.createDenom env.contract msg.indexDenom] := by
  have e1 : MAX_STREAMING_FEE_RATE = 21979553000 := rfl
  rw [instantiate_eq_ok, e1, ONE_eq]
  simp only [ratesAllowed, feeOf, Units.denoms]
  constructor
  · rintro ⟨h1, h2, h3, h4, h5, h6, h7, h8⟩
    exact ⟨h1, h6, h2, ⟨h3, h4, h5⟩, h7, h8⟩
  · rintro ⟨h1, h6, h2, ⟨h3, h4, h5⟩, h7, h8⟩
    exact ⟨h1, h2, h3, h4, h5, h6, h7, h8⟩

/-- The example contract is created; a basket that names an asset twice and a fee rate of 100% are refused. -/
example : (instantiate (Demo.env 1000) Demo.inst).map (fun o => (o.1.indexUnits, o.2)) =
      .ok (Demo.inst.indexUnits, [.createDenom "core" "ibcx"]) ∧
    (instantiate (Demo.env 1000) { Demo.inst with indexUnits := [("a", 1), ("b", 1), ("a", 2)] }).toOption = none ∧
    (instantiate (Demo.env 1000)
      { Demo.inst with fee := { Demo.inst.fee with mintFee := some 1000000000000000000 } }).toOption = none := by
  decide +kernel

/-- **C79 (4).** The reply to the creation of the denom is accepted exactly when it has the expected id and
carries a denom, which becomes the index denom. -/
theorem C79_reply_accepted_iff {s s' : State} {id : Nat} {denom : Option Denom} {ms : List Msg} :
    reply s id denom = .ok (s', ms) ↔
      id = 0 ∧ ∃ d, denom = some d ∧ s' = { s with config := { s.config with indexDenom := d } } ∧ ms = [] :=
  reply_eq_ok

/-- The example contract is created; with a repeated denom or a fee of one it is not. -/
example : (instantiate (Demo.env 1000) Demo.inst).toOption.isSome = true ∧
    (instantiate (Demo.env 1000) { Demo.inst with indexUnits := [("a", 1), ("b", 1), ("a", 2)] }).toOption = none ∧
    (instantiate (Demo.env 1000)
      { Demo.inst with fee := { Demo.inst.fee with mintFee := some 1000000000000000000 } }).toOption = none ∧
    (reply Demo.s0 0 (some "factory/core/x")).map (·.1.config.indexDenom) = .ok "factory/core/x" ∧
    (reply Demo.s0 1 (some "factory/core/x")).toOption = none := by
  decide +kernel

end Ibcx.Props
