import Verif.Core.RebLemmas
/-!
# Invariants of the core contract over all histories

Not part of the model.
-/

namespace Ibcx.Core
open Ibcx

/-- Facts that hold in every reachable state. -/
structure Inv (s : State) : Prop where
  nodup : s.indexUnits.denoms.Nodup
  resSome : ∀ r, s.rebalance = some r → ∃ res, s.reserveUnits = some res
  resNone : s.rebalance = none → s.reserveUnits = none
  resNodup : ∀ res, s.reserveUnits = some res → res.denoms.Nodup
  resSub : ∀ r res, s.rebalance = some r → s.reserveUnits = some res →
    ∀ d ∈ res.denoms, d ∈ r.inflation.denoms
  rebNodup : ∀ r, s.rebalance = some r → (r.deflation.denoms ++ r.inflation.denoms).Nodup
  rebNe : ∀ r, s.rebalance = some r → r.deflation ≠ [] ∧ r.inflation ≠ []
  deflBound : ∀ r, s.rebalance = some r → ∀ e ∈ r.deflation,
    ∃ cur, s.indexUnits.getKey e.1 = some cur ∧ e.2 ≤ cur
  mintRate : ∀ x, s.fee.mintFee = some x → 0 < x ∧ x < ONE
  burnRate : ∀ x, s.fee.burnFee = some x → 0 < x ∧ x < ONE
  streamRate : ∀ sf, s.fee.streamingFee = some sf → 0 < sf.rate ∧ sf.rate ≤ MAX_STREAMING_FEE_RATE
  frozen : ∀ r sf, s.rebalance = some r → s.fee.streamingFee = some sf → sf.freeze = true
  colNodup : ∀ sf, s.fee.streamingFee = some sf → (sf.collected.map (·.denom)).Nodup
  routes : ∀ a b t, s.tradeInfos.get (a, b) = some t → ∃ r rs, t.routes = r :: rs ∧ r.tokenDenom = b

/-- What a trade does, apart from trade info and messages. -/
structure TradeStep (r : Rebalance) (s s' : State) : Prop where
  config : s'.config = s.config
  pendingGov : s'.pendingGov = s.pendingGov
  fee : s'.fee = s.fee
  totalSupply : s'.totalSupply = s.totalSupply
  rebalance : s'.rebalance = s.rebalance
  nodup : s'.indexUnits.denoms.Nodup
  res : ∃ res', s'.reserveUnits = some res' ∧ res'.denoms.Nodup ∧ ∀ d ∈ res'.denoms, d ∈ r.inflation.denoms
  deflated : ∀ e ∈ r.deflation, ∃ cur cur', s.indexUnits.getKey e.1 = some cur ∧
    s'.indexUnits.getKey e.1 = some cur' ∧ e.2 ≤ cur' ∧ cur' ≤ cur
  inflated : ∀ d ∈ r.inflation.denoms,
    (s.indexUnits.getKey d).getD 0 ≤ (s'.indexUnits.getKey d).getD 0
  other : ∀ d, d ∉ r.deflation.denoms → d ∉ r.inflation.denoms →
    s'.indexUnits.getKey d = s.indexUnits.getKey d
  denoms : ∀ d, d ∈ s.indexUnits.denoms → d ∈ s'.indexUnits.denoms
  denoms' : ∀ d, d ∈ s'.indexUnits.denoms → d ∈ s.indexUnits.denoms ∨ d ∈ r.inflation.denoms
  routes : ∀ a b t', s'.tradeInfos.get (a, b) = some t' → ∃ t, s.tradeInfos.get (a, b) = some t ∧
    t'.routes = t.routes ∧ t'.cooldown = t.cooldown ∧ t'.maxTradeAmount = t.maxTradeAmount

theorem disjoint_of_nodup {a b : List Denom} (h : (a ++ b).Nodup) {d : Denom} (h1 : d ∈ a) : d ∉ b := by
  intro h2
  exact (List.nodup_append.1 h).2.2 d h1 d h2 rfl

theorem mem_denoms {us : Units} {d : Denom} {v : Nat} (h : us.getKey d = some v) : d ∈ us.denoms :=
  Units.getKey_isSome.1 ⟨v, h⟩

theorem routes_set {m : KV (Denom × Denom) TradeInfo} {k : Denom × Denom} {t : TradeInfo} {x : Option Nat}
    (hk : m.get k = some t) (a b : Denom) (t' : TradeInfo)
    (h : (m.set k { t with lastTradedAt := x }).get (a, b) = some t') :
    ∃ t, m.get (a, b) = some t ∧
      t'.routes = t.routes ∧ t'.cooldown = t.cooldown ∧ t'.maxTradeAmount = t.maxTradeAmount := by
  rw [KV.get_set] at h
  split at h
  · rename_i hkk
    subst hkk
    simp at h
    subst h
    exact ⟨t, hk, rfl, rfl, rfl⟩
  · exact ⟨t', h, rfl, rfl, rfl⟩

/-- The index side of a deflation. -/
theorem deflate_units {r : Rebalance} {us us' : Units} {d : Denom} {target cur x : Nat}
    (hn : (r.deflation.denoms ++ r.inflation.denoms).Nodup)
    (hb : ∀ e ∈ r.deflation, ∃ cur, us.getKey e.1 = some cur ∧ e.2 ≤ cur)
    (ht : r.deflation.getKey d = some target) (hc : us.getKey d = some cur)
    (hx : target + x ≤ cur) (hs : us.subKey d x = .ok us') :
    (∀ e ∈ r.deflation, ∃ cur cur', us.getKey e.1 = some cur ∧
      us'.getKey e.1 = some cur' ∧ e.2 ≤ cur' ∧ cur' ≤ cur) ∧
    (∀ k ∈ r.inflation.denoms, (us.getKey k).getD 0 ≤ (us'.getKey k).getD 0) ∧
    (∀ k, k ∉ r.deflation.denoms → k ∉ r.inflation.denoms → us'.getKey k = us.getKey k) ∧
    us'.denoms = us.denoms := by
  obtain ⟨u, h1, h2, h3, h4⟩ := Units.subKey_eq_ok hs
  rw [hc] at h1
  cases h1
  have hmem := mem_denoms ht
  refine ⟨?_, ?_, ?_, h4⟩
  · intro e he
    obtain ⟨c0, hc0, hle⟩ := hb e he
    by_cases hed : e.1 = d
    · refine ⟨c0, cur - x, hc0, by rw [h3, if_pos hed], ?_, ?_⟩
      · have : r.deflation.getKey e.1 = some e.2 :=
          Units.mem_getKey (List.nodup_append.1 hn).1 he
        rw [hed, ht] at this
        cases this
        omega
      · rw [hed, hc] at hc0
        cases hc0
        omega
    · exact ⟨c0, c0, hc0, by rw [h3, if_neg hed, hc0], hle, le_refl _⟩
  · intro k hk
    have : k ≠ d := by
      rintro rfl
      exact disjoint_of_nodup hn hmem hk
    rw [h3, if_neg this]
  · intro k hk _
    have : k ≠ d := by rintro rfl; exact hk hmem
    rw [h3, if_neg this]

/-- The index side of an inflation. -/
theorem inflate_units {r : Rebalance} {us us' : Units} {d : Denom} {x : Nat}
    (hn : (r.deflation.denoms ++ r.inflation.denoms).Nodup)
    (hb : ∀ e ∈ r.deflation, ∃ cur, us.getKey e.1 = some cur ∧ e.2 ≤ cur)
    (hd : d ∈ r.inflation.denoms) (hs : us.addKey d x = .ok us') :
    (∀ e ∈ r.deflation, ∃ cur cur', us.getKey e.1 = some cur ∧
      us'.getKey e.1 = some cur' ∧ e.2 ≤ cur' ∧ cur' ≤ cur) ∧
    (∀ k ∈ r.inflation.denoms, (us.getKey k).getD 0 ≤ (us'.getKey k).getD 0) ∧
    (∀ k, k ∉ r.deflation.denoms → k ∉ r.inflation.denoms → us'.getKey k = us.getKey k) := by
  obtain ⟨h1, _, _⟩ := Units.addKey_eq_ok hs
  refine ⟨?_, ?_, ?_⟩
  · intro e he
    obtain ⟨c0, hc0, hle⟩ := hb e he
    have : e.1 ≠ d := by
      intro hed
      have : e.1 ∈ r.deflation.denoms := List.mem_map.2 ⟨e, he, rfl⟩
      exact disjoint_of_nodup hn this (hed ▸ hd)
    exact ⟨c0, c0, hc0, by rw [h1, if_neg this, hc0], hle, le_refl _⟩
  · intro k _
    rw [h1]
    split
    · rename_i h; subst h; simp
    · exact le_refl _
  · intro k _ hk
    have : k ≠ d := by rintro rfl; exact hk hd
    rw [h1, if_neg this]

/-- Deducting what was sold never goes below the target. -/
theorem deduct_le {simIn gap supply : Nat} (hs : supply ≠ 0) (h : simIn ≤ gap * supply / ONE) :
    simIn * ONE / supply ≤ gap := by
  apply Nat.div_le_of_le_mul
  calc simIn * ONE ≤ gap * supply / ONE * ONE := Nat.mul_le_mul_right _ h
    _ ≤ gap * supply := Nat.div_mul_le_self _ _
    _ = supply * gap := Nat.mul_comm _ _

theorem trade_step {s s' : State} {env : Env} {info : Info} {m : TradeMsg} {ms : List Msg}
    (hi : Inv s) (h : trade s env info m = .ok (s', ms)) :
    ∃ r, s.rebalance = some r ∧ TradeStep r s s' := by
  obtain ⟨r, hr, _, h⟩ := trade_eq_ok.1 h
  refine ⟨r, hr, ?_⟩
  have hn := hi.rebNodup r hr
  have hb := hi.deflBound r hr
  rcases h with ⟨d, _, _, _, _, h⟩ | ⟨d, _, _, _, _, h⟩ | ⟨d, _, _, _, _, h⟩ | ⟨d, _, _, _, _, h⟩
  · obtain ⟨res, target, current, us', res', h1, h2, h3, h4, _, h6, h7, rfl, _⟩ := deflateReserve_eq_ok.1 h
    obtain ⟨i1, i2, i3, _⟩ := inflateReserveUnit_spec h7
    obtain ⟨u1, u2, u3, u4⟩ := deflate_units hn hb h2 h3 (by omega) h6
    refine ⟨rfl, rfl, rfl, rfl, rfl, by simpa [u4] using hi.nodup, ⟨res', rfl, i1 (hi.resNodup _ h1), ?_⟩,
      u1, u2, u3, by simp [u4], by simpa [u4] using fun d h => .inl h, ?_⟩
    · intro k hk
      rcases (i2 k).1 hk with h | h
      · exact hi.resSub r res hr h1 k h
      · exact h
    · exact fun a b t' ht => ⟨t', ht, rfl, rfl, rfl⟩
  · obtain ⟨t, res, target, current, simIn, us', res', g1, h1, h2, h3, _, _, h4, _, _, _, h9, _, h11, _, _,
      h6, h7, rfl, _⟩ := deflate_eq_ok.1 h
    obtain ⟨i1, i2, i3, _⟩ := inflateReserveUnit_spec h7
    have := deduct_le h11 h9
    obtain ⟨u1, u2, u3, u4⟩ := deflate_units hn hb h2 h3 (by omega) h6
    refine ⟨rfl, rfl, rfl, rfl, rfl, by simpa [u4] using hi.nodup, ⟨res', rfl, i1 (hi.resNodup _ h1), ?_⟩,
      u1, u2, u3, by simp [u4], by simpa [u4] using fun d h => .inl h, ?_⟩
    · intro k hk
      rcases (i2 k).1 hk with h | h
      · exact hi.resSub r res hr h1 k h
      · exact h
    · exact routes_set g1
  · obtain ⟨res, unit, us', res', h1, h2, _, h4, h5, rfl, _⟩ := inflateReserve_eq_ok.1 h
    have hd := hi.resSub r res hr h1 d (mem_denoms h2)
    obtain ⟨u1, u2, u3⟩ := inflate_units hn hb hd h4
    obtain ⟨_, _, _, _, h6⟩ := Units.subKey_eq_ok h5
    refine ⟨rfl, rfl, rfl, rfl, rfl, addKey_nodup hi.nodup h4, ⟨res', rfl, by simpa [h6] using hi.resNodup _ h1, ?_⟩,
      u1, u2, u3, ?_, ?_, ?_⟩
    · intro k hk
      rw [h6] at hk
      exact hi.resSub r res hr h1 k hk
    · intro k hk; exact (addKey_mem h4 k).2 (.inl hk)
    · intro k hk
      rcases (addKey_mem h4 k).1 hk with h | rfl
      · exact .inl h
      · exact .inr hd
    · exact fun a b t' ht => ⟨t', ht, rfl, rfl, rfl⟩
  · obtain ⟨t, res, unit, simOut, us', res', g1, h1, h2, _, _, _, _, _, _, _, _, _, _, h4, h5, rfl, _⟩ :=
      inflate_eq_ok.1 h
    have hd := hi.resSub r res hr h1 d (mem_denoms h2)
    obtain ⟨u1, u2, u3⟩ := inflate_units hn hb hd h4
    obtain ⟨_, _, _, _, h6⟩ := Units.subKey_eq_ok h5
    refine ⟨rfl, rfl, rfl, rfl, rfl, addKey_nodup hi.nodup h4, ⟨res', rfl, by simpa [h6] using hi.resNodup _ h1, ?_⟩,
      u1, u2, u3, ?_, ?_, ?_⟩
    · intro k hk
      rw [h6] at hk
      exact hi.resSub r res hr h1 k hk
    · intro k hk; exact (addKey_mem h4 k).2 (.inl hk)
    · intro k hk
      rcases (addKey_mem h4 k).1 hk with h | rfl
      · exact .inl h
      · exact .inr hd
    · exact routes_set g1

theorem execute_eq_ok {s s' : State} {env : Env} {info : Info} {msg : ExecMsg} {ms : List Msg} :
    execute s env info msg = .ok (s', ms) ↔
      ∃ s1, (if collectsFirst msg = true then collectStreamingFee s env.now = .ok s1 else s1 = s) ∧
        dispatch s1 env info msg = .ok (s', ms) := by
  unfold execute
  by_cases h : collectsFirst msg = true <;> simp [h]

/-! ### Preservation -/

theorem Inv.collect {s s1 : State} {now : Nat} (hi : Inv s) (h : collectStreamingFee s now = .ok s1) :
    Inv s1 := by
  rcases collectStreamingFee_eq_ok.1 h with ⟨_, rfl⟩ | ⟨sf, sf', us', h1, h2, rfl⟩
  · exact hi
  · obtain ⟨_, h3⟩ := collect_eq_ok.1 h2
    rcases h3 with ⟨_, rfl, rfl⟩ | ⟨hfz, _, _, p, _, _, _, col, hcol, rfl, rfl⟩
    · have : ({ s with fee := { s.fee with streamingFee := some sf' }, indexUnits := s.indexUnits } : State) = s := by
        rw [← h1]
      rw [this]; exact hi
    · have hden : (chargedUnits s.indexUnits p).denoms = s.indexUnits.denoms := by
        simp [chargedUnits, Units.denoms]
      have hnr : s.rebalance = none := by
        cases hr : s.rebalance with
        | none => rfl
        | some r => have := hi.frozen r sf hr h1; simp [this] at hfz
      exact {
        nodup := by simpa [hden] using hi.nodup
        resSome := by simp [hnr]
        resNone := hi.resNone
        resNodup := hi.resNodup
        resSub := by simp [hnr]
        rebNodup := by simp [hnr]
        rebNe := by simp [hnr]
        deflBound := by simp [hnr]
        mintRate := hi.mintRate
        burnRate := hi.burnRate
        streamRate := by
          intro x hx; simp at hx; subst hx; exact hi.streamRate sf h1
        frozen := by simp [hnr]
        colNodup := by
          intro x hx; simp at hx; subst hx
          exact (foldCollected_spec hcol).2.1 (hi.colNodup sf h1)
        routes := hi.routes }

theorem Inv.trade {s s' : State} {env : Env} {info : Info} {m : TradeMsg} {ms : List Msg}
    (hi : Inv s) (h : trade s env info m = .ok (s', ms)) : Inv s' := by
  obtain ⟨r, hr, t⟩ := trade_step hi h
  obtain ⟨res', hres, hrn, hrs⟩ := t.res
  have hr' : s'.rebalance = some r := t.rebalance.trans hr
  exact {
    nodup := t.nodup
    resSome := fun _ _ => ⟨res', hres⟩
    resNone := by simp [hr']
    resNodup := by intro x hx; rw [hres] at hx; cases hx; exact hrn
    resSub := by
      intro r' x h1 h2 d hd
      rw [hr'] at h1; cases h1
      rw [hres] at h2; cases h2
      exact hrs d hd
    rebNodup := by rw [t.rebalance]; exact hi.rebNodup
    rebNe := by rw [t.rebalance]; exact hi.rebNe
    deflBound := by
      intro r' h1 e he
      rw [hr'] at h1; cases h1
      obtain ⟨_, cur', _, h2, h3, _⟩ := t.deflated e he
      exact ⟨cur', h2, h3⟩
    mintRate := by rw [t.fee]; exact hi.mintRate
    burnRate := by rw [t.fee]; exact hi.burnRate
    streamRate := by rw [t.fee]; exact hi.streamRate
    frozen := by rw [t.fee, t.rebalance]; exact hi.frozen
    colNodup := by rw [t.fee]; exact hi.colNodup
    routes := by
      intro a b t' ht'
      obtain ⟨t0, h1, h2, _⟩ := t.routes a b t' ht'
      rw [h2]; exact hi.routes a b t0 h1 }

theorem Inv.dispatch {s s' : State} {env : Env} {info : Info} {msg : ExecMsg} {ms : List Msg}
    (hi : Inv s) (h : dispatch s env info msg = .ok (s', ms)) : Inv s' := by
  cases msg with
  | mint a r f =>
    obtain ⟨_, _, _, _, _, _, _, rfl, _⟩ := mint_eq_ok.1 h
    exact { hi with }
  | burn r =>
    obtain ⟨_, _, _, _, _, _, _, _, _, _, _, _, _, _, rfl, _⟩ := burn_eq_ok.1 h
    exact { hi with }
  | realize =>
    obtain ⟨_, h⟩ := realize_eq_ok.1 h
    rcases h with ⟨_, rfl, _⟩ | ⟨sf, hsf, rfl, _⟩
    · exact hi
    · exact { hi with
        streamRate := by intro x hx; simp at hx; subst hx; exact hi.streamRate sf hsf
        frozen := by intro r x hr hx; simp at hx; subst hx; exact hi.frozen r sf hr hsf
        colNodup := by intro x hx; simp at hx; subst hx; simp }
  | gov m =>
    cases m with
    | pause e => obtain ⟨_, _, _, rfl, _⟩ := pause_eq_ok.1 h; exact { hi with }
    | release => obtain ⟨_, _, rfl, _⟩ := release_eq_ok.1 h; exact { hi with }
    | updateGov g => obtain ⟨_, _, _, rfl, _⟩ := updateGov_eq_ok.1 h; exact { hi with }
    | acceptGov => obtain ⟨_, rfl, _⟩ := acceptGov_eq_ok.1 h; exact { hi with }
    | revokeGov => obtain ⟨_, _, rfl, _⟩ := revokeGov_eq_ok.1 h; exact { hi with }
    | updateFeeStrategy p =>
      obtain ⟨_, hnr, _, h1, h2, h3, rfl, _⟩ := updateFee_eq_ok.1 h
      exact { hi with
        mintRate := h1
        burnRate := h2
        streamRate := by
          intro x hx; simp at hx
          obtain ⟨p', hp', rfl⟩ := hx
          exact h3 p' hp'
        frozen := by intro r x hr; simp [hnr] at hr
        colNodup := by
          intro x hx; simp at hx
          obtain ⟨p', hp', rfl⟩ := hx
          simp }
    | updateRebalanceManager m =>
      obtain ⟨_, _, ⟨r, hr, rfl⟩, _⟩ := updateRebalanceManager_eq_ok.1 h
      exact { hi with
        resSome := fun _ _ => hi.resSome r hr
        resNone := by simp
        resSub := by intro r' res h1 h2; simp at h1; subst h1; exact hi.resSub r res hr h2
        rebNodup := by intro r' h1; simp at h1; subst h1; exact hi.rebNodup r hr
        rebNe := by intro r' h1; simp at h1; subst h1; exact hi.rebNe r hr
        deflBound := by intro r' h1; simp at h1; subst h1; exact hi.deflBound r hr
        frozen := fun _ sf _ => hi.frozen r sf hr }
    | updateReserveDenom d => obtain ⟨_, _, rfl, _⟩ := updateReserveDenom_eq_ok.1 h; exact { hi with }
    | updateTradeInfo d rs c m =>
      obtain ⟨_, ⟨r, rs', hrs, rfl⟩, _⟩ := updateTradeInfo_eq_ok.1 h
      exact { hi with
        routes := by
          intro a b t ht
          simp only [KV.get_set] at ht
          split at ht
          · rename_i hk
            simp at ht; subst ht
            simp at hk
            exact ⟨r, rs', hrs, hk.2⟩
          · exact hi.routes a b t ht }
  | rebalance m =>
    cases m with
    | init m de inf =>
      obtain ⟨_, hnr, _, h1, h2, h3, h4, rfl, _⟩ := init_eq_ok.1 h
      exact { hi with
        resSome := fun _ _ => ⟨[], rfl⟩
        resNone := by simp
        resNodup := by intro x hx; simp at hx; subst hx; simp [Units.denoms]
        resSub := by intro r x _ hx; simp at hx; subst hx; simp [Units.denoms]
        rebNodup := by intro r' h; simp at h; subst h; exact h4
        rebNe := by intro r' h; simp at h; subst h; exact ⟨h1, h2⟩
        deflBound := by intro r' h; simp at h; subst h; exact h3
        streamRate := by
          intro x hx; simp at hx
          obtain ⟨p', hp', rfl⟩ := hx
          exact hi.streamRate p' hp'
        frozen := by
          intro r x hr hx; simp at hx
          obtain ⟨p', hp', rfl⟩ := hx
          rfl
        colNodup := by
          intro x hx; simp at hx
          obtain ⟨p', hp', rfl⟩ := hx
          exact hi.colNodup p' hp' }
    | trade m => exact hi.trade h
    | finalize =>
      obtain ⟨r, res, _, _, _, _, _, rfl, _⟩ := finalize_eq_ok.1 h
      exact { hi with
        nodup := by
          have : (List.filter (fun e => decide (e.2 ≠ 0)) s.indexUnits).Sublist s.indexUnits :=
            List.filter_sublist
          exact (this.map _).nodup hi.nodup
        resSome := by simp
        resNone := by simp
        resNodup := by simp
        resSub := by simp
        rebNodup := by simp
        rebNe := by simp
        deflBound := by simp
        streamRate := by
          intro x hx; simp at hx
          obtain ⟨p', hp', rfl⟩ := hx
          exact hi.streamRate p' hp'
        frozen := by simp
        colNodup := by
          intro x hx; simp at hx
          obtain ⟨p', hp', rfl⟩ := hx
          exact hi.colNodup p' hp' }

theorem Inv.execute {s s' : State} {env : Env} {info : Info} {msg : ExecMsg} {ms : List Msg}
    (hi : Inv s) (h : execute s env info msg = .ok (s', ms)) : Inv s' := by
  obtain ⟨s1, h1, h2⟩ := execute_eq_ok.1 h
  split at h1
  · exact (hi.collect h1).dispatch h2
  · subst h1; exact hi.dispatch h2

theorem Inv.step {s : State} (hi : Inv s) (c : Call) : Inv (step s c).1 := by
  unfold Core.step
  split
  · rename_i o h
    exact hi.execute (s' := o.1) (ms := o.2) h
  · exact hi

theorem run_cons (s : State) (c : Call) (cs : List Call) :
    run s (c :: cs) = ((run (step s c).1 cs).1, (step s c).2 ++ (run (step s c).1 cs).2) := rfl

theorem run_append (s : State) (cs ds : List Call) :
    run s (cs ++ ds) = ((run (run s cs).1 ds).1, (run s cs).2 ++ (run (run s cs).1 ds).2) := by
  induction cs generalizing s with
  | nil => simp [run]
  | cons c cs ih => simp [run_cons, ih]

theorem Inv.run {s : State} (hi : Inv s) (cs : List Call) : Inv (run s cs).1 := by
  induction cs generalizing s with
  | nil => exact hi
  | cons c cs ih => rw [run_cons]; exact ih (hi.step c)

theorem instantiate_eq_ok {env : Env} {msg : InstantiateMsg} {s : State} {ms : List Msg} :
    instantiate env msg = .ok (s, ms) ↔
      msg.indexUnits.denoms.Nodup ∧ env.validAddr msg.fee.collector = true ∧
      (∀ x, msg.fee.mintFee = some x → 0 < x ∧ x < ONE) ∧
      (∀ x, msg.fee.burnFee = some x → 0 < x ∧ x < ONE) ∧
      (∀ sf, msg.fee.streamingFee = some sf → 0 < sf.rate ∧ sf.rate ≤ MAX_STREAMING_FEE_RATE) ∧
      env.validAddr msg.gov = true ∧
      s = { config := { gov := msg.gov, paused := {}, indexDenom := "undefined"
                        reserveDenom := msg.reserveDenom }
            pendingGov := none
            fee := { collector := msg.fee.collector, mintFee := msg.fee.mintFee
                     burnFee := msg.fee.burnFee
                     streamingFee := msg.fee.streamingFee.map fun sf =>
                      { rate := sf.rate, collected := [], freeze := sf.freeze, lastCollectedAt := env.now } }
            totalSupply := 0, indexUnits := msg.indexUnits, rebalance := none, reserveUnits := none
            tradeInfos := [] } ∧
      ms = [.createDenom env.contract msg.indexDenom] := by
  cases h : msg.fee.streamingFee <;> simp [instantiate, StreamingFeePayload.toState, h] <;> grind

theorem reply_eq_ok {s s' : State} {id : Nat} {nd : Option Denom} {ms : List Msg} :
    reply s id nd = .ok (s', ms) ↔
      id = 0 ∧ ∃ d, nd = some d ∧ s' = { s with config := { s.config with indexDenom := d } } ∧ ms = [] := by
  unfold reply
  split
  · cases nd <;> simp_all; grind
  · simp_all

theorem Inv.fresh {s : State} (h : Fresh s) : Inv s := by
  obtain ⟨env, msg, s0, ms, d, ms', h1, h2⟩ := h
  obtain ⟨hn, _, h3, h4, h5, _, rfl, _⟩ := instantiate_eq_ok.1 h1
  obtain ⟨_, d', _, rfl, _⟩ := reply_eq_ok.1 h2
  exact {
    nodup := hn
    resSome := by simp
    resNone := by simp
    resNodup := by simp
    resSub := by simp
    rebNodup := by simp
    rebNe := by simp
    deflBound := by simp
    mintRate := h3
    burnRate := h4
    streamRate := by
      intro x hx; simp at hx
      obtain ⟨p', hp', rfl⟩ := hx
      exact h5 p' hp'
    frozen := by simp
    colNodup := by
      intro x hx; simp at hx
      obtain ⟨p', hp', rfl⟩ := hx
      simp
    routes := by intro a b t ht; simp at ht }

theorem Reachable.inv {s : State} (h : Reachable s) : Inv s := by
  obtain ⟨s0, cs, h0, rfl⟩ := h
  exact (Inv.fresh h0).run cs

theorem Reachable.run {s : State} (h : Reachable s) (cs : List Call) : Reachable (Core.run s cs).1 := by
  obtain ⟨s0, cs0, h0, rfl⟩ := h
  exact ⟨s0, cs0 ++ cs, h0, by rw [run_append]⟩

theorem Reachable.execute {s s' : State} {env : Env} {info : Info} {msg : ExecMsg} {ms : List Msg}
    (h : Reachable s) (he : Core.execute s env info msg = .ok (s', ms)) : Reachable s' := by
  have := h.run [⟨env, info, msg⟩]
  simpa [Core.run, step, he] using this

end Ibcx.Core
