import Verif.Core.ErrorLemmas
import Verif.Props.Demo
/-!
# C113: every refusal names a true reason (core contract)
-/

namespace Ibcx.Props
open Ibcx Ibcx.Core Ibcx.Spec Ibcx.Spec.Core

private theorem paused_error {s : State} {now : Nat} {e : Err} (h : s.config.assertNotPaused now = .error e) :
    e = .paused ∧ pausedAt s now := by
  obtain ⟨h1, h2⟩ := require_eq_error.1 h
  refine ⟨h2, ?_⟩
  rw [← pausedAt_iff]
  simpa using h1

private theorem unauthorized_error {s : State} {a : Addr} {e : Err} (h : s.config.checkGov a = .error e) :
    e = .unauthorized ∧ a ≠ s.config.gov := by
  obtain ⟨h1, h2⟩ := assertSender_error h
  exact ⟨h1, Ne.symm h2⟩

private theorem rebalancing_error {s : State} {e : Err} (h : require (s.rebalance = none) .onRebalancing = .error e) :
    e = .onRebalancing ∧ s.rebalance ≠ none := by
  obtain ⟨h1, h2⟩ := require_eq_error.1 h
  exact ⟨h2, h1⟩

private theorem mint_reason {s s1 : State} {env : Env} {info : Info} {n : Nat} {a b : Option Addr} {e : Err}
    (hf : distinct info.funds) (hc : collectStreamingFee s env.now = .ok s1)
    (h : mint s1 env info n a b = .error e) : Reason s env info (.mint n a b) e := by
  obtain ⟨fc, _, _, fr, _, _, _, _, _, _, fu⟩ := collectStreamingFee_frame hc
  have fd : s1.indexUnits.map (·.1) = s.indexUnits.map (·.1) := fu
  unfold mint at h
  rw [bind_eq_error] at h
  rcases h with h | ⟨_, _, h⟩
  · replace h := paused_error h; obtain ⟨rfl, h⟩ := h
    exact ⟨by simpa only [pausedAt, fc] using h, trivial⟩
  rw [bind_eq_error] at h
  rcases h with h | ⟨_, _, h⟩
  · replace h := rebalancing_error h; obtain ⟨rfl, h⟩ := h
    exact ⟨fr ▸ h, trivial⟩
  rw [bind_eq_error] at h
  rcases h with h | ⟨_, _, h⟩
  · obtain ⟨rfl, x, rfl, hx⟩ := unwrapAddr_error h
    exact ⟨x, by simp [addressesOf], hx⟩
  rw [bind_eq_error] at h
  rcases h with h | ⟨_, _, h⟩
  · obtain ⟨rfl, x, rfl, hx⟩ := unwrapAddr_error h
    exact ⟨x, by simp [addressesOf], hx⟩
  rw [bind_eq_error] at h
  rcases h with h | ⟨_, _, h⟩
  · rcases Units.calcRefund_error hf h with rfl | ⟨rfl, d, h1, h2⟩ | ⟨rfl, c, h1, h2⟩
    · trivial
    · exact ⟨n, a, b, d, rfl, fd ▸ h1, h2⟩
    · exact .inl ⟨n, a, b, rfl, c, h1, fd ▸ h2⟩
  rw [bind_eq_error] at h
  rcases h with h | ⟨_, _, h⟩
  · obtain rfl := mintFeeAmount_error h
    trivial
  rw [bind_eq_error] at h
  rcases h with h | ⟨_, _, h⟩
  · obtain rfl := sub_error h
    trivial
  rw [bind_eq_error] at h
  rcases h with h | ⟨_, _, h⟩
  · obtain rfl := add_error h
    trivial
  cases h

private theorem burn_reason {s s1 : State} {env : Env} {info : Info} {a : Option Addr} {e : Err}
    (hc : collectStreamingFee s env.now = .ok s1)
    (h : burn s1 env info a = .error e) : Reason s env info (.burn a) e := by
  obtain ⟨fc, _, _, fr, _, _, _, _, _, _, fu⟩ := collectStreamingFee_frame hc
  unfold burn at h
  rw [bind_eq_error] at h
  rcases h with h | ⟨_, _, h⟩
  · replace h := paused_error h; obtain ⟨rfl, h⟩ := h
    exact ⟨by simpa only [pausedAt, fc] using h, trivial⟩
  rw [bind_eq_error] at h
  rcases h with h | ⟨_, _, h⟩
  · replace h := rebalancing_error h; obtain ⟨rfl, h⟩ := h
    exact ⟨fr ▸ h, trivial⟩
  rw [bind_eq_error] at h
  rcases h with h | ⟨_, _, h⟩
  · obtain ⟨rfl, x, rfl, hx⟩ := unwrapAddr_error h
    exact ⟨x, by simp [addressesOf], hx⟩
  rw [bind_eq_error] at h
  rcases h with h | ⟨_, _, h⟩
  · replace h := mustPay_error h; obtain ⟨rfl, h⟩ := h
    exact ⟨a, rfl, fc ▸ h⟩
  rw [bind_eq_error] at h
  rcases h with h | ⟨_, _, h⟩
  · obtain rfl := feeAmount_error h
    trivial
  rw [bind_eq_error] at h
  rcases h with h | ⟨_, _, h⟩
  · obtain rfl := sub_error h
    trivial
  rw [bind_eq_error] at h
  rcases h with h | ⟨_, _, h⟩
  · obtain rfl := calcRequire_error h
    trivial
  rw [bind_eq_error] at h
  rcases h with h | ⟨_, _, h⟩
  · obtain rfl := sub_error h
    trivial
  cases h

private theorem gov_reason {s : State} {env : Env} {info : Info} {m : GovMsg} {e : Err}
    (hm : ∀ p, m ≠ .updateFeeStrategy p) (h : handleGov s env info m = .error e) : Reason s env info (.gov m) e := by
  cases m with
  | pause t =>
    simp only [handleGov, pause] at h
    rw [bind_eq_error] at h
    rcases h with h | ⟨_, _, h⟩
    · replace h := unauthorized_error h; obtain ⟨rfl, h⟩ := h
      exact h
    rw [bind_eq_error] at h
    rcases h with h | ⟨_, _, h⟩
    · replace h := paused_error h; obtain ⟨rfl, h⟩ := h
      exact ⟨h, trivial⟩
    cases t with
    | none => cases h
    | some t =>
      simp only at h
      rw [bind_eq_error] at h
      rcases h with h | ⟨_, _, h⟩
      · obtain ⟨h1, rfl⟩ := require_eq_error.1 h
        exact .inl ⟨t, rfl, by simpa using h1⟩
      · cases h
  | release =>
    simp only [handleGov, release] at h
    rw [bind_eq_error] at h
    rcases h with h | ⟨_, _, h⟩
    · replace h := unauthorized_error h; obtain ⟨rfl, h⟩ := h
      exact h
    rw [bind_eq_error] at h
    rcases h with h | ⟨_, _, h⟩
    · obtain ⟨h1, rfl⟩ := require_eq_error.1 h
      refine ⟨?_, rfl⟩
      rw [← pausedAt_iff]
      exact h1
    · cases h
  | updateGov g =>
    simp only [handleGov, updateGov] at h
    rw [bind_eq_error] at h
    rcases h with h | ⟨_, _, h⟩
    · replace h := unauthorized_error h; obtain ⟨rfl, h⟩ := h
      exact h
    rw [bind_eq_error] at h
    rcases h with h | ⟨_, _, h⟩
    · obtain ⟨h1, rfl⟩ := require_eq_error.1 h
      exact .inr (.inl ⟨g, rfl, h1⟩)
    rw [bind_eq_error] at h
    rcases h with h | ⟨_, _, h⟩
    · replace h := validate_error h; obtain ⟨rfl, h⟩ := h
      exact ⟨g, by simp [addressesOf], h⟩
    · cases h
  | acceptGov =>
    simp only [handleGov, acceptGov] at h
    split at h
    · rename_i hp
      cases h
      exact .inl ⟨hp, .inl rfl⟩
    · rename_i g hp
      rw [bind_eq_error] at h
      rcases h with h | ⟨_, _, h⟩
      · replace h := assertSender_error h; obtain ⟨rfl, h⟩ := h
        intro h'
        rw [Entitled, hp] at h'
        exact h (Option.some.inj h')
      · cases h
  | revokeGov =>
    simp only [handleGov, revokeGov] at h
    split at h
    · rename_i hp
      cases h
      exact .inl ⟨hp, .inr rfl⟩
    · rw [bind_eq_error] at h
      rcases h with h | ⟨_, _, h⟩
      · replace h := unauthorized_error h; obtain ⟨rfl, h⟩ := h
        exact h
      · cases h
  | updateFeeStrategy p => exact absurd rfl (hm p)
  | updateRebalanceManager a =>
    simp only [handleGov, updateRebalanceManager] at h
    rw [bind_eq_error] at h
    rcases h with h | ⟨_, _, h⟩
    · replace h := unauthorized_error h; obtain ⟨rfl, h⟩ := h
      exact h
    split at h
    · rename_i hr
      cases h
      exact ⟨hr, trivial⟩
    · rw [bind_eq_error] at h
      rcases h with h | ⟨_, _, h⟩
      · obtain ⟨rfl, x, rfl, hx⟩ := validateOpt_error h
        exact ⟨x, by simp [addressesOf], hx⟩
      · cases h
  | updateReserveDenom d =>
    simp only [handleGov, updateReserveDenom] at h
    rw [bind_eq_error] at h
    rcases h with h | ⟨_, _, h⟩
    · replace h := unauthorized_error h; obtain ⟨rfl, h⟩ := h
      exact h
    rw [bind_eq_error] at h
    rcases h with h | ⟨_, _, h⟩
    · replace h := rebalancing_error h; obtain ⟨rfl, h⟩ := h
      exact ⟨h, trivial⟩
    · cases h
  | updateTradeInfo d rs c m =>
    simp only [handleGov, updateTradeInfo] at h
    rw [bind_eq_error] at h
    rcases h with h | ⟨_, _, h⟩
    · replace h := unauthorized_error h; obtain ⟨rfl, h⟩ := h
      exact h
    rw [bind_eq_error] at h
    rcases h with h | ⟨_, _, h⟩
    · cases rs with
      | nil =>
        cases h
        exact .inl ⟨d, c, m, rfl⟩
      | cons => cases h
    · cases h

private theorem fee_reason {s s1 : State} {env : Env} {info : Info} {p : FeePayload} {e : Err}
    (hc : collectStreamingFee s env.now = .ok s1)
    (h : updateFee s1 env info p = .error e) : Reason s env info (.gov (.updateFeeStrategy p)) e := by
  obtain ⟨fc, _, _, fr, _⟩ := collectStreamingFee_frame hc
  unfold updateFee at h
  rw [bind_eq_error] at h
  rcases h with h | ⟨_, _, h⟩
  · replace h := unauthorized_error h; obtain ⟨rfl, h⟩ := h
    rw [fc] at h
    exact h
  rw [bind_eq_error] at h
  rcases h with h | ⟨_, _, h⟩
  · replace h := rebalancing_error h; obtain ⟨rfl, h⟩ := h
    exact ⟨fr ▸ h, trivial⟩
  rw [bind_eq_error] at h
  rcases h with h | ⟨_, _, h⟩
  · replace h := validate_error h; obtain ⟨rfl, h⟩ := h
    exact ⟨p.collector, by simp [addressesOf], h⟩
  simp only at h
  rw [bind_eq_error] at h
  rcases h with h | ⟨_, _, h⟩
  · replace h := checkRates_error h; obtain ⟨rfl, h⟩ := h
    refine .inr (.inl ⟨p, rfl, ?_⟩)
    rcases h with h | ⟨sf, h1, h2⟩
    · exact .inl h
    · obtain ⟨q, h3, rfl⟩ := Option.map_eq_some_iff.1 h1
      exact .inr ⟨q, h3, h2⟩
  · cases h

private theorem init_reason {s s1 : State} {env : Env} {info : Info} {m : Option Addr} {defl infl : Units} {e : Err}
    (hc : collectStreamingFee s env.now = .ok s1)
    (h : init s1 env info m defl infl = .error e) : Reason s env info (.rebalance (.init m defl infl)) e := by
  obtain ⟨fc, _, _, fr, _⟩ := collectStreamingFee_frame hc
  simp only [init] at h
  rw [bind_eq_error] at h
  rcases h with h | ⟨_, _, h⟩
  · replace h := unauthorized_error h; obtain ⟨rfl, h⟩ := h
    have : (freezeStreamingFee s1).config = s.config := fc
    rw [this] at h
    exact h
  rw [bind_eq_error] at h
  rcases h with h | ⟨_, _, h⟩
  · replace h := rebalancing_error h; obtain ⟨rfl, h⟩ := h
    have : (freezeStreamingFee s1).rebalance = s.rebalance := fr
    exact ⟨this ▸ h, trivial⟩
  rw [bind_eq_error] at h
  rcases h with h | ⟨_, _, h⟩
  · obtain ⟨rfl, x, rfl, hx⟩ := validateOpt_error h
    exact ⟨x, by simp [addressesOf], hx⟩
  rw [bind_eq_error] at h
  rcases h with h | ⟨_, _, h⟩
  · replace h := validate_plan_error h; obtain ⟨rfl, h⟩ := h
    exact .inr (.inr ⟨m, defl, infl, s1, rfl, hc, h⟩)
  · cases h

private theorem manager_error {s : State} {r : Rebalance} {a : Addr} {e : Err} (hr : s.rebalance = some r)
    (h : checkManager r a = .error e) :
    e = .unauthorized ∧ ¬ ∀ r m, s.rebalance = some r → r.manager = some m → a = m := by
  unfold checkManager at h
  split at h
  · cases h
  · rename_i m hm
    obtain ⟨h1, h2⟩ := assertSender_error h
    exact ⟨h1, fun h' => h2 (h' r m hr hm).symm⟩

private theorem finalize_reason {s : State} {env : Env} {info : Info} {e : Err} (hi : Inv s)
    (h : finalize s env info = .error e) : Reason s env info (.rebalance .finalize) e := by
  unfold finalize at h
  simp only [unfreezeStreamingFee] at h
  cases hr : s.rebalance with
  | none =>
    rw [hr] at h
    cases h
    exact ⟨hr, trivial⟩
  | some r =>
    rw [hr] at h
    simp only at h
    rw [bind_eq_error] at h
    rcases h with h | ⟨_, _, h⟩
    · replace h := manager_error hr h; obtain ⟨rfl, h⟩ := h
      exact h
    rw [bind_eq_error] at h
    rcases h with h | ⟨_, _, h⟩
    · obtain ⟨rfl, d, t, u, h1, h2, h3⟩ := checkTargets_error
        (fun x hx => by obtain ⟨c, h1, _⟩ := hi.deflBound r hr x hx; exact ⟨c, h1⟩) h
      exact ⟨rfl, r, hr, .inl ⟨d, t, u, h1, by rw [lookup_eq]; exact h2, h3⟩⟩
    obtain ⟨res, hres⟩ := hi.resSome r hr
    rw [loadReserve, hres] at h
    simp only [bind_eq_error, reduceCtorEq, false_or, Except.ok.injEq, exists_eq_left', and_false, exists_false,
      or_false] at h
    obtain ⟨h1, rfl⟩ := require_eq_error.1 h
    rw [Units.checkEmpty_eq_true] at h1
    push Not at h1
    obtain ⟨⟨d, u⟩, h1, h2⟩ := h1
    exact ⟨rfl, r, hr, .inr ⟨res, d, u, hres, h1, h2⟩⟩

private theorem noEst {env : Env} (he : Estimates env) {rs : List SwapRoute} {c : Coin} {e : Err}
    (hrs : ∃ r l, rs = r :: l) (h : simSwapExactOut env rs c = .error e ∨ simSwapExactIn env rs c = .error e) :
    (e = .querier ∨ e = .generic) := by
  obtain ⟨r, l, rfl⟩ := hrs
  exact he _ _ _ h

private theorem deflate_reason {s : State} {env : Env} {info : Info} {r : Rebalance} {d : Denom} {out maxIn : Nat}
    {e : Err} (hi : Inv s) (he : Estimates env) (hr : s.rebalance = some r)
    (hd : s.config.reserveDenom ≠ d) (h : deflate s env r d out maxIn = .error e) :
    Reason s env info (.rebalance (.trade (.deflate d out maxIn))) e := by
  have hk : pairOf s (.deflate d out maxIn) = some (d, s.config.reserveDenom) := by
    rw [pairOf, if_neg (Ne.symm hd)]
  unfold deflate at h
  simp only at h
  rw [bind_eq_error] at h
  rcases h with h | ⟨t, ht, h⟩
  · replace h := load_error h; obtain ⟨rfl, h⟩ := h
    exact .inr ⟨_, _, rfl, hk, h⟩
  have ht := load_ok ht
  obtain ⟨hop, hops, hroutes, _⟩ := hi.routes _ _ _ ht
  obtain ⟨res, hres⟩ := hi.resSome r hr
  rw [loadReserve, hres] at h
  rw [bind_eq_error] at h
  rcases h with h | ⟨_, hx, h⟩
  · cases h
  cases hx
  rw [bind_eq_error] at h
  rcases h with h | ⟨tu, htu, h⟩
  · replace h := Units.getKey!_error h; obtain ⟨rfl, h⟩ := h
    exact .inr ⟨_, rfl, r, hr, by rw [lookup_eq]; exact h⟩
  have htu := Units.getKey!_ok htu
  rw [bind_eq_error] at h
  rcases h with h | ⟨cu, hcu, h⟩
  · replace h := Units.getKey!_error h; obtain ⟨rfl, h⟩ := h
    obtain ⟨c, h1, _⟩ := hi.deflBound r hr _ (Units.getKey_mem htu)
    rw [h] at h1
    cases h1
  have hcu := Units.getKey!_ok hcu
  rw [bind_eq_error] at h
  rcases h with h | ⟨_, _, h⟩
  · rcases assertCooldown_error h with rfl | ⟨rfl, l, h1, h2⟩
    · trivial
    · exact ⟨_, rfl, _, t, l, hk, ht, h1, h2⟩
  rw [bind_eq_error] at h
  rcases h with h | ⟨_, _, h⟩
  · obtain ⟨h1, rfl⟩ := require_eq_error.1 h
    exact ⟨_, rfl, t, ht, .inl (by omega)⟩
  rw [bind_eq_error] at h
  rcases h with h | ⟨gap, hgap, h⟩
  · obtain rfl := sub_error h
    trivial
  rw [bind_eq_error] at h
  rcases h with h | ⟨ag, hag, h⟩
  · obtain rfl := mulInt_error h
    trivial
  rw [bind_eq_error] at h
  rcases h with h | ⟨cost, hcost, h⟩
  · have hn : NoEstimate s env (.deflate d out maxIn) := by
      refine ⟨t, e, ht, ?_⟩
      rw [hroutes] at h ⊢
      exact h
    rcases noEst he ⟨hop, hops, hroutes⟩ (.inl h) with rfl | rfl
    · exact ⟨_, rfl, hn⟩
    · exact .inr (.inr ⟨_, rfl, hn⟩)
  have hcost : env.estIn t.routes ⟨s.config.reserveDenom, out⟩ = .ok cost := by
    rw [hroutes] at hcost ⊢
    exact hcost
  rw [bind_eq_error] at h
  rcases h with h | ⟨_, _, h⟩
  · obtain ⟨h1, rfl⟩ := require_eq_error.1 h
    refine ⟨_, rfl, t, ht, .inr ⟨cost, hcost, .inr ⟨r, tu, cu, hr, by rw [lookup_eq]; exact htu,
      by rw [lookup_eq]; exact hcu, ?_⟩⟩⟩
    rw [(sub_eq_ok.1 hgap).2] at hag
    rw [part_eq, ← (mulInt_eq_ok.1 hag).2]
    simpa using h1
  rw [bind_eq_error] at h
  rcases h with h | ⟨_, _, h⟩
  · obtain ⟨h1, rfl⟩ := require_eq_error.1 h
    exact ⟨_, rfl, t, ht, .inr ⟨cost, hcost, .inl (by simpa using h1)⟩⟩
  rw [bind_eq_error] at h
  rcases h with h | ⟨_, _, h⟩
  · rcases ratio_error h with rfl | ⟨rfl, h0⟩
    · trivial
    · exact ⟨_, rfl, .inl h0⟩
  rw [bind_eq_error] at h
  rcases h with h | ⟨_, _, h⟩
  · rcases ratio_error h with rfl | ⟨rfl, h0⟩
    · trivial
    · exact ⟨_, rfl, .inl h0⟩
  rw [bind_eq_error] at h
  rcases h with h | ⟨_, _, h⟩
  · obtain rfl := Units.subKey_error hcu h
    trivial
  rw [bind_eq_error] at h
  rcases h with h | ⟨_, _, h⟩
  · rcases inflateReserve_error h with rfl | ⟨rfl, vs, h1, h2, h3⟩
    · trivial
    · exact ⟨_, rfl, .inr ⟨r, vs, hr, h1, h2, h3⟩⟩
  cases h

private theorem deflateReserve_reason {s : State} {env : Env} {info : Info} {r : Rebalance} {d : Denom}
    {out maxIn : Nat} {e : Err} (hi : Inv s) (hr : s.rebalance = some r) (h : deflateReserve s r d = .error e) :
    Reason s env info (.rebalance (.trade (.deflate d out maxIn))) e := by
  unfold deflateReserve at h
  obtain ⟨res, hres⟩ := hi.resSome r hr
  rw [loadReserve, hres] at h
  rw [bind_eq_error] at h
  rcases h with h | ⟨_, hx, h⟩
  · cases h
  cases hx
  rw [bind_eq_error] at h
  rcases h with h | ⟨tu, htu, h⟩
  · replace h := Units.getKey!_error h; obtain ⟨rfl, h⟩ := h
    exact .inr ⟨_, rfl, r, hr, by rw [lookup_eq]; exact h⟩
  have htu := Units.getKey!_ok htu
  rw [bind_eq_error] at h
  rcases h with h | ⟨cu, hcu, h⟩
  · replace h := Units.getKey!_error h; obtain ⟨rfl, h⟩ := h
    obtain ⟨c, h1, _⟩ := hi.deflBound r hr _ (Units.getKey_mem htu)
    rw [h] at h1
    cases h1
  have hcu := Units.getKey!_ok hcu
  rw [bind_eq_error] at h
  rcases h with h | ⟨gap, hgap, h⟩
  · obtain rfl := sub_error h
    trivial
  rw [bind_eq_error] at h
  rcases h with h | ⟨ag, hag, h⟩
  · obtain rfl := mulInt_error h
    trivial
  rw [bind_eq_error] at h
  rcases h with h | ⟨_, _, h⟩
  · obtain rfl := Units.subKey_error hcu h
    trivial
  rw [bind_eq_error] at h
  rcases h with h | ⟨_, _, h⟩
  · rcases inflateReserve_error h with rfl | ⟨rfl, vs, h1, h2, h3⟩
    · trivial
    · exact ⟨_, rfl, .inr ⟨r, vs, hr, h1, h2, h3⟩⟩
  cases h

private theorem inflate_reason {s : State} {env : Env} {info : Info} {r : Rebalance} {d : Denom} {amountIn minOut : Nat}
    {e : Err} (hi : Inv s) (he : Estimates env) (hr : s.rebalance = some r)
    (hd : s.config.reserveDenom ≠ d) (h : inflate s env d amountIn minOut = .error e) :
    Reason s env info (.rebalance (.trade (.inflate d amountIn minOut))) e := by
  have hk : pairOf s (.inflate d amountIn minOut) = some (s.config.reserveDenom, d) := by
    rw [pairOf, if_neg (Ne.symm hd)]
  unfold inflate at h
  simp only at h
  rw [bind_eq_error] at h
  rcases h with h | ⟨t, ht, h⟩
  · replace h := load_error h; obtain ⟨rfl, h⟩ := h
    exact .inr ⟨_, _, rfl, hk, h⟩
  have ht := load_ok ht
  obtain ⟨hop, hops, hroutes, _⟩ := hi.routes _ _ _ ht
  obtain ⟨res, hres⟩ := hi.resSome r hr
  rw [loadReserve, hres] at h
  rw [bind_eq_error] at h
  rcases h with h | ⟨_, hx, h⟩
  · cases h
  cases hx
  rw [bind_eq_error] at h
  rcases h with h | ⟨ru, hru, h⟩
  · replace h := Units.getKey!_error h; obtain ⟨rfl, h⟩ := h
    exact .inr ⟨_, rfl, res, hres, by rw [lookup_eq]; exact h⟩
  have hru := Units.getKey!_ok hru
  rw [bind_eq_error] at h
  rcases h with h | ⟨_, _, h⟩
  · rcases assertCooldown_error h with rfl | ⟨rfl, l, h1, h2⟩
    · trivial
    · exact ⟨_, rfl, _, t, l, hk, ht, h1, h2⟩
  rw [bind_eq_error] at h
  rcases h with h | ⟨_, _, h⟩
  · obtain ⟨h1, rfl⟩ := require_eq_error.1 h
    exact ⟨_, rfl, t, ht, .inl (by omega)⟩
  rw [bind_eq_error] at h
  rcases h with h | ⟨ag, hag, h⟩
  · obtain rfl := mulInt_error h
    trivial
  rw [bind_eq_error] at h
  rcases h with h | ⟨_, _, h⟩
  · obtain ⟨h1, rfl⟩ := require_eq_error.1 h
    refine ⟨_, rfl, t, ht, .inr (.inl ⟨res, ru, hres, by rw [lookup_eq]; exact hru, ?_⟩)⟩
    rw [part_eq, ← (mulInt_eq_ok.1 hag).2]
    simpa using h1
  rw [bind_eq_error] at h
  rcases h with h | ⟨got, hgot, h⟩
  · have hn : NoEstimate s env (.inflate d amountIn minOut) := by
      refine ⟨t, e, ht, ?_⟩
      rw [hroutes] at h ⊢
      exact h
    rcases noEst he ⟨hop, hops, hroutes⟩ (.inr h) with rfl | rfl
    · exact ⟨_, rfl, hn⟩
    · exact .inr (.inr ⟨_, rfl, hn⟩)
  have hgot : env.estOut t.routes ⟨s.config.reserveDenom, amountIn⟩ = .ok got := by
    rw [hroutes] at hgot ⊢
    exact hgot
  rw [bind_eq_error] at h
  rcases h with h | ⟨_, _, h⟩
  · obtain ⟨h1, rfl⟩ := require_eq_error.1 h
    exact ⟨_, rfl, t, ht, .inr (.inr ⟨got, hgot, by simpa using h1⟩)⟩
  rw [bind_eq_error] at h
  rcases h with h | ⟨_, _, h⟩
  · rcases ratio_error h with rfl | ⟨rfl, h0⟩
    · trivial
    · exact ⟨_, rfl, h0⟩
  rw [bind_eq_error] at h
  rcases h with h | ⟨_, _, h⟩
  · rcases ratio_error h with rfl | ⟨rfl, h0⟩
    · trivial
    · exact ⟨_, rfl, h0⟩
  rw [bind_eq_error] at h
  rcases h with h | ⟨_, _, h⟩
  · obtain rfl := Units.addKey_error h
    trivial
  rw [bind_eq_error] at h
  rcases h with h | ⟨_, _, h⟩
  · obtain rfl := Units.subKey_error hru h
    trivial
  cases h

private theorem inflateReserve_reason {s : State} {env : Env} {info : Info} {r : Rebalance} {d : Denom}
    {amountIn minOut : Nat} {e : Err} (hi : Inv s) (hr : s.rebalance = some r) (h : inflateReserve s d = .error e) :
    Reason s env info (.rebalance (.trade (.inflate d amountIn minOut))) e := by
  unfold inflateReserve at h
  obtain ⟨res, hres⟩ := hi.resSome r hr
  rw [loadReserve, hres] at h
  rw [bind_eq_error] at h
  rcases h with h | ⟨_, hx, h⟩
  · cases h
  cases hx
  rw [bind_eq_error] at h
  rcases h with h | ⟨ru, hru, h⟩
  · replace h := Units.getKey!_error h; obtain ⟨rfl, h⟩ := h
    exact .inr ⟨_, rfl, res, hres, by rw [lookup_eq]; exact h⟩
  have hru := Units.getKey!_ok hru
  rw [bind_eq_error] at h
  rcases h with h | ⟨_, _, h⟩
  · obtain rfl := mulInt_error h
    trivial
  rw [bind_eq_error] at h
  rcases h with h | ⟨_, _, h⟩
  · obtain rfl := Units.addKey_error h
    trivial
  rw [bind_eq_error] at h
  rcases h with h | ⟨_, _, h⟩
  · obtain rfl := Units.subKey_error hru h
    trivial
  cases h

private theorem trade_reason {s : State} {env : Env} {info : Info} {t : TradeMsg} {e : Err} (hi : Inv s)
    (he : Estimates env) (h : trade s env info t = .error e) : Reason s env info (.rebalance (.trade t)) e := by
  unfold trade at h
  cases hr : s.rebalance with
  | none =>
    rw [hr] at h
    cases h
    exact ⟨hr, trivial⟩
  | some r =>
    rw [hr] at h
    simp only at h
    rw [bind_eq_error] at h
    rcases h with h | ⟨_, _, h⟩
    · replace h := manager_error hr h; obtain ⟨rfl, h⟩ := h
      exact h
    cases t with
    | deflate d out maxIn =>
      simp only at h
      split at h
      · exact deflateReserve_reason hi hr h
      · rename_i hd
        exact deflate_reason hi he hr hd h
    | inflate d amountIn minOut =>
      simp only at h
      split at h
      · exact inflateReserve_reason hi hr h
      · rename_i hd
        exact inflate_reason hi he hr hd h

private theorem execute_bind {s : State} {env : Env} {info : Info} {msg : ExecMsg} : execute s env info msg =
    (if collectsFirst msg then collectStreamingFee s env.now else .ok s) >>= fun s => dispatch s env info msg := by
  unfold execute
  split <;> rfl

/-- How a message is refused. -/
def refusal (s : State) (env : Env) (info : Info) (msg : ExecMsg) : Option Err :=
  match execute s env info msg with
  | .ok _ => none
  | .error e => some e

/-- **C113 (1).** Whenever the core contract refuses a message, the kind of the error is a true statement about the
stored state, the sender, the attached coins and the message; no other kinds of errors occur. -/
theorem C113_core_reason {s : State} {env : Env} {info : Info} {msg : ExecMsg} {e : Err} (hr : Reachable s)
    (he : Estimates env) (hf : distinct info.funds) (h : execute s env info msg = .error e) :
    Reason s env info msg e := by
  have hi := hr.inv
  rw [execute_bind, bind_eq_error] at h
  rcases h with h | ⟨s1, hs, h⟩
  · split at h
    · rename_i hc
      obtain rfl := collect_error h
      cases msg with
      | mint => trivial
      | burn => trivial
      | realize => trivial
      | gov m => cases m <;> first | trivial | cases hc
      | rebalance m => cases m <;> first | trivial | cases hc
    · cases h
  cases msg with
  | mint n a b => exact mint_reason hf (by simpa [collectsFirst] using hs) h
  | burn a => exact burn_reason (by simpa [collectsFirst] using hs) h
  | realize =>
    have hs : collectStreamingFee s env.now = .ok s1 := by simpa [collectsFirst] using hs
    obtain ⟨_, _, _, _, _, _, fc, _⟩ := collectStreamingFee_frame hs
    simp only [dispatch, realizeStreamingFee] at h
    rw [bind_eq_error] at h
    rcases h with h | ⟨_, _, h⟩
    · replace h := assertSender_error h; obtain ⟨rfl, h⟩ := h
      rw [fc] at h
      exact Ne.symm h
    · split at h <;> cases h
  | gov m =>
    by_cases hm : ∃ p, m = .updateFeeStrategy p
    · obtain ⟨p, rfl⟩ := hm
      exact fee_reason (by simpa [collectsFirst] using hs) h
    · push Not at hm
      have : s1 = s := by
        cases m <;> first | exact absurd rfl (hm _) | (simp [collectsFirst] at hs; exact hs.symm)
      subst this
      exact gov_reason hm h
  | rebalance m =>
    cases m with
    | init a d i => exact init_reason (by simpa [collectsFirst] using hs) h
    | trade t =>
      have : s1 = s := by simp [collectsFirst] at hs; exact hs.symm
      subst this
      exact trade_reason hi he h
    | finalize =>
      have : s1 = s := by simp [collectsFirst] at hs; exact hs.symm
      subst this
      exact finalize_reason hi h

-- Alice mints without one of the denoms, with a denom too much, with too little of one; burns with the wrong coin; and
-- governance sends a plan without targets and an expiry in the past.
example : Reachable Demo.s0 ∧ Estimates (Demo.env 1000) ∧ distinct Demo.mintInfo.funds ∧
    refusal Demo.s0 (Demo.env 1000) ⟨"alice", [⟨"uosmo", 15000⟩]⟩ (.mint 10000 none none) = some .insufficientFunds ∧
    refusal Demo.s0 (Demo.env 1000) ⟨"alice", Demo.mintInfo.funds ++ [⟨"uion", 1⟩]⟩ (.mint 10000 none none) =
      some .generic ∧
    refusal Demo.s0 (Demo.env 1000) ⟨"alice", [⟨"uatom", 3⟩, ⟨"uosmo", 15000⟩]⟩ (.mint 10000 none none) =
      some .overflow ∧
    refusal Demo.s0 (Demo.env 1000) Demo.mintInfo (.mint 10000 (some "") none) = some .invalidAddr ∧
    refusal Demo.s0 (Demo.env 1000) Demo.mintInfo (.burn none) = some .payment ∧
    refusal Demo.s0 (Demo.env 1000) ⟨"gov", []⟩ (.rebalance (.init none [] [])) = some .invalid ∧
    refusal Demo.s0 (Demo.env 1000) ⟨"gov", []⟩ (.gov (.pause (some 1000))) = some .invalid := by
  refine ⟨Demo.s0_reachable, ?_, by unfold distinct; decide, ?_⟩
  · intro rs c e h
    simp [Demo.env] at h
  · decide +kernel

private theorem gov_denied {s : State} {a : Addr} (h : a ≠ s.config.gov) :
    s.config.checkGov a = .error .unauthorized := require_eq_error.2 ⟨Ne.symm h, rfl⟩

private theorem gov_granted {s : State} {a : Addr} (h : a = s.config.gov) : s.config.checkGov a = .ok () :=
  require_eq_ok.2 h.symm

/-- The state that a message is applied to: the stored one, after the accrual of the streaming fee for messages that
start with it. -/
private theorem execute_from {s : State} {env : Env} {info : Info} {msg : ExecMsg}
    (ha : Accrues msg → ∃ s1, collectStreamingFee s env.now = .ok s1) :
    ∃ s1, execute s env info msg = dispatch s1 env info msg ∧ s1.config = s.config ∧ s1.pendingGov = s.pendingGov ∧
      s1.rebalance = s.rebalance ∧ s1.fee.collector = s.fee.collector := by
  rw [execute_bind]
  by_cases hc : collectsFirst msg = true
  · have : Accrues msg := by
      cases msg with
      | mint => trivial
      | burn => trivial
      | realize => trivial
      | gov m => cases m <;> first | trivial | cases hc
      | rebalance m => cases m <;> first | trivial | cases hc
    obtain ⟨s1, h1⟩ := ha this
    obtain ⟨f1, f2, _, f3, _, _, f4, _⟩ := collectStreamingFee_frame h1
    exact ⟨s1, by rw [if_pos hc, h1]; rfl, f1, f2, f3, f4⟩
  · exact ⟨s, by rw [if_neg hc]; rfl, rfl, rfl, rfl, rfl⟩

/-- **C113 (2).** The other way round: an account that is not entitled to the message is told so; an entitled one is
told when a pause, a running rebalance, a missing rebalance or a missing pause is in the way, and accepting or
revoking without a nomination is answered as such.  (When the accrual of the streaming fee itself does not fit, every
message that starts with it fails as an overflow.) -/
theorem C113_core_named {s : State} {env : Env} {info : Info} {msg : ExecMsg} :
    (Accrues msg → (∀ s1, collectStreamingFee s env.now ≠ .ok s1) → execute s env info msg = .error .overflow) ∧
    ((Accrues msg → ∃ s1, collectStreamingFee s env.now = .ok s1) →
      (msg = .gov .acceptGov ∨ msg = .gov .revokeGov → s.pendingGov = none →
        execute s env info msg = .error .notFound) ∧
      (¬ Entitled s info.sender msg → (msg = .gov .acceptGov ∨ msg = .gov .revokeGov → s.pendingGov ≠ none) →
        execute s env info msg = .error .unauthorized) ∧
      (Entitled s info.sender msg → NeedsRunning msg → pausedAt s env.now →
        execute s env info msg = .error .paused) ∧
      (Entitled s info.sender msg → NeedsQuiet msg → s.rebalance ≠ none →
        (NeedsRunning msg → ¬ pausedAt s env.now) → execute s env info msg = .error .onRebalancing) ∧
      (Entitled s info.sender msg → NeedsRebalance msg → s.rebalance = none →
        execute s env info msg = .error .notOnRebalancing) ∧
      (Entitled s info.sender msg → msg = .gov .release → ¬ pausedAt s env.now →
        execute s env info msg = .error .notPaused)) := by
  constructor
  · intro ha hc
    have h1 : collectStreamingFee s env.now = .error .overflow := by
      cases h : collectStreamingFee s env.now with
      | ok s1 => exact absurd h (hc s1)
      | error e => rw [collect_error h]
    have h2 : collectsFirst msg = true := by
      cases msg with
      | mint => rfl
      | burn => rfl
      | realize => rfl
      | gov m => cases m <;> first | rfl | cases ha
      | rebalance m => cases m <;> first | rfl | cases ha
    rw [execute_bind, if_pos h2, h1]
    rfl
  intro ha
  obtain ⟨s1, hx, fc, fp, fr, ff⟩ := execute_from (info := info) ha
  rw [hx]
  have paused : ∀ t, pausedAt s1 t ↔ pausedAt s t := fun t => by simp only [pausedAt, fc]
  have notPaused : ¬ pausedAt s env.now → s1.config.assertNotPaused env.now = .ok () := fun h =>
    require_eq_ok.2 (not_pausedAt_iff.2 (fun h' => h ((paused _).1 h')))
  have isPaused : pausedAt s env.now → s1.config.assertNotPaused env.now = .error .paused := fun h =>
    require_eq_error.2 ⟨by rw [not_pausedAt_iff]; exact not_not.2 ((paused _).2 h), rfl⟩
  have busy : s.rebalance ≠ none → require (s1.rebalance = none) .onRebalancing = .error .onRebalancing := fun h =>
    require_eq_error.2 ⟨fr ▸ h, rfl⟩
  have denied : info.sender ≠ s.config.gov → s1.config.checkGov info.sender = .error .unauthorized := fun h =>
    gov_denied (fc ▸ h)
  have granted : info.sender = s.config.gov → s1.config.checkGov info.sender = .ok () := fun h =>
    gov_granted (fc ▸ h)
  refine ⟨?_, ?_, ?_, ?_, ?_, ?_⟩
  · rintro (rfl | rfl) h <;> rw [← fp] at h <;> simp only [dispatch, handleGov, acceptGov, revokeGov, h]
  · intro hn hp
    cases msg with
    | mint => exact absurd trivial hn
    | burn => exact absurd trivial hn
    | realize =>
      have : assertSender s1.fee.collector info.sender = .error .unauthorized :=
        require_eq_error.2 ⟨by rw [ff]; exact Ne.symm hn, rfl⟩
      simp only [dispatch, realizeStreamingFee, this]
      rfl
    | gov m =>
      cases m with
      | acceptGov =>
        cases hg : s.pendingGov with
        | none => exact absurd hg (hp (.inl rfl))
        | some g =>
          have : assertSender g info.sender = .error .unauthorized := by
            refine require_eq_error.2 ⟨fun h => hn ?_, rfl⟩
            rw [Entitled, hg, h]
          simp only [dispatch, handleGov, acceptGov, fp, hg, this]
          rfl
      | revokeGov =>
        cases hg : s.pendingGov with
        | none => exact absurd hg (hp (.inr rfl))
        | some g =>
          simp only [dispatch, handleGov, revokeGov, fp, hg, denied hn]
          rfl
      | pause => simp only [dispatch, handleGov, pause, denied hn]; rfl
      | release => simp only [dispatch, handleGov, release, denied hn]; rfl
      | updateGov => simp only [dispatch, handleGov, updateGov, denied hn]; rfl
      | updateFeeStrategy => simp only [dispatch, handleGov, updateFee, denied hn]; rfl
      | updateRebalanceManager => simp only [dispatch, handleGov, updateRebalanceManager, denied hn]; rfl
      | updateReserveDenom => simp only [dispatch, handleGov, updateReserveDenom, denied hn]; rfl
      | updateTradeInfo => simp only [dispatch, handleGov, updateTradeInfo, denied hn]; rfl
    | rebalance m =>
      have mgr : (¬ ∀ r m, s.rebalance = some r → r.manager = some m → info.sender = m) →
          ∃ r, s1.rebalance = some r ∧ checkManager r info.sender = .error .unauthorized := by
        intro h
        push Not at h
        obtain ⟨r, m, h1, h2, h3⟩ := h
        refine ⟨r, fr ▸ h1, ?_⟩
        rw [checkManager, h2]
        exact require_eq_error.2 ⟨Ne.symm h3, rfl⟩
      cases m with
      | init =>
        have h : (freezeStreamingFee s1).config.checkGov info.sender = .error .unauthorized := denied hn
        simp only [dispatch, handleRebalance, Core.init, h]
        rfl
      | trade t =>
        obtain ⟨r, h1, h2⟩ := mgr hn
        simp only [dispatch, handleRebalance, trade, h1, h2]
        rfl
      | finalize =>
        obtain ⟨r, h1, h2⟩ := mgr hn
        simp only [dispatch, handleRebalance, finalize, unfreezeStreamingFee, h1, h2]
        rfl
  · intro he hr hp
    cases msg with
    | mint => simp only [dispatch, mint, isPaused hp]; rfl
    | burn => simp only [dispatch, burn, isPaused hp]; rfl
    | realize => cases hr
    | gov m =>
      cases m <;> first | cases hr | skip
      simp only [dispatch, handleGov, pause, isPaused hp, granted he]
      rfl
    | rebalance m => cases hr
  · intro he hq hb hp
    cases msg with
    | mint => simp only [dispatch, mint, notPaused (hp trivial), busy hb]; rfl
    | burn => simp only [dispatch, burn, notPaused (hp trivial), busy hb]; rfl
    | realize => cases hq
    | gov m =>
      cases m <;> first | cases hq | skip
      · simp only [dispatch, handleGov, updateFee, granted he, busy hb]; rfl
      · simp only [dispatch, handleGov, updateReserveDenom, granted he, busy hb]; rfl
    | rebalance m =>
      cases m <;> first | cases hq | skip
      have h : (freezeStreamingFee s1).config.checkGov info.sender = .ok () := granted he
      have h' : require ((freezeStreamingFee s1).rebalance = none) .onRebalancing = .error .onRebalancing := busy hb
      simp only [dispatch, handleRebalance, Core.init, h, h']
      rfl
  · intro he hq hb
    rw [← fr] at hb
    cases msg with
    | mint => cases hq
    | burn => cases hq
    | realize => cases hq
    | gov m =>
      cases m <;> first | cases hq | skip
      simp only [dispatch, handleGov, updateRebalanceManager, granted he, hb]
      rfl
    | rebalance m =>
      cases m <;> first | cases hq | skip
      · simp only [dispatch, handleRebalance, trade, hb]
      · simp only [dispatch, handleRebalance, finalize, unfreezeStreamingFee, hb]
  · rintro he rfl hp
    have h : s1.config.assertPaused env.now = .error .notPaused :=
      require_eq_error.2 ⟨by rw [pausedAt_iff, paused]; exact hp, rfl⟩
    simp only [dispatch, handleGov, release, granted he, h]
    rfl

-- Strangers, a pause, no rebalance, no pause, no nomination.
example : refusal Demo.s0 (Demo.env 1000) ⟨"alice", []⟩ (.gov .release) = some .unauthorized ∧
    refusal Demo.s0 (Demo.env 1000) ⟨"alice", []⟩ .realize = some .unauthorized ∧
    refusal { Demo.s0 with config := { Demo.s0.config with paused := ⟨true, some 2000⟩ } } (Demo.env 1000)
      Demo.mintInfo (.mint 10000 none none) = some .paused ∧
    refusal { Demo.s0 with rebalance := some ⟨none, [], []⟩ } (Demo.env 1000) Demo.mintInfo (.burn none) =
      some .onRebalancing ∧
    refusal Demo.s0 (Demo.env 1000) ⟨"alice", []⟩ (.rebalance .finalize) = some .notOnRebalancing ∧
    refusal Demo.s0 (Demo.env 1000) ⟨"gov", []⟩ (.gov .release) = some .notPaused ∧
    refusal Demo.s0 (Demo.env 1000) ⟨"gov", []⟩ (.gov .revokeGov) = some .notFound := by
  decide +kernel

end Ibcx.Props
