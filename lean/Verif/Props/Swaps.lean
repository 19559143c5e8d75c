import Verif.Props.Trades
/-!
# Properties C24-C26: swap messages of trades
-/

namespace Ibcx.Props
open Ibcx Ibcx.Core Ibcx.Spec

/-- Only `UpdateTradeInfo` and trades change the stored trade routes. -/
theorem infos_kept {s s' : State} {env : Env} {info : Info} {msg : ExecMsg} {ms : List Msg}
    (h : execute s env info msg = .ok (s', ms)) :
    match msg with
    | .gov (.updateTradeInfo d rs c m) => ∃ r rs', rs = r :: rs' ∧
        s'.tradeInfos = s.tradeInfos.set (d, r.tokenDenom) ⟨rs, c, m, none⟩
    | .rebalance (.trade _) => True
    | _ => s'.tradeInfos = s.tradeInfos := by
  obtain ⟨s1, h1, h2⟩ := execute_eq_ok.1 h
  cases msg with
  | mint a r f =>
    obtain ⟨_, _, _, _, _, f6, _⟩ := collectStreamingFee_frame h1
    obtain ⟨_, _, _, _, _, _, _, rfl, _⟩ := mint_eq_ok.1 h2
    exact f6
  | burn r =>
    obtain ⟨_, _, _, _, _, f6, _⟩ := collectStreamingFee_frame h1
    obtain ⟨_, _, _, _, _, _, _, _, _, _, _, _, _, _, rfl, _⟩ := burn_eq_ok.1 h2
    exact f6
  | realize =>
    obtain ⟨_, _, _, _, _, f6, _⟩ := collectStreamingFee_frame h1
    obtain ⟨_, h⟩ := realize_eq_ok.1 h2
    rcases h with ⟨_, rfl, _⟩ | ⟨sf, hsf, rfl, _⟩ <;> exact f6
  | gov m =>
    cases m with
    | updateFeeStrategy p =>
      obtain ⟨_, _, _, _, _, f6, _⟩ := collectStreamingFee_frame h1
      obtain ⟨_, _, _, _, _, _, rfl, _⟩ := updateFee_eq_ok.1 h2
      exact f6
    | pause e => simp [collectsFirst] at h1; subst h1; obtain ⟨a, b, c, rfl, _⟩ := pause_eq_ok.1 h2; rfl
    | release => simp [collectsFirst] at h1; subst h1; obtain ⟨a, b, rfl, _⟩ := release_eq_ok.1 h2; rfl
    | updateGov g => simp [collectsFirst] at h1; subst h1; obtain ⟨a, b, _, rfl, _⟩ := updateGov_eq_ok.1 h2; rfl
    | acceptGov => simp [collectsFirst] at h1; subst h1; obtain ⟨a, rfl, _⟩ := acceptGov_eq_ok.1 h2; rfl
    | revokeGov => simp [collectsFirst] at h1; subst h1; obtain ⟨_, a, rfl, _⟩ := revokeGov_eq_ok.1 h2; rfl
    | updateRebalanceManager m =>
      simp [collectsFirst] at h1; subst h1
      obtain ⟨_, _, ⟨r, hr, rfl⟩, _⟩ := updateRebalanceManager_eq_ok.1 h2; rfl
    | updateReserveDenom d =>
      simp [collectsFirst] at h1; subst h1
      obtain ⟨a, b, rfl, _⟩ := updateReserveDenom_eq_ok.1 h2; rfl
    | updateTradeInfo d rs c m =>
      simp [collectsFirst] at h1; subst h1
      obtain ⟨_, ⟨r, rs', hrs, rfl⟩, _⟩ := updateTradeInfo_eq_ok.1 h2
      exact ⟨r, rs', hrs, rfl⟩
  | rebalance m =>
    cases m with
    | init m de inf =>
      obtain ⟨_, _, _, _, _, f6, _⟩ := collectStreamingFee_frame h1
      obtain ⟨_, _, _, _, _, _, _, rfl, _⟩ := init_eq_ok.1 h2
      exact f6
    | trade m => trivial
    | finalize =>
      simp [collectsFirst] at h1; subst h1
      obtain ⟨r, res, _, _, _, _, _, rfl, _⟩ := finalize_eq_ok.1 h2
      rfl

/-- The pair of denoms whose stored route a message would swap over: sold denom and bought denom.
Trades of the reserve denom itself only move bookkeeping entries and swap nothing. -/
def swapPair (s : State) : ExecMsg → Option (Denom × Denom)
  | .rebalance (.trade (.deflate d _ _)) =>
    if d = s.config.reserveDenom then none else some (d, s.config.reserveDenom)
  | .rebalance (.trade (.inflate d _ _)) =>
    if d = s.config.reserveDenom then none else some (s.config.reserveDenom, d)
  | _ => none

/-- The message rewrites the route stored for pair `k`. -/
def Rewrites (k : Denom × Denom) (msg : ExecMsg) : Prop :=
  ∃ d r rs c m, msg = .gov (.updateTradeInfo d (r :: rs) c m) ∧ (d, r.tokenDenom) = k

/-- What an accepted trade does to the stored route of its pair and to others. -/
theorem trade_pair {s s' : State} {env : Env} {info : Info} {m : TradeMsg} {ms : List Msg}
    (h : execute s env info (.rebalance (.trade m)) = .ok (s', ms)) :
    (swapPair s (.rebalance (.trade m)) = none ∧ s'.tradeInfos = s.tradeInfos ∧ ms = []) ∨
    ∃ k t, swapPair s (.rebalance (.trade m)) = some k ∧ s.tradeInfos.get k = some t ∧
      (∀ l, t.lastTradedAt = some l → l + t.cooldown ≤ env.now) ∧
      s'.tradeInfos = s.tradeInfos.set k { t with lastTradedAt := some env.now } := by
  obtain ⟨r, _, _, h⟩ := trade_eq_ok.1 (execute_trade.1 h)
  rcases h with ⟨d, _, _, rfl, e, h⟩ | ⟨d, _, _, rfl, e, h⟩ | ⟨d, _, _, rfl, e, h⟩ | ⟨d, _, _, rfl, e, h⟩
  · obtain ⟨_, _, _, _, _, _, _, _, _, _, _, _, rfl, rfl⟩ := deflateReserve_eq_ok.1 h
    exact .inl ⟨by simp [swapPair, e], rfl, rfl⟩
  · obtain ⟨t, _, _, _, _, _, _, ht, _, _, _, hc, _, _, _, _, _, _, _, _, _, _, _, _, rfl, _⟩ := deflate_eq_ok.1 h
    exact .inr ⟨_, t, by simp only [swapPair]; rw [if_neg (fun x => e x.symm)], ht, fun l hl => (hc l hl).2, rfl⟩
  · obtain ⟨_, _, _, _, _, _, _, _, _, rfl, rfl⟩ := inflateReserve_eq_ok.1 h
    exact .inl ⟨by simp [swapPair, e], rfl, rfl⟩
  · obtain ⟨t, _, _, _, _, _, ht, _, _, hc, _, _, _, _, _, _, _, _, _, _, _, rfl, _⟩ := inflate_eq_ok.1 h
    exact .inr ⟨_, t, by simp only [swapPair]; rw [if_neg (fun x => e x.symm)], ht, fun l hl => (hc l hl).2, rfl⟩

/-! ### C24 -/

/-- Governance stores one-hop routes for selling uatom and for buying uion, both with cooldown 60 and maximum
1000, and starts a rebalance from uatom to uion. -/
def swapHistory : List Call :=
  [⟨Demo.env 1000, ⟨"gov", []⟩, .gov (.updateTradeInfo "uatom" [⟨1, "uosmo"⟩] 60 1000)⟩,
   ⟨Demo.env 1000, ⟨"gov", []⟩, .gov (.updateTradeInfo "uosmo" [⟨2, "uion"⟩] 60 1000)⟩,
   ⟨Demo.env 1000, ⟨"gov", []⟩,
    .rebalance (.init none [("uatom", 50000000000000000)] [("uion", 1000000000000000000)])⟩]

/-- A deflation and an inflation over these routes. -/
def sellAtom (t : Nat) : Call := ⟨Demo.env t, ⟨"bob", []⟩, .rebalance (.trade (.deflate "uatom" 900 1000))⟩
def buyIon (t : Nat) : Call := ⟨Demo.env t, ⟨"bob", []⟩, .rebalance (.trade (.inflate "uion" 500 400))⟩

/-- **C24 (deflation limits).** An accepted deflation of a denom other than the reserve denom buys at most the
maximum stored for the pair; the most it allows the swap to cost is the market's estimate, which is within
the sender's limit and within the open gap; nothing else is sent. -/
theorem C24_deflate_limits {s s' : State} {env : Env} {info : Info} {d : Denom} {out maxIn : Nat} {ms : List Msg}
    (hd : d ≠ s.config.reserveDenom)
    (h : execute s env info (.rebalance (.trade (.deflate d out maxIn))) = .ok (s', ms)) :
    ∃ t r target cur cost, s.tradeInfos.get (d, s.config.reserveDenom) = some t ∧ s.rebalance = some r ∧
      r.deflation.lookup d = some target ∧ s.indexUnits.lookup d = some cur ∧
      out ≤ t.maxTradeAmount ∧ cost ≤ maxIn ∧ target ≤ cur ∧
      cost * 1000000000000000000 ≤ (cur - target) * s.totalSupply ∧
      env.estIn t.routes ⟨s.config.reserveDenom, out⟩ = .ok cost ∧
      ms = [.swapExactOut env.contract t.routes ⟨s.config.reserveDenom, out⟩ cost] := by
  obtain ⟨r, hr, _, h⟩ := trade_eq_ok.1 (execute_trade.1 h)
  rcases h with ⟨d', _, _, e, hd', _⟩ | ⟨d', _, _, e, _, h⟩ | ⟨d', _, _, e, _⟩ | ⟨d', _, _, e, _⟩ <;> cases e
  · exact absurd hd'.symm hd
  · obtain ⟨t, res, target, cur, cost, _, _, h1, _, h3, h4, _, h6, h7, _, _, h9, h10, h11, _, _, _, _, _, _, h12⟩ :=
      deflate_eq_ok.1 h
    refine ⟨t, r, target, cur, cost, h1, hr, by rw [lookup_eq]; exact h3, by rw [lookup_eq]; exact h4, h6, h11, h7,
      ?_, h9, h12⟩
    rw [ONE_eq] at h10
    exact (Nat.mul_le_mul_right _ h10).trans (Nat.div_mul_le_self _ _)

/-- A sale of 900 uosmo worth of uatom. -/
example : "uatom" ≠ (run Demo.s1 swapHistory).1.config.reserveDenom ∧
    (execute (run Demo.s1 swapHistory).1 (sellAtom 2000).env (sellAtom 2000).info (sellAtom 2000).msg).map (·.2) =
      .ok [.swapExactOut "core" [⟨1, "uosmo"⟩] ⟨"uosmo", 900⟩ 901] ∧
    ¬ accepted (run Demo.s1 swapHistory).1
      ⟨Demo.env 2000, ⟨"bob", []⟩, .rebalance (.trade (.deflate "uatom" 1001 2000))⟩ :=
  ⟨by decide +kernel, by decide +kernel, by decide +kernel⟩

/-- **C24 (inflation limits).** An accepted inflation of a denom other than the reserve denom sells at most the
maximum stored for the pair and at most what the reserve holds for the denom; the least it accepts in return
is the market's estimate, which is within the sender's limit; nothing else is sent. -/
theorem C24_inflate_limits {s s' : State} {env : Env} {info : Info} {d : Denom} {amtIn minOut : Nat} {ms : List Msg}
    (hd : d ≠ s.config.reserveDenom)
    (h : execute s env info (.rebalance (.trade (.inflate d amtIn minOut))) = .ok (s', ms)) :
    ∃ t res unit bought, s.tradeInfos.get (s.config.reserveDenom, d) = some t ∧
      s.reserveUnits = some res ∧ res.lookup d = some unit ∧
      amtIn ≤ t.maxTradeAmount ∧ minOut ≤ bought ∧
      amtIn * 1000000000000000000 ≤ unit * s.totalSupply ∧
      env.estOut t.routes ⟨s.config.reserveDenom, amtIn⟩ = .ok bought ∧
      ms = [.swapExactIn env.contract t.routes ⟨s.config.reserveDenom, amtIn⟩ bought] := by
  obtain ⟨r, hr, _, h⟩ := trade_eq_ok.1 (execute_trade.1 h)
  rcases h with ⟨d', _, _, e, _⟩ | ⟨d', _, _, e, _⟩ | ⟨d', _, _, e, hd', _⟩ | ⟨d', _, _, e, _, h⟩ <;> cases e
  · exact absurd hd'.symm hd
  · obtain ⟨t, res, unit, bought, _, _, h1, h2, h3, _, h5, _, h7, _, h9, h10, _, _, _, _, _, _, h12⟩ :=
      inflate_eq_ok.1 h
    refine ⟨t, res, unit, bought, h1, h2, by rw [lookup_eq]; exact h3, h5, h10, ?_, h9, h12⟩
    rw [ONE_eq] at h7
    exact (Nat.mul_le_mul_right _ h7).trans (Nat.div_mul_le_self _ _)

/-- After this sale a purchase of uion for 500 uosmo. -/
example : "uion" ≠ (run Demo.s1 (swapHistory ++ [sellAtom 2000])).1.config.reserveDenom ∧
    (execute (run Demo.s1 (swapHistory ++ [sellAtom 2000])).1 (buyIon 2030).env (buyIon 2030).info (buyIon 2030).msg).map
      (·.2) = .ok [.swapExactIn "core" [⟨2, "uion"⟩] ⟨"uosmo", 500⟩ 499] ∧
    ¬ accepted (run Demo.s1 (swapHistory ++ [sellAtom 2000])).1
      ⟨Demo.env 2030, ⟨"bob", []⟩, .rebalance (.trade (.inflate "uion" 901 400))⟩ :=
  ⟨by decide +kernel, by decide +kernel, by decide +kernel⟩

/-- **C24 (cooldown).** Two accepted swaps over the same stored pair, with anything in between except an accepted
rewrite of that pair, are at least the stored cooldown apart. -/
theorem C24_cooldown {s s1 : State} {c1 c2 : Call} {ms : List Msg} {cs : List Call} {k : Denom × Denom}
    (hr : Reachable s) (h1 : execute s c1.env c1.info c1.msg = .ok (s1, ms)) (hk1 : swapPair s c1.msg = some k)
    (hno : NoneAccepted (Rewrites k) s1 cs)
    (h2 : accepted (run s1 cs).1 c2) (hk2 : swapPair (run s1 cs).1 c2.msg = some k) :
    ∃ t, s.tradeInfos.get k = some t ∧ c1.env.now + t.cooldown ≤ c2.env.now := by
  have isTrade : ∀ {s : State} {msg : ExecMsg}, swapPair s msg = some k → ∃ m, msg = .rebalance (.trade m) := by
    intro s msg h
    unfold swapPair at h
    split at h
    · exact ⟨_, rfl⟩
    · exact ⟨_, rfl⟩
    · cases h
  obtain ⟨m1, hm1⟩ := isTrade hk1
  rw [hm1] at hk1
  rcases trade_pair (m := m1) (by rw [← hm1]; exact h1) with ⟨hn, _⟩ | ⟨k', t, hk', ht, _, hs1⟩
  · rw [hk1] at hn; cases hn
  rw [hk1] at hk'; cases hk'
  refine ⟨t, ht, ?_⟩
  have inv := run_induct
    (I := fun s2 => ∃ t2 l, s2.tradeInfos.get k = some t2 ∧ t2.cooldown = t.cooldown ∧ t2.lastTradedAt = some l ∧
      c1.env.now ≤ l)
    (T := fun _ => True) (Q := Rewrites k) (cs := cs)
    (by
      rintro s2 s3 ⟨env, info, msg⟩ ms2 hr2 ⟨t2, l, g1, g2, g3, g4⟩ - hq hx
      simp only at hx hq
      by_cases htr : ∃ m, msg = .rebalance (.trade m)
      · obtain ⟨m, rfl⟩ := htr
        rcases trade_pair hx with ⟨_, he, _⟩ | ⟨k2, t3, _, g5, g6, g7⟩
        · exact ⟨t2, l, by rw [he]; exact g1, g2, g3, g4⟩
        · by_cases e : k = k2
          · subst e
            rw [g1] at g5; cases g5
            refine ⟨{ t2 with lastTradedAt := some env.now }, env.now, by rw [g7, KV.get_set, if_pos rfl], g2, rfl, ?_⟩
            have := g6 l g3
            omega
          · refine ⟨t2, l, by rw [g7, KV.get_set, if_neg (Ne.symm e)]; exact g1, g2, g3, g4⟩
      · have hk := infos_kept hx
        split at hk
        · rename_i d rs c m _
          obtain ⟨r, rs', rfl, hk⟩ := hk
          have e : k ≠ (d, r.tokenDenom) := by
            rintro rfl
            exact hq ⟨d, r, rs', c, m, rfl, rfl⟩
          exact ⟨t2, l, by rw [hk, KV.get_set, if_neg (Ne.symm e)]; exact g1, g2, g3, g4⟩
        · exact absurd ⟨_, rfl⟩ htr
        · exact ⟨t2, l, by rw [hk]; exact g1, g2, g3, g4⟩)
    (hr.execute h1) ⟨{ t with lastTradedAt := some c1.env.now }, c1.env.now, by rw [hs1, KV.get_set, if_pos rfl], rfl, rfl, le_refl _⟩
    (fun _ _ => trivial) hno
  obtain ⟨t2, l, g1, g2, g3, g4⟩ := inv
  obtain ⟨s3, ms3, hx⟩ := h2
  obtain ⟨m2, hm2⟩ := isTrade hk2
  rw [hm2] at hk2
  rcases trade_pair (m := m2) (by rw [← hm2]; exact hx) with ⟨hn, _⟩ | ⟨k', t', hk', ht', hc, _⟩
  · rw [hk2] at hn; cases hn
  · rw [hk2] at hk'; cases hk'
    rw [g1] at ht'; cases ht'
    have := hc l g3
    omega

/-- Both swaps are accepted; the next sale only when 60 seconds have passed. -/
example : Reachable (run Demo.s1 swapHistory).1 ∧
    (execute (run Demo.s1 swapHistory).1 (sellAtom 2000).env (sellAtom 2000).info (sellAtom 2000).msg).map (·.2) =
      .ok [.swapExactOut "core" [⟨1, "uosmo"⟩] ⟨"uosmo", 900⟩ 901] ∧
    swapPair (run Demo.s1 swapHistory).1 (sellAtom 2000).msg = some ("uatom", "uosmo") ∧
    (execute (run Demo.s1 (swapHistory ++ [sellAtom 2000])).1 (buyIon 2030).env (buyIon 2030).info (buyIon 2030).msg).map
      (·.2) = .ok [.swapExactIn "core" [⟨2, "uion"⟩] ⟨"uosmo", 500⟩ 499] ∧
    ¬ accepted (run Demo.s1 (swapHistory ++ [sellAtom 2000, buyIon 2030])).1 (sellAtom 2059) ∧
    accepted (run Demo.s1 (swapHistory ++ [sellAtom 2000, buyIon 2030])).1 (sellAtom 2060) :=
  ⟨Demo.s1_reachable.run _, by decide +kernel, by decide +kernel, by decide +kernel, by decide +kernel,
   by decide +kernel⟩

/-! ### C25 -/

/-- The denom an exact-amount-out swap sells: the input denom of its first hop
(`SwapAmountOutRoute.token_in_denom`). -/
def sold (routes : List SwapRoute) : Option Denom := routes.head?.map (·.tokenDenom)

/-- The denom an exact-amount-in swap buys: the output denom of its last hop
(`SwapAmountInRoute.token_out_denom`). -/
def bought (routes : List SwapRoute) : Option Denom := routes.getLast?.map (·.tokenDenom)

/-- The full claim C25: the swap of `Deflate{d}` sells `d`. -/
def C25_full : Prop :=
  ∀ (s s' : State) (env : Env) (info : Info) (d : Denom) (out maxIn : Nat) (ms : List Msg), Reachable s →
    execute s env info (.rebalance (.trade (.deflate d out maxIn))) = .ok (s', ms) →
    ∀ a routes c x, .swapExactOut a routes c x ∈ ms → sold routes = some d

/-- **C25, partial.** What holds instead: in every reachable state every swap sent by `Deflate` starts from the
reserve denom, which is not the deflated denom.  (The missing part, that the deflated denom is sold, is false:
`C25_full_false`.) -/
theorem C25_deflate_sells_reserve_partial {s s' : State} {env : Env} {info : Info} {d : Denom} {out maxIn : Nat}
    {ms : List Msg} (hr : Reachable s)
    (h : execute s env info (.rebalance (.trade (.deflate d out maxIn))) = .ok (s', ms))
    {a : Addr} {routes : List SwapRoute} {c : Coin} {x : Nat} (hm : .swapExactOut a routes c x ∈ ms) :
    sold routes = some s.config.reserveDenom ∧ d ≠ s.config.reserveDenom ∧
    c = ⟨s.config.reserveDenom, out⟩ := by
  by_cases hd : d = s.config.reserveDenom
  · rcases trade_pair h with ⟨_, _, rfl⟩ | ⟨k, t, hk, _⟩
    · cases hm
    · simp [swapPair, hd] at hk
  · obtain ⟨t, r, target, cur, cost, h1, _, _, _, _, _, _, _, _, rfl⟩ := C24_deflate_limits hd h
    obtain ⟨r, rs, h2, h3⟩ := hr.inv.routes _ _ _ h1
    simp only [List.mem_singleton, Msg.swapExactOut.injEq] at hm
    obtain ⟨_, rfl, rfl, _⟩ := hm
    exact ⟨by simp [sold, h2, h3], hd, rfl⟩

example : Reachable (run Demo.s1 swapHistory).1 ∧
    (execute (run Demo.s1 swapHistory).1 (sellAtom 2000).env (sellAtom 2000).info (sellAtom 2000).msg).map (·.2) =
      .ok [.swapExactOut "core" [⟨1, "uosmo"⟩] ⟨"uosmo", 900⟩ 901] :=
  ⟨Demo.s1_reachable.run _, by decide +kernel⟩

theorem C25_full_false : ¬ C25_full := by
  intro h
  have hx : (execute (run Demo.s1 swapHistory).1 (sellAtom 2000).env (sellAtom 2000).info (sellAtom 2000).msg).map (·.2) =
      .ok [.swapExactOut "core" [⟨1, "uosmo"⟩] ⟨"uosmo", 900⟩ 901] := by decide +kernel
  cases hy : execute (run Demo.s1 swapHistory).1 (sellAtom 2000).env (sellAtom 2000).info (sellAtom 2000).msg with
  | error e => rw [hy] at hx; cases hx
  | ok o =>
    rw [hy] at hx
    simp only [Except.map, Except.ok.injEq] at hx
    have := h _ o.1 _ _ "uatom" 900 1000 o.2 (Demo.s1_reachable.run swapHistory) hy "core" [⟨1, "uosmo"⟩]
      ⟨"uosmo", 900⟩ 901 (by rw [hx]; simp)
    revert this; decide

/-! ### C26 -/

/-- The full claim C26: the swap of `Inflate{d}` buys `d`. -/
def C26_full : Prop :=
  ∀ (s s' : State) (env : Env) (info : Info) (d : Denom) (amtIn minOut : Nat) (ms : List Msg), Reachable s →
    execute s env info (.rebalance (.trade (.inflate d amtIn minOut))) = .ok (s', ms) →
    ∀ a routes c x, .swapExactIn a routes c x ∈ ms → bought routes = some d

/-- **C26, partial.** In every reachable state every swap sent by `Inflate{d}` spends the reserve denom and its
first hop ends in `d`; so it buys `d` if the route has one hop.  (For longer routes the claim is false:
`C26_full_false`.) -/
theorem C26_inflate_first_hop_partial {s s' : State} {env : Env} {info : Info} {d : Denom} {amtIn minOut : Nat}
    {ms : List Msg} (hr : Reachable s)
    (h : execute s env info (.rebalance (.trade (.inflate d amtIn minOut))) = .ok (s', ms))
    {a : Addr} {routes : List SwapRoute} {c : Coin} {x : Nat} (hm : .swapExactIn a routes c x ∈ ms) :
    (∃ r rs, routes = r :: rs ∧ r.tokenDenom = d) ∧ c = ⟨s.config.reserveDenom, amtIn⟩ ∧
    (routes.length = 1 → bought routes = some d) := by
  by_cases hd : d = s.config.reserveDenom
  · rcases trade_pair h with ⟨_, _, rfl⟩ | ⟨k, t, hk, _⟩
    · cases hm
    · simp [swapPair, hd] at hk
  · obtain ⟨t, res, unit, b, h1, _, _, _, _, _, _, rfl⟩ := C24_inflate_limits hd h
    obtain ⟨r, rs, h2, h3⟩ := hr.inv.routes _ _ _ h1
    simp only [List.mem_singleton, Msg.swapExactIn.injEq] at hm
    obtain ⟨_, rfl, rfl, _⟩ := hm
    refine ⟨⟨r, rs, h2, h3⟩, rfl, ?_⟩
    intro hl
    rw [h2] at hl ⊢
    simp at hl
    subst hl
    simp [bought, h3]

/-- As `swapHistory`, but uion is to be bought over a route uosmo → uion → ujuno, stored under uion. -/
def longHistory : List Call :=
  [⟨Demo.env 1000, ⟨"gov", []⟩, .gov (.updateTradeInfo "uatom" [⟨1, "uosmo"⟩] 60 1000)⟩,
   ⟨Demo.env 1000, ⟨"gov", []⟩, .gov (.updateTradeInfo "uosmo" [⟨7, "uion"⟩, ⟨8, "ujuno"⟩] 60 1000)⟩,
   ⟨Demo.env 1000, ⟨"gov", []⟩,
    .rebalance (.init none [("uatom", 50000000000000000)] [("uion", 1000000000000000000)])⟩,
   sellAtom 2000]

theorem longHistory_buy : (execute (run Demo.s1 longHistory).1 (buyIon 2030).env (buyIon 2030).info (buyIon 2030).msg).map
    (·.2) = .ok [.swapExactIn "core" [⟨7, "uion"⟩, ⟨8, "ujuno"⟩] ⟨"uosmo", 500⟩ 499] := by decide +kernel

example : Reachable (run Demo.s1 (swapHistory ++ [sellAtom 2000])).1 ∧
    (execute (run Demo.s1 (swapHistory ++ [sellAtom 2000])).1 (buyIon 2030).env (buyIon 2030).info (buyIon 2030).msg).map
      (·.2) = .ok [.swapExactIn "core" [⟨2, "uion"⟩] ⟨"uosmo", 500⟩ 499] :=
  ⟨Demo.s1_reachable.run _, by decide +kernel⟩

theorem C26_full_false : ¬ C26_full := by
  intro h
  have hx := longHistory_buy
  cases hy : execute (run Demo.s1 longHistory).1 (buyIon 2030).env (buyIon 2030).info (buyIon 2030).msg with
  | error e => rw [hy] at hx; cases hx
  | ok o =>
    rw [hy] at hx
    simp only [Except.map, Except.ok.injEq] at hx
    have := h _ o.1 _ _ "uion" 500 400 o.2 (Demo.s1_reachable.run longHistory) hy "core"
      [⟨7, "uion"⟩, ⟨8, "ujuno"⟩] ⟨"uosmo", 500⟩ 499 (by rw [hx]; simp)
    revert this; decide

end Ibcx.Props
