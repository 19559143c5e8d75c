import Verif.Props.Completion
/-!
# C122: one trade can make a rebalance impossible to complete
-/

namespace Ibcx.Props
open Ibcx Ibcx.Core Ibcx.Spec

/-- Generic form of the arithmetic, `P` standing for `10^18`. -/
private theorem rest_between {P T u n : Nat} (hT : 0 < T) (hle : T ≤ P) (hn : n + 1 = u * T / P) :
    n * P ≤ u * T ∧ n * P / T < u ∧ (u - n * P / T) * T < 3 * P := by
  have hP : 0 < P := lt_of_lt_of_le hT hle
  have h1 : (n + 1) * P ≤ u * T := by rw [hn]; exact Nat.div_mul_le_self _ _
  have h2 : u * T < (n + 2) * P := by
    have := Nat.lt_mul_div_succ (u * T) hP
    rw [← hn] at this
    calc u * T < P * (n + 1 + 1) := this
      _ = (n + 2) * P := by ring
  have h3 : n * P / T * T ≤ n * P := Nat.div_mul_le_self _ _
  have h4 : n * P < (n * P / T + 1) * T := by
    rw [Nat.mul_comm (_ + 1) T]
    exact Nat.lt_mul_div_succ _ hT
  generalize n * P / T = f at h3 h4 ⊢
  have e1 : (n + 1) * P = n * P + P := by ring
  have e2 : (n + 2) * P = n * P + 2 * P := by ring
  have e3 : (f + 1) * T = f * T + T := by ring
  have h5 : f < u := by
    by_contra hc
    have := Nat.mul_le_mul_right T (not_lt.1 hc)
    omega
  refine ⟨by omega, h5, ?_⟩
  rw [Nat.sub_mul]
  omega

/-- **C122 (arithmetic).** Whatever is still to be moved, moving all but one of the whole base units it is worth leaves
a rest that cannot be moved any more, unless the supply divides `2 · 10^18`.  The supply is at most `10^18` base units. -/
theorem C122_all_but_one {T u n : Nat} (hT : 0 < T) (hle : T ≤ 1000000000000000000)
    (hdvd : ¬ T ∣ 2 * 1000000000000000000) (hn : n + 1 = u * T / 1000000000000000000) :
    n * 1000000000000000000 ≤ u * T ∧ 0 < u - n * 1000000000000000000 / T ∧
    ¬ Closable T (u - n * 1000000000000000000 / T) := by
  obtain ⟨h1, h2, h3⟩ := rest_between hT hle hn
  refine ⟨h1, Nat.sub_pos_of_lt h2, fun hc => ?_⟩
  have key : ∀ P : Nat, ¬ T ∣ 2 * P → ∀ v e k x : Nat, v * T < 3 * P → 0 < e → e * T = k * P → v = e + x → False := by
    intro P hd v e k x hv he hk hx
    have hk3 : k < 3 := by
      by_contra hge
      have a1 : 3 * P ≤ k * P := Nat.mul_le_mul_right P (not_lt.1 hge)
      have a2 : e * T ≤ v * T := Nat.mul_le_mul_right T (by omega)
      omega
    have heT : 0 < e * T := Nat.mul_pos he hT
    have h12 : k = 1 ∨ k = 2 := by
      rcases Nat.eq_zero_or_pos k with h0 | h0
      · rw [h0, Nat.zero_mul] at hk; omega
      · omega
    apply hd
    rcases h12 with rfl | rfl
    · exact ⟨2 * e, by rw [← Nat.one_mul P, ← hk]; ring⟩
    · exact ⟨e, by rw [← hk]; ring⟩
  rcases (C98_closable_iff hT).1 hc with h0 | ⟨e, k, ns, he, hk, hg⟩
  · omega
  · exact key _ hdvd _ e k _ h3 he hk hg

/-- With a supply of 3 the whole of a unit is worth three base units and can be moved; after a trade of two of them it
cannot. -/
example : Closable 3 1000000000000000000 ∧ ¬ Closable 3 (1000000000000000000 - 2 * 1000000000000000000 / 3) := by
  constructor
  · rw [C98_closable_iff (by decide)]
    exact Or.inr ⟨1000000000000000000, 3, [], by decide, by decide, by decide⟩
  · exact (C122_all_but_one (n := 2) (by decide) (by decide) (by decide) (by decide)).2.2

/-- **C122 (when it cannot happen).** If the supply divides `10^18`, no trade makes what is left impossible to move. -/
theorem C122_round_supply {T k u n : Nat} (hk : T * k = 1000000000000000000) (h : Closable T u) :
    Closable T (u - n * 1000000000000000000 / T) := by
  have hT : 0 < T := by
    rcases Nat.eq_zero_or_pos T with h | h
    · rw [h, Nat.zero_mul] at hk; cases hk
    · exact h
  have h1 : n * 1000000000000000000 / T = n * k := by
    rw [← hk, Nat.mul_left_comm, Nat.mul_div_cancel_left _ hT]
  rw [C98_closable_of_divisor hk] at h ⊢
  rw [h1]
  exact Nat.dvd_sub h (Nat.dvd_mul_left k n)

/-- With a supply of 10000, half of what 200 base units are worth is left after a trade of 100. -/
example : Closable 10000 (20000000000000000 - 100 * 1000000000000000000 / 10000) :=
  C122_round_supply (k := 100000000000000) (by decide)
    ((C98_closable_of_divisor (k := 100000000000000) (by decide)).2 ⟨200, by decide⟩)

/-- **C122 (anyone can freeze the token).** While a rebalance without a manager is in its last phase, with all targets of
the sales met, anybody at all can make one trade that is accepted and after which the rebalance never ends: whatever
anybody does later, governance included, `Mint`, `Burn` and `Finalize` are rejected.  The trade buys with all but one of
the base units the reserve still holds for a denom.  It takes a supply of at most `10^18` base units that does not divide
`2 · 10^18`, a pair out of its cooldown whose largest trade allows the amount, and numbers that fit; and a market that
gives nothing for nothing. -/
theorem C122_anyone_can_block {s : State} {r : Rebalance} {d : Denom} {u n out : Nat} {res : Units} {t : TradeInfo}
    {env : Env} (hr : Reachable s) (hreb : s.rebalance = some r) (hman : r.manager = none)
    (hmet : ∀ d target, (d, target) ∈ r.deflation → s.indexUnits.lookup d = some target)
    (hd : d ≠ s.config.reserveDenom) (hres : s.reserveUnits = some res) (hu : res.lookup d = some u)
    (hT : 0 < s.totalSupply) (hle : s.totalSupply ≤ 1000000000000000000)
    (hdvd : ¬ s.totalSupply ∣ 2 * 1000000000000000000)
    (hn : n + 1 = u * s.totalSupply / 1000000000000000000)
    (ht : s.tradeInfos.get (s.config.reserveDenom, d) = some t) (hroutes : t.routes ≠ [])
    (hcool : ∀ l, t.lastTradedAt = some l → l + t.cooldown ≤ env.now) (hnow : env.now < 2 ^ 64)
    (hmax : n ≤ t.maxTradeAmount) (hest : env.estOut t.routes ⟨s.config.reserveDenom, n⟩ = .ok out)
    (hfit : n + 1 < 2 ^ 128 ∧ u < 2 ^ 128)
    (hfit' : (s.indexUnits.lookup d).getD 0 + out * 1000000000000000000 / s.totalSupply < 2 ^ 128) (anyone : Info) :
    ∃ s' ms, execute s env anyone (.rebalance (.trade (.inflate d n 0))) = .ok (s', ms) ∧
      ∀ cs : List Call, (∀ c ∈ cs, NoGifts c.env) →
        (∃ r', (run s' cs).1.rebalance = some r' ∧ r'.deflation = r.deflation ∧ r'.inflation = r.inflation) ∧
        ∀ c : Call, (TokenMsg c.msg ∨ c.msg = .rebalance .finalize) → ¬ accepted (run s' cs).1 c := by
  obtain ⟨h1, h2, h3⟩ := C122_all_but_one hT hle hdvd hn
  rw [lookup_eq] at hu hfit'
  rw [← ONE_eq] at hn h1 h2 h3 hfit'
  have hxu : n * ONE / s.totalSupply ≤ u := by omega
  obtain ⟨us', hus⟩ := Units.addKey_ok (us := s.indexUnits) (k := d) (v := out * ONE / s.totalSupply)
    (fun _ => hfit')
  obtain ⟨res', hres'⟩ := Units.subKey_ok hu hxu
  obtain ⟨s', hs'⟩ : ∃ s' : State, s' = { s with
          indexUnits := us', reserveUnits := some res'
          tradeInfos := s.tradeInfos.set (s.config.reserveDenom, d) { t with lastTradedAt := some env.now } } := ⟨_, rfl⟩
  have hx : execute s env anyone (.rebalance (.trade (.inflate d n 0))) = .ok (s',
      [.swapExactIn env.contract t.routes ⟨s.config.reserveDenom, n⟩ out]) := by
    refine execute_trade.2 (trade_eq_ok.2 ⟨r, hreb, (fun a ha => by rw [hman] at ha; cases ha),
      .inr (.inr (.inr ⟨d, n, 0, rfl, fun e => hd e.symm, ?_⟩))⟩)
    refine inflate_eq_ok.2 ⟨t, res, u, out, us', res', ht, hres, hu,
      fun l hl => ⟨lt_of_le_of_lt (hcool l hl) hnow, hcool l hl⟩, hmax, ?_, ?_, hroutes, hest, Nat.zero_le _,
      hT.ne', lt_of_le_of_lt hxu hfit.2, lt_of_le_of_lt (Nat.le_add_left _ _) hfit', hus, hres', hs', rfl⟩
    · rw [← hn]; exact hfit.1
    · rw [← hn]; exact Nat.le_succ _
  refine ⟨s', _, hx, ?_⟩
  have hr' : Reachable s' := hr.execute hx
  have e1 : s'.rebalance = some r := by rw [hs']; exact hreb
  have e2 : s'.config = s.config := by rw [hs']
  have e3 : s'.totalSupply = s.totalSupply := by rw [hs']
  have e4 : s'.indexUnits = us' := by rw [hs']
  have e5 : s'.reserveUnits = some res' := by rw [hs']
  have hmet' : ∀ d target, (d, target) ∈ r.deflation → s'.indexUnits.lookup d = some target := by
    intro d0 target hm
    have hne : d0 ≠ d := by
      rintro rfl
      exact disjoint_of_nodup (hr.inv.rebNodup r hreb) (List.mem_map.2 ⟨_, hm, rfl⟩)
        (hr.inv.resSub r res hreb hres _ (mem_denoms hu))
    rw [e4, lookup_eq, (Units.addKey_eq_ok hus).1, if_neg hne, ← lookup_eq]
    exact hmet d0 target hm
  have hu' : res'.lookup d = some (u - n * ONE / s.totalSupply) := by
    obtain ⟨c, k1, k2, k3, _⟩ := Units.subKey_eq_ok hres'
    rw [lookup_eq, k3, if_pos rfl]
    rw [k1] at hu
    rw [Option.some.inj hu]
  intro cs hcs
  refine C98_leftover_blocks hr' e1 (by rw [e2]; exact hd) hmet' e5 hu' ?_ cs hcs
  rw [e3]
  exact h3

/-- A rebalance of a supply of 9990 that sells uatom down to its target and buys uion. -/
def griefHistory : List Call :=
  [⟨Demo.env 1000, ⟨"alice", [⟨"factory/core/ibcx", 10⟩]⟩, .burn none⟩] ++ closeHistory ++
   [⟨Demo.env 2000, ⟨"bob", []⟩, .rebalance (.trade (.deflate "uatom" 1997 2000))⟩]

/-- The state the next trade finds. -/
def griefState : State := (run Demo.s1 griefHistory).1

/-- Before the trade what the reserve holds for uion, worth 1996 base units, can still be spent; the trade of 1995 of
them is open to anybody. -/
example : Reachable griefState ∧
    griefState.rebalance = some ⟨none, [("uatom", 50000000000000000)], [("uion", 1000000000000000000)]⟩ ∧
    griefState.indexUnits.lookup "uatom" = some 50000000000000000 ∧ "uion" ≠ griefState.config.reserveDenom ∧
    griefState.reserveUnits = some [("uion", 199899899899899899)] ∧ griefState.totalSupply = 9990 ∧
    ¬ 9990 ∣ 2 * 1000000000000000000 ∧ 1995 + 1 = 199899899899899899 * 9990 / 1000000000000000000 ∧
    Closable 9990 199899899899899899 ∧
    griefState.tradeInfos.get (griefState.config.reserveDenom, "uion") = some ⟨[⟨2, "uion"⟩], 60, 5000, none⟩ ∧
    (Demo.env 3000).estOut [⟨2, "uion"⟩] ⟨griefState.config.reserveDenom, 1995⟩ = .ok 1994 ∧
    accepted griefState ⟨Demo.env 3000, ⟨"mallory", []⟩, .rebalance (.trade (.inflate "uion" 1995 0))⟩ := by
  refine ⟨Demo.s1_reachable.run _, by decide +kernel, by decide +kernel, by decide +kernel, by decide +kernel,
    by decide +kernel, by decide +kernel, by decide +kernel, ?_, by decide +kernel, by decide +kernel, by decide +kernel⟩
  rw [C98_closable_iff (by decide)]
  exact Or.inr ⟨100000000000000000, 999, [998], by decide, by decide, by decide⟩

/-- **C122 (sales).** The same holds of the sales of any rebalance, on any market: an accepted sale that costs all but one
of the base units still to be sold of a denom makes the rebalance endless. -/
theorem C122_sale_blocks {s s' : State} {r : Rebalance} {d : Denom} {target cur n out maxIn : Nat} {t : TradeInfo}
    {env : Env} {info : Info} {ms : List Msg} (hr : Reachable s) (hreb : s.rebalance = some r)
    (hd : d ≠ s.config.reserveDenom) (htar : r.deflation.lookup d = some target)
    (hcur : s.indexUnits.lookup d = some cur)
    (hle : s.totalSupply ≤ 1000000000000000000) (hdvd : ¬ s.totalSupply ∣ 2 * 1000000000000000000)
    (hn : n + 1 = (cur - target) * s.totalSupply / 1000000000000000000)
    (ht : s.tradeInfos.get (d, s.config.reserveDenom) = some t)
    (hest : env.estIn t.routes ⟨s.config.reserveDenom, out⟩ = .ok n)
    (h : execute s env info (.rebalance (.trade (.deflate d out maxIn))) = .ok (s', ms)) (cs : List Call) :
    (∃ r', (run s' cs).1.rebalance = some r' ∧ r'.deflation = r.deflation ∧ r'.inflation = r.inflation) ∧
    ∀ c : Call, (TokenMsg c.msg ∨ c.msg = .rebalance .finalize) → ¬ accepted (run s' cs).1 c := by
  have hr' : Reachable s' := hr.execute h
  rw [lookup_eq] at hcur
  have htar' := htar
  rw [lookup_eq] at htar'
  obtain ⟨r0, hr0, _, h | h | h | h⟩ := trade_eq_ok.1 (execute_trade.1 h)
  · obtain ⟨_, _, _, e, e', _⟩ := h
    cases e
    exact absurd e'.symm hd
  · obtain ⟨_, _, _, e, _, h⟩ := h
    cases e
    rw [hreb] at hr0
    cases hr0
    obtain ⟨t0, res, tar0, cur0, simIn, us', res', g1, g2, g3, g4, _, _, g7, _, _, g10, _, _, hT, _, _, h4, h5, hs', _⟩ :=
      deflate_eq_ok.1 h
    rw [ht] at g1
    cases g1
    rw [hest] at g10
    cases g10
    rw [htar'] at g3
    cases g3
    rw [hcur] at g4
    cases g4
    obtain ⟨k1, k2, k3⟩ := C122_all_but_one (Nat.pos_of_ne_zero hT) hle hdvd hn
    rw [← ONE_eq] at k2 k3
    obtain ⟨c, m1, m2, m3, _⟩ := Units.subKey_eq_ok h4
    rw [hcur] at m1
    cases m1
    have e1 : s'.rebalance = some r := by rw [hs']; exact hreb
    have e2 : s'.config = s.config := by rw [hs']
    have e3 : s'.totalSupply = s.totalSupply := by rw [hs']
    have e4 : s'.indexUnits = us' := by rw [hs']
    refine C98_open_gap_blocks hr' e1 (by rw [e2]; exact hd) htar
      (by rw [e4, lookup_eq, m3, if_pos rfl]) ?_ cs
    rw [e3, Nat.sub_right_comm]
    exact k3
  · obtain ⟨_, _, _, e, _⟩ := h
    cases e
  · obtain ⟨_, _, _, e, _⟩ := h
    cases e

/-- With a supply of 9990 there are 1998 base units of uatom to be sold; Bob's sale costs 1997 of them. -/
def griefSale : State :=
  (run Demo.s1 ([⟨Demo.env 1000, ⟨"alice", [⟨"factory/core/ibcx", 10⟩]⟩, .burn none⟩] ++ closeHistory)).1

example : Reachable griefSale ∧
    griefSale.rebalance = some ⟨none, [("uatom", 50000000000000000)], [("uion", 1000000000000000000)]⟩ ∧
    griefSale.indexUnits.lookup "uatom" = some 250000000000000000 ∧ griefSale.totalSupply = 9990 ∧
    1997 + 1 = (250000000000000000 - 50000000000000000) * 9990 / 1000000000000000000 ∧
    griefSale.tradeInfos.get ("uatom", griefSale.config.reserveDenom) = some ⟨[⟨1, "uosmo"⟩], 60, 5000, none⟩ ∧
    (Demo.env 2000).estIn [⟨1, "uosmo"⟩] ⟨griefSale.config.reserveDenom, 1996⟩ = .ok 1997 ∧
    accepted griefSale ⟨Demo.env 2000, ⟨"mallory", []⟩, .rebalance (.trade (.deflate "uatom" 1996 2000))⟩ := by
  refine ⟨Demo.s1_reachable.run _, by decide +kernel, by decide +kernel, by decide +kernel, by decide +kernel,
    by decide +kernel, by decide +kernel, by decide +kernel⟩

end Ibcx.Props
