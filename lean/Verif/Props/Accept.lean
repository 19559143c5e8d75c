import Verif.Spec.Accept
import Verif.Spec.Link
import Verif.Core.Split
import Verif.Props.Token
import Verif.Props.Trades
/-!
# C76, C77: rebalance messages, exactly
-/

namespace Ibcx.Props
open Ibcx Ibcx.Core Ibcx.Spec

/-! ### Baskets -/

theorem map_id_of_not_mem {us : Units} {k : Denom} {f : Denom × Nat → Denom × Nat} (h : k ∉ us.denoms) :
    us.map (fun e => if e.1 = k then f e else e) = us := by
  conv_rhs => rw [← List.map_id us]
  apply List.map_congr_left
  intro e he
  have : e.1 ≠ k := fun x => h (List.mem_map.2 ⟨e, he, x⟩)
  simp [this]

theorem addKey_iff {us us' : Units} {k : Denom} {v : Nat} (hn : us.denoms.Nodup) :
    us.addKey k v = .ok us' ↔ (∀ u, (k, u) ∈ us → u + v < 2 ^ 128) ∧ us' = credited us k v := by
  induction us generalizing us' with
  | nil => simp [Units.addKey, credited, eq_comm]
  | cons e us ih =>
    obtain ⟨d, u⟩ := e
    have hn' : d ∉ Units.denoms us ∧ (Units.denoms us).Nodup := by simpa [Units.denoms] using hn
    unfold Units.addKey
    by_cases hd : d = k
    · subst hd
      have hm := map_id_of_not_mem (f := fun e => (d, e.2 + v)) hn'.1
      have hnm : ∀ x, (d, x) ∉ us := fun x hx => hn'.1 (List.mem_map.2 ⟨_, hx, rfl⟩)
      have eU : U128 = 2 ^ 128 := rfl
      have hc : credited ((d, u) :: us) d v = (d, u + v) :: us := by
        unfold credited
        rw [if_pos (by simp), List.map_cons, hm]
        simp
      rw [if_pos rfl, hc]
      simp only [bind_eq_ok, add_eq_ok, eU, Except.ok.injEq, List.mem_cons, Prod.mk.injEq, true_and]
      constructor
      · rintro ⟨_, ⟨h, rfl⟩, rfl⟩
        refine ⟨?_, rfl⟩
        rintro x (rfl | hx)
        · exact h
        · exact absurd hx (hnm x)
      · rintro ⟨h, rfl⟩
        exact ⟨_, ⟨h u (.inl rfl), rfl⟩, rfl⟩
    · rw [if_neg hd]
      have hk : ¬ k = d := fun e => hd e.symm
      have hc : credited ((d, u) :: us) k v = (d, u) :: credited us k v := by
        unfold credited
        by_cases hm : k ∈ us.map (·.1)
        · rw [if_pos hm, if_pos (by simp only [List.map_cons, List.mem_cons]; exact .inr hm)]
          simp [hd]
        · rw [if_neg hm, if_neg (by simp only [List.map_cons, List.mem_cons, not_or]; exact ⟨hk, hm⟩)]
          rfl
      rw [hc]
      simp only [bind_eq_ok, ih hn'.2, Except.ok.injEq, List.mem_cons, Prod.mk.injEq, hk, false_and, false_or]
      constructor
      · rintro ⟨w, ⟨h, rfl⟩, rfl⟩
        exact ⟨h, rfl⟩
      · rintro ⟨h, rfl⟩
        exact ⟨_, ⟨h, rfl⟩, rfl⟩

theorem subKey_iff {us us' : Units} {k : Denom} {v : Nat} (hn : us.denoms.Nodup) :
    us.subKey k v = .ok us' ↔ (∃ u, us.lookup k = some u ∧ v ≤ u) ∧ us' = debited us k v := by
  rw [lookup_eq]
  induction us generalizing us' with
  | nil => simp [Units.subKey]
  | cons e us ih =>
    obtain ⟨d, u⟩ := e
    have hn' : d ∉ Units.denoms us ∧ (Units.denoms us).Nodup := by simpa [Units.denoms] using hn
    unfold Units.subKey
    by_cases hd : d = k
    · subst hd
      have hm := map_id_of_not_mem (f := fun e => (d, e.2 - v)) hn'.1
      have hc : debited ((d, u) :: us) d v = (d, u - v) :: us := by
        unfold debited
        rw [List.map_cons, hm]
        simp
      rw [if_pos rfl, hc]
      simp only [bind_eq_ok, sub_eq_ok, Except.ok.injEq, Units.getKey, if_true, Option.some.injEq, exists_eq_left']
      constructor
      · rintro ⟨_, ⟨h, rfl⟩, rfl⟩; exact ⟨h, rfl⟩
      · rintro ⟨h, rfl⟩; exact ⟨_, ⟨h, rfl⟩, rfl⟩
    · rw [if_neg hd]
      have hc : debited ((d, u) :: us) k v = (d, u) :: debited us k v := by
        simp [debited, hd]
      rw [hc]
      simp only [bind_eq_ok, ih hn'.2, Except.ok.injEq, Units.getKey, if_neg hd]
      constructor
      · rintro ⟨w, ⟨h, rfl⟩, rfl⟩
        exact ⟨h, rfl⟩
      · rintro ⟨h, rfl⟩
        exact ⟨_, ⟨h, rfl⟩, rfl⟩

theorem inflateLoop_iff {ws res res' : Units} {P T : Nat} (hn : res.denoms.Nodup) :
    inflateLoop res P T ws = .ok res' ↔ SplitInto res P T ws res' := by
  have eU : U128 = 2 ^ 128 := rfl
  induction ws generalizing res P T with
  | nil =>
    simp only [inflateLoop, Except.ok.injEq]
    constructor
    · rintro rfl; exact .done
    · intro h; cases h; rfl
  | cons e ws ih =>
    obtain ⟨d, w⟩ := e
    simp only [inflateLoop, bind_eq_ok, decMul_eq_ok, ratio_eq_ok, sub_eq_ok, addKey_iff hn, eU, ONE_eq]
    constructor
    · rintro ⟨_, ⟨h1, rfl⟩, _, ⟨h2, h3, rfl⟩, res1, ⟨h4, h5⟩, _, ⟨h6, rfl⟩, _, ⟨h7, rfl⟩, h8⟩
      have hn1 : res1.denoms.Nodup := addKey_nodup hn ((addKey_iff hn).2 ⟨h4, h5⟩)
      have h8 := (ih hn1).1 h8
      subst h5
      exact .next h2 h7 h1 h3 h4 h8
    · intro h
      cases h with
      | next h2 h7 h1 h3 h4 h8 =>
        refine ⟨_, ⟨h1, rfl⟩, _, ⟨h2, h3, rfl⟩, _, ⟨h4, rfl⟩, _, ⟨?_, rfl⟩, _, ⟨h7, rfl⟩, ?_⟩
        · have := share_le (expand := P) h7 h2
          rwa [ONE_eq] at this
        · exact (ih (addKey_nodup hn ((addKey_iff hn).2 ⟨h4, rfl⟩))).2 h8

theorem weightSum_eq (ws : Units) : weightSum ws = ws.total := by
  induction ws with
  | nil => rfl
  | cons e ws ih => rw [Units.total_cons, ← ih]; simp [weightSum]

theorem sumWeights_lt {ws : Units} {n : Nat} (h : sumWeights ws = .ok n) : n < U128 := by
  unfold sumWeights at h
  suffices H : ∀ (acc : Nat), acc < U128 → ws.foldlM (fun acc e => add acc e.2) acc = .ok n → n < U128 by
    exact H 0 (by norm_num [U128]) h
  clear h
  induction ws with
  | nil => intro acc ha h; simp [pure, Except.pure] at h; exact h ▸ ha
  | cons e ws ih =>
    intro acc _ h
    rw [List.foldlM_cons, bind_eq_ok] at h
    obtain ⟨a, ha, h⟩ := h
    rw [add_eq_ok] at ha
    exact ih a (ha.2 ▸ ha.1) h

theorem inflateReserveUnit_iff {ws res res' : Units} {P : Nat} (hn : res.denoms.Nodup) :
    inflateReserveUnit res P ws = .ok res' ↔
      weightSum ws < 2 ^ 128 ∧ SplitInto res P (weightSum ws) ws res' := by
  have eU : U128 = 2 ^ 128 := rfl
  unfold inflateReserveUnit
  rw [bind_eq_ok, weightSum_eq]
  constructor
  · rintro ⟨T, h1, h2⟩
    have hlt := sumWeights_lt h1
    have := sumWeights_eq_ok h1
    subst this
    exact ⟨by rw [← eU]; exact hlt, (inflateLoop_iff hn).1 h2⟩
  · rintro ⟨h1, h2⟩
    exact ⟨_, sumWeights_ok (by rw [eU]; exact h1), (inflateLoop_iff hn).2 h2⟩

/-! ### C76 -/

/-- **C76 (1).** A rebalance is started exactly when: the pending streaming fee can be collected (giving
`s1`), the sender is the governance account, no rebalance is active, the manager's address is valid, both
lists are non-empty, no denom is listed twice in the two lists together, and every deflation denom is in the
basket with at least its target.  The plan is then stored with an empty reserve, the streaming fee is frozen,
and nothing else changes. -/
theorem C76_init_accepted_iff {s s' : State} {env : Env} {info : Info} {m : Option Addr}
    {defl infl : Units} {ms : List Msg} :
    execute s env info (.rebalance (.init m defl infl)) = .ok (s', ms) ↔
      ∃ s1, collectStreamingFee s env.now = .ok s1 ∧
      info.sender = s.config.gov ∧ s.rebalance = none ∧
      (∀ x, m = some x → env.validAddr x = true) ∧
      defl ≠ [] ∧ infl ≠ [] ∧
      ((defl ++ infl).map (·.1)).Nodup ∧
      (∀ d target, (d, target) ∈ defl → ∃ unit, s1.indexUnits.lookup d = some unit ∧ target ≤ unit) ∧
      s' = { s1 with
        fee := { s1.fee with streamingFee := s1.fee.streamingFee.map fun sf => { sf with freeze := true } }
        rebalance := some { manager := m, deflation := defl, inflation := infl }
        reserveUnits := some [] } ∧
      ms = [] := by
  rw [execute_eq_ok]
  apply exists_congr
  intro s1
  simp only [collectsFirst, if_true]
  apply and_congr_right
  intro hc
  obtain ⟨f1, f2, f3, f4, f5, f6, f7, f8, f9, f10, f11⟩ := collectStreamingFee_frame hc
  change init s1 env info m defl infl = .ok (s', ms) ↔ _
  rw [init_eq_ok, f1, f4, List.map_append]
  simp only [lookup_eq, Units.denoms]
  constructor
  · rintro ⟨h1, h2, h3, h4, h5, h6, h7, h8, h9⟩
    exact ⟨h1.symm, h2, h3, h4, h5, h7, fun d t h => h6 (d, t) h, h8, h9⟩
  · rintro ⟨h1, h2, h3, h4, h5, h7, h6, h8, h9⟩
    exact ⟨h1.symm, h2, h3, h4, h5, fun e h => h6 e.1 e.2 h, h7, h8, h9⟩

/-- A plan whose target is the current unit is accepted, one step more is rejected; so are a repeated denom, a
denom that is not in the basket and a stranger. -/
example : accepted Demo.s1 ⟨Demo.env 1000, ⟨"gov", []⟩,
      .rebalance (.init (some "bob") [("uosmo", 1500000000000000000)] [("uion", 1)])⟩ ∧
    ¬ accepted Demo.s1 ⟨Demo.env 1000, ⟨"gov", []⟩,
      .rebalance (.init (some "bob") [("uosmo", 1500000000000000001)] [("uion", 1)])⟩ ∧
    ¬ accepted Demo.s1 ⟨Demo.env 1000, ⟨"gov", []⟩,
      .rebalance (.init (some "bob") [("uosmo", 1)] [("uosmo", 1)])⟩ ∧
    ¬ accepted Demo.s1 ⟨Demo.env 1000, ⟨"gov", []⟩, .rebalance (.init (some "bob") [("uion", 0)] [("ujuno", 1)])⟩ ∧
    ¬ accepted Demo.s1 ⟨Demo.env 1000, ⟨"eve", []⟩,
      .rebalance (.init (some "bob") [("uosmo", 1500000000000000000)] [("uion", 1)])⟩ := by
  decide +kernel

/-- **C76 (2).** A rebalance is finalized exactly when one is active, the sender is its manager (anyone if it
has none), every deflation denom has exactly its target unit, and every entry of the reserve is zero.  The
plan and the reserve are then removed, zero units are dropped from the basket, the streaming fee is thawed and
starts anew at the block time, and nothing else changes. -/
theorem C76_finalize_accepted_iff {s s' : State} {env : Env} {info : Info} {ms : List Msg}
    (hr : Reachable s) :
    execute s env info (.rebalance .finalize) = .ok (s', ms) ↔
      ∃ r res, s.rebalance = some r ∧ s.reserveUnits = some res ∧
      (∀ a, r.manager = some a → info.sender = a) ∧
      (∀ d target, (d, target) ∈ r.deflation → s.indexUnits.lookup d = some target) ∧
      (∀ d x, (d, x) ∈ res → x = 0) ∧
      s' = { s with
        fee := { s.fee with streamingFee := s.fee.streamingFee.map fun sf =>
          { sf with freeze := false, lastCollectedAt := env.now } }
        indexUnits := s.indexUnits.filter (fun e => e.2 ≠ 0)
        rebalance := none
        reserveUnits := none } ∧
      ms = [] := by
  rw [execute_eq_ok]
  simp only [collectsFirst, Bool.false_eq_true, if_false, exists_eq_left]
  change finalize s env info = .ok (s', ms) ↔ _
  rw [finalize_eq_ok]
  simp only [lookup_eq]
  constructor
  · rintro ⟨r, res, h1, h2, h3, h4, h5, h6, h7⟩
    refine ⟨r, res, h1, h2, fun a ha => (h3 a ha).symm, ?_, fun d x h => h5 (d, x) h, h6, h7⟩
    intro d target h
    obtain ⟨cur, c1, c2⟩ := h4 _ h
    obtain ⟨cur', c3, c4⟩ := hr.inv.deflBound r h1 _ h
    rw [c1] at c3
    cases c3
    rw [c1, le_antisymm c2 c4]
  · rintro ⟨r, res, h1, h2, h3, h4, h5, h6, h7⟩
    refine ⟨r, res, h1, h2, fun a ha => (h3 a ha).symm, ?_, fun e h => h5 e.1 e.2 h, h6, h7⟩
    intro e h
    exact ⟨e.2, h4 e.1 e.2 h, le_refl _⟩

/-- A rebalance with met targets is finalized. -/
example : Reachable (run Demo.s1 metHistory).1 ∧
    (execute (run Demo.s1 metHistory).1 (Demo.env 2300) ⟨"bob", []⟩ (.rebalance .finalize)).map
      (fun o => (o.1.indexUnits, o.1.rebalance.isNone, o.1.reserveUnits.isNone, o.1.fee.streamingFee.map (·.lastCollectedAt))) =
    .ok ([("uosmo", 1500000000000000000), ("uatom", 50000000000000000), ("uion", 199800000000000000)], true, true,
      some 2300) :=
  ⟨Demo.s1_reachable.run _, by decide +kernel⟩

/-! ### C77 -/

/-- A plan that lowers uosmo, the reserve denom, with routes. -/
def swapPlan : List Call :=
  [⟨Demo.env 1000, ⟨"gov", []⟩, .gov (.updateTradeInfo "uosmo" [⟨2, "uion"⟩] 60 1000)⟩,
   ⟨Demo.env 1000, ⟨"gov", []⟩, .rebalance (.init none [("uosmo", 1000000000000000000)]
      [("uion", 1000000000000000000), ("ujuno", 1000000000000000000)])⟩]

/-- Its trades. -/
def sellOsmo (t : Nat) : Call := ⟨Demo.env t, ⟨"bob", []⟩, .rebalance (.trade (.deflate "uosmo" 0 0))⟩
def buyIons (t : Nat) : Call := ⟨Demo.env t, ⟨"bob", []⟩, .rebalance (.trade (.inflate "uion" 500 400))⟩

/-- A plan that turns uatom into uosmo, with the sale. -/
def reserveBack : List Call :=
  [⟨Demo.env 1000, ⟨"gov", []⟩, .gov (.updateTradeInfo "uatom" [⟨1, "uosmo"⟩] 60 1000)⟩,
   ⟨Demo.env 1000, ⟨"gov", []⟩, .rebalance (.init none [("uatom", 50000000000000000)] [("uosmo", 1000000000000000000)])⟩,
   ⟨Demo.env 2000, ⟨"bob", []⟩, .rebalance (.trade (.deflate "uatom" 900 1000))⟩]

theorem deduct_le {x gap S : Nat} (h : x ≤ gap * S / ONE) : x * ONE / S ≤ gap := by
  apply Nat.div_le_of_le_mul
  calc x * ONE ≤ gap * S / ONE * ONE := Nat.mul_le_mul_right _ h
    _ ≤ gap * S := Nat.div_mul_le_self _ _
    _ = S * gap := Nat.mul_comm _ _

/-- **C77 (1).** Deflating the reserve denom itself is accepted exactly when a rebalance is active, the sender
is its manager (anyone if it has none), the denom is in the deflation list, the gap between its unit and its
target, times the supply, fits in 128 bits, and the gap can be split over the inflation weights.  The unit then
falls to the target and the reserve becomes the one after the split; no message is sent and nothing else
changes.  The amounts given in the message do not matter. -/
theorem C77_deflate_reserve_accepted_iff {s s' : State} {env : Env} {info : Info} {d : Denom}
    {out maxIn : Nat} {ms : List Msg} (hr : Reachable s) (hd : d = s.config.reserveDenom) :
    execute s env info (.rebalance (.trade (.deflate d out maxIn))) = .ok (s', ms) ↔
      ∃ r res target unit res', s.rebalance = some r ∧ s.reserveUnits = some res ∧
      (∀ a, r.manager = some a → info.sender = a) ∧
      r.deflation.lookup d = some target ∧ s.indexUnits.lookup d = some unit ∧
      part (unit - target) s.totalSupply < 2 ^ 128 ∧
      weightSum r.inflation < 2 ^ 128 ∧
      SplitInto res (unit - target) (weightSum r.inflation) r.inflation res' ∧
      s' = { s with indexUnits := debited s.indexUnits d (unit - target), reserveUnits := some res' } ∧
      ms = [] := by
  have eU : U128 = 2 ^ 128 := rfl
  have hn := hr.inv.nodup
  rw [execute_trade, trade_eq_ok]
  simp only [lookup_eq, part_eq]
  constructor
  · rintro ⟨r, h1, h2, h⟩
    rcases h with ⟨_, _, _, he, _, h⟩ | ⟨_, _, _, he, hne, _⟩ | ⟨_, _, _, he, _⟩ | ⟨_, _, _, he, _⟩
    · cases he
      obtain ⟨res, target, cur, us', res', g1, g2, g3, g4, g5, g6, g7, rfl, rfl⟩ := deflateReserve_eq_ok.1 h
      obtain ⟨w1, w2⟩ := (inflateReserveUnit_iff (hr.inv.resNodup res g1)).1 g7
      obtain ⟨_, rfl⟩ := (subKey_iff hn).1 g6
      exact ⟨r, res, target, cur, res', h1, g1, fun a ha => (h2 a ha).symm, g2, g3, g5, w1, w2, rfl, rfl⟩
    · cases he; exact absurd hd.symm hne
    · cases he
    · cases he
  · rintro ⟨r, res, target, cur, res', h1, g1, h2, g2, g3, g5, w1, w2, rfl, rfl⟩
    obtain ⟨cur', c1, c2⟩ := hr.inv.deflBound r h1 _ (Units.getKey_mem g2)
    rw [g3] at c1
    cases c1
    refine ⟨r, h1, fun a ha => (h2 a ha).symm, .inl ⟨d, out, maxIn, rfl, hd.symm, ?_⟩⟩
    exact deflateReserve_eq_ok.2 ⟨res, target, cur, _, res', g1, g2, g3, c2, g5,
      (subKey_iff hn).2 ⟨⟨cur, by rw [lookup_eq]; exact g3, Nat.sub_le _ _⟩, rfl⟩,
      (inflateReserveUnit_iff (hr.inv.resNodup res g1)).2 ⟨w1, w2⟩, rfl, rfl⟩

/-- Uosmo is lowered to its target and the gap is split over two weights. -/
example : Reachable (run Demo.s1 swapPlan).1 ∧
    (execute (run Demo.s1 swapPlan).1 (sellOsmo 2000).env (sellOsmo 2000).info (sellOsmo 2000).msg).map
      (fun o => (o.1.indexUnits, o.1.reserveUnits, o.2)) =
    .ok ([("uosmo", 1000000000000000000), ("uatom", 250000000000000000)],
      some [("uion", 250000000000000000), ("ujuno", 250000000000000000)], []) :=
  ⟨Demo.s1_reachable.run _, by decide +kernel⟩

/-- **C77 (2).** Deflating any other denom is accepted exactly when a rebalance is active, the sender is its
manager (anyone if it has none), the denom is in the deflation list, a trade route is stored for the denom and
the reserve denom which is not cooling down, the amount is at most its limit, the market estimates a cost that
is at most the amount behind the gap and at most the given limit, the supply is not zero, all numbers fit, and
the proceeds can be split over the inflation weights.  The unit then falls by the cost per index token rounded
down, the reserve becomes the one after the split of the proceeds per index token, the time of the trade is
recorded, exactly one swap is sent, and nothing else changes. -/
theorem C77_deflate_accepted_iff {s s' : State} {env : Env} {info : Info} {d : Denom}
    {out maxIn : Nat} {ms : List Msg} (hr : Reachable s) (hd : d ≠ s.config.reserveDenom) :
    execute s env info (.rebalance (.trade (.deflate d out maxIn))) = .ok (s', ms) ↔
      ∃ r res target unit t cost res', s.rebalance = some r ∧ s.reserveUnits = some res ∧
      (∀ a, r.manager = some a → info.sender = a) ∧
      r.deflation.lookup d = some target ∧ s.indexUnits.lookup d = some unit ∧
      s.tradeInfos.get (d, s.config.reserveDenom) = some t ∧
      cooledDown t env.now ∧ out ≤ t.maxTradeAmount ∧
      env.estIn t.routes ⟨s.config.reserveDenom, out⟩ = .ok cost ∧
      cost ≤ part (unit - target) s.totalSupply ∧ cost ≤ maxIn ∧
      s.totalSupply ≠ 0 ∧ part (unit - target) s.totalSupply < 2 ^ 128 ∧
      cost * 1000000000000000000 / s.totalSupply < 2 ^ 128 ∧
      out * 1000000000000000000 / s.totalSupply < 2 ^ 128 ∧
      weightSum r.inflation < 2 ^ 128 ∧
      SplitInto res (out * 1000000000000000000 / s.totalSupply) (weightSum r.inflation) r.inflation res' ∧
      s' = { s with
        indexUnits := debited s.indexUnits d (cost * 1000000000000000000 / s.totalSupply)
        reserveUnits := some res'
        tradeInfos := s.tradeInfos.set (d, s.config.reserveDenom) { t with lastTradedAt := some env.now } } ∧
      ms = [.swapExactOut env.contract t.routes ⟨s.config.reserveDenom, out⟩ cost] := by
  have eU : U128 = 2 ^ 128 := rfl
  have hn := hr.inv.nodup
  rw [execute_trade, trade_eq_ok]
  simp only [lookup_eq, part_eq, ← ONE_eq]
  constructor
  · rintro ⟨r, h1, h2, h⟩
    rcases h with ⟨_, _, _, he, hne, h⟩ | ⟨_, _, _, he, hne, h⟩ | ⟨_, _, _, he, _⟩ | ⟨_, _, _, he, _⟩
    · cases he; exact absurd hne.symm hd
    · cases he
      obtain ⟨t, res, target, cur, cost, us', res', k1, g1, g2, g3, k2, k3, g4, g5, k4, k5, k6, k7, k8, k9, k10,
        g6, g7, rfl, rfl⟩ := deflate_eq_ok.1 h
      obtain ⟨w1, w2⟩ := (inflateReserveUnit_iff (hr.inv.resNodup res g1)).1 g7
      obtain ⟨_, rfl⟩ := (subKey_iff hn).1 g6
      exact ⟨r, res, target, cur, t, cost, res', h1, g1, fun a ha => (h2 a ha).symm, g2, g3, k1, k2, k3, k5, k6, k7,
        k8, g5, k9, k10, w1, w2, rfl, rfl⟩
    · cases he
    · cases he
  · rintro ⟨r, res, target, cur, t, cost, res', h1, g1, h2, g2, g3, k1, k2, k3, k5, k6, k7,
        k8, g5, k9, k10, w1, w2, rfl, rfl⟩
    obtain ⟨cur', c1, c2⟩ := hr.inv.deflBound r h1 _ (Units.getKey_mem g2)
    rw [g3] at c1
    cases c1
    obtain ⟨rt, rts, hrt, _⟩ := hr.inv.routes _ _ _ k1
    refine ⟨r, h1, fun a ha => (h2 a ha).symm, .inr (.inl ⟨d, out, maxIn, rfl, fun e => hd e.symm, ?_⟩)⟩
    exact deflate_eq_ok.2 ⟨t, res, target, cur, cost, _, res', k1, g1, g2, g3, k2, k3, c2, g5, by simp [hrt],
      k5, k6, k7, k8, k9, k10,
      (subKey_iff hn).2 ⟨⟨cur, by rw [lookup_eq]; exact g3, (deduct_le k6).trans (Nat.sub_le _ _)⟩, rfl⟩,
      (inflateReserveUnit_iff (hr.inv.resNodup res g1)).2 ⟨w1, w2⟩, rfl, rfl⟩

/-- A deflation over a stored route. -/
example : Reachable (run Demo.s1 (reserveBack.take 2)).1 ∧
    (execute (run Demo.s1 (reserveBack.take 2)).1 (Demo.env 2000) ⟨"bob", []⟩
      (.rebalance (.trade (.deflate "uatom" 900 1000)))).map (fun o => (o.1.indexUnits, o.1.reserveUnits, o.2)) =
    .ok ([("uosmo", 1500000000000000000), ("uatom", 159900000000000000)], some [("uosmo", 90000000000000000)],
      [.swapExactOut "core" [⟨1, "uosmo"⟩] ⟨"uosmo", 900⟩ 901]) :=
  ⟨Demo.s1_reachable.run _, by decide +kernel⟩

/-- **C77 (3).** Inflating the reserve denom itself is accepted exactly when a rebalance is active, the sender
is its manager (anyone if it has none), the denom has an entry in the reserve, this unit times the supply fits
in 128 bits and added to the basket's unit still fits.  The whole unit then moves from the reserve into the
basket; no message is sent and nothing else changes. -/
theorem C77_inflate_reserve_accepted_iff {s s' : State} {env : Env} {info : Info} {d : Denom}
    {amountIn minOut : Nat} {ms : List Msg} (hr : Reachable s) (hd : d = s.config.reserveDenom) :
    execute s env info (.rebalance (.trade (.inflate d amountIn minOut))) = .ok (s', ms) ↔
      ∃ r res unit, s.rebalance = some r ∧ s.reserveUnits = some res ∧
      (∀ a, r.manager = some a → info.sender = a) ∧
      res.lookup d = some unit ∧ part unit s.totalSupply < 2 ^ 128 ∧
      (∀ u, (d, u) ∈ s.indexUnits → u + unit < 2 ^ 128) ∧
      s' = { s with
        indexUnits := credited s.indexUnits d unit
        reserveUnits := some (debited res d unit) } ∧
      ms = [] := by
  have eU : U128 = 2 ^ 128 := rfl
  have hn := hr.inv.nodup
  rw [execute_trade, trade_eq_ok]
  simp only [lookup_eq, part_eq]
  constructor
  · rintro ⟨r, h1, h2, h⟩
    rcases h with ⟨_, _, _, he, _⟩ | ⟨_, _, _, he, _⟩ | ⟨_, _, _, he, _, h⟩ | ⟨_, _, _, he, hne, _⟩
    · cases he
    · cases he
    · cases he
      obtain ⟨res, unit, us', res', g1, g2, g3, g4, g5, rfl, rfl⟩ := inflateReserve_eq_ok.1 h
      obtain ⟨w1, rfl⟩ := (addKey_iff hn).1 g4
      obtain ⟨_, rfl⟩ := (subKey_iff (hr.inv.resNodup res g1)).1 g5
      exact ⟨r, res, unit, h1, g1, fun a ha => (h2 a ha).symm, g2, g3, w1, rfl, rfl⟩
    · cases he; exact absurd hd.symm hne
  · rintro ⟨r, res, unit, h1, g1, h2, g2, g3, w1, rfl, rfl⟩
    refine ⟨r, h1, fun a ha => (h2 a ha).symm, .inr (.inr (.inl ⟨d, amountIn, minOut, rfl, hd.symm, ?_⟩))⟩
    exact inflateReserve_eq_ok.2 ⟨res, unit, _, _, g1, g2, g3, (addKey_iff hn).2 ⟨w1, rfl⟩,
      (subKey_iff (hr.inv.resNodup res g1)).2 ⟨⟨unit, by rw [lookup_eq]; exact g2, le_refl _⟩, rfl⟩, rfl, rfl⟩

/-- Uosmo, the reserve denom, is itself to be raised: the whole reserve entry moves into the basket. -/
example : Reachable (run Demo.s1 reserveBack).1 ∧
    (execute (run Demo.s1 reserveBack).1 (Demo.env 2100) ⟨"bob", []⟩
      (.rebalance (.trade (.inflate "uosmo" 0 0)))).map (fun o => (o.1.indexUnits, o.1.reserveUnits, o.2)) =
    .ok ([("uosmo", 1590000000000000000), ("uatom", 159900000000000000)], some [("uosmo", 0)], []) :=
  ⟨Demo.s1_reachable.run _, by decide +kernel⟩

/-- **C77 (4).** Inflating any other denom is accepted exactly when a rebalance is active, the sender is its
manager (anyone if it has none), the denom has an entry in the reserve, a trade route is stored for the reserve
denom and the denom which is not cooling down, the amount is at most its limit and at most the amount behind the
reserve entry, the market estimates proceeds of at least the given minimum, the supply is not zero and all
numbers fit.  The basket's unit then grows by the proceeds per index token, the reserve entry falls by the
amount per index token, both rounded down, the time of the trade is recorded, exactly one swap is sent, and
nothing else changes. -/
theorem C77_inflate_accepted_iff {s s' : State} {env : Env} {info : Info} {d : Denom}
    {amountIn minOut : Nat} {ms : List Msg} (hr : Reachable s) (hd : d ≠ s.config.reserveDenom) :
    execute s env info (.rebalance (.trade (.inflate d amountIn minOut))) = .ok (s', ms) ↔
      ∃ r res unit t got, s.rebalance = some r ∧ s.reserveUnits = some res ∧
      (∀ a, r.manager = some a → info.sender = a) ∧
      res.lookup d = some unit ∧
      s.tradeInfos.get (s.config.reserveDenom, d) = some t ∧
      cooledDown t env.now ∧ amountIn ≤ t.maxTradeAmount ∧
      part unit s.totalSupply < 2 ^ 128 ∧ amountIn ≤ part unit s.totalSupply ∧
      env.estOut t.routes ⟨s.config.reserveDenom, amountIn⟩ = .ok got ∧ minOut ≤ got ∧
      s.totalSupply ≠ 0 ∧
      amountIn * 1000000000000000000 / s.totalSupply < 2 ^ 128 ∧
      got * 1000000000000000000 / s.totalSupply < 2 ^ 128 ∧
      (∀ u, (d, u) ∈ s.indexUnits → u + got * 1000000000000000000 / s.totalSupply < 2 ^ 128) ∧
      s' = { s with
        indexUnits := credited s.indexUnits d (got * 1000000000000000000 / s.totalSupply)
        reserveUnits := some (debited res d (amountIn * 1000000000000000000 / s.totalSupply))
        tradeInfos := s.tradeInfos.set (s.config.reserveDenom, d) { t with lastTradedAt := some env.now } } ∧
      ms = [.swapExactIn env.contract t.routes ⟨s.config.reserveDenom, amountIn⟩ got] := by
  have eU : U128 = 2 ^ 128 := rfl
  have hn := hr.inv.nodup
  rw [execute_trade, trade_eq_ok]
  simp only [lookup_eq, part_eq, ← ONE_eq]
  constructor
  · rintro ⟨r, h1, h2, h⟩
    rcases h with ⟨_, _, _, he, _⟩ | ⟨_, _, _, he, _⟩ | ⟨_, _, _, he, hne, h⟩ | ⟨_, _, _, he, hne, h⟩
    · cases he
    · cases he
    · cases he; exact absurd hne.symm hd
    · cases he
      obtain ⟨t, res, unit, got, us', res', k1, g1, g2, k2, k3, k4, k5, k6, k7, k8, k9, k10, k11,
        g6, g7, rfl, rfl⟩ := inflate_eq_ok.1 h
      obtain ⟨w1, rfl⟩ := (addKey_iff hn).1 g6
      obtain ⟨_, rfl⟩ := (subKey_iff (hr.inv.resNodup res g1)).1 g7
      exact ⟨r, res, unit, t, got, h1, g1, fun a ha => (h2 a ha).symm, g2, k1, k2, k3, k4, k5, k7, k8, k9, k10, k11,
        w1, rfl, rfl⟩
  · rintro ⟨r, res, unit, t, got, h1, g1, h2, g2, k1, k2, k3, k4, k5, k7, k8, k9, k10, k11, w1, rfl, rfl⟩
    obtain ⟨rt, rts, hrt, _⟩ := hr.inv.routes _ _ _ k1
    refine ⟨r, h1, fun a ha => (h2 a ha).symm,
      .inr (.inr (.inr ⟨d, amountIn, minOut, rfl, fun e => hd e.symm, ?_⟩))⟩
    exact inflate_eq_ok.2 ⟨t, res, unit, got, _, _, k1, g1, g2, k2, k3, k4, k5, by simp [hrt], k7, k8, k9, k10, k11,
      (addKey_iff hn).2 ⟨w1, rfl⟩,
      (subKey_iff (hr.inv.resNodup res g1)).2 ⟨⟨unit, by rw [lookup_eq]; exact g2, deduct_le k5⟩, rfl⟩, rfl, rfl⟩

/-- An inflation over a stored route. -/
example : Reachable (run Demo.s1 (swapPlan ++ [sellOsmo 2000])).1 ∧
    (execute (run Demo.s1 (swapPlan ++ [sellOsmo 2000])).1 (buyIons 2030).env (buyIons 2030).info
      (buyIons 2030).msg).map (fun o => (o.1.indexUnits, o.1.reserveUnits, o.2)) =
    .ok ([("uosmo", 1000000000000000000), ("uatom", 250000000000000000), ("uion", 49900000000000000)],
      some [("uion", 200000000000000000), ("ujuno", 250000000000000000)],
      [.swapExactIn "core" [⟨2, "uion"⟩] ⟨"uosmo", 500⟩ 499]) :=
  ⟨Demo.s1_reachable.run _, by decide +kernel⟩

end Ibcx.Props
