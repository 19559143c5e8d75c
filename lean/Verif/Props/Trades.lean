import Verif.Core.Split
import Verif.Props.Rebalance
/-!
# Properties C21-C26: trades of a rebalance
-/

namespace Ibcx.Props
open Ibcx Ibcx.Core Ibcx.Spec

/-- A trade message runs the trade handler on the state as it is. -/
theorem execute_trade {s s' : State} {env : Env} {info : Info} {m : TradeMsg} {ms : List Msg} :
    execute s env info (.rebalance (.trade m)) = .ok (s', ms) ↔ trade s env info m = .ok (s', ms) := by
  rw [execute_eq_ok]
  constructor
  · rintro ⟨s1, h1, h2⟩
    simp [collectsFirst] at h1; subst h1
    exact h2
  · intro h
    exact ⟨s, by simp [collectsFirst], h⟩

/-- How one accepted trade changes the unit of a deflation denom. -/
theorem trade_deflation {s s' : State} {env : Env} {info : Info} {m : TradeMsg} {ms : List Msg} {r : Rebalance}
    {d : Denom} {target cur : Nat} (hi : Inv s) (hreb : s.rebalance = some r)
    (ht : r.deflation.getKey d = some target) (hc : s.indexUnits.getKey d = some cur)
    (h : trade s env info m = .ok (s', ms)) :
    s'.indexUnits.getKey d = some cur ∨
    ∃ out maxIn res res', m = .deflate d out maxIn ∧ s.reserveUnits = some res ∧ s'.reserveUnits = some res' ∧
      target ≤ cur ∧
      ((d = s.config.reserveDenom ∧ s'.indexUnits.getKey d = some target ∧
        inflateReserveUnit res (cur - target) r.inflation = .ok res') ∨
       (d ≠ s.config.reserveDenom ∧ ∃ simIn, simIn * 1000000000000000000 ≤ (cur - target) * s.totalSupply ∧
        s'.indexUnits.getKey d = some (cur - simIn * 1000000000000000000 / s.totalSupply) ∧ s.totalSupply ≠ 0 ∧
        simIn * 1000000000000000000 / s.totalSupply ≤ cur ∧
        inflateReserveUnit res (out * 1000000000000000000 / s.totalSupply) r.inflation = .ok res')) := by
  obtain ⟨r', hr', _, h⟩ := trade_eq_ok.1 h
  rw [hreb] at hr'; cases hr'
  have hdr : d ∈ r.deflation.denoms := mem_denoms ht
  rcases h with ⟨d', o, mi, rfl, hd, h⟩ | ⟨d', o, mi, rfl, hd, h⟩ | ⟨d', _, _, _, _, h⟩ | ⟨d', _, _, _, _, h⟩
  · obtain ⟨res, target', current, us', res', h1, h2, h3, h4, _, h6, h7, rfl, _⟩ := deflateReserve_eq_ok.1 h
    obtain ⟨u, k1, k2, k3, _⟩ := Units.subKey_eq_ok h6
    by_cases e : d = d'
    · subst e
      rw [ht] at h2; cases h2
      rw [hc] at h3; cases h3
      rw [hc] at k1; cases k1
      refine .inr ⟨o, mi, res, res', rfl, h1, rfl, h4, .inl ⟨hd.symm, ?_, h7⟩⟩
      rw [k3, if_pos rfl]; congr 1; omega
    · left; rw [k3, if_neg e, hc]
  · obtain ⟨t, res, target', current, simIn, us', res', g1, h1, h2, h3, _, _, h4, _, _, _, h9, _, h11, _, _,
      h6, h7, rfl, _⟩ := deflate_eq_ok.1 h
    obtain ⟨u, k1, k2, k3, _⟩ := Units.subKey_eq_ok h6
    by_cases e : d = d'
    · subst e
      rw [ht] at h2; cases h2
      rw [hc] at h3; cases h3
      rw [hc] at k1; cases k1
      rw [ONE_eq] at *
      refine .inr ⟨o, mi, res, res', rfl, h1, rfl, h4, .inr ⟨fun x => hd x.symm, simIn, ?_, ?_, h11, k2, h7⟩⟩
      · calc simIn * 1000000000000000000
            ≤ (cur - target) * s.totalSupply / 1000000000000000000 * 1000000000000000000 := Nat.mul_le_mul_right _ h9
          _ ≤ _ := Nat.div_mul_le_self _ _
      · rw [k3, if_pos rfl]
    · left; rw [k3, if_neg e, hc]
  · obtain ⟨res, unit, us', res', h1, h2, _, h4, h5, rfl, _⟩ := inflateReserve_eq_ok.1 h
    have hd := hi.resSub r res hreb h1 d' (mem_denoms h2)
    have : d ≠ d' := by rintro rfl; exact disjoint_of_nodup (hi.rebNodup r hreb) hdr hd
    left; rw [(Units.addKey_eq_ok h4).1, if_neg this, hc]
  · obtain ⟨t, res, unit, simOut, us', res', g1, h1, h2, _, _, _, _, _, _, _, _, _, _, h4, h5, rfl, _⟩ :=
      inflate_eq_ok.1 h
    have hd := hi.resSub r res hreb h1 d' (mem_denoms h2)
    have : d ≠ d' := by rintro rfl; exact disjoint_of_nodup (hi.rebNodup r hreb) hdr hd
    left; rw [(Units.addKey_eq_ok h4).1, if_neg this, hc]

/-- Messages other than trades and `Finalize` keep the units while a rebalance is active. -/
theorem units_kept {s s' : State} {env : Env} {info : Info} {msg : ExecMsg} {ms : List Msg} {r : Rebalance}
    (hr : Reachable s) (hreb : s.rebalance = some r) (h : execute s env info msg = .ok (s', ms))
    (h1 : ∀ m, msg ≠ .rebalance (.trade m)) (h2 : msg ≠ .rebalance .finalize) : s'.indexUnits = s.indexUnits := by
  obtain ⟨s1, hc, hd⟩ := execute_eq_ok.1 h
  have : s1 = s := by
    split at hc
    · exact accrual_noop hc (fun sf hsf => .inl (hr.inv.frozen _ sf hreb hsf))
    · exact hc
  subst this
  cases msg with
  | mint a r' f => obtain ⟨_, hn, _⟩ := mint_eq_ok.1 hd; rw [hreb] at hn; cases hn
  | burn r' => obtain ⟨_, hn, _⟩ := burn_eq_ok.1 hd; rw [hreb] at hn; cases hn
  | realize =>
    obtain ⟨_, h⟩ := realize_eq_ok.1 hd
    rcases h with ⟨hn, rfl, rfl⟩ | ⟨sf, hsf, rfl, rfl⟩ <;> rfl
  | gov m =>
    cases m with
    | updateFeeStrategy p => obtain ⟨_, hn, _⟩ := updateFee_eq_ok.1 hd; rw [hreb] at hn; cases hn
    | pause e => obtain ⟨_, _, _, rfl, rfl⟩ := pause_eq_ok.1 hd; rfl
    | release => obtain ⟨_, _, rfl, rfl⟩ := release_eq_ok.1 hd; rfl
    | updateGov g => obtain ⟨_, _, _, rfl, rfl⟩ := updateGov_eq_ok.1 hd; rfl
    | acceptGov => obtain ⟨_, rfl, rfl⟩ := acceptGov_eq_ok.1 hd; rfl
    | revokeGov => obtain ⟨_, _, rfl, rfl⟩ := revokeGov_eq_ok.1 hd; rfl
    | updateRebalanceManager m => obtain ⟨_, _, ⟨r', hr', rfl⟩, rfl⟩ := updateRebalanceManager_eq_ok.1 hd; rfl
    | updateReserveDenom d => obtain ⟨_, hn, _⟩ := updateReserveDenom_eq_ok.1 hd; rw [hreb] at hn; cases hn
    | updateTradeInfo d rs c m => obtain ⟨_, ⟨r', rs', hrs, rfl⟩, rfl⟩ := updateTradeInfo_eq_ok.1 hd; rfl
  | rebalance m =>
    cases m with
    | init m de inf => obtain ⟨_, hn, _⟩ := init_eq_ok.1 hd; rw [hreb] at hn; cases hn
    | finalize => exact absurd rfl h2
    | trade m => exact absurd rfl (h1 m)

/-- If, during rebalance `r`, no trade ever moves the unit of a deflation denom that is above its target,
the rebalance never ends. -/
theorem stuck {s : State} {r : Rebalance} {d : Denom} {target cur : Nat} (hr : Reachable s)
    (hreb : s.rebalance = some r) (ht : r.deflation.getKey d = some target)
    (hc : s.indexUnits.getKey d = some cur) (hlt : target < cur)
    (hno : ∀ s1 s2 env info m ms, Reachable s1 → Phase r s s1 → s1.indexUnits.getKey d = some cur →
      trade s1 env info m = .ok (s2, ms) → s2.indexUnits.getKey d = some cur) (cs : List Call) :
    Phase r s (run s cs).1 ∧ (run s cs).1.indexUnits.getKey d = some cur ∧
    ∀ c : Call, (TokenMsg c.msg ∨ c.msg = .rebalance .finalize) → ¬ accepted (run s cs).1 c := by
  have nofin : ∀ s1 s2 env info ms, Phase r s s1 → s1.indexUnits.getKey d = some cur →
      execute s1 env info (.rebalance .finalize) ≠ .ok (s2, ms) := by
    intro s1 s2 env info ms p hk hx
    obtain ⟨m', hm'⟩ := p.rebalance
    obtain ⟨_, h1, h2⟩ := execute_eq_ok.1 hx
    simp [collectsFirst] at h1; subst h1
    obtain ⟨r', res, f1, f2, _, f4, f5, rfl, rfl⟩ := finalize_eq_ok.1 h2
    rw [hm'] at f1; cases f1
    obtain ⟨c, l1, l2⟩ := f4 (d, target) (Units.getKey_mem ht)
    simp only at l1 l2
    rw [hk] at l1; cases l1
    omega
  have main := run_induct (I := fun s1 => Phase r s s1 ∧ s1.indexUnits.getKey d = some cur) (T := fun _ => True)
    (Q := fun _ => False) (cs := cs)
    (by
      rintro s1 s2 ⟨env, info, msg⟩ ms hr1 ⟨p, hk⟩ - - hx
      simp only at hx
      obtain ⟨m', hm'⟩ := p.rebalance
      by_cases hf : msg = .rebalance .finalize
      · subst hf; exact absurd hx (nofin _ _ _ _ _ p hk)
      refine ⟨p.step hr1 hf hx, ?_⟩
      by_cases htr : ∃ m, msg = .rebalance (.trade m)
      · obtain ⟨m, rfl⟩ := htr
        exact hno _ _ _ _ _ _ hr1 p hk (execute_trade.1 hx)
      · push Not at htr
        rw [units_kept hr1 hm' hx htr hf]; exact hk)
    hr ⟨Phase.refl hr.inv hreb, hc⟩ (fun _ _ => trivial)
    (noneAccepted_of_forall (fun _ _ h => h))
  refine ⟨main.1, main.2, ?_⟩
  rintro c (hm | hm)
  · obtain ⟨m', hm'⟩ := main.1.rebalance
    exact token_rejected_of_rebalance hm' hm
  · rintro ⟨s2, ms, hx⟩
    rw [hm] at hx
    exact nofin _ _ _ _ _ main.1 main.2 hx

/-! ### C21 -/

/-- The full claim C21: every active rebalance can be brought to an end. -/
def C21_full : Prop :=
  ∀ (s : State) (r : Rebalance), Reachable s → s.rebalance = some r → ∃ cs, (run s cs).1.rebalance = none

/-- **C21, partial (1): the dust deadlock.** If the open gap of a deflation denom other than the reserve
denom is worth less than one base unit over the whole supply, then in every continuation, with any
senders, times and market answers, the rebalance stays active and `Mint`, `Burn` and `Finalize` are
rejected.  The full claim is false: `C21_full_false`. -/
theorem C21_dust_blocks_forever_partial {s : State} {r : Rebalance} {d : Denom} {target cur : Nat}
    (hr : Reachable s) (hreb : s.rebalance = some r) (hd : d ≠ s.config.reserveDenom)
    (ht : r.deflation.lookup d = some target) (hc : s.indexUnits.lookup d = some cur) (hlt : target < cur)
    (hdust : (cur - target) * s.totalSupply < 1000000000000000000) (cs : List Call) :
    (∃ r', (run s cs).1.rebalance = some r' ∧ r'.deflation = r.deflation ∧ r'.inflation = r.inflation) ∧
    (run s cs).1.indexUnits.lookup d = some cur ∧
    ∀ c : Call, (TokenMsg c.msg ∨ c.msg = .rebalance .finalize) → ¬ accepted (run s cs).1 c := by
  rw [lookup_eq] at ht hc ⊢
  obtain ⟨p, h1, h2⟩ := stuck hr hreb ht hc hlt (by
    intro s1 s2 env info m ms hr1 p hk hx
    obtain ⟨m', hm'⟩ := p.rebalance
    rcases trade_deflation hr1.inv hm' ht hk hx with h | ⟨_, _, _, _, _, _, _, _, h⟩
    · exact h
    · rcases h with ⟨h, _⟩ | ⟨_, simIn, h1, h2, _⟩
      · exact absurd (h.trans p.reserveDenom) hd
      · rw [p.supply] at h1
        have : simIn = 0 := by omega
        subst this
        simpa using h2) cs
  obtain ⟨m', hm'⟩ := p.rebalance
  exact ⟨⟨_, hm', rfl, rfl⟩, h1, h2⟩

/-- `Init` of a rebalance that takes one smallest step off the unit of uatom. -/
def dustInit : Call :=
  ⟨Demo.env 1000, ⟨"gov", []⟩, .rebalance (.init none [("uatom", 249999999999999999)] [("uion", 1000000000000000000)])⟩

example : Reachable (run Demo.s1 [dustInit]).1 ∧
    (run Demo.s1 [dustInit]).1.rebalance =
      some ⟨none, [("uatom", 249999999999999999)], [("uion", 1000000000000000000)]⟩ ∧
    "uatom" ≠ (run Demo.s1 [dustInit]).1.config.reserveDenom ∧
    (run Demo.s1 [dustInit]).1.indexUnits.lookup "uatom" = some 250000000000000000 ∧
    (250000000000000000 - 249999999999999999) * (run Demo.s1 [dustInit]).1.totalSupply < 1000000000000000000 :=
  ⟨Demo.s1_reachable.run _, by decide +kernel, by decide +kernel, by decide +kernel, by decide +kernel⟩

theorem C21_full_false : ¬ C21_full := by
  intro h
  have hreb : (run Demo.s1 [dustInit]).1.rebalance =
      some ⟨none, [("uatom", 249999999999999999)], [("uion", 1000000000000000000)]⟩ := by decide +kernel
  obtain ⟨cs, hcs⟩ := h _ _ (Demo.s1_reachable.run [dustInit]) hreb
  obtain ⟨⟨r', hr', _⟩, _⟩ := C21_dust_blocks_forever_partial (d := "uatom") (target := 249999999999999999)
    (cur := 250000000000000000)
    (Demo.s1_reachable.run [dustInit]) hreb (by decide +kernel) (by decide +kernel) (by decide +kernel)
    (by decide) (by decide +kernel) cs
  rw [hcs] at hr'; cases hr'

/-- **C21, partial (2).** A deflation trade that closes an open gap of a denom other than the reserve denom
sells an amount worth exactly the gap: if the gap times the supply is not a whole number of base units,
no single trade can close it. -/
theorem C21_closing_trade_is_exact_partial {s s' : State} {env : Env} {info : Info} {r : Rebalance} {d : Denom}
    {target cur : Nat} {m : TradeMsg} {ms : List Msg}
    (hr : Reachable s) (hreb : s.rebalance = some r) (hd : d ≠ s.config.reserveDenom)
    (ht : r.deflation.lookup d = some target) (hc : s.indexUnits.lookup d = some cur) (hlt : target < cur)
    (h : execute s env info (.rebalance (.trade m)) = .ok (s', ms))
    (hclose : s'.indexUnits.lookup d = some target) :
    ∃ simIn, simIn * 1000000000000000000 = (cur - target) * s.totalSupply := by
  rw [lookup_eq] at ht hc hclose
  have h2 := execute_trade.1 h
  rcases trade_deflation hr.inv hreb ht hc h2 with h | ⟨_, _, _, _, _, _, _, _, h⟩
  · rw [hclose] at h; cases h; omega
  · rcases h with ⟨h, _⟩ | ⟨_, simIn, h1, h2, h3, h4, _⟩
    · exact absurd h hd
    · refine ⟨simIn, le_antisymm h1 ?_⟩
      rw [h2] at hclose
      simp only [Option.some.injEq] at hclose
      have : cur - target = simIn * 1000000000000000000 / s.totalSupply := by omega
      rw [this]
      exact Nat.div_mul_le_self _ _

/-- A rebalance that sells 0.2 uatom per token for uion, over routes without tight limits. -/
def closeHistory : List Call :=
  [⟨Demo.env 1000, ⟨"gov", []⟩, .gov (.updateTradeInfo "uatom" [⟨1, "uosmo"⟩] 60 5000)⟩,
   ⟨Demo.env 1000, ⟨"gov", []⟩, .gov (.updateTradeInfo "uosmo" [⟨2, "uion"⟩] 60 5000)⟩,
   ⟨Demo.env 1000, ⟨"gov", []⟩,
    .rebalance (.init none [("uatom", 50000000000000000)] [("uion", 1000000000000000000)])⟩]

/-- The trade that closes the gap. -/
def closing : Call := ⟨Demo.env 2000, ⟨"bob", []⟩, .rebalance (.trade (.deflate "uatom" 1999 2000))⟩

example : Reachable (run Demo.s1 closeHistory).1 ∧
    (execute (run Demo.s1 closeHistory).1 closing.env closing.info closing.msg).map
      (fun o => o.1.indexUnits.lookup "uatom") = .ok (some 50000000000000000) :=
  ⟨Demo.s1_reachable.run _, by decide +kernel⟩

/-- **C21, partial (3).** When all targets are met and nothing is left in the reserve, `Finalize` by the
manager (by anyone if there is none) is accepted. -/
theorem C21_finalize_when_met_partial {s : State} {r : Rebalance} (hr : Reachable s) (hreb : s.rebalance = some r)
    (hmet : ∀ d target, (d, target) ∈ r.deflation → s.indexUnits.lookup d = some target)
    (hres : ∀ res, s.reserveUnits = some res → ∀ e ∈ res, e.2 = 0) (env : Env) (info : Info)
    (hm : ∀ a, r.manager = some a → info.sender = a) :
    accepted s ⟨env, info, .rebalance .finalize⟩ := by
  obtain ⟨res, hres'⟩ := hr.inv.resSome r hreb
  exact ⟨_, _, execute_eq_ok.2 ⟨s, by simp [collectsFirst], finalize_eq_ok.2
    ⟨r, res, hreb, hres', fun a ha => (hm a ha).symm, fun e he => ⟨e.2, by
      rw [← lookup_eq]; exact hmet e.1 e.2 he, le_refl _⟩, hres res hres', rfl, rfl⟩⟩⟩

/-- After the closing trade and the purchase of uion all targets are met and the reserve is empty. -/
def metHistory : List Call :=
  closeHistory ++ [closing, ⟨Demo.env 2000, ⟨"bob", []⟩, .rebalance (.trade (.inflate "uion" 1999 1000))⟩]

example : Reachable (run Demo.s1 metHistory).1 ∧
    (run Demo.s1 metHistory).1.rebalance =
      some ⟨none, [("uatom", 50000000000000000)], [("uion", 1000000000000000000)]⟩ ∧
    (run Demo.s1 metHistory).1.indexUnits.lookup "uatom" = some 50000000000000000 ∧
    (run Demo.s1 metHistory).1.reserveUnits = some [("uion", 0)] :=
  ⟨Demo.s1_reachable.run _, by decide +kernel, by decide +kernel, by decide +kernel⟩

/-! ### C22 -/

/-- The full claim C22: with inflation weights accepted by `Init`, moving the reserve denom's gap into the
reserve (the trade that depends on nothing but the weights) is accepted, when all numbers fit. -/
def C22_full : Prop :=
  ∀ (s s1 : State) (env env' : Env) (info info' : Info) (m : Option Addr) (de inf : Units) (ms : List Msg)
    (target : Nat), Reachable s →
    execute s env info (.rebalance (.init m de inf)) = .ok (s1, ms) →
    (∀ a, m = some a → info'.sender = a) →
    de.lookup s.config.reserveDenom = some target →
    (inf.map (·.2)).sum < 2 ^ 128 →
    (∀ d w, (d, w) ∈ inf → unitIn s1 s.config.reserveDenom * w / 10 ^ 18 < 2 ^ 128) →
    unitIn s1 s.config.reserveDenom * s.totalSupply / 10 ^ 18 < 2 ^ 128 →
    unitIn s1 s.config.reserveDenom < 2 ^ 128 →
    accepted s1 ⟨env', info', .rebalance (.trade (.deflate s.config.reserveDenom 0 0))⟩

/-- **C22, partial (1).** The claim holds when the last weight is positive. -/
theorem C22_positive_last_weight_partial
    (s s1 : State) (env env' : Env) (info info' : Info) (m : Option Addr) (de inf : Units) (ms : List Msg)
    (target : Nat) (hr : Reachable s)
    (h : execute s env info (.rebalance (.init m de inf)) = .ok (s1, ms))
    (hm : ∀ a, m = some a → info'.sender = a)
    (hde : de.lookup s.config.reserveDenom = some target)
    (hsum : (inf.map (·.2)).sum < 2 ^ 128)
    (hmul : ∀ d w, (d, w) ∈ inf → unitIn s1 s.config.reserveDenom * w / 10 ^ 18 < 2 ^ 128)
    (hsup : unitIn s1 s.config.reserveDenom * s.totalSupply / 10 ^ 18 < 2 ^ 128)
    (hu : unitIn s1 s.config.reserveDenom < 2 ^ 128)
    (hlast : ∀ d w, inf.getLast? = some (d, w) → 0 < w) :
    accepted s1 ⟨env', info', .rebalance (.trade (.deflate s.config.reserveDenom 0 0))⟩ := by
  obtain ⟨a1, a2, a3, a4, _, _⟩ := init_result h
  have hi := (hr.execute h).inv
  rw [lookup_eq] at hde
  obtain ⟨cur, hc, hle⟩ := hi.deflBound _ a1 _ (Units.getKey_mem hde)
  simp only at hc hle
  have hcur : unitIn s1 s.config.reserveDenom = cur := by simp [unitIn, lookup_eq, hc]
  rw [hcur] at hmul hsup hu
  have hU : U128 = 2 ^ 128 := rfl
  have hO : ONE = 10 ^ 18 := rfl
  rw [← hU] at hsum hmul hsup hu
  have hmono : ∀ x : Nat, (cur - target) * x / ONE ≤ cur * x / ONE := fun x =>
    Nat.div_le_div_right (Nat.mul_le_mul_right _ (Nat.sub_le _ _))
  rw [← hO] at hmul hsup
  obtain ⟨us', hus'⟩ := Units.subKey_ok (v := cur - target) hc (Nat.sub_le _ _)
  obtain ⟨res', hres'⟩ := inflateReserveUnit_ok (ws := inf) (res := []) (expand := cur - target)
    (fun e he => hlast e.1 e.2 he) hsum
    (fun e he => lt_of_le_of_lt (hmono e.2) (hmul e.1 e.2 he))
    (fun d => by simp only [Units.getKey_nil, Option.getD_none, Nat.zero_add]; exact lt_of_le_of_lt (Nat.sub_le _ _) hu)
  refine ⟨{ s1 with indexUnits := us', reserveUnits := some res' }, [], execute_trade.2 ?_⟩
  exact trade_eq_ok.2 ⟨_, a1, fun a ha => (hm a ha).symm, .inl ⟨_, 0, 0, rfl, by rw [a4],
    deflateReserve_eq_ok.2 ⟨[], target, cur, us', res', a2, hde, hc, hle,
      lt_of_le_of_lt (hmono _) (by rw [a3]; exact hsup), hus', hres', rfl, rfl⟩⟩⟩

/-- `Init` with positive weights moving the reserve denom from 1.5 to 1 per token. -/
def goodInit : Call :=
  ⟨Demo.env 1000, ⟨"gov", []⟩,
    .rebalance (.init none [("uosmo", 1000000000000000000)] [("uion", 1000000000000000000), ("ujuno", 2)])⟩

example : accepted Demo.s1 goodInit ∧ Reachable Demo.s1 ∧ Demo.s1.config.reserveDenom = "uosmo" ∧
    unitIn (run Demo.s1 [goodInit]).1 "uosmo" * 1000000000000000000 / 10 ^ 18 < 2 ^ 128 :=
  ⟨by decide +kernel, Demo.s1_reachable, by decide +kernel, by decide +kernel⟩

/-- **C22, partial (2).** If the last weight is zero (in particular if all are), every deflation is rejected
in every continuation; so if a gap is open the rebalance never ends, and `Mint` and `Burn` stay rejected
forever. -/
theorem C22_zero_last_weight_blocks_partial {s : State} {r : Rebalance} {d : Denom} (hr : Reachable s)
    (hreb : s.rebalance = some r) (hlast : r.inflation.getLast? = some (d, 0)) (cs : List Call) :
    (NoneAccepted (· = .rebalance .finalize) s cs →
      ∀ env info k out maxIn, ¬ accepted (run s cs).1 ⟨env, info, .rebalance (.trade (.deflate k out maxIn))⟩) ∧
    ((∃ k target cur, r.deflation.lookup k = some target ∧ s.indexUnits.lookup k = some cur ∧ target < cur) →
      (∃ r', (run s cs).1.rebalance = some r') ∧
      ∀ c : Call, (TokenMsg c.msg ∨ c.msg = .rebalance .finalize) → ¬ accepted (run s cs).1 c) := by
  obtain ⟨ws, hws⟩ : ∃ ws, r.inflation = ws ++ [(d, 0)] := List.getLast?_eq_some_iff.1 hlast
  have hno : ∀ res x res', inflateReserveUnit res x r.inflation ≠ .ok res' := by
    intro res x res'
    rw [hws]; exact inflateReserveUnit_last_zero
  constructor
  · intro hnf env info k out maxIn ⟨s', ms, hx⟩
    have p := Phase.run hr hreb hnf
    obtain ⟨m', hm'⟩ := p.rebalance
    obtain ⟨r', hr', _, h⟩ := trade_eq_ok.1 (execute_trade.1 hx)
    rw [hm'] at hr'; cases hr'
    rcases h with ⟨d', o, mi, _, hd, h⟩ | ⟨d', o, mi, _, hd, h⟩ | ⟨d', _, _, e, _⟩ | ⟨d', _, _, e, _⟩
    · obtain ⟨res, target', current, us', res', h1, h2, h3, h4, _, h6, h7, _⟩ := deflateReserve_eq_ok.1 h
      exact hno _ _ _ h7
    · obtain ⟨t, res, target', current, simIn, us', res', g1, h1, h2, h3, _, _, h4, _, _, _, h9, _, h11, _, _,
        h6, h7, _⟩ := deflate_eq_ok.1 h
      exact hno _ _ _ h7
    · cases e
    · cases e
  · rintro ⟨k, target, cur, ht, hc, hlt⟩
    rw [lookup_eq] at ht hc
    obtain ⟨p, _, h2⟩ := stuck hr hreb ht hc hlt (by
      intro s1 s2 env info m ms hr1 p hk hx
      obtain ⟨m', hm'⟩ := p.rebalance
      rcases trade_deflation hr1.inv hm' ht hk hx with h | ⟨_, _, _, _, _, _, _, _, h⟩
      · exact h
      · rcases h with ⟨_, _, h⟩ | ⟨_, simIn, _, _, _, _, h⟩
        · exact absurd h (hno _ _ _)
        · exact absurd h (hno _ _ _)) cs
    obtain ⟨m', hm'⟩ := p.rebalance
    exact ⟨⟨_, hm'⟩, h2⟩

/-- `Init` of a rebalance with a zero weight at the end. -/
def zeroInit : Call :=
  ⟨Demo.env 1000, ⟨"gov", []⟩,
    .rebalance (.init none [("uosmo", 1000000000000000000)] [("uion", 1000000000000000000), ("ujuno", 0)])⟩

example : Reachable (run Demo.s1 [zeroInit]).1 ∧
    (run Demo.s1 [zeroInit]).1.rebalance =
      some ⟨none, [("uosmo", 1000000000000000000)], [("uion", 1000000000000000000), ("ujuno", 0)]⟩ ∧
    (run Demo.s1 [zeroInit]).1.indexUnits.lookup "uosmo" = some 1500000000000000000 :=
  ⟨Demo.s1_reachable.run _, by decide +kernel, by decide +kernel⟩

theorem C22_full_false : ¬ C22_full := by
  intro h
  have hx : execute Demo.s1 zeroInit.env zeroInit.info zeroInit.msg =
      .ok ((run Demo.s1 [zeroInit]).1, []) := by decide +kernel
  have := h Demo.s1 (run Demo.s1 [zeroInit]).1 zeroInit.env (Demo.env 2000) zeroInit.info ⟨"bob", []⟩ none
    [("uosmo", 1000000000000000000)] [("uion", 1000000000000000000), ("ujuno", 0)] [] 1000000000000000000
    Demo.s1_reachable hx (by simp) (by decide +kernel) (by decide +kernel)
    (by intro d w hd; simp at hd; rcases hd with ⟨rfl, rfl⟩ | ⟨rfl, rfl⟩ <;> decide +kernel)
    (by decide +kernel) (by decide +kernel)
  revert this
  decide +kernel

/-! ### C23 -/

/-- Sum of all entries of a unit list. -/
def sumUnits (us : Units) : Nat := (us.map (·.2)).sum

/-- **C23.** An accepted deflation takes proceeds `P` per token into the reserve (the closed gap for the
reserve denom itself, the bought amount divided by the supply otherwise) and distributes them over the
inflation list with weights `w` of sum `W`: the reserve grows by at most `P` in total, only listed denoms
change, none loses; what is lost to rounding is at most `1 + 10^18/w_last` smallest steps; and every
listed denom gets at least its share `P·w/W` up to `1 + 10^18/w` smallest steps. -/
theorem C23_proceeds_split {s s' : State} {env : Env} {info : Info} {d : Denom} {out maxIn : Nat} {ms : List Msg}
    (hr : Reachable s) (h : execute s env info (.rebalance (.trade (.deflate d out maxIn))) = .ok (s', ms)) :
    ∃ r res res' target P, s.rebalance = some r ∧ s.reserveUnits = some res ∧ s'.reserveUnits = some res' ∧
      r.deflation.lookup d = some target ∧
      P = (if d = s.config.reserveDenom then unitIn s d - target
           else out * 1000000000000000000 / s.totalSupply) ∧
      sumUnits res ≤ sumUnits res' ∧ sumUnits res' ≤ sumUnits res + P ∧
      (∀ k, k ∉ r.inflation.map (·.1) → res'.lookup k = res.lookup k) ∧
      (∀ k, (res.lookup k).getD 0 ≤ (res'.lookup k).getD 0) ∧
      (∀ k w, r.inflation.getLast? = some (k, w) →
        (sumUnits res + P - sumUnits res') * w < 1000000000000000000 + w) ∧
      (∀ k w, (k, w) ∈ r.inflation → P * w * w ≤
        sumUnits r.inflation * w * ((res'.lookup k).getD 0 - (res.lookup k).getD 0 + 1)
          + sumUnits r.inflation * 1000000000000000000) := by
  obtain ⟨r, hreb, _, h⟩ := trade_eq_ok.1 (execute_trade.1 h)
  have hn : r.inflation.denoms.Nodup := (List.nodup_append.1 (hr.inv.rebNodup r hreb)).2.1
  have fin : ∀ {res res' : Units} {P : Nat}, inflateReserveUnit res P r.inflation = .ok res' →
      sumUnits res ≤ sumUnits res' ∧ sumUnits res' ≤ sumUnits res + P ∧
      (∀ k, k ∉ r.inflation.map (·.1) → res'.lookup k = res.lookup k) ∧
      (∀ k, (res.lookup k).getD 0 ≤ (res'.lookup k).getD 0) ∧
      (∀ k w, r.inflation.getLast? = some (k, w) →
        (sumUnits res + P - sumUnits res') * w < 1000000000000000000 + w) ∧
      (∀ k w, (k, w) ∈ r.inflation → P * w * w ≤
        sumUnits r.inflation * w * ((res'.lookup k).getD 0 - (res.lookup k).getD 0 + 1)
          + sumUnits r.inflation * 1000000000000000000) := by
    intro res res' P hI
    obtain ⟨i1, i2, i3, i4, i5, i6⟩ := inflateReserveUnit_spec hI
    simp only [inflateReserveUnit, bind_eq_ok] at hI
    obtain ⟨t, ht, hI⟩ := hI
    rw [sumWeights_eq_ok ht] at hI
    simp only [lookup_eq, ← ONE_eq]
    refine ⟨i5, i6, i3, i4, ?_, ?_⟩
    · intro k w hk
      obtain ⟨ws, hws⟩ := List.getLast?_eq_some_iff.1 hk
      rw [hws] at hI
      exact inflateLoop_leftover hI
    · intro k w hk
      exact inflateLoop_fair hn hI hk
  rcases h with ⟨d', o, mi, e, hd, h⟩ | ⟨d', o, mi, e, hd, h⟩ | ⟨d', _, _, e, _⟩ | ⟨d', _, _, e, _⟩
  · cases e
    obtain ⟨res, target, current, us', res', h1, h2, h3, h4, _, h6, h7, rfl, _⟩ := deflateReserve_eq_ok.1 h
    refine ⟨r, res, res', target, current - target, hreb, h1, rfl, by rw [lookup_eq]; exact h2, ?_, fin h7⟩
    rw [if_pos hd.symm]
    simp [unitIn, lookup_eq, h3]
  · cases e
    obtain ⟨t, res, target, current, simIn, us', res', g1, h1, h2, h3, _, _, h4, _, _, _, h9, _, h11, _, _,
      h6, h7, rfl, _⟩ := deflate_eq_ok.1 h
    refine ⟨r, res, res', target, _, hreb, h1, rfl, by rw [lookup_eq]; exact h2, ?_, fin h7⟩
    rw [if_neg (fun x => hd x.symm), ONE_eq]
  · cases e
  · cases e

/-- Three inflation denoms with weights 1, 1 and 1 receive a gap of 0.5. -/
def splitHistory : List Call :=
  [⟨Demo.env 1000, ⟨"gov", []⟩, .rebalance (.init none [("uosmo", 1000000000000000000)]
    [("uion", 1000000000000000000), ("ujuno", 1000000000000000000), ("uakt", 1000000000000000000)])⟩]

example : Reachable (run Demo.s1 splitHistory).1 ∧
    (execute (run Demo.s1 splitHistory).1 (Demo.env 2000) ⟨"bob", []⟩
      (.rebalance (.trade (.deflate "uosmo" 0 0)))).map (fun o => o.1.reserveUnits) =
    .ok (some [("uion", 166666666666666666), ("ujuno", 166666666666666667), ("uakt", 166666666666666667)]) :=
  ⟨Demo.s1_reachable.run _, by decide +kernel⟩

end Ibcx.Props
