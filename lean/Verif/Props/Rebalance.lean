import Verif.Core.Phase
import Verif.Props.Ledger
import Verif.Props.Gov
/-!
# Properties C18-C20, C27: the course of a rebalance
-/

namespace Ibcx.Props
open Ibcx Ibcx.Core Ibcx.Spec

theorem denoms_eq (us : Units) : us.denoms = us.map (·.1) := rfl

/-- What `Init` leaves behind. -/
theorem init_result {s s1 : State} {env : Env} {info : Info} {m : Option Addr} {de inf : Units} {ms : List Msg}
    (h : execute s env info (.rebalance (.init m de inf)) = .ok (s1, ms)) :
    s1.rebalance = some ⟨m, de, inf⟩ ∧ s1.reserveUnits = some [] ∧ s1.totalSupply = s.totalSupply ∧
    s1.config = s.config ∧ s1.tradeInfos = s.tradeInfos ∧ s1.indexUnits.denoms = s.indexUnits.denoms := by
  obtain ⟨s0, h1, h2⟩ := execute_eq_ok.1 h
  have f := collectStreamingFee_frame h1
  obtain ⟨_, _, _, _, _, _, _, rfl, _⟩ := init_eq_ok.1 h2
  exact ⟨rfl, rfl, f.2.2.1, f.1, f.2.2.2.2.2.1, f.2.2.2.2.2.2.2.2.2.2⟩

theorem token_rejected_of_rebalance {s : State} {r : Rebalance} (hr : s.rebalance = some r) {c : Call}
    (hm : TokenMsg c.msg) : ¬ accepted s c := by
  rintro ⟨s', ms, h⟩
  obtain ⟨env, info, msg⟩ := c
  obtain ⟨s1, h1, h2⟩ := execute_eq_ok.1 h
  rcases hm with ⟨a, x, f, hm⟩ | ⟨x, hm⟩
  · simp only at hm; subst hm
    have f := collectStreamingFee_frame h1
    obtain ⟨_, hn, _⟩ := mint_eq_ok.1 h2
    rw [f.2.2.2.1, hr] at hn; cases hn
  · simp only at hm; subst hm
    have f := collectStreamingFee_frame h1
    obtain ⟨_, hn, _⟩ := burn_eq_ok.1 h2
    rw [f.2.2.2.1, hr] at hn; cases hn

/-- **C18.** After an accepted `Init`, over every history without accepted `Finalize`: the recorded supply
stays, and every `Mint` and `Burn` is rejected. -/
theorem C18_no_token_changes_during_rebalance {s s1 : State} {env : Env} {info : Info} {m : Option Addr}
    {de inf : Units} {ms : List Msg} (hr : Reachable s)
    (h : execute s env info (.rebalance (.init m de inf)) = .ok (s1, ms)) (cs : List Call)
    (hno : NoneAccepted (· = .rebalance .finalize) s1 cs) :
    (run s1 cs).1.totalSupply = s.totalSupply ∧
    ∀ c : Call, TokenMsg c.msg → ¬ accepted (run s1 cs).1 c := by
  obtain ⟨a, _, b, _⟩ := init_result h
  have p := Phase.run (hr.execute h) a hno
  obtain ⟨m', hm'⟩ := p.rebalance
  exact ⟨p.supply.trans b, fun c hc => token_rejected_of_rebalance hm' hc⟩

/-- During a rebalance a mint and a burn are refused. -/
example : Reachable Demo.s1 ∧ accepted Demo.s1 rebInit ∧
    ¬ accepted (run Demo.s1 [rebInit]).1 ⟨Demo.env 2100, Demo.mintInfo, .mint 10000 none none⟩ ∧
    ¬ accepted (run Demo.s1 [rebInit]).1 ⟨Demo.env 2100, ⟨"alice", [⟨"factory/core/ibcx", 100⟩]⟩, .burn none⟩ ∧
    accepted Demo.s1 ⟨Demo.env 2100, ⟨"alice", [⟨"factory/core/ibcx", 100⟩]⟩, .burn none⟩ :=
  ⟨Demo.s1_reachable, by decide +kernel, by decide +kernel, by decide +kernel, by decide +kernel⟩

/-- **C19.** After an accepted `Init` (which leaves state `s1`), over every history without accepted
`Finalize`: each deflation denom's unit lies between its target and its value at the start; denoms in
neither list keep their unit; inflation denoms never lose; only inflation denoms enter the basket and no
denom leaves it. -/
theorem C19_rebalance_bounds {s s1 : State} {env : Env} {info : Info} {m : Option Addr}
    {de inf : Units} {ms : List Msg} (hr : Reachable s)
    (h : execute s env info (.rebalance (.init m de inf)) = .ok (s1, ms)) (cs : List Call)
    (hno : NoneAccepted (· = .rebalance .finalize) s1 cs) :
    (∀ d target, (d, target) ∈ de → ∃ start now, s1.indexUnits.lookup d = some start ∧
      (run s1 cs).1.indexUnits.lookup d = some now ∧ target ≤ now ∧ now ≤ start) ∧
    (∀ d, d ∉ de.map (·.1) → d ∉ inf.map (·.1) →
      (run s1 cs).1.indexUnits.lookup d = s1.indexUnits.lookup d) ∧
    (∀ d ∈ inf.map (·.1), unitIn s1 d ≤ unitIn (run s1 cs).1 d) ∧
    (∀ d ∈ (run s1 cs).1.indexUnits.map (·.1), d ∈ s1.indexUnits.map (·.1) ∨ d ∈ inf.map (·.1)) ∧
    (∀ d ∈ s1.indexUnits.map (·.1), d ∈ (run s1 cs).1.indexUnits.map (·.1)) := by
  obtain ⟨a, _⟩ := init_result h
  have p := Phase.run (hr.execute h) a hno
  simp only [lookup_eq, unitIn]
  refine ⟨fun d t hd => ?_, p.other, p.inflated, p.denoms', p.denoms⟩
  exact p.deflated (d, t) hd

example : accepted Demo.s1 rebInit ∧ Reachable Demo.s1 ∧
    (run Demo.s1 [rebInit, ⟨Demo.env 2100, ⟨"bob", []⟩, .rebalance (.trade (.deflate "uosmo" 0 0))⟩]).1.indexUnits
      = [("uosmo", 1000000000000000000), ("uatom", 249994999950049670)] ∧
    (run Demo.s1 [rebInit, ⟨Demo.env 2100, ⟨"bob", []⟩, .rebalance (.trade (.deflate "uosmo" 0 0))⟩]).1.reserveUnits
      = some [("uion", 499969999700298020)] :=
  ⟨by decide +kernel, Demo.s1_reachable, by decide +kernel, by decide +kernel⟩

theorem getKey_filter {us : Units} (hn : us.denoms.Nodup) (d : Denom) :
    Units.getKey (us.filter (fun e => e.2 ≠ 0)) d = (us.getKey d).bind (fun v => if v = 0 then none else some v) := by
  have hsub : (us.filter (fun e => decide (e.2 ≠ 0))).Sublist us := List.filter_sublist
  have hn' : (Units.denoms (us.filter (fun e => e.2 ≠ 0))).Nodup := (hsub.map _).nodup hn
  cases h : us.getKey d with
  | none =>
    simp only [Option.bind_none]
    rw [Units.getKey_eq_none] at h ⊢
    intro hm
    exact h ((hsub.map _).subset hm)
  | some v =>
    have hmem := Units.getKey_mem h
    by_cases hv : v = 0
    · simp only [Option.bind_some, hv, if_true]
      rw [Units.getKey_eq_none]
      intro hm
      simp only [Units.denoms, List.mem_map, List.mem_filter] at hm
      obtain ⟨⟨d', v'⟩, ⟨h1, h2⟩, h3⟩ := hm
      simp only at h3; subst h3
      have := Units.mem_getKey hn h1
      rw [h] at this; cases this
      simp [hv] at h2
    · simp only [Option.bind_some, hv, if_false]
      exact Units.mem_getKey hn' (List.mem_filter.2 ⟨hmem, by simpa using hv⟩)

/-- **C20.** If a rebalance started by `Init` with lists `de` and `inf` (leaving `s1`) is ended by an
accepted `Finalize` after any history, then each deflation denom's unit is exactly its target and the
denom is gone if that is zero; every other denom of the basket keeps the unit it has just before
(zero units are dropped), which for denoms in neither list is the unit at the start; nothing is left in
the reserve; and no rebalance is active any more. -/
theorem C20_finalize_meets_targets {s s1 s' : State} {env env' : Env} {info info' : Info} {m : Option Addr}
    {de inf : Units} {ms ms' : List Msg} (hr : Reachable s)
    (h : execute s env info (.rebalance (.init m de inf)) = .ok (s1, ms)) (cs : List Call)
    (hno : NoneAccepted (· = .rebalance .finalize) s1 cs)
    (hf : execute (run s1 cs).1 env' info' (.rebalance .finalize) = .ok (s', ms')) :
    (∀ d target, (d, target) ∈ de → s'.indexUnits.lookup d = if target = 0 then none else some target) ∧
    (∀ d, d ∉ de.map (·.1) → unitIn s' d = unitIn (run s1 cs).1 d) ∧
    (∀ d, d ∉ de.map (·.1) → d ∉ inf.map (·.1) → unitIn s' d = unitIn s1 d) ∧
    (∀ d ∈ inf.map (·.1), unitIn s1 d ≤ unitIn s' d) ∧
    (∀ e ∈ s'.indexUnits, e.2 ≠ 0) ∧
    (∃ res, (run s1 cs).1.reserveUnits = some res ∧ ∀ e ∈ res, e.2 = 0) ∧
    s'.rebalance = none ∧ s'.reserveUnits = none ∧ s'.totalSupply = s.totalSupply ∧ ms' = [] := by
  obtain ⟨a, _, a2, _⟩ := init_result h
  have p := Phase.run (hr.execute h) a hno
  obtain ⟨m', hm'⟩ := p.rebalance
  have hi := ((hr.execute h).run cs).inv
  obtain ⟨_, h1, h2⟩ := execute_eq_ok.1 hf
  simp [collectsFirst] at h1; subst h1
  obtain ⟨r, res, f1, f2, _, f4, f5, rfl, rfl⟩ := finalize_eq_ok.1 h2
  rw [hm'] at f1; cases f1
  have hget := getKey_filter hi.nodup
  have hunit : ∀ d, (Units.getKey (List.filter (fun e => decide (e.2 ≠ 0)) (run s1 cs).1.indexUnits) d).getD 0 =
      ((run s1 cs).1.indexUnits.getKey d).getD 0 := by
    intro d
    rw [hget d]
    cases hk : (run s1 cs).1.indexUnits.getKey d with
    | none => rfl
    | some v => by_cases hv : v = 0 <;> simp [hv]
  simp only [unitIn, lookup_eq]
  refine ⟨fun d t hd => ?_, fun d _ => hunit d, fun d h1 h2 => ?_, fun d hd => ?_, ?_, ⟨res, f2, f5⟩, trivial, trivial, ?_, trivial⟩
  · obtain ⟨cur, cur', _, k2, k3, _⟩ := p.deflated (d, t) hd
    obtain ⟨c, l1, l2⟩ := f4 (d, t) hd
    simp only at l1 l2 k2 k3
    rw [k2] at l1; cases l1
    have : cur' = t := le_antisymm l2 k3
    rw [hget d, k2, this]; rfl
  · rw [hunit d, p.other d h1 h2]
  · rw [hunit d]; exact p.inflated d hd
  · intro e he
    simpa using (List.mem_filter.1 he).2
  · exact p.supply.trans a2

/-- A complete rebalance: deflate the reserve denom and put the proceeds into a new denom that is bought
from it in one trade. -/
def rebHistory : List Call :=
  [⟨Demo.env 2050, ⟨"gov", []⟩, .gov (.updateTradeInfo "uosmo" [⟨7, "uion"⟩] 60 1000000)⟩,
   ⟨Demo.env 2100, ⟨"bob", []⟩, .rebalance (.trade (.deflate "uosmo" 0 0))⟩,
   ⟨Demo.env 2200, ⟨"bob", []⟩, .rebalance (.trade (.inflate "uion" 5000 4000))⟩]

/-- `Init` of that rebalance. -/
def rebInit2 : Call :=
  ⟨Demo.env 1000, ⟨"gov", []⟩, .rebalance (.init none [("uosmo", 1000000000000000000)] [("uion", 1000000000000000000)])⟩

example : Reachable Demo.s1 ∧ accepted Demo.s1 rebInit2 ∧
    NoneAccepted (· = .rebalance .finalize) (run Demo.s1 [rebInit2]).1 rebHistory ∧
    accepted (run (run Demo.s1 [rebInit2]).1 rebHistory).1 ⟨Demo.env 2300, ⟨"bob", []⟩, .rebalance .finalize⟩ ∧
    (run Demo.s1 (rebInit2 :: rebHistory ++ [⟨Demo.env 2300, ⟨"bob", []⟩, .rebalance .finalize⟩])).1.indexUnits =
      [("uosmo", 1000000000000000000), ("uatom", 250000000000000000), ("uion", 499900000000000000)] :=
  ⟨Demo.s1_reachable, by decide +kernel,
    noneAccepted_of_forall (by intro c hc; simp [rebHistory] at hc; rcases hc with rfl | rfl | rfl <;> simp),
    by decide +kernel, by decide +kernel⟩

/-- **C27.** In every reachable state the basket lists each denom once, so does the rebalance reserve, and
while a rebalance is active its reserve exists, its denoms are inflation denoms, and every deflation
denom is in the basket with at least its target. -/
theorem C27_basket_well_formed {s : State} (hr : Reachable s) :
    (s.indexUnits.map (·.1)).Nodup ∧
    (∀ res, s.reserveUnits = some res → (res.map (·.1)).Nodup) ∧
    (s.rebalance = none ↔ s.reserveUnits = none) ∧
    (∀ r, s.rebalance = some r →
      (∃ res, s.reserveUnits = some res ∧ ∀ d ∈ res.map (·.1), d ∈ r.inflation.map (·.1)) ∧
      (r.deflation.map (·.1) ++ r.inflation.map (·.1)).Nodup ∧
      (∀ d target, (d, target) ∈ r.deflation → ∃ u, s.indexUnits.lookup d = some u ∧ target ≤ u)) := by
  have hi := hr.inv
  refine ⟨hi.nodup, hi.resNodup, ?_, ?_⟩
  · constructor
    · exact hi.resNone
    · intro h
      cases hreb : s.rebalance with
      | none => rfl
      | some r => obtain ⟨res, hres⟩ := hi.resSome r hreb; rw [h] at hres; cases hres
  · intro r hreb
    obtain ⟨res, hres⟩ := hi.resSome r hreb
    refine ⟨⟨res, hres, hi.resSub r res hreb hres⟩, hi.rebNodup r hreb, fun d t hd => ?_⟩
    rw [lookup_eq]
    exact hi.deflBound r hreb (d, t) hd

/-- In the middle of a rebalance. -/
example : Reachable (run Demo.s1 (rebInit2 :: rebHistory)).1 ∧
    (run Demo.s1 (rebInit2 :: rebHistory)).1.indexUnits =
      [("uosmo", 1000000000000000000), ("uatom", 250000000000000000), ("uion", 499900000000000000)] ∧
    (run Demo.s1 (rebInit2 :: rebHistory)).1.reserveUnits = some [("uion", 0)] :=
  ⟨Demo.s1_reachable.run _, by decide +kernel, by decide +kernel⟩

/-- **C27 (2).** A rejected `Finalize` is never an abort on a missing denom or a missing reserve: it is
"not rebalancing", "not the manager" or "targets or reserve not met". -/
theorem C27_finalize_error {s : State} {env : Env} {info : Info} {e : Err} (hr : Reachable s)
    (h : execute s env info (.rebalance .finalize) = .error e) :
    e = .notOnRebalancing ∨ e = .unauthorized ∨ e = .unableToFinalize := by
  have hi := hr.inv
  simp only [execute, collectsFirst, Bool.false_eq_true, if_false, ok_bind, dispatch, handleRebalance, finalize,
    unfreezeStreamingFee] at h
  cases hreb : s.rebalance with
  | none => simp [hreb] at h; simp [h]
  | some r =>
    obtain ⟨res, hres⟩ := hi.resSome r hreb
    simp only [hreb] at h
    cases hm : checkManager r info.sender with
    | error e' =>
      rw [hm] at h
      simp [Bind.bind, Except.bind] at h
      subst h
      unfold checkManager at hm
      cases hman : r.manager with
      | none => simp [hman] at hm
      | some a =>
        simp only [hman, assertSender, require] at hm
        split at hm
        · cases hm
        · cases hm; simp
    | ok u =>
      rw [hm] at h
      simp only [ok_bind] at h
      have key : ∀ ds : Units, (∀ e ∈ ds, ∃ cur, s.indexUnits.getKey e.1 = some cur ∧ e.2 ≤ cur) →
          ∀ e, checkTargets s.indexUnits ds = .error e → e = .unableToFinalize := by
        intro ds
        induction ds with
        | nil => intro _ e h; simp [checkTargets] at h
        | cons x ds ih =>
          intro hb e h
          obtain ⟨d, t⟩ := x
          obtain ⟨cur, hc, _⟩ := hb (d, t) (by simp)
          simp only at hc
          have hk : s.indexUnits.getKey! d = .ok cur := Units.getKey!_eq_ok.2 hc
          rw [checkTargets, hk, ok_bind] at h
          unfold require at h
          split at h
          · rw [ok_bind] at h
            exact ih (fun y hy => hb y (by simp [hy])) e h
          · simp [Bind.bind, Except.bind] at h; exact h.symm
      cases ht : checkTargets s.indexUnits r.deflation with
      | error e' =>
        rw [ht] at h
        simp [Bind.bind, Except.bind] at h
        subst h
        exact .inr (.inr (key _ (hi.deflBound r hreb) _ ht))
      | ok u =>
        rw [ht] at h
        simp only [ok_bind, loadReserve, hres] at h
        unfold require at h
        split at h
        · simp [ok_bind] at h
        · simp [Bind.bind, Except.bind] at h; simp [h]

example : Reachable (run Demo.s1 [rebInit]).1 ∧
    (run Demo.s1 [rebInit]).1.rebalance =
      some ⟨none, [("uosmo", 1000000000000000000)], [("uion", 1000000000000000000)]⟩ ∧
    (execute (run Demo.s1 [rebInit]).1 (Demo.env 2000) ⟨"bob", []⟩ (.rebalance .finalize)).map (·.2)
      = .error .unableToFinalize :=
  ⟨Demo.s1_reachable.run _, by decide +kernel, by decide +kernel⟩

end Ibcx.Props
