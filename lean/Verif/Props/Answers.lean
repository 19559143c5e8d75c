import Verif.Spec.Answers
import Verif.Props.AcceptGov
import Verif.Props.Swaps
import Verif.Core.Query
import Verif.Props.AirdropMore
/-!
# Property C96: the queries tell what the last accepted message set
-/

namespace Ibcx.Props
open Ibcx Ibcx.Core Ibcx.Spec

theorem lastSet_cons {α : Type} (news : State → Call → Option α) (s : State) (c : Call) (cs : List Call) :
    lastSet news s (c :: cs) = (match lastSet news (step s c).1 cs with
      | some v => some v
      | none => if accepted s c then news s c else none) := rfl

/-- What is true of every accepted call is true of histories. -/
theorem tells_last {α : Type} {news : State → Call → Option α} {f : State → α} :
    ∀ (cs : List Call) {s : State}, Reachable s →
    (∀ s c s' ms, Reachable s → execute s c.env c.info c.msg = .ok (s', ms) → f s' = (news s c).getD (f s)) →
    f (run s cs).1 = (lastSet news s cs).getD (f s) := by
  intro cs
  induction cs with
  | nil => intro s _ _; rfl
  | cons c cs ih =>
    intro s hr h
    have hstep : Reachable (step s c).1 := by
      have := hr.run [c]
      simpa [run] using this
    have hrun : (run s (c :: cs)).1 = (run (step s c).1 cs).1 := rfl
    rw [hrun, ih hstep h]
    rw [lastSet_cons]
    cases hl : lastSet news (step s c).1 cs with
    | some v => rfl
    | none =>
      by_cases ha : accepted s c
      · obtain ⟨s', ms, hx⟩ := ha
        simp only [Option.getD_none]
        rw [if_pos ⟨s', ms, hx⟩, step_of_ok hx]
        exact h s c s' ms hr hx
      · simp only [Option.getD_none]
        rw [if_neg ha, step_of_not_accepted ha]
        rfl

/-- The stored pause as an observer sees it. -/
def pauseOf (s : State) : Option (Option Nat) :=
  if s.config.paused.paused then some s.config.paused.expiresAt else none

theorem config_news {s s' : State} {c : Call} {ms : List Msg} (h : execute s c.env c.info c.msg = .ok (s', ms)) :
    s'.config.gov = (newGov s c).getD s.config.gov ∧ s'.pendingGov = (newNominee s c).getD s.pendingGov ∧
    s'.config.reserveDenom = (newReserveDenom s c).getD s.config.reserveDenom ∧
    pauseOf s' = (newPause s c).getD (pauseOf s) ∧ s'.config.indexDenom = s.config.indexDenom := by
  obtain ⟨env, info, msg⟩ := c
  have := config_effect h
  unfold newGov newNominee newReserveDenom newPause pauseOf
  cases msg with
  | mint a r f => obtain ⟨e1, e2⟩ := this; rw [e1, e2]; simp
  | burn r => obtain ⟨e1, e2⟩ := this; rw [e1, e2]; simp
  | realize => obtain ⟨e1, e2⟩ := this; rw [e1, e2]; simp
  | gov m =>
    cases m with
    | pause e => obtain ⟨_, _, _, e1, e2⟩ := this; rw [e1, e2]; simp
    | release => obtain ⟨_, _, e1, e2⟩ := this; rw [e1, e2]; simp
    | updateGov g => obtain ⟨_, _, e1, e2⟩ := this; rw [e1, e2]; simp
    | acceptGov => obtain ⟨_, e1, e2⟩ := this; rw [e1, e2]; simp
    | revokeGov => obtain ⟨_, e1, e2⟩ := this; rw [e1, e2]; simp
    | updateReserveDenom d => obtain ⟨_, _, e1, e2⟩ := this; rw [e1, e2]; simp
    | updateFeeStrategy p => obtain ⟨e1, e2⟩ := this; rw [e1, e2]; simp
    | updateRebalanceManager m => obtain ⟨e1, e2⟩ := this; rw [e1, e2]; simp
    | updateTradeInfo d rs c m => obtain ⟨e1, e2⟩ := this; rw [e1, e2]; simp
  | rebalance m => cases m <;> (obtain ⟨e1, e2⟩ := this; rw [e1, e2]; simp)

/-- The fee settings. -/
def feeSettings (f : Fee) : Addr × Option Nat × Option Nat × Option Nat :=
  (f.collector, f.mintFee, f.burnFee, f.streamingFee.map (·.rate))

theorem collect_feeSettings {s s' : State} {now : Nat} (h : collectStreamingFee s now = .ok s') :
    feeSettings s'.fee = feeSettings s.fee := by
  obtain ⟨_, _, _, _, _, _, f7, f8, f9, f10, _⟩ := collectStreamingFee_frame h
  have := congrArg (Option.map Prod.fst) f10
  simp only [Option.map_map, Function.comp_def] at this
  simp only [feeSettings, f7, f8, f9, this]

theorem other_news {s s' : State} {c : Call} {ms : List Msg} (hr : Reachable s)
    (h : execute s c.env c.info c.msg = .ok (s', ms)) :
    feeSettings s'.fee = (newFee s c).getD (feeSettings s.fee) ∧
    (s'.rebalance.map fun r => (r.deflation, r.inflation)) =
      (newPlan s c).getD (s.rebalance.map fun r => (r.deflation, r.inflation)) ∧
    (s'.rebalance.bind (·.manager)) = (newManager s c).getD (s.rebalance.bind (·.manager)) := by
  obtain ⟨env, info, msg⟩ := c
  dsimp only at h
  obtain ⟨s1, h1, h2⟩ := execute_eq_ok.1 h
  cases msg with
  | mint a r f =>
    obtain ⟨_, _, _, f4, _⟩ := collectStreamingFee_frame h1
    have f1 := collect_feeSettings h1
    obtain ⟨_, _, _, _, _, _, _, rfl, _⟩ := mint_eq_ok.1 h2
    exact ⟨f1, by dsimp only; rw [f4]; rfl, by dsimp only; rw [f4]; rfl⟩
  | burn r =>
    obtain ⟨_, _, _, f4, _⟩ := collectStreamingFee_frame h1
    have f1 := collect_feeSettings h1
    obtain ⟨_, _, _, _, _, _, _, _, _, _, _, _, _, _, rfl, _⟩ := burn_eq_ok.1 h2
    exact ⟨f1, by dsimp only; rw [f4]; rfl, by dsimp only; rw [f4]; rfl⟩
  | realize =>
    obtain ⟨_, _, _, f4, _⟩ := collectStreamingFee_frame h1
    have f1 := collect_feeSettings h1
    obtain ⟨_, h⟩ := realize_eq_ok.1 h2
    rcases h with ⟨_, rfl, _⟩ | ⟨sf, hsf, rfl, _⟩
    · exact ⟨f1, by rw [f4]; rfl, by rw [f4]; rfl⟩
    · refine ⟨?_, by dsimp only; rw [f4]; rfl, by dsimp only; rw [f4]; rfl⟩
      change _ = feeSettings s.fee
      rw [← f1]
      simp only [feeSettings, hsf, Option.map_some]
  | gov m =>
    cases m with
    | updateFeeStrategy p =>
      obtain ⟨_, _, _, f4, _⟩ := collectStreamingFee_frame h1
      obtain ⟨_, _, _, _, _, _, rfl, _⟩ := updateFee_eq_ok.1 h2
      refine ⟨?_, by dsimp only; rw [f4]; rfl, by dsimp only; rw [f4]; rfl⟩
      simp [feeSettings, newFee, Function.comp_def]
    | pause e =>
      simp [collectsFirst] at h1; subst h1
      obtain ⟨_, _, _, rfl, _⟩ := pause_eq_ok.1 h2; exact ⟨rfl, rfl, rfl⟩
    | release =>
      simp [collectsFirst] at h1; subst h1
      obtain ⟨_, _, rfl, _⟩ := release_eq_ok.1 h2; exact ⟨rfl, rfl, rfl⟩
    | updateGov g =>
      simp [collectsFirst] at h1; subst h1
      obtain ⟨_, _, _, rfl, _⟩ := updateGov_eq_ok.1 h2; exact ⟨rfl, rfl, rfl⟩
    | acceptGov =>
      simp [collectsFirst] at h1; subst h1
      obtain ⟨_, rfl, _⟩ := acceptGov_eq_ok.1 h2; exact ⟨rfl, rfl, rfl⟩
    | revokeGov =>
      simp [collectsFirst] at h1; subst h1
      obtain ⟨_, _, rfl, _⟩ := revokeGov_eq_ok.1 h2; exact ⟨rfl, rfl, rfl⟩
    | updateRebalanceManager m =>
      simp [collectsFirst] at h1; subst h1
      obtain ⟨_, _, ⟨r, hr', rfl⟩, _⟩ := updateRebalanceManager_eq_ok.1 h2
      refine ⟨rfl, ?_, rfl⟩
      dsimp only
      rw [hr']; rfl
    | updateReserveDenom d =>
      simp [collectsFirst] at h1; subst h1
      obtain ⟨_, _, rfl, _⟩ := updateReserveDenom_eq_ok.1 h2; exact ⟨rfl, rfl, rfl⟩
    | updateTradeInfo d rs c m =>
      simp [collectsFirst] at h1; subst h1
      obtain ⟨_, ⟨r, rs', hrs, rfl⟩, _⟩ := updateTradeInfo_eq_ok.1 h2; exact ⟨rfl, rfl, rfl⟩
  | rebalance m =>
    cases m with
    | init m de inf =>
      have f1 := collect_feeSettings h1
      obtain ⟨_, _, _, _, _, _, _, rfl, _⟩ := init_eq_ok.1 h2
      refine ⟨?_, rfl, rfl⟩
      change _ = feeSettings s.fee
      rw [← f1]
      simp [feeSettings, Function.comp_def]
    | trade m =>
      simp [collectsFirst] at h1; subst h1
      obtain ⟨r, _, t⟩ := trade_step hr.inv h2
      exact ⟨by rw [t.fee]; rfl, by rw [t.rebalance]; rfl, by rw [t.rebalance]; rfl⟩
    | finalize =>
      simp [collectsFirst] at h1; subst h1
      obtain ⟨r, res, _, _, _, _, _, rfl, _⟩ := finalize_eq_ok.1 h2
      refine ⟨?_, rfl, rfl⟩
      simp [feeSettings, newFee, Function.comp_def]

theorem route_news {s s' : State} {c : Call} {ms : List Msg} (a b : Denom)
    (h : execute s c.env c.info c.msg = .ok (s', ms)) :
    ((getTradeInfo s' a b).map fun t => (t.routes, t.cooldown, t.maxTradeAmount)) =
      ((newRoute a b s c).map some).getD ((getTradeInfo s a b).map fun t => (t.routes, t.cooldown, t.maxTradeAmount)) ∧
    ((getTradeInfo s' a b).bind (·.lastTradedAt)) =
      (newSwapTime a b s c).getD ((getTradeInfo s a b).bind (·.lastTradedAt)) := by
  obtain ⟨env, info, msg⟩ := c
  dsimp only at h
  unfold getTradeInfo
  by_cases htr : ∃ m, msg = .rebalance (.trade m)
  · obtain ⟨m, rfl⟩ := htr
    rcases trade_pair h with ⟨h1, h2, _⟩ | ⟨k, t, h1, h2, _, h3⟩
    · rw [h2]
      refine ⟨rfl, ?_⟩
      cases m with
      | deflate d _ _ =>
        simp only [swapPair] at h1
        split at h1
        · rename_i e; simp [newSwapTime, e]
        · cases h1
      | inflate d _ _ =>
        simp only [swapPair] at h1
        split at h1
        · rename_i e; simp [newSwapTime, e]
        · cases h1
    · rw [h3, KV.get_set]
      constructor
      · change _ = _
        split
        · rename_i e; rw [← e, h2]; rfl
        · rfl
      · cases m with
        | deflate d _ _ =>
          simp only [swapPair] at h1
          split at h1
          · cases h1
          · rename_i e
            cases h1
            by_cases g : (d, s.config.reserveDenom) = (a, b)
            · rw [if_pos g]
              rw [Prod.mk.injEq] at g
              simp only [newSwapTime]
              rw [if_pos ⟨e, g⟩]; rfl
            · rw [if_neg g]
              rw [Prod.mk.injEq] at g
              simp only [newSwapTime]
              rw [if_neg (fun x => g x.2)]; rfl
        | inflate d _ _ =>
          simp only [swapPair] at h1
          split at h1
          · cases h1
          · rename_i e
            cases h1
            by_cases g : (s.config.reserveDenom, d) = (a, b)
            · rw [if_pos g]
              rw [Prod.mk.injEq] at g
              simp only [newSwapTime]
              rw [if_pos ⟨e, g⟩]; rfl
            · rw [if_neg g]
              rw [Prod.mk.injEq] at g
              simp only [newSwapTime]
              rw [if_neg (fun x => g x.2)]; rfl
  · have hk := infos_kept h
    split at hk
    · rename_i d rs c m hx
      obtain ⟨r, rs', rfl, hk⟩ := hk
      rw [hk, KV.get_set]
      by_cases g : (d, r.tokenDenom) = (a, b)
      · rw [if_pos g]
        rw [Prod.mk.injEq] at g
        simp [newRoute, newSwapTime, g]
      · rw [if_neg g]
        rw [Prod.mk.injEq] at g
        simp [newRoute, newSwapTime, g]
    · exact absurd ⟨_, rfl⟩ htr
    · rename_i n1 n2
      rw [hk]
      have e1 : newRoute a b s ⟨env, info, msg⟩ = none := by
        unfold newRoute
        dsimp only
        split
        · rename_i d r rs c m; exact (n1 d (r :: rs) c m h rfl HEq.rfl).elim
        · rfl
      have e2 : newSwapTime a b s ⟨env, info, msg⟩ = none := by
        unfold newSwapTime
        dsimp only
        split
        · rename_i d r rs c m; exact (n1 d (r :: rs) c m h rfl HEq.rfl).elim
        · rename_i d x y; exact absurd ⟨_, rfl⟩ htr
        · rename_i d x y; exact absurd ⟨_, rfl⟩ htr
        · rfl
      rw [e1, e2]
      exact ⟨rfl, rfl⟩

/-- **C96 (configuration).** After any history `GetConfig` tells the governance account, the nominee and the reserve
denom that the last accepted message setting them set (from the start of the history if there is none), the index denom
of the start, and that the contract is paused exactly when the last accepted pause or release was a pause that has not
ended at the time asked for. -/
theorem C96_config_tells_the_last {s : State} (hr : Reachable s) (cs : List Call) {asked : Env} {time : Option Nat}
    {r : ConfigResp} (h : getConfig (run s cs).1 asked time = .ok r) :
    r.gov = (lastSet newGov s cs).getD s.config.gov ∧
    r.pendingGov = (lastSet newNominee s cs).getD s.pendingGov ∧
    r.reserveDenom = (lastSet newReserveDenom s cs).getD s.config.reserveDenom ∧
    r.indexDenom = s.config.indexDenom ∧
    (r.paused.paused = true ↔
      ∃ e, (lastSet newPause s cs).getD
          (if s.config.paused.paused then some s.config.paused.expiresAt else none) = some e ∧
        ∀ x, e = some x → time.getD asked.now < x) := by
  obtain ⟨h1, h2, h3, h4, h5, _⟩ := C66_config_query.2 r h
  refine ⟨?_, ?_, ?_, ?_, ?_⟩
  · rw [h1]; exact tells_last (f := fun s => s.config.gov) cs hr fun s c s' ms _ hx => (config_news hx).1
  · rw [h2]; exact tells_last (f := fun s => s.pendingGov) cs hr fun s c s' ms _ hx => (config_news hx).2.1
  · rw [h4]; exact tells_last (f := fun s => s.config.reserveDenom) cs hr fun s c s' ms _ hx => (config_news hx).2.2.1
  · rw [h3]
    have := tells_last (news := fun _ _ => none) (f := fun s => s.config.indexDenom) cs hr
      fun s c s' ms _ hx => (config_news hx).2.2.2.2
    have e : ∀ (cs : List Call) (s : State), lastSet (fun _ _ => (none : Option Denom)) s cs = none := by
      intro cs
      induction cs with
      | nil => intro s; rfl
      | cons c cs ih => intro s; simp [lastSet, ih]
    rw [e] at this
    exact this
  · have := tells_last (f := pauseOf) cs hr fun s c s' ms _ hx => (config_news hx).2.2.2.1
    rw [h5]
    change _ ↔ ∃ e, (lastSet newPause s cs).getD (pauseOf s) = some e ∧ _
    rw [← this]
    unfold pausedAt pauseOf
    split
    · rename_i hp
      simp [hp]
    · rename_i hp
      simp [hp]

/-- Governance nominates Bob, then pauses until 3000. -/
example : Reachable Demo.s1 ∧
    (getConfig (run Demo.s1 [⟨Demo.env 2000, ⟨"gov", []⟩, .gov (.updateGov "bob")⟩,
      ⟨Demo.env 2000, ⟨"gov", []⟩, .gov (.pause (some 3000))⟩]).1 (Demo.env 2500) none).map
        (fun r => (r.gov, r.pendingGov, r.paused.paused)) = .ok ("gov", some "bob", true) ∧
    lastSet newNominee Demo.s1 [⟨Demo.env 2000, ⟨"gov", []⟩, .gov (.updateGov "bob")⟩,
      ⟨Demo.env 2000, ⟨"gov", []⟩, .gov (.pause (some 3000))⟩] = some (some "bob") ∧
    lastSet newPause Demo.s1 [⟨Demo.env 2000, ⟨"gov", []⟩, .gov (.updateGov "bob")⟩,
      ⟨Demo.env 2000, ⟨"gov", []⟩, .gov (.pause (some 3000))⟩] = some (some (some 3000)) :=
  ⟨Demo.s1_reachable, by decide +kernel, by decide +kernel, by decide +kernel⟩

/-- **C96 (fees).** After any history every answer of `GetFee` has the collector, the mint and burn fee and the rate of
the last accepted fee update (from the start of the history if there is none). -/
theorem C96_fee_tells_the_last {s : State} (hr : Reachable s) (cs : List Call) {asked : Env} {time : Option Nat}
    {f : Fee} (h : getFee (run s cs).1 asked time = .ok f) :
    (f.collector, f.mintFee, f.burnFee, f.streamingFee.map (·.rate)) =
      (lastSet newFee s cs).getD
        (s.fee.collector, s.fee.mintFee, s.fee.burnFee, s.fee.streamingFee.map (·.rate)) := by
  have := tells_last (f := fun s => feeSettings s.fee) cs hr fun s c s' ms hr' hx => (other_news hr' hx).1
  change feeSettings f = (lastSet newFee s cs).getD (feeSettings s.fee)
  rw [← this]
  unfold getFee at h
  split at h
  · cases h; rfl
  · rename_i sf hsf
    simp only [bind_eq_ok] at h
    obtain ⟨⟨sf', us⟩, h1, h2⟩ := h
    cases h2
    obtain ⟨_, h3⟩ := collect_eq_ok.1 h1
    rcases h3 with ⟨_, rfl, rfl⟩ | ⟨_, _, _, p, _, _, _, col, _, rfl, rfl⟩ <;> simp [feeSettings, hsf]

/-- Governance sets new fees. -/
example : Reachable Demo.s1 ∧
    (getFee (run Demo.s1 [⟨Demo.env 2000, ⟨"gov", []⟩,
      .gov (.updateFeeStrategy ⟨"bob", none, some 5, some ⟨7, false⟩⟩)⟩]).1 (Demo.env 2500) none).map
        (fun f => (f.collector, f.mintFee, f.burnFee, f.streamingFee.map (·.rate))) =
      .ok ("bob", none, some 5, some 7) ∧
    lastSet newFee Demo.s1 [⟨Demo.env 2000, ⟨"gov", []⟩,
      .gov (.updateFeeStrategy ⟨"bob", none, some 5, some ⟨7, false⟩⟩)⟩] = some ("bob", none, some 5, some 7) :=
  ⟨Demo.s1_reachable, by decide +kernel, by decide +kernel⟩

/-- **C96 (rebalance).** After any history `GetRebalance` tells the plan of the last accepted start, unless a later
finalization ended it, and the manager last set. -/
theorem C96_rebalance_tells_the_last {s : State} (hr : Reachable s) (cs : List Call) :
    ((getRebalance (run s cs).1).map fun r => (r.deflation, r.inflation)) =
      (lastSet newPlan s cs).getD ((getRebalance s).map fun r => (r.deflation, r.inflation)) ∧
    ((getRebalance (run s cs).1).bind (·.manager)) =
      (lastSet newManager s cs).getD ((getRebalance s).bind (·.manager)) :=
  ⟨tells_last (f := fun s => s.rebalance.map fun r => (r.deflation, r.inflation)) cs hr
      fun s c s' ms hr' hx => (other_news hr' hx).2.1,
   tells_last (f := fun s => s.rebalance.bind (·.manager)) cs hr fun s c s' ms hr' hx => (other_news hr' hx).2.2⟩

/-- A rebalance is started and then given to Bob. -/
example : Reachable Demo.s1 ∧
    getRebalance (run Demo.s1 (swapHistory ++
      [⟨Demo.env 2000, ⟨"gov", []⟩, .gov (.updateRebalanceManager (some "bob"))⟩])).1 =
      some ⟨some "bob", [("uatom", 50000000000000000)], [("uion", 1000000000000000000)]⟩ ∧
    lastSet newManager Demo.s1 (swapHistory ++
      [⟨Demo.env 2000, ⟨"gov", []⟩, .gov (.updateRebalanceManager (some "bob"))⟩]) = some (some "bob") :=
  ⟨Demo.s1_reachable, by decide +kernel, by decide +kernel⟩

theorem lastSet_map {α β : Type} (g : α → β) (news : State → Call → Option α) (cs : List Call) : ∀ s,
    lastSet (fun s c => (news s c).map g) s cs = (lastSet news s cs).map g := by
  induction cs with
  | nil => intro s; rfl
  | cons c cs ih =>
    intro s
    simp only [lastSet, ih]
    cases lastSet news (step s c).1 cs with
    | some v => rfl
    | none =>
      simp only [Option.map_none]
      split <;> rfl

/-- **C96 (routes).** After any history `GetTradeInfo` tells for every pair the settings of the last accepted
`UpdateTradeInfo` that filed them under the pair, and the time of the last accepted swap over it since. -/
theorem C96_routes_tell_the_last {s : State} (hr : Reachable s) (cs : List Call) (a b : Denom) :
    ((getTradeInfo (run s cs).1 a b).map fun t => (t.routes, t.cooldown, t.maxTradeAmount)) =
      ((lastSet (newRoute a b) s cs).map some).getD
        ((getTradeInfo s a b).map fun t => (t.routes, t.cooldown, t.maxTradeAmount)) ∧
    ((getTradeInfo (run s cs).1 a b).bind (·.lastTradedAt)) =
      (lastSet (newSwapTime a b) s cs).getD ((getTradeInfo s a b).bind (·.lastTradedAt)) := by
  constructor
  · rw [← lastSet_map]
    exact tells_last (f := fun s => (getTradeInfo s a b).map fun t => (t.routes, t.cooldown, t.maxTradeAmount)) cs hr
      fun s c s' ms _ hx => (route_news a b hx).1
  · exact tells_last (f := fun s => (getTradeInfo s a b).bind (·.lastTradedAt)) cs hr
      fun s c s' ms _ hx => (route_news a b hx).2

/-- The route of a sale made at 2000. -/
example : Reachable Demo.s1 ∧
    getTradeInfo (run Demo.s1 (swapHistory ++ [sellAtom 2000])).1 "uatom" "uosmo" =
      some ⟨[⟨1, "uosmo"⟩], 60, 1000, some 2000⟩ ∧
    lastSet (newRoute "uatom" "uosmo") Demo.s1 (swapHistory ++ [sellAtom 2000]) = some ([⟨1, "uosmo"⟩], 60, 1000) :=
  ⟨Demo.s1_reachable, by decide +kernel, by decide +kernel⟩

/-- **C96 (creation).** The queries right after creation: no nominee, not paused, no rebalance, no routes. -/
theorem C96_at_creation {s : State} (hf : Fresh s) : Reachable s ∧
    (∀ env time r, getConfig s env time = .ok r → r.pendingGov = none ∧ r.paused.paused = false) ∧
    getRebalance s = none ∧ ∀ a b, getTradeInfo s a b = none := by
  refine ⟨⟨s, [], hf, rfl⟩, ?_⟩
  obtain ⟨env, msg, s0, ms, d, ms', h1, h2⟩ := hf
  obtain ⟨_, _, _, _, rfl, _⟩ := C79_instantiate_accepted_iff.1 h1
  obtain ⟨_, _, _, rfl, _⟩ := C79_reply_accepted_iff.1 h2
  refine ⟨fun env time r h => ?_, rfl, fun a b => rfl⟩
  obtain ⟨_, e2, _, _, e5, _⟩ := C66_config_query.2 r h
  refine ⟨e2, ?_⟩
  by_contra hp
  rw [Bool.not_eq_false, e5] at hp
  exact absurd hp.1 (by simp)

/-- The example contract right after its creation. -/
example : Fresh Demo.s0 ∧ getRebalance Demo.s0 = none ∧ getTradeInfo Demo.s0 "uatom" "uosmo" = none :=
  ⟨Demo.s0_fresh, by decide +kernel, by decide +kernel⟩

/-- **C96 (airdrops).** `LatestAirdropId` tells the number of accepted registrations, which is the id of the next
airdrop. -/
theorem C96_latest_id (c : Airdrop.Crypto) (calls : List Airdrop.Call) :
    Airdrop.latestAirdropId (Airdrop.run c Airdrop.initial calls).1 = registrations c Airdrop.initial calls := by
  have := latest_run c calls Airdrop.initial
  rw [show Airdrop.initial.latest = 0 from rfl, Nat.zero_add] at this
  exact this

/-- The queries after two routes, a start, a swap and a change of the manager. -/
example : Reachable Demo.s1 ∧
    getTradeInfo (run Demo.s1 (swapHistory ++ [sellAtom 2000])).1 "uatom" "uosmo" =
      some ⟨[⟨1, "uosmo"⟩], 60, 1000, some 2000⟩ ∧
    getTradeInfo (run Demo.s1 (swapHistory ++ [sellAtom 2000])).1 "uosmo" "uion" =
      some ⟨[⟨2, "uion"⟩], 60, 1000, none⟩ ∧
    getRebalance (run Demo.s1 (swapHistory ++
      [⟨Demo.env 2000, ⟨"gov", []⟩, .gov (.updateRebalanceManager (some "bob"))⟩])).1 =
      some ⟨some "bob", [("uatom", 50000000000000000)], [("uion", 1000000000000000000)]⟩ ∧
    lastSet (newSwapTime "uatom" "uosmo") Demo.s1 (swapHistory ++ [sellAtom 2000, sellAtom 2001]) = some (some 2000) :=
  ⟨Demo.s1_reachable, by decide +kernel, by decide +kernel, by decide +kernel, by decide +kernel⟩

end Ibcx.Props
