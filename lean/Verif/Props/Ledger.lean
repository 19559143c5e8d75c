import Verif.Props.Fees
/-!
# Properties C14, C28, C29: the streaming fee over histories
-/

namespace Ibcx.Props
open Ibcx Ibcx.Core Ibcx.Spec

/-- The unit of a denom, 0 if it is not in the basket. -/
def unitIn (s : State) (d : Denom) : Nat := (s.indexUnits.lookup d).getD 0

/-- Messages before which the contract charges the streaming fee. -/
def Charging (m : ExecMsg) : Bool :=
  match m with
  | .mint .. | .burn .. | .realize => true
  | .rebalance (.init ..) => true
  | .gov (.updateFeeStrategy ..) => true
  | _ => false

/-- Fees charged for denom `d` over a history: for each accepted charging message, the value
(at the supply before it) of the units taken from the holders. -/
def charged (d : Denom) (s : State) : List Call → Nat
  | [] => 0
  | c :: cs =>
    (if Charging c.msg then part (unitIn s d - unitIn (step s c).1 d) s.totalSupply else 0)
      + charged d (step s c).1 cs

/-- Fees paid out for denom `d` over a history: transfers made by accepted `Realize` messages. -/
def realized (d : Denom) (s : State) : List Call → Nat
  | [] => 0
  | c :: cs =>
    (match c.msg with
      | .realize => sent d (step s c).2
      | _ => 0)
      + realized d (step s c).1 cs

/-- Recorded fees of denom `d` thrown away by accepted fee updates over a history. -/
def discarded (d : Denom) (s : State) : List Call → Nat
  | [] => 0
  | c :: cs =>
    (match c.msg with
      | .gov (.updateFeeStrategy _) =>
        if accepted s c then
          uncollected s d + part (unitIn s d - unitIn (step s c).1 d) s.totalSupply
        else 0
      | _ => 0)
      + discarded d (step s c).1 cs

theorem charge_step {s s1 : State} {now : Nat} (hr : Reachable s) (h : collectStreamingFee s now = .ok s1)
    (d : Denom) :
    uncollected s1 d = uncollected s d + part (unitIn s d - unitIn s1 d) s.totalSupply := by
  obtain ⟨_, _, _, _, _, _, _, _, _, _, ⟨k, k1, k2, _⟩, _⟩ := C10_accrual_conserves hr h
  unfold unitIn
  cases hl : s.indexUnits.lookup d with
  | none =>
    obtain ⟨a, b⟩ := k2 d hl
    rw [a, b]; simp [part]
  | some u =>
    obtain ⟨u', a, b, c⟩ := k1 d u hl
    rw [a, c]
    simp only [Option.getD_some]
    rw [show u - u' = part u k by omega]

theorem ledger_step {s : State} (hr : Reachable s) (c : Call) (d : Denom) :
    uncollected (step s c).1 d
      + (match c.msg with | .realize => sent d (step s c).2 | _ => 0)
      + (match c.msg with
          | .gov (.updateFeeStrategy _) => if accepted s c then
              uncollected s d + part (unitIn s d - unitIn (step s c).1 d) s.totalSupply else 0
          | _ => 0) =
    uncollected s d +
      (if Charging c.msg then part (unitIn s d - unitIn (step s c).1 d) s.totalSupply else 0) := by
  obtain ⟨env, info, msg⟩ := c
  unfold step
  cases hx : execute s env info msg with
  | error e =>
    have hz : part (unitIn s d - unitIn s d) s.totalSupply = 0 := by simp [part]
    have hacc : ¬ accepted s ⟨env, info, msg⟩ := by rintro ⟨s', ms, h⟩; simp [hx] at h
    simp only [hz, hacc, if_false]
    cases msg with
    | gov m => cases m <;> simp
    | realize => simp [sent]
    | _ => simp
  | ok o =>
    obtain ⟨s', ms⟩ := o
    have hacc : accepted s ⟨env, info, msg⟩ := ⟨s', ms, hx⟩
    simp only [hacc, if_true]
    obtain ⟨s1, h1, h2⟩ := execute_eq_ok.1 hx
    have same : s'.fee.streamingFee.map (·.collected) = s.fee.streamingFee.map (·.collected) →
        uncollected s' d = uncollected s d := by
      unfold uncollected
      cases s'.fee.streamingFee <;> cases s.fee.streamingFee <;> simp_all
    cases msg with
    | mint a r f =>
      simp only [collectsFirst, if_true] at h1
      obtain ⟨_, _, _, _, _, _, _, rfl, _⟩ := mint_eq_ok.1 h2
      simpa [Charging, uncollected, unitIn] using charge_step hr h1 d
    | burn r =>
      simp only [collectsFirst, if_true] at h1
      obtain ⟨_, _, _, _, _, _, _, _, _, _, _, _, _, _, rfl, _⟩ := burn_eq_ok.1 h2
      simpa [Charging, uncollected, unitIn] using charge_step hr h1 d
    | realize =>
      simp only [collectsFirst, if_true] at h1
      have hc := charge_step hr h1 d
      obtain ⟨_, h⟩ := realize_eq_ok.1 h2
      rcases h with ⟨hn, rfl, rfl⟩ | ⟨sf, hsf, rfl, rfl⟩
      · simpa [Charging, sent] using hc
      · have e1 : uncollected s1 d = total d sf.collected := by simp [uncollected, hsf]
        rw [e1] at hc
        simpa [Charging, sent, uncollected, unitIn] using hc
    | gov m =>
      cases m with
      | updateFeeStrategy p =>
        simp only [collectsFirst, if_true] at h1
        obtain ⟨_, _, _, _, _, _, rfl, _⟩ := updateFee_eq_ok.1 h2
        cases hp : p.streamingFee <;> simp [Charging, uncollected, hp]
      | pause e =>
        simp [collectsFirst] at h1; subst h1
        obtain ⟨_, _, _, rfl, rfl⟩ := pause_eq_ok.1 h2; simp [Charging, uncollected]
      | release =>
        simp [collectsFirst] at h1; subst h1
        obtain ⟨_, _, rfl, rfl⟩ := release_eq_ok.1 h2; simp [Charging, uncollected]
      | updateGov g =>
        simp [collectsFirst] at h1; subst h1
        obtain ⟨_, _, _, rfl, rfl⟩ := updateGov_eq_ok.1 h2; simp [Charging, uncollected]
      | acceptGov =>
        simp [collectsFirst] at h1; subst h1
        obtain ⟨_, rfl, rfl⟩ := acceptGov_eq_ok.1 h2; simp [Charging, uncollected]
      | revokeGov =>
        simp [collectsFirst] at h1; subst h1
        obtain ⟨_, _, rfl, rfl⟩ := revokeGov_eq_ok.1 h2; simp [Charging, uncollected]
      | updateRebalanceManager m =>
        simp [collectsFirst] at h1; subst h1
        obtain ⟨_, _, ⟨r, hr, rfl⟩, rfl⟩ := updateRebalanceManager_eq_ok.1 h2; simp [Charging, uncollected]
      | updateReserveDenom d =>
        simp [collectsFirst] at h1; subst h1
        obtain ⟨_, _, rfl, rfl⟩ := updateReserveDenom_eq_ok.1 h2; simp [Charging, uncollected]
      | updateTradeInfo d rs c m =>
        simp [collectsFirst] at h1; subst h1
        obtain ⟨_, ⟨r, rs', hrs, rfl⟩, rfl⟩ := updateTradeInfo_eq_ok.1 h2; simp [Charging, uncollected]
    | rebalance m =>
      cases m with
      | init m de inf =>
        simp only [collectsFirst, if_true] at h1
        obtain ⟨_, _, _, _, _, _, _, rfl, _⟩ := init_eq_ok.1 h2
        have hc := charge_step hr h1 d
        simp only [Charging, if_true, Nat.add_zero]
        unfold unitIn at hc ⊢
        rw [← hc]
        unfold uncollected
        cases s1.fee.streamingFee <;> simp
      | trade m =>
        simp [collectsFirst] at h1; subst h1
        obtain ⟨r, _, t⟩ := trade_step hr.inv h2
        simp [Charging, uncollected, t.fee]
      | finalize =>
        simp [collectsFirst] at h1; subst h1
        obtain ⟨r, res, _, _, _, _, _, rfl, rfl⟩ := finalize_eq_ok.1 h2
        simp only [Charging, Bool.false_eq_true, if_false, Nat.add_zero]
        unfold uncollected
        cases s1.fee.streamingFee <;> simp

/-- The full claim C14: over every history, per denom, charged fees equal paid plus recorded fees. -/
def C14_full : Prop :=
  ∀ (s : State) (cs : List Call) (d : Denom), Fresh s →
    uncollected (run s cs).1 d + realized d s cs = charged d s cs

/-- **C14, partial (1).** Over every history from every reachable state, per denom: recorded + paid +
discarded by fee updates = recorded before + charged.  The full claim (nothing is ever discarded) is
false, see `C14_full_false`. -/
theorem C14_fee_ledger_partial {s : State} (hr : Reachable s) (cs : List Call) (d : Denom) :
    uncollected (run s cs).1 d + realized d s cs + discarded d s cs = uncollected s d + charged d s cs := by
  induction cs generalizing s with
  | nil => simp [run, realized, discarded, charged]
  | cons c cs ih =>
    rw [run_cons]
    have h1 := ledger_step hr c d
    have h2 := ih (hr.run [c])
    simp only [run_cons, run] at h2
    simp only [realized, discarded, charged]
    omega

/-- A mint, then a collection of the fees after 100000 seconds: 14 are charged and paid. -/
example : Reachable Demo.s0 ∧
    charged "uosmo" Demo.s0 [⟨Demo.env 1000, Demo.mintInfo, .mint 10000 none none⟩,
      ⟨Demo.env 187400, ⟨"collector", []⟩, .realize⟩] =
    realized "uosmo" Demo.s0 [⟨Demo.env 1000, Demo.mintInfo, .mint 10000 none none⟩,
      ⟨Demo.env 187400, ⟨"collector", []⟩, .realize⟩] ∧
    0 < charged "uosmo" Demo.s0 [⟨Demo.env 1000, Demo.mintInfo, .mint 10000 none none⟩,
      ⟨Demo.env 187400, ⟨"collector", []⟩, .realize⟩] :=
  ⟨Demo.s0_reachable, by decide +kernel, by decide +kernel⟩

/-- **C14, partial (2).** Histories without fee update lose nothing. -/
theorem C14_no_update_no_loss_partial {s : State} (hf : Fresh s) (cs : List Call) (d : Denom)
    (hno : ∀ c ∈ cs, ∀ p, c.msg ≠ .gov (.updateFeeStrategy p)) :
    uncollected (run s cs).1 d + realized d s cs = charged d s cs := by
  have h := C14_fee_ledger_partial (s := s) ⟨s, [], hf, rfl⟩ cs d
  have h0 : uncollected s d = 0 := by
    obtain ⟨env, msg, s0, ms, d', ms', h1, h2⟩ := hf
    obtain ⟨_, _, _, _, _, _, rfl, _⟩ := instantiate_eq_ok.1 h1
    obtain ⟨_, d', _, rfl, _⟩ := reply_eq_ok.1 h2
    unfold uncollected
    cases msg.fee.streamingFee <;> simp
  have hd : ∀ (s : State), discarded d s cs = 0 := by
    clear h h0 hf
    induction cs with
    | nil => intro s; rfl
    | cons c cs ih =>
      intro s
      simp only [discarded]
      rw [ih (fun c hc => hno c (by simp [hc]))]
      have := hno c (by simp)
      split
      · rename_i p hp; exact absurd hp (this p)
      · rfl
  rw [hd] at h
  omega

/-- A mint and a burn after 100000 seconds: the charge waits for the collector. -/
example : Fresh Demo.s0 ∧
    uncollected (run Demo.s0 [⟨Demo.env 1000, Demo.mintInfo, .mint 10000 none none⟩,
      ⟨Demo.env 101000, ⟨"alice", [⟨"factory/core/ibcx", 100⟩]⟩, .burn none⟩]).1 "uosmo" =
    charged "uosmo" Demo.s0 [⟨Demo.env 1000, Demo.mintInfo, .mint 10000 none none⟩,
      ⟨Demo.env 101000, ⟨"alice", [⟨"factory/core/ibcx", 100⟩]⟩, .burn none⟩] ∧
    0 < charged "uosmo" Demo.s0 [⟨Demo.env 1000, Demo.mintInfo, .mint 10000 none none⟩,
      ⟨Demo.env 101000, ⟨"alice", [⟨"factory/core/ibcx", 100⟩]⟩, .burn none⟩] :=
  ⟨Demo.s0_fresh, by decide +kernel, by decide +kernel⟩

/-- **C14, partial (3).** `Realize` succeeds for the collector only, pays the collector exactly the fees
recorded after charging up to now, and leaves nothing recorded. -/
theorem C14_realize_pays_recorded {s s' : State} {env : Env} {info : Info} {ms : List Msg}
    (h : execute s env info .realize = .ok (s', ms)) :
    info.sender = s.fee.collector ∧
    ∃ s1, collectStreamingFee s env.now = .ok s1 ∧
      (∀ d, sent d ms = uncollected s1 d ∧ sentTo s.fee.collector d ms = uncollected s1 d ∧ uncollected s' d = 0) ∧
      s'.indexUnits = s1.indexUnits ∧ s'.totalSupply = s.totalSupply := by
  obtain ⟨s1, h1, h2⟩ := execute_eq_ok.1 h
  simp only [collectsFirst, if_true] at h1
  have f := collectStreamingFee_frame h1
  obtain ⟨h3, h⟩ := realize_eq_ok.1 h2
  have f7 := f.2.2.2.2.2.2.1
  refine ⟨by rw [← f7, h3], s1, h1, ?_⟩
  rcases h with ⟨hn, rfl, rfl⟩ | ⟨sf, hsf, rfl, rfl⟩
  · exact ⟨by simp [sent, sentTo, uncollected, hn], rfl, f.2.2.1⟩
  · exact ⟨by simp [sent, sentTo, uncollected, hsf, f7], rfl, f.2.2.1⟩

/-- A history with a mint, a fee update after a day and a realize by the collector. -/
def ledgerHistory : List Call :=
  [⟨Demo.env 1000, Demo.mintInfo, .mint 10000 none none⟩,
   ⟨Demo.env 87400, ⟨"gov", []⟩, .gov (.updateFeeStrategy ⟨"collector", none, none, some ⟨10000000000, false⟩⟩)⟩,
   ⟨Demo.env 187400, ⟨"collector", []⟩, .realize⟩]

example : Fresh Demo.s0 ∧ charged "uosmo" Demo.s0 ledgerHistory = 39 ∧ realized "uosmo" Demo.s0 ledgerHistory = 14 ∧
    discarded "uosmo" Demo.s0 ledgerHistory = 25 ∧ uncollected (run Demo.s0 ledgerHistory).1 "uosmo" = 0 :=
  ⟨Demo.s0_fresh, by decide +kernel, by decide +kernel, by decide +kernel, by decide +kernel⟩

theorem C14_full_false : ¬ C14_full := by
  intro h
  have := h Demo.s0 ledgerHistory "uosmo" Demo.s0_fresh
  revert this
  decide +kernel

/-! ### C28, C29 -/

/-- **C28.** While a rebalance is active the streaming fee is frozen, so no accrual at any time changes
anything; this lasts over every history without accepted `Finalize`, with rate and accrual time unchanged; the
`Finalize` sets the accrual time to now and unfreezes, so nothing is ever charged for the time of the
rebalance. -/
theorem C28_fee_stands_still {s : State} {r : Rebalance} (hr : Reachable s) (hreb : s.rebalance = some r) :
    (∀ sf, s.fee.streamingFee = some sf → sf.freeze = true) ∧
    (∀ now s1, collectStreamingFee s now = .ok s1 → s1 = s) ∧
    (∀ cs : List Call, NoneAccepted (· = .rebalance .finalize) s cs →
      (∃ r', (run s cs).1.rebalance = some r') ∧
      (run s cs).1.fee.streamingFee.map (fun x => (x.rate, x.freeze, x.lastCollectedAt)) =
        s.fee.streamingFee.map (fun x => (x.rate, true, x.lastCollectedAt))) ∧
    (∀ env info s' ms, execute s env info (.rebalance .finalize) = .ok (s', ms) →
      s'.fee.streamingFee = s.fee.streamingFee.map
        (fun x => { rate := x.rate, collected := x.collected, freeze := false, lastCollectedAt := env.now })) := by
  have hfz : ∀ (s : State) r, Reachable s → s.rebalance = some r →
      (∀ sf, s.fee.streamingFee = some sf → sf.freeze = true) := fun s r hr hreb sf hsf =>
    hr.inv.frozen r sf hreb hsf
  have hnoop : ∀ (s : State) r, Reachable s → s.rebalance = some r →
      (∀ now s1, collectStreamingFee s now = .ok s1 → s1 = s) := fun s r hr hreb now s1 h =>
    accrual_noop h (fun sf hsf => .inl (hfz s r hr hreb sf hsf))
  refine ⟨hfz s r hr hreb, hnoop s r hr hreb, ?_, ?_⟩
  · intro cs hcs
    have gen := run_induct (Q := (· = .rebalance .finalize)) (T := fun _ => True)
      (I := fun s' => (∃ r', s'.rebalance = some r') ∧
        s'.fee.streamingFee.map (fun x => (x.rate, x.freeze, x.lastCollectedAt)) =
          s.fee.streamingFee.map (fun x => (x.rate, x.freeze, x.lastCollectedAt))) (cs := cs)
      (by
        rintro s0 s' ⟨env, info, msg⟩ ms hr0 ⟨⟨r, hreb⟩, hI⟩ - hnf hx
        simp only at hnf hx
        rw [← hI]
        obtain ⟨s1, h1, h2⟩ := execute_eq_ok.1 hx
        have : s1 = s0 := by
          split at h1
          · exact hnoop s0 r hr0 hreb _ _ h1
          · exact h1
        subst this
        cases msg with
        | mint a r' f =>
          obtain ⟨_, hn, _⟩ := mint_eq_ok.1 h2; rw [hreb] at hn; cases hn
        | burn r' =>
          obtain ⟨_, hn, _⟩ := burn_eq_ok.1 h2; rw [hreb] at hn; cases hn
        | realize =>
          obtain ⟨_, h⟩ := realize_eq_ok.1 h2
          rcases h with ⟨hn, rfl, rfl⟩ | ⟨sf, hsf, rfl, rfl⟩
          · exact ⟨⟨r, hreb⟩, rfl⟩
          · exact ⟨⟨r, hreb⟩, by simp [hsf]⟩
        | gov m =>
          cases m with
          | updateFeeStrategy p => obtain ⟨_, hn, _⟩ := updateFee_eq_ok.1 h2; rw [hreb] at hn; cases hn
          | pause e => obtain ⟨_, _, _, rfl, rfl⟩ := pause_eq_ok.1 h2; exact ⟨⟨r, hreb⟩, rfl⟩
          | release => obtain ⟨_, _, rfl, rfl⟩ := release_eq_ok.1 h2; exact ⟨⟨r, hreb⟩, rfl⟩
          | updateGov g => obtain ⟨_, _, _, rfl, rfl⟩ := updateGov_eq_ok.1 h2; exact ⟨⟨r, hreb⟩, rfl⟩
          | acceptGov => obtain ⟨_, rfl, rfl⟩ := acceptGov_eq_ok.1 h2; exact ⟨⟨r, hreb⟩, rfl⟩
          | revokeGov => obtain ⟨_, _, rfl, rfl⟩ := revokeGov_eq_ok.1 h2; exact ⟨⟨r, hreb⟩, rfl⟩
          | updateRebalanceManager m =>
            obtain ⟨_, _, ⟨r', hr', rfl⟩, rfl⟩ := updateRebalanceManager_eq_ok.1 h2
            exact ⟨⟨_, rfl⟩, rfl⟩
          | updateReserveDenom d => obtain ⟨_, hn, _⟩ := updateReserveDenom_eq_ok.1 h2; rw [hreb] at hn; cases hn
          | updateTradeInfo d rs c m =>
            obtain ⟨_, ⟨r', rs', hrs, rfl⟩, rfl⟩ := updateTradeInfo_eq_ok.1 h2; exact ⟨⟨r, hreb⟩, rfl⟩
        | rebalance m =>
          cases m with
          | init m de inf => obtain ⟨_, hn, _⟩ := init_eq_ok.1 h2; rw [hreb] at hn; cases hn
          | trade m =>
            obtain ⟨r', hr', t⟩ := trade_step hr0.inv h2
            exact ⟨⟨r', by rw [t.rebalance, hr']⟩, by rw [t.fee]⟩
          | finalize => exact absurd rfl hnf)
      hr ⟨⟨r, hreb⟩, rfl⟩ (fun _ _ => trivial) hcs
    obtain ⟨g1, g2⟩ := gen
    refine ⟨g1, ?_⟩
    rw [g2]
    cases hsf : s.fee.streamingFee with
    | none => rfl
    | some sf => simp [hfz s r hr hreb sf hsf]
  · intro env info s' ms h
    obtain ⟨s1, h1, h2⟩ := execute_eq_ok.1 h
    simp [collectsFirst] at h1
    subst h1
    obtain ⟨_, _, _, _, _, _, _, rfl, _⟩ := finalize_eq_ok.1 h2
    rfl

/-- A rebalance that shifts 0.5 uosmo per token into uion; uosmo is also the reserve denom. -/
def rebInit : Call :=
  ⟨Demo.env 2000, ⟨"gov", []⟩, .rebalance (.init none [("uosmo", 1000000000000000000)] [("uion", 1000000000000000000)])⟩

example : ∃ r, (run Demo.s1 [rebInit]).1.rebalance = some r ∧ Reachable (run Demo.s1 [rebInit]).1 :=
  ⟨⟨none, [("uosmo", 1000000000000000000)], [("uion", 1000000000000000000)]⟩, by decide +kernel,
    Demo.s1_reachable.run _⟩

/-- The full claim C29: a fee freeze set by governance lasts until governance changes the fee. -/
def C29_full : Prop :=
  ∀ (s : State) (cs : List Call) (sf : StreamingFee), Reachable s →
    s.fee.streamingFee = some sf → sf.freeze = true →
    NoneAccepted (fun m => ∃ p, m = .gov (.updateFeeStrategy p)) s cs →
    ∃ sf', (run s cs).1.fee.streamingFee = some sf' ∧ sf'.freeze = true

/-- **C29, partial.** A frozen fee stays frozen over every history without accepted fee update and
without accepted `Finalize`.  Missing: histories with `Finalize`, for which the claim is false (`C29_full_false`). -/
theorem C29_freeze_persists_partial {s : State} {cs : List Call} {sf : StreamingFee}
    (hr : Reachable s) (hsf : s.fee.streamingFee = some sf) (hfz : sf.freeze = true)
    (hno : NoneAccepted (fun m => (∃ p, m = .gov (.updateFeeStrategy p)) ∨ m = .rebalance .finalize) s cs) :
    ∃ sf', (run s cs).1.fee.streamingFee = some sf' ∧ sf'.freeze = true := by
  refine run_induct (I := fun s => ∃ sf, s.fee.streamingFee = some sf ∧ sf.freeze = true) (T := fun _ => True)
    ?_ hr ⟨sf, hsf, hfz⟩ (fun _ _ => trivial) hno
  clear hno hsf hfz hr
  rintro s s' ⟨env, info, msg⟩ ms hr ⟨sf, hsf, hfz⟩ - hnot hx
  push Not at hnot
  obtain ⟨hnu, hnf⟩ := hnot
  simp only at hnu hnf hx
  obtain ⟨s1, h1, h2⟩ := execute_eq_ok.1 hx
  have : s1 = s := by
    split at h1
    · exact accrual_noop h1 (by intro x hx'; rw [hsf] at hx'; cases hx'; exact .inl hfz)
    · exact h1
  subst this
  cases msg with
  | mint a r' f =>
    obtain ⟨_, _, _, _, _, _, _, rfl, _⟩ := mint_eq_ok.1 h2; exact ⟨sf, hsf, hfz⟩
  | burn r' =>
    obtain ⟨_, _, _, _, _, _, _, _, _, _, _, _, _, _, rfl, _⟩ := burn_eq_ok.1 h2; exact ⟨sf, hsf, hfz⟩
  | realize =>
    obtain ⟨_, h⟩ := realize_eq_ok.1 h2
    rcases h with ⟨hn, rfl, rfl⟩ | ⟨sf', hsf', rfl, rfl⟩
    · exact ⟨sf, hsf, hfz⟩
    · rw [hsf] at hsf'; cases hsf'; exact ⟨_, rfl, hfz⟩
  | gov m =>
    cases m with
    | updateFeeStrategy p => exact absurd rfl (hnu p)
    | pause e => obtain ⟨_, _, _, rfl, rfl⟩ := pause_eq_ok.1 h2; exact ⟨sf, hsf, hfz⟩
    | release => obtain ⟨_, _, rfl, rfl⟩ := release_eq_ok.1 h2; exact ⟨sf, hsf, hfz⟩
    | updateGov g => obtain ⟨_, _, _, rfl, rfl⟩ := updateGov_eq_ok.1 h2; exact ⟨sf, hsf, hfz⟩
    | acceptGov => obtain ⟨_, rfl, rfl⟩ := acceptGov_eq_ok.1 h2; exact ⟨sf, hsf, hfz⟩
    | revokeGov => obtain ⟨_, _, rfl, rfl⟩ := revokeGov_eq_ok.1 h2; exact ⟨sf, hsf, hfz⟩
    | updateRebalanceManager m =>
      obtain ⟨_, _, ⟨r', hr', rfl⟩, rfl⟩ := updateRebalanceManager_eq_ok.1 h2
      exact ⟨sf, hsf, hfz⟩
    | updateReserveDenom d => obtain ⟨_, _, rfl, rfl⟩ := updateReserveDenom_eq_ok.1 h2; exact ⟨sf, hsf, hfz⟩
    | updateTradeInfo d rs c m =>
      obtain ⟨_, ⟨r', rs', hrs, rfl⟩, rfl⟩ := updateTradeInfo_eq_ok.1 h2; exact ⟨sf, hsf, hfz⟩
  | rebalance m =>
    cases m with
    | init m de inf =>
      obtain ⟨_, _, _, _, _, _, _, rfl, _⟩ := init_eq_ok.1 h2
      exact ⟨_, by rw [hsf]; rfl, rfl⟩
    | trade m =>
      obtain ⟨r', hr', t⟩ := trade_step hr.inv h2
      exact ⟨sf, by rw [t.fee]; exact hsf, hfz⟩
    | finalize => exact absurd rfl hnf

/-- Governance freezes the fee; then a rebalance that needs no trade is started and finished. -/
def freezeCall : Call :=
  ⟨Demo.env 2000, ⟨"gov", []⟩, .gov (.updateFeeStrategy ⟨"collector", none, none, some ⟨10000000000, true⟩⟩)⟩

def unfreezeHistory : List Call :=
  [⟨Demo.env 3000, ⟨"gov", []⟩,
      .rebalance (.init none [("uosmo", 1499969999700298020)] [("uion", 1)])⟩,
   ⟨Demo.env 3001, ⟨"mallory", []⟩, .rebalance .finalize⟩]

example : Reachable (run Demo.s1 [freezeCall]).1 ∧
    (run Demo.s1 [freezeCall]).1.fee.streamingFee = some ⟨10000000000, [], true, 2000⟩ :=
  ⟨Demo.s1_reachable.run _, by decide +kernel⟩

theorem C29_full_false : ¬ C29_full := by
  intro h
  obtain ⟨sf', h1, h2⟩ := h (run Demo.s1 [freezeCall]).1 unfreezeHistory ⟨10000000000, [], true, 2000⟩
    (Demo.s1_reachable.run _) (by decide +kernel) rfl
    (noneAccepted_of_forall (by intro c hc; simp [unfreezeHistory] at hc; rcases hc with rfl | rfl <;> simp))
  have h3 : (run (run Demo.s1 [freezeCall]).1 unfreezeHistory).1.fee.streamingFee =
      some ⟨10000000000, [], false, 3001⟩ := by decide +kernel
  rw [h3] at h1
  cases h1
  cases h2

end Ibcx.Props
