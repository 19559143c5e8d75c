import Verif.Props.Fees
import Verif.Props.Gov
import Verif.Props.Demo
import Verif.Core.Accrual
/-!
# C115: nobody gets between a user and their price
-/

namespace Ibcx.Props
open Ibcx Ibcx.Core Ibcx.Spec

/-- Two states in which a mint or a burn costs the same. -/
private def Agree (c x : State) : Prop :=
  x.config = c.config ∧ x.pendingGov = c.pendingGov ∧ x.rebalance = c.rebalance ∧ x.indexUnits = c.indexUnits ∧
  x.fee.collector = c.fee.collector ∧ x.fee.mintFee = c.fee.mintFee ∧ x.fee.burnFee = c.fee.burnFee

private theorem Agree.refl (c : State) : Agree c c := ⟨rfl, rfl, rfl, rfl, rfl, rfl, rfl⟩

private theorem Agree.trans {a b c : State} (h1 : Agree a b) (h2 : Agree b c) : Agree a c := by
  obtain ⟨a1, a2, a3, a4, a5, a6, a7⟩ := h1
  obtain ⟨b1, b2, b3, b4, b5, b6, b7⟩ := h2
  exact ⟨b1.trans a1, b2.trans a2, b3.trans a3, b4.trans a4, b5.trans a5, b6.trans a6, b7.trans a7⟩

/-- Someone who is neither the governance account nor nominated. -/
private def Outside (s : State) (c : Call) : Prop :=
  c.info.sender ≠ s.config.gov ∧ s.pendingGov ≠ some c.info.sender

/-- An accepted message of an outsider without rebalance: an accrual, then at most supply and collected fees change. -/
private theorem outside_step {x x' : State} {c : Call} {ms : List Msg} (hnr : x.rebalance = none) (ho : Outside x c)
    (h : execute x c.env c.info c.msg = .ok (x', ms)) :
    ∃ x1, collectStreamingFee x c.env.now = .ok x1 ∧ Agree x1 x' ∧
      (x1.fee.streamingFee = none → x'.fee.streamingFee = none) ∧
      ∀ sf, x1.fee.streamingFee = some sf → ∃ col, x'.fee.streamingFee = some { sf with collected := col } := by
  obtain ⟨env, info, msg⟩ := c
  obtain ⟨ho1, ho2⟩ := ho
  simp only at h ho1 ho2 ⊢
  obtain ⟨x1, h1, h2⟩ := execute_eq_ok.1 h
  cases msg with
  | mint a r f =>
    rw [if_pos (by rfl)] at h1
    obtain ⟨_, _, _, _, _, _, _, rfl, _⟩ := mint_eq_ok.1 h2
    exact ⟨x1, h1, Agree.refl _, id, fun sf hsf => ⟨sf.collected, hsf⟩⟩
  | burn r =>
    rw [if_pos (by rfl)] at h1
    obtain ⟨_, _, _, _, _, _, _, _, _, _, _, _, _, _, rfl, _⟩ := burn_eq_ok.1 h2
    exact ⟨x1, h1, Agree.refl _, id, fun sf hsf => ⟨sf.collected, hsf⟩⟩
  | realize =>
    rw [if_pos (by rfl)] at h1
    obtain ⟨_, ⟨h3, rfl, _⟩ | ⟨sf, h3, rfl, _⟩⟩ := realize_eq_ok.1 h2
    · exact ⟨_, h1, Agree.refl _, id, fun sf hsf => ⟨sf.collected, hsf⟩⟩
    · refine ⟨_, h1, Agree.refl _, fun hn => (by rw [hn] at h3; cases h3), fun sf' hsf => ⟨[], ?_⟩⟩
      rw [h3] at hsf
      cases hsf
      rfl
  | gov m =>
    exfalso
    cases m with
    | updateFeeStrategy p =>
      rw [if_pos (by rfl)] at h1
      obtain ⟨e, _⟩ := collectStreamingFee_frame h1
      have := (updateFee_eq_ok.1 h2).1
      rw [e] at this
      exact ho1 this.symm
    | pause e => rw [if_neg (by simp [collectsFirst])] at h1; subst h1; exact ho1 (pause_eq_ok.1 h2).1.symm
    | release => rw [if_neg (by simp [collectsFirst])] at h1; subst h1; exact ho1 (release_eq_ok.1 h2).1.symm
    | updateGov g => rw [if_neg (by simp [collectsFirst])] at h1; subst h1; exact ho1 (updateGov_eq_ok.1 h2).1.symm
    | acceptGov => rw [if_neg (by simp [collectsFirst])] at h1; subst h1; exact ho2 (acceptGov_eq_ok.1 h2).1
    | revokeGov => rw [if_neg (by simp [collectsFirst])] at h1; subst h1; exact ho1 (revokeGov_eq_ok.1 h2).2.1.symm
    | updateRebalanceManager m =>
      rw [if_neg (by simp [collectsFirst])] at h1; subst h1; exact ho1 (updateRebalanceManager_eq_ok.1 h2).1.symm
    | updateReserveDenom d =>
      rw [if_neg (by simp [collectsFirst])] at h1; subst h1; exact ho1 (updateReserveDenom_eq_ok.1 h2).1.symm
    | updateTradeInfo d r cd mx =>
      rw [if_neg (by simp [collectsFirst])] at h1; subst h1; exact ho1 (updateTradeInfo_eq_ok.1 h2).1.symm
  | rebalance m =>
    exfalso
    cases m with
    | init m d i =>
      rw [if_pos (by rfl)] at h1
      obtain ⟨e, _⟩ := collectStreamingFee_frame h1
      have := (init_eq_ok.1 h2).1
      rw [e] at this
      exact ho1 this.symm
    | finalize =>
      rw [if_neg (by simp [collectsFirst])] at h1; subst h1
      obtain ⟨r, _, hr, _⟩ := finalize_eq_ok.1 h2
      rw [hnr] at hr
      cases hr
    | trade m =>
      rw [if_neg (by simp [collectsFirst])] at h1; subst h1
      obtain ⟨r, hr, _⟩ := trade_eq_ok.1 h2
      rw [hnr] at hr
      cases hr

/-- After an accrual, and a change of the collected fees, another accrual at the same time changes nothing. -/
private theorem accrual_again {x x1 x' : State} {t : Nat} (h : collectStreamingFee x t = .ok x1)
    (h0 : x1.fee.streamingFee = none → x'.fee.streamingFee = none)
    (h1 : ∀ sf, x1.fee.streamingFee = some sf → ∃ col, x'.fee.streamingFee = some { sf with collected := col }) :
    collectStreamingFee x' t = .ok x' := by
  have key : ∀ sf, x1.fee.streamingFee = some sf → sf.lastCollectedAt ≤ t ∧ (sf.freeze = true ∨ t = sf.lastCollectedAt) := by
    intro sf hsf
    rcases collectStreamingFee_eq_ok.1 h with ⟨e, rfl⟩ | ⟨sf0, sf1, us, e, hc, rfl⟩
    · rw [hsf] at e; cases e
    · simp only [Option.some.injEq] at hsf
      subst hsf
      obtain ⟨hle, ⟨hz, rfl, _⟩ | ⟨_, _, _, _, _, _, _, _, _, rfl, _⟩⟩ := collect_eq_ok.1 hc
      · exact ⟨hle, hz⟩
      · exact ⟨le_rfl, .inr rfl⟩
  refine collectStreamingFee_eq_ok.2 ?_
  cases hs : x1.fee.streamingFee with
  | none => exact .inl ⟨h0 hs, rfl⟩
  | some sf =>
    obtain ⟨col, hcol⟩ := h1 sf hs
    obtain ⟨k1, k2⟩ := key sf hs
    refine .inr ⟨_, { sf with collected := col }, x'.indexUnits, hcol, collect_eq_ok.2 ⟨k1, .inl ⟨k2, rfl, rfl⟩⟩, ?_⟩
    rw [← hcol]

/-- After messages of outsiders at one time the state is the old one, or it agrees with the old one with its fee accrued. -/
private theorem outside_run {s : State} {t : Nat} (hnr : s.rebalance = none) : ∀ cs : List Call,
    (∀ c ∈ cs, c.env.now = t ∧ Outside s c) →
    (run s cs).1 = s ∨ ∃ c, collectStreamingFee s t = .ok c ∧ collectStreamingFee (run s cs).1 t = .ok (run s cs).1 ∧
      Agree c (run s cs).1 := by
  intro cs
  induction cs using List.reverseRecOn with
  | nil => exact fun _ => .inl rfl
  | append_singleton cs c ih =>
    intro h
    have ih := ih fun c hc => h c (by simp [hc])
    obtain ⟨ht, ho⟩ := h c (by simp)
    rw [run_append]
    simp only [run_cons, run]
    generalize (run s cs).1 = x at ih
    by_cases ha : accepted x c
    · obtain ⟨x', ms, hx⟩ := ha
      rw [step_of_ok hx]
      rcases ih with rfl | ⟨c0, k1, k2, k3⟩
      · obtain ⟨x1, g1, g2, g3, g4⟩ := outside_step hnr ho hx
        rw [ht] at g1
        exact .inr ⟨x1, g1, accrual_again g1 g3 g4, g2⟩
      · obtain ⟨f1, f2, _, f3, _⟩ := collectStreamingFee_frame k1
        obtain ⟨e1, e2, e3, _⟩ := id k3
        have ho' : Outside x c := by
          unfold Outside
          rw [e1, e2, f1, f2]
          exact ho
        obtain ⟨x1, g1, g2, g3, g4⟩ := outside_step (by rw [e3, f3]; exact hnr) ho' hx
        rw [ht] at g1
        have : x1 = x := by rw [k2] at g1; cases g1; rfl
        subst this
        exact .inr ⟨c0, k1, accrual_again g1 g3 g4, k3.trans g2⟩
    · rw [step_of_not_accepted ha]
      exact ih

/-- What two histories of outsiders leave for a third person. -/
private theorem views {s : State} {t : Nat} (hnr : s.rebalance = none) {p q : List Call}
    (hp : ∀ c ∈ p, c.env.now = t ∧ Outside s c) (hq : ∀ c ∈ q, c.env.now = t ∧ Outside s c) {x1 : State}
    (h : collectStreamingFee (run s p).1 t = .ok x1) :
    ∃ y1, collectStreamingFee (run s q).1 t = .ok y1 ∧ y1.totalSupply = (run s q).1.totalSupply ∧ Agree x1 y1 := by
  have hs : ∃ c, collectStreamingFee s t = .ok c ∧ Agree x1 c := by
    rcases outside_run hnr p hp with e | ⟨c, k1, k2, k3⟩
    · rw [e] at h
      exact ⟨x1, h, Agree.refl _⟩
    · rw [k2] at h
      cases h
      obtain ⟨a1, a2, a3, a4, a5, a6, a7⟩ := k3
      exact ⟨c, k1, a1.symm, a2.symm, a3.symm, a4.symm, a5.symm, a6.symm, a7.symm⟩
  obtain ⟨c, hc, hA⟩ := hs
  rcases outside_run hnr q hq with e | ⟨c', k1, k2, k3⟩
  · rw [e]
    exact ⟨c, hc, (collectStreamingFee_frame hc).2.2.1, hA⟩
  · rw [hc] at k1
    cases k1
    exact ⟨_, k2, rfl, hA.trans k3⟩

/-- **C115 (mint).** Without a rebalance, let anyone but the governance account and a nominee send anything in a block, in
any order (`p` or `q`, messages at one time).  A mint of the same block that is accepted after the messages `p` is accepted
after the messages `q` too, with the same coins taken, refunded and given out, unless the supply would exceed 128 bits. -/
theorem C115_mint {s : State} {p q : List Call} {env : Env} {info : Info} {amount : Nat} {receiver refundTo : Option Addr}
    {s1 : State} {ms : List Msg} (hnr : s.rebalance = none)
    (ho : ∀ c ∈ p ++ q, c.env.now = env.now ∧ c.info.sender ≠ s.config.gov ∧ s.pendingGov ≠ some c.info.sender)
    (h : execute (run s p).1 env info (.mint amount receiver refundTo) = .ok (s1, ms))
    (hfit : (run s q).1.totalSupply + amount < 2 ^ 128) :
    ∃ s2, execute (run s q).1 env info (.mint amount receiver refundTo) = .ok (s2, ms) := by
  obtain ⟨x1, h1, h2⟩ := execute_eq_ok.1 h
  rw [if_pos (by rfl)] at h1
  obtain ⟨y1, k1, k2, a1, _, a3, a4, a5, a6, _⟩ := views hnr (fun c hc => ho c (List.mem_append.2 (.inl hc)))
    (fun c hc => ho c (List.mem_append.2 (.inr hc))) h1
  obtain ⟨g1, g2, g3, g4, g5, g6, g7, _, r, g8, g9⟩ := mint_eq_ok.1 h2
  refine ⟨_, execute_eq_ok.2 ⟨y1, by rw [if_pos (by rfl)]; exact k1, mint_eq_ok.2 ⟨by rw [a1]; exact g1, by rw [a3]; exact g2, g3, g4,
    by rw [a6]; exact g5, by rw [a6]; exact g6, by rw [k2]; exact hfit, rfl, r, by rw [a4]; exact g8, ?_⟩⟩⟩
  rw [a1, a5, a6]
  exact g9

/-- In block 2000 the collector takes the fees, bob mints, burns a part and the collector tries to pause the contract; alice
mints first or last.  (The units have fallen by the fee of 1000 seconds.) -/
example :
    let bob : Info := { sender := "bob", funds := [⟨"uatom", 3000⟩, ⟨"uosmo", 15000⟩] }
    let q : List Call := [⟨Demo.env 2000, { sender := "collector", funds := [] }, .realize⟩,
      ⟨Demo.env 2000, bob, .mint 10000 none none⟩,
      ⟨Demo.env 2000, { sender := "bob", funds := [⟨"factory/core/ibcx", 500⟩] }, .burn none⟩,
      ⟨Demo.env 2000, { sender := "collector", funds := [] }, .gov (.pause none)⟩]
    (∀ c ∈ q, c.env.now = 2000 ∧ c.info.sender ≠ Demo.s1.config.gov ∧ Demo.s1.pendingGov ≠ some c.info.sender) ∧
    (run Demo.s1 q).1.totalSupply = 19510 ∧
    (execute (run Demo.s1 q).1 (Demo.env 2000) Demo.mintInfo (.mint 10000 none none)).toOption.map (·.2) =
      (execute Demo.s1 (Demo.env 2000) Demo.mintInfo (.mint 10000 none none)).toOption.map (·.2) ∧
    (execute Demo.s1 (Demo.env 2000) Demo.mintInfo (.mint 10000 none none)).toOption.isSome ∧
    (execute (run Demo.s1 q).1 (Demo.env 2000) { sender := "alice", funds := [⟨"factory/core/ibcx", 700⟩] } (.burn none)).toOption.map
      (·.2) =
      (execute Demo.s1 (Demo.env 2000) { sender := "alice", funds := [⟨"factory/core/ibcx", 700⟩] } (.burn none)).toOption.map (·.2) ∧
    (execute Demo.s1 (Demo.env 2000) { sender := "alice", funds := [⟨"factory/core/ibcx", 700⟩] } (.burn none)).toOption.isSome := by
  decide +kernel

/-- The governance account can get in between: it doubles the mint fee. -/
example :
    let q : List Call := [⟨Demo.env 2000, { sender := "gov", funds := [] }, .gov (.updateFeeStrategy
      { collector := "collector", mintFee := some 20000000000000000, burnFee := none, streamingFee := none })⟩]
    (execute (run Demo.s1 q).1 (Demo.env 2000) Demo.mintInfo (.mint 10000 none none)).toOption.map (·.2) ≠
      (execute Demo.s1 (Demo.env 2000) Demo.mintInfo (.mint 10000 none none)).toOption.map (·.2) := by
  decide +kernel

/-- **C115 (burn).** The same for a burn, unless more is returned than there is. -/
theorem C115_burn {s : State} {p q : List Call} {env : Env} {info : Info} {redeemTo : Option Addr}
    {s1 : State} {ms : List Msg} (hnr : s.rebalance = none)
    (ho : ∀ c ∈ p ++ q, c.env.now = env.now ∧ c.info.sender ≠ s.config.gov ∧ s.pendingGov ≠ some c.info.sender)
    (h : execute (run s p).1 env info (.burn redeemTo) = .ok (s1, ms))
    (hfit : ∀ c ∈ info.funds, c.amount ≤ (run s q).1.totalSupply) :
    ∃ s2, execute (run s q).1 env info (.burn redeemTo) = .ok (s2, ms) := by
  obtain ⟨x1, h1, h2⟩ := execute_eq_ok.1 h
  rw [if_pos (by rfl)] at h1
  obtain ⟨y1, k1, k2, a1, _, a3, a4, a5, _, a7⟩ := views hnr (fun c hc => ho c (List.mem_append.2 (.inl hc)))
    (fun c hc => ho c (List.mem_append.2 (.inr hc))) h1
  obtain ⟨g1, g2, g3, rec, fee, burned, g4, g5, g6, g7, g8, g9, g10, _, _, g11⟩ := burn_eq_ok.1 h2
  refine ⟨_, execute_eq_ok.2 ⟨y1, by rw [if_pos (by rfl)]; exact k1, burn_eq_ok.2 ⟨by rw [a1]; exact g1, by rw [a3]; exact g2, g3,
    rec, fee, burned, by rw [a1]; exact g4, g5, by rw [a7]; exact g6, g7, g8, by rw [a7]; exact g9, by rw [a4]; exact g10, ?_, rfl,
    ?_⟩⟩⟩
  · rw [k2]
    have := hfit ⟨x1.config.indexDenom, rec⟩ (by rw [g4]; simp)
    simp only at this
    omega
  · rw [a1, a4, a5]
    exact g11

/-- A burn before and after bob's mint. -/
example :
    let q : List Call := [⟨Demo.env 2000, { sender := "bob", funds := [⟨"uatom", 3000⟩, ⟨"uosmo", 15000⟩] }, .mint 10000 none none⟩]
    (execute Demo.s1 (Demo.env 2000) { sender := "alice", funds := [⟨"factory/core/ibcx", 700⟩] } (.burn none)).toOption.map (·.2) =
      (execute (run Demo.s1 q).1 (Demo.env 2000) { sender := "alice", funds := [⟨"factory/core/ibcx", 700⟩] } (.burn none)).toOption.map
        (·.2) ∧
    (run Demo.s1 q).1.totalSupply = 20000 := by
  decide +kernel

end Ibcx.Props
