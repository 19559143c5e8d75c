import Verif.Core.Frame
import Verif.Spec.Link
import Verif.Props.Token
import Mathlib.Data.List.Induction
/-!
# Properties C15-C17: pause and governance
-/

namespace Ibcx.Props
open Ibcx Ibcx.Core Ibcx.Spec

/-- Minting or burning. -/
def TokenMsg (m : ExecMsg) : Prop := (∃ a r f, m = .mint a r f) ∨ ∃ r, m = .burn r

/-- Governance pauses until time 5000. -/
def pauseCall : Call := ⟨Demo.env 2000, ⟨"gov", []⟩, .gov (.pause (some 5000))⟩

theorem token_rejected_of_paused {s : State} {c : Call} (hm : TokenMsg c.msg) (hp : pausedAt s c.env.now) :
    ¬ accepted s c := by
  rintro ⟨s', ms, h⟩
  obtain ⟨env, info, msg⟩ := c
  obtain ⟨s1, h1, h2⟩ := execute_eq_ok.1 h
  rw [← pausedAt_iff] at hp
  rcases hm with ⟨a, r, f, hm⟩ | ⟨r, hm⟩
  · simp only at hm; subst hm
    have f := collectStreamingFee_frame h1
    obtain ⟨hn, _⟩ := mint_eq_ok.1 h2
    rw [f.1] at hn; simp [hn] at hp
  · simp only at hm; subst hm
    have f := collectStreamingFee_frame h1
    obtain ⟨hn, _⟩ := burn_eq_ok.1 h2
    rw [f.1] at hn; simp [hn] at hp

/-- **C15 (1).** After a successful `Pause` (sent by governance, while not paused, with an expiry in the
future if any): over every history without accepted `Release` and with block times before the expiry,
every `Mint` and `Burn` before the expiry is rejected. -/
theorem C15_pause_blocks {s s' : State} {env : Env} {info : Info} {e : Option Nat} {ms : List Msg}
    (hr : Reachable s) (h : execute s env info (.gov (.pause e)) = .ok (s', ms)) :
    info.sender = s.config.gov ∧ ¬ pausedAt s env.now ∧ (∀ x, e = some x → env.now < x) ∧
    ∀ cs : List Call, (∀ c ∈ cs, ∀ x, e = some x → c.env.now < x) →
      NoneAccepted (· = .gov .release) s' cs →
      ∀ c : Call, (∀ x, e = some x → c.env.now < x) → TokenMsg c.msg → ¬ accepted (run s' cs).1 c := by
  obtain ⟨g, np, fut, hc, _⟩ := config_effect h
  refine ⟨g.symm, not_pausedAt_iff.1 np, fut, ?_⟩
  intro cs hcs hno c hct hm
  apply token_rejected_of_paused hm
  have hp : s'.config.paused = ⟨true, e⟩ := by rw [hc]
  have := run_induct (I := fun s => s.config.paused = ⟨true, e⟩)
    (T := fun c => ∀ x, e = some x → c.env.now < x) (Q := (· = .gov .release)) (cs := cs)
    (by
      rintro s s' ⟨env, info, msg⟩ ms _ hI hT hQ hx
      have := config_effect hx
      cases msg with
      | gov m =>
        cases m with
        | pause e' =>
          simp only at this
          have hnp := this.2.1
          rw [not_pausedAt_iff] at hnp
          exact absurd ⟨by rw [hI], by rw [hI]; exact hT⟩ hnp
        | release => exact absurd rfl hQ
        | updateGov g => rw [this.2.2.1]; exact hI
        | acceptGov => rw [this.2.1]; exact hI
        | revokeGov => rw [this.2.1]; exact hI
        | updateReserveDenom d => rw [this.2.2.1]; exact hI
        | _ => rw [this.1]; exact hI
      | _ => rw [this.1]; exact hI)
    (hr.execute h) hp hcs hno
  exact ⟨by rw [this], by rw [this]; exact hct⟩

/-- Governance pauses at 2000 until 5000; a mint at 4999 is refused. -/
example : Reachable Demo.s1 ∧ accepted Demo.s1 pauseCall ∧
    ¬ accepted (run Demo.s1 [pauseCall]).1 ⟨Demo.env 4999, Demo.mintInfo, .mint 10000 none none⟩ :=
  ⟨Demo.s1_reachable, by decide +kernel, by decide +kernel⟩

/-- **C15 (2).** Whatever happens after a `Pause` with expiry `x`, as long as no other `Pause` is accepted
the contract is not paused at any time from `x` on. -/
theorem C15_expiry_ends {s s' : State} {env : Env} {info : Info} {x : Nat} {ms : List Msg}
    (hr : Reachable s) (h : execute s env info (.gov (.pause (some x))) = .ok (s', ms))
    (cs : List Call) (hno : NoneAccepted (fun m => ∃ e, m = .gov (.pause e)) s' cs) :
    ∀ t, x ≤ t → ¬ pausedAt (run s' cs).1 t := by
  obtain ⟨g, np, fut, hc, _⟩ := config_effect h
  have := run_induct (I := fun s => s.config.paused = ⟨true, some x⟩ ∨ s.config.paused = ⟨false, none⟩)
    (T := fun _ => True) (Q := fun m => ∃ e, m = .gov (.pause e)) (cs := cs)
    (by
      rintro s s' ⟨env, info, msg⟩ ms _ hI - hQ hx
      have := config_effect hx
      cases msg with
      | gov m =>
        cases m with
        | pause e' => exact absurd ⟨e', rfl⟩ hQ
        | release => rw [this.2.2.1]; exact .inr rfl
        | updateGov g => rw [this.2.2.1]; exact hI
        | acceptGov => rw [this.2.1]; exact hI
        | revokeGov => rw [this.2.1]; exact hI
        | updateReserveDenom d => rw [this.2.2.1]; exact hI
        | _ => rw [this.1]; exact hI
      | _ => rw [this.1]; exact hI)
    (hr.execute h) (.inl (by rw [hc])) (fun _ _ => trivial) hno
  intro t ht ⟨h1, h2⟩
  rcases this with h | h
  · rw [h] at h2; exact absurd (h2 x rfl) (by omega)
  · rw [h] at h1; simp at h1

/-- From 5000 on the same mint is accepted. -/
example : Reachable Demo.s1 ∧ accepted Demo.s1 pauseCall ∧
    accepted (run Demo.s1 [pauseCall]).1 ⟨Demo.env 5000, Demo.mintInfo, .mint 10000 none none⟩ :=
  ⟨Demo.s1_reachable, by decide +kernel, by decide +kernel⟩

/-- The same state with no pause recorded. -/
def unpaused (s : State) : State := { s with config := { s.config with paused := ⟨false, none⟩ } }

theorem collect_unpaused {s s1 : State} {now : Nat} :
    collectStreamingFee s now = .ok s1 →
      collectStreamingFee (unpaused s) now = .ok (unpaused s1) := by
  intro h
  rcases collectStreamingFee_eq_ok.1 h with ⟨hn, rfl⟩ | ⟨sf, sf', us', a, b, rfl⟩
  · exact collectStreamingFee_eq_ok.2 (.inl ⟨hn, rfl⟩)
  · exact collectStreamingFee_eq_ok.2 (.inr ⟨sf, sf', us', a, b, rfl⟩)

theorem collect_unpaused' {s s1 : State} {now : Nat}
    (h : collectStreamingFee (unpaused s) now = .ok s1) :
    ∃ s2, collectStreamingFee s now = .ok s2 ∧ s1 = unpaused s2 := by
  rcases collectStreamingFee_eq_ok.1 h with ⟨hn, rfl⟩ | ⟨sf, sf', us', a, b, rfl⟩
  · exact ⟨s, collectStreamingFee_eq_ok.2 (.inl ⟨hn, rfl⟩), rfl⟩
  · exact ⟨_, collectStreamingFee_eq_ok.2 (.inr ⟨sf, sf', us', a, b, rfl⟩), rfl⟩

/-- **C15 (3).** When the contract is not paused at the block time (never paused, released, or the expiry
reached) the pause record does not matter: `Mint` and `Burn` are accepted with the same messages as if
no pause were recorded. -/
theorem C15_not_paused_no_effect {s : State} {env : Env} {info : Info} {msg : ExecMsg} (hm : TokenMsg msg)
    (hp : ¬ pausedAt s env.now) (ms : List Msg) :
    (∃ s', execute s env info msg = .ok (s', ms)) ↔ ∃ s', execute (unpaused s) env info msg = .ok (s', ms) := by
  rw [← not_pausedAt_iff] at hp
  have hrf : ∀ t, (({} : PauseInfo).refresh t).paused = false := fun _ => rfl
  constructor
  · rintro ⟨s', h⟩
    obtain ⟨s1, h1, h2⟩ := execute_eq_ok.1 h
    rcases hm with ⟨a, r, f, rfl⟩ | ⟨r, rfl⟩
    · simp only [collectsFirst, if_true] at h1
      obtain ⟨_, b⟩ := mint_eq_ok.1 h2
      obtain ⟨b1, b2, b3, b4, b5, b6, _, b7⟩ := b
      exact ⟨_, execute_eq_ok.2 ⟨unpaused s1, by simpa [collectsFirst] using collect_unpaused h1,
        mint_eq_ok.2 ⟨rfl, b1, b2, b3, b4, b5, b6, rfl, b7⟩⟩⟩
    · simp only [collectsFirst, if_true] at h1
      obtain ⟨_, b1, b2, x, y, z, c1, c2, c3, c4, c5, c6, c7, c8, _, b7⟩ := burn_eq_ok.1 h2
      exact ⟨_, execute_eq_ok.2 ⟨unpaused s1, by simpa [collectsFirst] using collect_unpaused h1,
        burn_eq_ok.2 ⟨rfl, b1, b2, x, y, z, c1, c2, c3, c4, c5, c6, c7, c8, rfl, b7⟩⟩⟩
  · rintro ⟨s', h⟩
    obtain ⟨s1, h1, h2⟩ := execute_eq_ok.1 h
    rcases hm with ⟨a, r, f, rfl⟩ | ⟨r, rfl⟩
    · simp only [collectsFirst, if_true] at h1
      obtain ⟨s2, h3, rfl⟩ := collect_unpaused' h1
      have f := (collectStreamingFee_frame h3).1
      obtain ⟨_, b⟩ := mint_eq_ok.1 h2
      obtain ⟨b1, b2, b3, b4, b5, b6, _, b7⟩ := b
      exact ⟨_, execute_eq_ok.2 ⟨s2, by simpa [collectsFirst] using h3,
        mint_eq_ok.2 ⟨by rw [f]; exact hp, b1, b2, b3, b4, b5, b6, rfl, b7⟩⟩⟩
    · simp only [collectsFirst, if_true] at h1
      obtain ⟨s2, h3, rfl⟩ := collect_unpaused' h1
      have f := (collectStreamingFee_frame h3).1
      obtain ⟨_, b1, b2, x, y, z, c1, c2, c3, c4, c5, c6, c7, c8, _, b7⟩ := burn_eq_ok.1 h2
      exact ⟨_, execute_eq_ok.2 ⟨s2, by simpa [collectsFirst] using h3,
        burn_eq_ok.2 ⟨by rw [f]; exact hp, b1, b2, x, y, z, c1, c2, c3, c4, c5, c6, c7, c8, rfl, b7⟩⟩⟩

/-- A pause that has ended does not change what a mint sends. -/
example : TokenMsg (.mint 10000 none none) ∧
    (execute (run Demo.s1 [pauseCall]).1 (Demo.env 5000) Demo.mintInfo (.mint 10000 none none)).map (·.2) =
      (execute Demo.s1 (Demo.env 5000) Demo.mintInfo (.mint 10000 none none)).map (·.2) ∧
    accepted Demo.s1 ⟨Demo.env 5000, Demo.mintInfo, .mint 10000 none none⟩ :=
  ⟨Or.inl ⟨_, _, _, rfl⟩, by decide +kernel, by decide +kernel⟩

/-- **C15 (4).** `Release` is for governance, only while paused, and ends the pause at once. -/
theorem C15_release {s s' : State} {env : Env} {info : Info} {ms : List Msg}
    (h : execute s env info (.gov .release) = .ok (s', ms)) :
    info.sender = s.config.gov ∧ pausedAt s env.now ∧ ∀ t, ¬ pausedAt s' t := by
  obtain ⟨g, p, hc, _⟩ := config_effect h
  exact ⟨g.symm, pausedAt_iff.1 p, fun t ⟨h, _⟩ => by rw [hc] at h; simp at h⟩


example : Reachable Demo.s1 ∧ accepted Demo.s1 pauseCall ∧
    ¬ accepted (run Demo.s1 [pauseCall]).1 ⟨Demo.env 4999, Demo.mintInfo, .mint 10000 none none⟩ ∧
    accepted (run Demo.s1 [pauseCall]).1 ⟨Demo.env 5000, Demo.mintInfo, .mint 10000 none none⟩ ∧
    accepted (run Demo.s1 [pauseCall]).1 ⟨Demo.env 4999, ⟨"gov", []⟩, .gov .release⟩ :=
  ⟨Demo.s1_reachable, by decide +kernel, by decide +kernel, by decide +kernel, by decide +kernel⟩

/-- **C66.** `GetConfig` for a time whose nanoseconds fit in 64 bits always answers, with the stored settings; its pause
flag tells exactly whether the contract is paused at that time (without a time: at the block time), so while it is set
for the block time no mint or burn is accepted. -/
theorem C66_config_query {s : State} {asked : Env} {time : Option Nat} :
    ((∃ r, getConfig s asked time = .ok r) ↔ time.getD asked.now * 10 ^ 9 < 2 ^ 64) ∧
    ∀ r, getConfig s asked time = .ok r →
      r.gov = s.config.gov ∧ r.pendingGov = s.pendingGov ∧ r.indexDenom = s.config.indexDenom ∧
      r.reserveDenom = s.config.reserveDenom ∧ (r.paused.paused = true ↔ pausedAt s (time.getD asked.now)) ∧
      (r.paused.paused = true → r.paused.expiresAt = s.config.paused.expiresAt ∧
        ∀ c : Call, c.env.now = time.getD asked.now → TokenMsg c.msg → ¬ accepted s c) := by
  unfold getConfig
  simp only [bind_eq_ok, require_eq_ok, Except.ok.injEq]
  constructor
  · constructor
    · rintro ⟨_, _, h, _⟩; exact h
    · intro h; exact ⟨_, (), h, rfl⟩
  · rintro r ⟨_, _, rfl⟩
    refine ⟨rfl, rfl, rfl, rfl, pausedAt_iff, ?_⟩
    intro h
    refine ⟨?_, ?_⟩
    · simp only at h ⊢
      revert h
      unfold PauseInfo.refresh
      split
      · split
        · split
          · intro h; cases h
          · intro _; rfl
        · intro _; rfl
      · intro _; rfl
    · intro c hc hm
      apply token_rejected_of_paused hm
      rw [hc]
      exact pausedAt_iff.1 h

/-- Paused until 5000: the query tells so for time 4999 and the opposite for time 5000. -/
example : ((getConfig (run Demo.s1 [pauseCall]).1 (Demo.env 2000) (some 4999)).map (·.paused)).toOption =
      some ⟨true, some 5000⟩ ∧
    ((getConfig (run Demo.s1 [pauseCall]).1 (Demo.env 2000) (some 5000)).map (·.paused)).toOption = some ⟨false, none⟩ := by
  decide +kernel

/-! ### C16 -/

/-- Messages that end or replace a nomination. -/
def EndsNomination (m : ExecMsg) : Prop :=
  m = .gov .acceptGov ∨ m = .gov .revokeGov ∨ ∃ g, m = .gov (.updateGov g)

/-- Where a pending nomination comes from. -/
theorem nomination_origin {s0 : State} (hf : Fresh s0) (cs : List Call) {h : Addr}
    (hp : (run s0 cs).1.pendingGov = some h) :
    ∃ pre u mid, cs = pre ++ u :: mid ∧ u.msg = .gov (.updateGov h) ∧
      accepted (run s0 pre).1 u ∧ u.info.sender = (run s0 pre).1.config.gov ∧
      (run s0 pre).1.pendingGov = none ∧
      NoneAccepted EndsNomination (run s0 (pre ++ [u])).1 mid ∧
      (run s0 cs).1.config.gov = u.info.sender := by
  induction cs using List.reverseRecOn with
  | nil =>
    obtain ⟨env, msg, s1, ms, d', ms', h1, h2⟩ := hf
    obtain ⟨_, _, _, _, _, _, rfl, _⟩ := instantiate_eq_ok.1 h1
    obtain ⟨_, d', _, rfl, _⟩ := reply_eq_ok.1 h2
    simp [run] at hp
  | append_singleton cs c ih =>
    rw [run_append] at hp ⊢
    simp only [run_cons, run] at hp ⊢
    -- a call that leaves governance and nomination alone
    have keep : (step (run s0 cs).1 c).1.pendingGov = (run s0 cs).1.pendingGov →
        (step (run s0 cs).1 c).1.config.gov = (run s0 cs).1.config.gov →
        (EndsNomination c.msg → ¬ accepted (run s0 cs).1 c) →
        ∃ pre u mid, cs ++ [c] = pre ++ u :: mid ∧ u.msg = .gov (.updateGov h) ∧
          accepted (run s0 pre).1 u ∧ u.info.sender = (run s0 pre).1.config.gov ∧
          (run s0 pre).1.pendingGov = none ∧
          NoneAccepted EndsNomination (run s0 (pre ++ [u])).1 mid ∧
          (step (run s0 cs).1 c).1.config.gov = u.info.sender := by
      intro k1 k2 k3
      rw [k1] at hp
      obtain ⟨pre, u, mid, e, h1, h2, h3, h4, h5, h6⟩ := ih hp
      refine ⟨pre, u, mid ++ [c], by simp [e], h1, h2, h3, h4, ?_, by rw [k2, h6]⟩
      rw [noneAccepted_append]
      refine ⟨h5, ?_, trivial⟩
      have : (run (run s0 (pre ++ [u])).1 mid).1 = (run s0 cs).1 := by
        rw [e, show pre ++ u :: mid = (pre ++ [u]) ++ mid by simp, run_append s0 (pre ++ [u])]
      rw [this]; exact k3
    by_cases ha : accepted (run s0 cs).1 c
    · obtain ⟨s', ms, hx⟩ := ha
      have hst := step_of_ok hx
      obtain ⟨env, info, msg⟩ := c
      have eff := config_effect hx
      rw [hst] at hp keep ⊢
      cases msg with
      | gov m =>
        cases m with
        | updateGov g =>
          simp only at eff hp
          rw [eff.2.2.2] at hp
          cases hp
          refine ⟨cs, _, [], rfl, rfl, ⟨s', ms, hx⟩, eff.1.symm, eff.2.1, trivial, ?_⟩
          rw [eff.2.2.1]; exact eff.1
        | acceptGov => simp only at eff hp; rw [eff.2.2] at hp; cases hp
        | revokeGov => simp only at eff hp; rw [eff.2.2] at hp; cases hp
        | pause e => exact keep eff.2.2.2.2 (by rw [eff.2.2.2.1]) (by simp [EndsNomination])
        | release => exact keep eff.2.2.2 (by rw [eff.2.2.1]) (by simp [EndsNomination])
        | updateReserveDenom d => exact keep eff.2.2.2 (by rw [eff.2.2.1]) (by simp [EndsNomination])
        | updateFeeStrategy p => exact keep eff.2 (by rw [eff.1]) (by simp [EndsNomination])
        | updateRebalanceManager p => exact keep eff.2 (by rw [eff.1]) (by simp [EndsNomination])
        | updateTradeInfo d r c m => exact keep eff.2 (by rw [eff.1]) (by simp [EndsNomination])
      | mint a r f => exact keep eff.2 (by rw [eff.1]) (by simp [EndsNomination])
      | burn r => exact keep eff.2 (by rw [eff.1]) (by simp [EndsNomination])
      | realize => exact keep eff.2 (by rw [eff.1]) (by simp [EndsNomination])
      | rebalance m => exact keep eff.2 (by rw [eff.1]) (by simp [EndsNomination])
    · rw [step_of_not_accepted ha] at hp keep ⊢
      exact keep rfl rfl (fun _ => ha)

/-- **C16.** Whenever a call changes the governance account from `g` to `h`, in any history, it is an
`AcceptGov` sent by `h`, and an earlier `UpdateGov h` was sent by `g` while it was the governance account
with no nomination pending, and between the two no nomination was accepted, revoked or replaced. -/
theorem C16_governance_handover {s0 : State} (hf : Fresh s0) (cs : List Call) (c : Call) {g h : Addr}
    (hg : (run s0 cs).1.config.gov = g) (hh : (run s0 (cs ++ [c])).1.config.gov = h) (hne : g ≠ h) :
    c.msg = .gov .acceptGov ∧ c.info.sender = h ∧ accepted (run s0 cs).1 c ∧
    (run s0 (cs ++ [c])).1.pendingGov = none ∧
    ∃ pre u mid, cs = pre ++ u :: mid ∧ u.msg = .gov (.updateGov h) ∧ accepted (run s0 pre).1 u ∧
      u.info.sender = g ∧ (run s0 pre).1.config.gov = g ∧ (run s0 pre).1.pendingGov = none ∧
      NoneAccepted EndsNomination (run s0 (pre ++ [u])).1 mid := by
  rw [run_append] at hh ⊢
  simp only [run_cons, run] at hh ⊢
  by_cases ha : accepted (run s0 cs).1 c
  · obtain ⟨s', ms, hx⟩ := ha
    have hst := step_of_ok hx
    obtain ⟨env, info, msg⟩ := c
    have eff := config_effect hx
    rw [hst] at hh ⊢
    cases msg with
    | gov m =>
      cases m with
      | acceptGov =>
        obtain ⟨e1, e2, e3⟩ := eff
        simp only at e1 e2 e3 hh
        have hs : info.sender = h := by rw [← hh, e2]
        obtain ⟨pre, u, mid, e, h1, h2, h3, h4, h5, h6⟩ := nomination_origin hf cs e1
        rw [hg] at h6
        exact ⟨rfl, hs, ⟨s', ms, hx⟩, e3, pre, u, mid, e, by rw [h1, hs], h2, h6.symm,
          by rw [← h3, ← h6], h4, h5⟩
      | updateGov g' => exact absurd (by rw [← hg, ← hh, eff.2.2.1]) hne
      | revokeGov => exact absurd (by rw [← hg, ← hh, eff.2.1]) hne
      | pause e => exact absurd (by rw [← hg, ← hh, eff.2.2.2.1]) hne
      | release => exact absurd (by rw [← hg, ← hh, eff.2.2.1]) hne
      | updateReserveDenom d => exact absurd (by rw [← hg, ← hh, eff.2.2.1]) hne
      | updateFeeStrategy p => exact absurd (by rw [← hg, ← hh, eff.1]) hne
      | updateRebalanceManager p => exact absurd (by rw [← hg, ← hh, eff.1]) hne
      | updateTradeInfo d r c m => exact absurd (by rw [← hg, ← hh, eff.1]) hne
    | mint a r f => exact absurd (by rw [← hg, ← hh, eff.1]) hne
    | burn r => exact absurd (by rw [← hg, ← hh, eff.1]) hne
    | realize => exact absurd (by rw [← hg, ← hh, eff.1]) hne
    | rebalance m => exact absurd (by rw [← hg, ← hh, eff.1]) hne
  · rw [step_of_not_accepted ha] at hh
    exact absurd (hg.symm.trans hh) hne

/-- Governance nominates Bob, who accepts. -/
example : Fresh Demo.s0 ∧
    (run Demo.s0 [⟨Demo.env 2000, ⟨"gov", []⟩, .gov (.updateGov "bob")⟩]).1.config.gov = "gov" ∧
    (run Demo.s0 ([⟨Demo.env 2000, ⟨"gov", []⟩, .gov (.updateGov "bob")⟩] ++
      [⟨Demo.env 2001, ⟨"bob", []⟩, .gov .acceptGov⟩])).1.config.gov = "bob" :=
  ⟨Demo.s0_fresh, by decide +kernel, by decide +kernel⟩

/-- **C16 (2).** A nomination is accepted only while none is pending, revoked only by governance, and the
nominee can always accept a pending one. -/
theorem C16_nomination_rules {s s' : State} {env : Env} {info : Info} {ms : List Msg} :
    (∀ g, execute s env info (.gov (.updateGov g)) = .ok (s', ms) →
      info.sender = s.config.gov ∧ s.pendingGov = none ∧ s'.pendingGov = some g ∧ s'.config = s.config) ∧
    (execute s env info (.gov .revokeGov) = .ok (s', ms) →
      info.sender = s.config.gov ∧ s'.pendingGov = none ∧ s'.config = s.config) ∧
    (s.pendingGov = some info.sender →
      execute s env info (.gov .acceptGov) =
        .ok ({ s with pendingGov := none, config := { s.config with gov := info.sender } }, [])) := by
  refine ⟨fun g h => ?_, fun h => ?_, fun h => ?_⟩
  · obtain ⟨a, b, c, d⟩ := config_effect h; exact ⟨a.symm, b, d, c⟩
  · obtain ⟨a, b, c⟩ := config_effect h; exact ⟨a.symm, c, b⟩
  · exact execute_eq_ok.2 ⟨s, by simp [collectsFirst], acceptGov_eq_ok.2 ⟨h, rfl, rfl⟩⟩

example : Fresh Demo.s0 ∧
    (run Demo.s0 [⟨Demo.env 2000, ⟨"gov", []⟩, .gov (.updateGov "bob")⟩]).1.config.gov = "gov" ∧
    (run Demo.s0 ([⟨Demo.env 2000, ⟨"gov", []⟩, .gov (.updateGov "bob")⟩] ++
      [⟨Demo.env 2001, ⟨"bob", []⟩, .gov .acceptGov⟩])).1.config.gov = "bob" :=
  ⟨Demo.s0_fresh, by decide +kernel, by decide +kernel⟩

/-! ### C17 -/

/-- Everything governance decides: configuration, fee settings, routes with their limits, and the active
rebalance with its manager. -/
structure SameSettings (s s' : State) : Prop where
  paused : s'.config.paused = s.config.paused
  indexDenom : s'.config.indexDenom = s.config.indexDenom
  reserveDenom : s'.config.reserveDenom = s.config.reserveDenom
  collector : s'.fee.collector = s.fee.collector
  mintFee : s'.fee.mintFee = s.fee.mintFee
  burnFee : s'.fee.burnFee = s.fee.burnFee
  streamingRate : s'.fee.streamingFee.map (·.rate) = s.fee.streamingFee.map (·.rate)
  routes : ∀ a b, (s'.tradeInfos.get (a, b)).map (fun t => (t.routes, t.cooldown, t.maxTradeAmount)) =
    (s.tradeInfos.get (a, b)).map (fun t => (t.routes, t.cooldown, t.maxTradeAmount))
  rebalance : s'.rebalance = s.rebalance ∨ s'.rebalance = none

/-- **C17.** A message from anyone but the governance account changes no setting and starts no rebalance;
the governance account and the nomination change only if the sender is the nominee accepting. -/
theorem C17_only_governance_changes_settings {s : State} (hr : Reachable s) (c : Call)
    (hs : c.info.sender ≠ s.config.gov) :
    SameSettings s (step s c).1 ∧
    (((step s c).1.config.gov = s.config.gov ∧ (step s c).1.pendingGov = s.pendingGov) ∨
     (c.msg = .gov .acceptGov ∧ s.pendingGov = some c.info.sender ∧
      (step s c).1.config.gov = c.info.sender ∧ (step s c).1.pendingGov = none)) := by
  by_cases ha : accepted s c
  · obtain ⟨s', ms, hx⟩ := ha
    rw [step_of_ok hx]
    obtain ⟨env, info, msg⟩ := c
    simp only at hs hx ⊢
    have eff := config_effect hx
    rcases settings_effect hr.inv hx with h | ⟨h1, h2, h3, h4, h5, h6⟩
    · exact absurd h.symm hs
    have h6' : s'.rebalance = s.rebalance ∨ s'.rebalance = none := by
      rcases h6 with h | ⟨_, h⟩ <;> simp [h]
    have simple : s'.config = s.config ∧ s'.pendingGov = s.pendingGov →
        SameSettings s s' ∧ ((s'.config.gov = s.config.gov ∧ s'.pendingGov = s.pendingGov) ∨
          (msg = .gov .acceptGov ∧ s.pendingGov = some info.sender ∧ s'.config.gov = info.sender ∧
            s'.pendingGov = none)) := by
      rintro ⟨a, b⟩
      exact ⟨⟨by rw [a], by rw [a], by rw [a], h1, h2, h3, h4, h5, h6'⟩, .inl ⟨by rw [a], b⟩⟩
    cases msg with
    | gov m =>
      cases m with
      | acceptGov =>
        obtain ⟨e1, e2, e3⟩ := eff
        exact ⟨⟨by rw [e2], by rw [e2], by rw [e2], h1, h2, h3, h4, h5, h6'⟩,
          .inr ⟨rfl, e1, by rw [e2], e3⟩⟩
      | updateGov g => exact absurd eff.1.symm hs
      | revokeGov => exact absurd eff.1.symm hs
      | pause e => exact absurd eff.1.symm hs
      | release => exact absurd eff.1.symm hs
      | updateReserveDenom d => exact absurd eff.1.symm hs
      | updateFeeStrategy p => exact simple eff
      | updateRebalanceManager p => exact simple eff
      | updateTradeInfo d r c m => exact simple eff
    | mint a r f => exact simple eff
    | burn r => exact simple eff
    | realize => exact simple eff
    | rebalance m => exact simple eff
  · rw [step_of_not_accepted ha]
    exact ⟨⟨rfl, rfl, rfl, rfl, rfl, rfl, rfl, fun _ _ => rfl, .inl rfl⟩, .inl ⟨rfl, rfl⟩⟩

/-- A stranger's pause changes nothing; Bob, once nominated, takes over the government and no other setting. -/
example : Reachable Demo.s1 ∧ "mallory" ≠ Demo.s1.config.gov ∧
    (step Demo.s1 ⟨Demo.env 2000, ⟨"mallory", []⟩, .gov (.pause none)⟩).1 = Demo.s1 ∧
    (step (run Demo.s1 [⟨Demo.env 2000, ⟨"gov", []⟩, .gov (.updateGov "bob")⟩]).1
      ⟨Demo.env 2001, ⟨"bob", []⟩, .gov .acceptGov⟩).1 = { Demo.s1 with config := { Demo.s1.config with gov := "bob" } } :=
  ⟨Demo.s1_reachable, by decide, rfl, rfl⟩

theorem SameSettings.trans {a b c : State} (h : SameSettings a b) (k : SameSettings b c) : SameSettings a c :=
  ⟨k.paused.trans h.paused, k.indexDenom.trans h.indexDenom, k.reserveDenom.trans h.reserveDenom,
   k.collector.trans h.collector, k.mintFee.trans h.mintFee, k.burnFee.trans h.burnFee,
   k.streamingRate.trans h.streamingRate, fun x y => (k.routes x y).trans (h.routes x y),
   by rcases k.rebalance with e | e <;> rcases h.rebalance with f | f <;> simp [e, f]⟩

/-- **C17 (2).** The same over every history of calls none of which comes from the governance account
or the nominee. -/
theorem C17_history {s : State} (hr : Reachable s) (cs : List Call)
    (hs : ∀ c ∈ cs, c.info.sender ≠ s.config.gov ∧ s.pendingGov ≠ some c.info.sender) :
    SameSettings s (run s cs).1 ∧ (run s cs).1.config.gov = s.config.gov ∧
      (run s cs).1.pendingGov = s.pendingGov := by
  induction cs using List.reverseRecOn with
  | nil => exact ⟨⟨rfl, rfl, rfl, rfl, rfl, rfl, rfl, fun _ _ => rfl, .inl rfl⟩, rfl, rfl⟩
  | append_singleton cs c ih =>
    obtain ⟨i1, i2, i3⟩ := ih (fun c hc => hs c (by simp [hc]))
    obtain ⟨n1, n2⟩ := hs c (by simp)
    rw [run_append]
    simp only [run_cons, run]
    obtain ⟨j1, j2⟩ := C17_only_governance_changes_settings (hr.run cs) c (by rw [i2]; exact n1)
    refine ⟨i1.trans j1, ?_⟩
    rcases j2 with ⟨a, b⟩ | ⟨_, b, _⟩
    · exact ⟨a.trans i2, b.trans i3⟩
    · rw [i3] at b; exact absurd b n2

example : ∀ c ∈ [(⟨Demo.env 2000, ⟨"mallory", []⟩, .gov (.pause none)⟩ : Call),
      ⟨Demo.env 2001, Demo.mintInfo, .mint 10000 none none⟩],
    c.info.sender ≠ Demo.s1.config.gov ∧ Demo.s1.pendingGov ≠ some c.info.sender := by
  decide

end Ibcx.Props
