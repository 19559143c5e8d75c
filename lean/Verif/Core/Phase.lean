import Verif.Core.Accrual
import Verif.Core.Frame
import Verif.Spec.Link
/-!
# A rebalance from its start on

Not part of the model.
-/

namespace Ibcx.Core
open Ibcx Ibcx.Spec

/-- What can happen between a state with active rebalance `r` and a later one before `Finalize`.  Proof device for
`/repo/contracts/core/src/execute/rebalance/mod.rs:14-31`. -/
structure Phase (r : Rebalance) (s s' : State) : Prop where
  rebalance : ∃ m, s'.rebalance = some { r with manager := m }
  supply : s'.totalSupply = s.totalSupply
  reserveDenom : s'.config.reserveDenom = s.config.reserveDenom
  indexDenom : s'.config.indexDenom = s.config.indexDenom
  deflated : ∀ e ∈ r.deflation, ∃ cur cur', s.indexUnits.getKey e.1 = some cur ∧
    s'.indexUnits.getKey e.1 = some cur' ∧ e.2 ≤ cur' ∧ cur' ≤ cur
  inflated : ∀ d ∈ r.inflation.denoms,
    (s.indexUnits.getKey d).getD 0 ≤ (s'.indexUnits.getKey d).getD 0
  other : ∀ d, d ∉ r.deflation.denoms → d ∉ r.inflation.denoms →
    s'.indexUnits.getKey d = s.indexUnits.getKey d
  denoms : ∀ d, d ∈ s.indexUnits.denoms → d ∈ s'.indexUnits.denoms
  denoms' : ∀ d, d ∈ s'.indexUnits.denoms → d ∈ s.indexUnits.denoms ∨ d ∈ r.inflation.denoms

theorem Phase.refl {r : Rebalance} {s : State} (hi : Inv s) (hr : s.rebalance = some r) : Phase r s s where
  rebalance := ⟨r.manager, hr⟩
  supply := rfl
  reserveDenom := rfl
  indexDenom := rfl
  deflated e he := by obtain ⟨cur, h1, h2⟩ := hi.deflBound r hr e he; exact ⟨cur, cur, h1, h1, h2, le_refl _⟩
  inflated _ _ := le_refl _
  other _ _ _ := rfl
  denoms _ h := h
  denoms' _ h := .inl h

/-- Same lists, same units. -/
theorem Phase.keep {r : Rebalance} {s s' s'' : State} (p : Phase r s s')
    (h1 : ∃ r', s'.rebalance = some r' ∧ ∃ m, s''.rebalance = some { r' with manager := m })
    (h2 : s''.totalSupply = s'.totalSupply)
    (h3 : s''.config.reserveDenom = s'.config.reserveDenom)
    (h3' : s''.config.indexDenom = s'.config.indexDenom)
    (h4 : s''.indexUnits = s'.indexUnits) : Phase r s s'' where
  rebalance := by
    obtain ⟨r', a, m, b⟩ := h1
    obtain ⟨m', c⟩ := p.rebalance
    rw [a] at c; cases c
    exact ⟨m, b⟩
  supply := h2.trans p.supply
  reserveDenom := h3.trans p.reserveDenom
  indexDenom := h3'.trans p.indexDenom
  deflated := by rw [h4]; exact p.deflated
  inflated := by rw [h4]; exact p.inflated
  other := by rw [h4]; exact p.other
  denoms := by rw [h4]; exact p.denoms
  denoms' := by rw [h4]; exact p.denoms'

/-- One accepted message other than `Finalize` continues the phase. -/
theorem Phase.step {r : Rebalance} {s s' s'' : State} {env : Env} {info : Info} {msg : ExecMsg} {ms : List Msg}
    (p : Phase r s s') (hr : Reachable s') (hnf : msg ≠ .rebalance .finalize)
    (hx : execute s' env info msg = .ok (s'', ms)) : Phase r s s'' := by
  obtain ⟨m0, hreb⟩ := p.rebalance
  obtain ⟨s1, h1, h2⟩ := execute_eq_ok.1 hx
  have : s1 = s' := by
    split at h1
    · exact accrual_noop h1 (fun sf hsf => .inl (hr.inv.frozen _ sf hreb hsf))
    · exact h1
  subst this
  have kp : ∀ s'' : State, s''.rebalance = s1.rebalance → s''.totalSupply = s1.totalSupply →
      s''.config.reserveDenom = s1.config.reserveDenom → s''.config.indexDenom = s1.config.indexDenom →
      s''.indexUnits = s1.indexUnits → Phase r s s'' :=
    fun s'' a b c c' d => p.keep ⟨_, hreb, m0, by rw [a, hreb]⟩ b c c' d
  cases msg with
  | mint a r' f =>
    obtain ⟨_, hn, _⟩ := mint_eq_ok.1 h2; rw [hreb] at hn; cases hn
  | burn r' =>
    obtain ⟨_, hn, _⟩ := burn_eq_ok.1 h2; rw [hreb] at hn; cases hn
  | realize =>
    obtain ⟨_, h⟩ := realize_eq_ok.1 h2
    rcases h with ⟨hn, rfl, rfl⟩ | ⟨sf, hsf, rfl, rfl⟩
    · exact p
    · exact kp _ rfl rfl rfl rfl rfl
  | gov m =>
    cases m with
    | updateFeeStrategy p => obtain ⟨_, hn, _⟩ := updateFee_eq_ok.1 h2; rw [hreb] at hn; cases hn
    | pause e => obtain ⟨_, _, _, rfl, rfl⟩ := pause_eq_ok.1 h2; exact kp _ rfl rfl rfl rfl rfl
    | release => obtain ⟨_, _, rfl, rfl⟩ := release_eq_ok.1 h2; exact kp _ rfl rfl rfl rfl rfl
    | updateGov g => obtain ⟨_, _, _, rfl, rfl⟩ := updateGov_eq_ok.1 h2; exact kp _ rfl rfl rfl rfl rfl
    | acceptGov => obtain ⟨_, rfl, rfl⟩ := acceptGov_eq_ok.1 h2; exact kp _ rfl rfl rfl rfl rfl
    | revokeGov => obtain ⟨_, _, rfl, rfl⟩ := revokeGov_eq_ok.1 h2; exact kp _ rfl rfl rfl rfl rfl
    | updateRebalanceManager m =>
      obtain ⟨_, _, ⟨r', hr', rfl⟩, rfl⟩ := updateRebalanceManager_eq_ok.1 h2
      exact p.keep ⟨r', hr', m, rfl⟩ rfl rfl rfl rfl
    | updateReserveDenom d => obtain ⟨_, hn, _⟩ := updateReserveDenom_eq_ok.1 h2; rw [hreb] at hn; cases hn
    | updateTradeInfo d rs c m =>
      obtain ⟨_, ⟨r', rs', hrs, rfl⟩, rfl⟩ := updateTradeInfo_eq_ok.1 h2; exact kp _ rfl rfl rfl rfl rfl
  | rebalance m =>
    cases m with
    | init m de inf => obtain ⟨_, hn, _⟩ := init_eq_ok.1 h2; rw [hreb] at hn; cases hn
    | finalize => exact absurd rfl hnf
    | trade m =>
      obtain ⟨r', hr', t⟩ := trade_step hr.inv h2
      rw [hreb] at hr'; cases hr'
      exact {
        rebalance := ⟨m0, by rw [t.rebalance, hreb]⟩
        supply := t.totalSupply.trans p.supply
        reserveDenom := by rw [t.config]; exact p.reserveDenom
        indexDenom := by rw [t.config]; exact p.indexDenom
        deflated := by
          intro e he
          obtain ⟨cur, cur', a1, a2, a3, a4⟩ := p.deflated e he
          obtain ⟨c, c', b1, b2, b3, b4⟩ := t.deflated e he
          rw [a2] at b1; cases b1
          exact ⟨cur, c', a1, b2, b3, b4.trans a4⟩
        inflated := fun d hd => (p.inflated d hd).trans (t.inflated d hd)
        other := fun d h1 h2 => (t.other d h1 h2).trans (p.other d h1 h2)
        denoms := fun d h => t.denoms d (p.denoms d h)
        denoms' := fun d h => by
          rcases t.denoms' d h with h | h
          · exact p.denoms' d h
          · exact .inr h }

/-- The phase lasts over every history without accepted `Finalize`. -/
theorem Phase.run {r : Rebalance} {s : State} {cs : List Call} (hr : Reachable s) (hreb : s.rebalance = some r)
    (hno : NoneAccepted (· = .rebalance .finalize) s cs) : Phase r s (run s cs).1 :=
  run_induct (I := fun s' => Phase r s s') (T := fun _ => True)
    (fun _ _ _ _ hr' hI _ hnf hx => hI.step hr' hnf hx)
    hr (Phase.refl hr.inv hreb) (fun _ _ => trivial) hno

end Ibcx.Core
