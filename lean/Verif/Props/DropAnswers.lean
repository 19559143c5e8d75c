import Verif.Spec.DropHistory
import Verif.Airdrop.Query
import Verif.Props.Airdrop
import Mathlib.Data.List.Induction
/-!
# C123: the answers of the airdrop contract tell what happened
-/

namespace Ibcx.Props
open Ibcx Ibcx.Airdrop Ibcx.Spec

private theorem happened_mono {c : Crypto} {calls before : List Call} {call : Call} (h : Happened c calls before call)
    (more : List Call) : Happened c (calls ++ more) before call := by
  obtain ⟨⟨after, rfl⟩, h⟩ := h
  exact ⟨⟨after ++ more, by simp⟩, h⟩

/-- The state after a message that happened, and what became of it. -/
private theorem happened_change {c : Crypto} {calls before : List Call} {call : Call} (h : Happened c calls before call) :
    ∃ s' ms, Change c (run c initial before).1 call.env call.info call.msg s' ms ∧ Grows s' (run c initial calls).1 := by
  obtain ⟨⟨after, rfl⟩, ⟨s', ms⟩, h⟩ := h
  refine ⟨s', ms, execute_change.1 h, ?_⟩
  have hi := inv_initial.run (c := c) before
  have e : (step c (run c initial before).1 call).1 = s' := by simp [step, h]
  have hi' := hi.step (c := c) call
  rw [e] at hi'
  have := grows_run (c := c) hi' after
  rw [run_append]
  simp only [run, e]
  exact this

private theorem latest_is (c : Crypto) (calls : List Call) :
    (run c initial calls).1.latest = registrations c initial calls := by
  have := latest_run c calls initial
  rw [show initial.latest = 0 from rfl, Nat.zero_add] at this
  exact this

/-- What the records show has happened. -/
theorem shown (c : Crypto) (calls : List Call) :
    (∀ n a, (run c initial calls).1.drops.get n = some a →
      (∃ call p, RegisteredBy c calls n call p ∧ ShowsRegistration c call p a) ∧
      ∀ h, a.closedAt = some h → ClosedAt c calls n h) ∧
    ∀ n k x, (run c initial calls).1.claims.get (n, k) = some x → PaidOut c calls n k x := by
  induction calls using List.reverseRecOn with
  | nil => simp [run, initial, KV.get]
  | append_singleton calls call ih =>
    obtain ⟨ih1, ih2⟩ := ih
    have mono1 : ∀ n call' p, RegisteredBy c calls n call' p → RegisteredBy c (calls ++ [call]) n call' p := by
      rintro n call' p ⟨b, h, h'⟩
      exact ⟨b, happened_mono h _, h'⟩
    have mono2 : ∀ n h, ClosedAt c calls n h → ClosedAt c (calls ++ [call]) n h := by
      rintro n h ⟨b, call', id, h, h'⟩
      exact ⟨b, call', id, happened_mono h _, h'⟩
    have mono3 : ∀ n k x, PaidOut c calls n k x → PaidOut c (calls ++ [call]) n k x := by
      rintro n k x ⟨b, call', p, h, h'⟩
      exact ⟨b, call', p, happened_mono h _, h'⟩
    have old : ∀ n a, (run c initial calls).1.drops.get n = some a →
      (∃ call' p, RegisteredBy c (calls ++ [call]) n call' p ∧ ShowsRegistration c call' p a) ∧
      ∀ h, a.closedAt = some h → ClosedAt c (calls ++ [call]) n h := by
      intro n a ha
      obtain ⟨⟨call', p, h1, h2⟩, h3⟩ := ih1 n a ha
      exact ⟨⟨call', p, mono1 _ _ _ h1, h2⟩, fun h hh => mono2 _ _ (h3 h hh)⟩
    rw [run_append]
    simp only [run]
    rcases step_cases c (run c initial calls).1 call with ⟨e, er, hx⟩ | ⟨s', ms, e, hx, h⟩
    · rw [e]
      exact ⟨old, fun n k x hh => mono3 _ _ _ (ih2 n k x hh)⟩
    · rw [e]
      have hap : Happened c (calls ++ [call]) calls call := ⟨⟨[], rfl⟩, _, hx⟩
      generalize hm : call.msg = msg at h
      cases h with
      | register p a new free max =>
        refine ⟨fun n b hb => ?_, fun n k x hh => mono3 _ _ _ (ih2 n k x hh)⟩
        simp only [KV.get_set] at hb
        split at hb
        · rename_i en
          cases hb
          refine ⟨⟨call, p, ⟨calls, hap, hm, by rw [← latest_is, en]⟩, new.creator, new.created, ?_⟩, ?_⟩
          · have hp := new.payload
            cases p with
            | openDrop root denom label => exact hp
            | bearer root denom pub sig label =>
              obtain ⟨⟨key, _, k1, _, k2, _⟩, hp⟩ := hp
              exact ⟨⟨key, k1, k2⟩, hp⟩
          · intro h hh
            rw [new.notClosed] at hh
            cases hh
        · exact old n b hb
      | fund id m a extra ht ha hc ho hf hx max =>
        refine ⟨fun n b hb => ?_, fun n k x hh => mono3 _ _ _ (ih2 n k x hh)⟩
        simp only [KV.get_set] at hb
        split at hb
        · rename_i en
          cases hb
          subst en
          exact old _ a ha
        · exact old n b hb
      | claim p m a hv ht ha ho hk hp max hle =>
        refine ⟨fun n b hb => ?_, fun n k x hh => ?_⟩
        · simp only [KV.get_set] at hb
          split at hb
          · rename_i en
            cases hb
            subst en
            exact old _ a ha
          · exact old n b hb
        · simp only [KV.get_set] at hh
          split at hh
          · rename_i en
            cases hh
            cases en
            exact ⟨calls, call, p, hap, hm, ht, rfl, rfl⟩
          · exact mono3 _ _ _ (ih2 n k x hh)
      | close id m a ht ha hc ho hle =>
        refine ⟨fun n b hb => ?_, fun n k x hh => mono3 _ _ _ (ih2 n k x hh)⟩
        simp only [KV.get_set] at hb
        split at hb
        · rename_i en
          cases hb
          subst en
          refine ⟨(old _ a ha).1, fun h hh => ?_⟩
          cases hh
          exact ⟨calls, call, id, hap, hm, ht, rfl⟩
        · exact old n b hb

/-- What has happened is shown by the records. -/
theorem registered_shown {c : Crypto} {calls : List Call} {n : Nat} {call : Call} {p : RegisterPayload}
    (h : RegisteredBy c calls n call p) : ∃ a, (run c initial calls).1.drops.get n = some a ∧ ShowsRegistration c call p a := by
  obtain ⟨before, h, hm, hn⟩ := h
  obtain ⟨s', ms, hc, hg⟩ := happened_change h
  rw [hm] at hc
  have hl := latest_is c before
  generalize run c initial before = o at hc hl
  cases hc with
  | register p a new free max =>
    obtain ⟨a', g1, g2, g3, g4, g5, g6, g7, _⟩ := hg.drops n a (by simp [hl, hn])
    refine ⟨a', g1, g3.trans new.creator, g7.trans new.created, ?_⟩
    have hp := new.payload
    cases p with
    | openDrop root denom label =>
      exact ⟨g2.trans hp.1, g5.trans hp.2.1, g4.trans hp.2.2.1, g6.trans hp.2.2.2⟩
    | bearer root denom pub sig label =>
      obtain ⟨⟨key, _, k1, _, k2, _⟩, hp⟩ := hp
      exact ⟨⟨key, k1, g2.trans k2⟩, g5.trans hp.1, g4.trans hp.2.1, g6.trans hp.2.2⟩

private theorem closed_shown {c : Crypto} {calls : List Call} {n h : Nat} (hc : ClosedAt c calls n h) :
    ∃ a, (run c initial calls).1.drops.get n = some a ∧ a.closedAt = some h := by
  obtain ⟨before, call, id, hh, hm, ht, rfl⟩ := hc
  obtain ⟨s', ms, hc, hg⟩ := happened_change hh
  rw [hm] at hc
  generalize run c initial before = o at hc ht
  cases hc with
  | close id m a ht' ha hc ho hle =>
    rw [ht] at ht'
    cases ht'
    obtain ⟨a', g1, _, _, _, _, _, _, _, _, g⟩ := hg.drops n { a with closedAt := some call.env.height }
      (by simp)
    rw [g (by simp)] at g1
    exact ⟨_, g1, rfl⟩

private theorem paid_shown {c : Crypto} {calls : List Call} {n : Nat} {k : String} {x : Nat} (hc : PaidOut c calls n k x) :
    (∃ a, (run c initial calls).1.drops.get n = some a) ∧ (run c initial calls).1.claims.get (n, k) = some x := by
  obtain ⟨before, call, p, hh, hm, ht, rfl, rfl⟩ := hc
  obtain ⟨s', ms, hc, hg⟩ := happened_change hh
  rw [hm] at hc
  generalize run c initial before = o at hc ht
  cases hc with
  | claim p m a hv ht' ha ho hk hp max hle =>
    rw [ht] at ht'
    cases ht'
    obtain ⟨a', g1, _⟩ := hg.drops n { a with totalClaimed := a.totalClaimed + claimAmount p } (by simp)
    exact ⟨⟨a', g1⟩, hg.claims _ _ (by simp)⟩

/-- A registration says what the record shows, but for the totals and the end. -/
private theorem shows_unique {c : Crypto} {call : Call} {p : RegisterPayload} {a b : Drop}
    (ha : ShowsRegistration c call p a) (hb : ShowsRegistration c call p b) (h1 : a.totalAmount = b.totalAmount)
    (h2 : a.totalClaimed = b.totalClaimed) (h3 : a.closedAt = b.closedAt) : a = b := by
  obtain ⟨a1, a2, a3⟩ := ha
  obtain ⟨b1, b2, b3⟩ := hb
  cases a
  cases b
  cases p with
  | openDrop root denom label => simp_all
  | bearer root denom pub sig label =>
    obtain ⟨⟨k, k1, k2⟩, a3⟩ := a3
    obtain ⟨⟨k', k1', k2'⟩, b3⟩ := b3
    rw [k1] at k1'
    cases k1'
    simp_all

/-- **C123 (`GetAirdrop`).** After any history `GetAirdrop` for number `n` answers exactly when the registration that made
the airdrop number `n` was accepted, and then the record it gives shows what that registration said, all that accepted
registrations and fundings paid in, all that accepted claims paid out, and the height of the accepted `Close`, if there
was one. -/
theorem C123_get_airdrop (c : Crypto) (calls : List Call) (n m : Nat) (a : Drop) :
    getAirdrop (run c initial calls).1 (.id n) = .ok (m, a) ↔
      m = n ∧ (∃ call p, RegisteredBy c calls n call p ∧ ShowsRegistration c call p a) ∧
      a.totalAmount = fundedBy c n initial calls ∧ a.totalClaimed = claimedBy c n initial calls ∧
      ∀ h, a.closedAt = some h ↔ ClosedAt c calls n h := by
  have get : getAirdrop (run c initial calls).1 (.id n) = .ok (m, a) ↔
      m = n ∧ (run c initial calls).1.drops.get n = some a := by
    simp only [getAirdrop, loadAirdrop, bind_eq_ok, KV.load_eq_ok, Except.ok.injEq, Prod.mk.injEq]
    constructor
    · rintro ⟨_, rfl, _, h, rfl, rfl⟩
      exact ⟨rfl, h⟩
    · rintro ⟨rfl, h⟩
      exact ⟨_, rfl, _, h, rfl, rfl⟩
  have all : ∀ b, (run c initial calls).1.drops.get n = some b →
      b.totalAmount = fundedBy c n initial calls ∧ b.totalClaimed = claimedBy c n initial calls ∧
      ∀ h, b.closedAt = some h ↔ ClosedAt c calls n h := by
    intro b hb
    obtain ⟨h1, h2⟩ := (C31_never_pays_more_than_funded c calls n).2 b hb
    refine ⟨h1, h2, fun h => ⟨((shown c calls).1 n b hb).2 h, fun hc => ?_⟩⟩
    obtain ⟨b', e, e'⟩ := closed_shown hc
    rw [hb] at e
    cases e
    exact e'
  rw [get]
  constructor
  · rintro ⟨rfl, ha⟩
    exact ⟨rfl, ((shown c calls).1 _ a ha).1, all a ha⟩
  · rintro ⟨rfl, ⟨call, p, hr, hs⟩, h1, h2, h3⟩
    obtain ⟨b, hb, hs'⟩ := registered_shown hr
    obtain ⟨k1, k2, k3⟩ := all b hb
    have : a = b := shows_unique hs hs' (h1.trans k1.symm) (h2.trans k2.symm)
      (Option.ext fun h => (h3 h).trans (k3 h).symm)
    rw [this]
    exact ⟨rfl, hb⟩

private theorem is_ok {α : Type} {r : Res α} (h : (r.map fun _ => ()) = .ok ()) : ∃ o, r = .ok o := by
  cases r with
  | ok o => exact ⟨o, rfl⟩
  | error e => cases h

/-- In the history of the examples Carol's airdrop was registered first, was paid 50 and 30 and paid out 60, and was
closed. -/
example : RegisteredBy Demo.crypto dropHistory 0 Demo.reg (.openDrop Demo.root "uosmo" (some "gift")) ∧
    fundedBy Demo.crypto 0 initial dropHistory = 80 ∧ claimedBy Demo.crypto 0 initial dropHistory = 60 ∧
    ClosedAt Demo.crypto dropHistory 0 Demo.close.env.height ∧
    (getAirdrop (run Demo.crypto initial dropHistory).1 (.id 0)).map (fun r => (r.2.creator, r.2.totalAmount, r.2.totalClaimed,
      r.2.closedAt)) = .ok ("carol", 80, 60, some Demo.close.env.height) := by
  refine ⟨⟨[], ⟨⟨_, rfl⟩, ?_⟩, rfl, rfl⟩, by decide +kernel, by decide +kernel,
    ⟨[Demo.reg, Demo.fund, Demo.claimAlice, Demo.claimAlice, Demo.claimBob], Demo.close, _, ⟨⟨_, rfl⟩, ?_⟩, rfl,
      by decide +kernel, rfl⟩, by decide +kernel⟩
  · exact is_ok (by decide +kernel)
  · exact is_ok (by decide +kernel)

/-- **C123 (`GetAirdrop` by label).** With a label it answers for the airdrop that carries the label. -/
theorem C123_get_airdrop_by_label {c : Crypto} {s : State} (hr : Reachable c s) (l : String) (n : Nat) (a : Drop) :
    getAirdrop s (.label l) = .ok (n, a) ↔ getAirdrop s (.id n) = .ok (n, a) ∧ a.label = some l := by
  simp only [getAirdrop, loadAirdrop, bind_eq_ok, KV.load_eq_ok, Except.ok.injEq, Prod.mk.injEq]
  constructor
  · rintro ⟨_, h, b, h', rfl, rfl⟩
    obtain ⟨b', k, k'⟩ := hr.inv.labelTo l _ h
    rw [h'] at k
    cases k
    exact ⟨⟨_, rfl, _, h', rfl, rfl⟩, k'⟩
  · rintro ⟨⟨_, rfl, b, h', _, rfl⟩, k'⟩
    exact ⟨_, hr.inv.labelOf _ _ _ h' k', _, h', rfl, rfl⟩

private theorem getClaim_error {s : State} {n : Nat} {k : String} {e : Err} (h : getClaim s (.id n) k = .error e) :
    e = .notFound := by
  cases h1 : s.drops.get n with
  | none =>
    simp only [getClaim, loadAirdrop, KV.load, h1, bind, Except.bind, Except.error.injEq] at h
    exact h.symm
  | some a =>
    cases h2 : s.claims.get (n, k) with
    | none =>
      simp only [getClaim, loadAirdrop, KV.load, h1, h2, bind, Except.bind, Except.error.injEq] at h
      exact h.symm
    | some x =>
      simp only [getClaim, loadAirdrop, KV.load, h1, h2, bind, Except.bind, reduceCtorEq] at h

/-- The label of Carol's airdrop. -/
example : Reachable Demo.crypto (run Demo.crypto initial dropHistory).1 ∧
    (getAirdrop (run Demo.crypto initial dropHistory).1 (.label "carol/gift")).map (fun r => (r.1, r.2.label)) =
      .ok (0, some "carol/gift") :=
  ⟨⟨_, rfl⟩, by decide +kernel⟩

/-- **C123 (`GetClaim`).** After any history `GetClaim` answers `x` for a number and a claim key exactly when an accepted
claim with this key was paid `x` by this airdrop; else it is refused as not found. -/
theorem C123_get_claim (c : Crypto) (calls : List Call) (n : Nat) (k : String) :
    (∀ x, getClaim (run c initial calls).1 (.id n) k = .ok x ↔ PaidOut c calls n k x) ∧
    ∀ e, getClaim (run c initial calls).1 (.id n) k = .error e ↔ e = .notFound ∧ ∀ x, ¬ PaidOut c calls n k x := by
  have ok : ∀ x, getClaim (run c initial calls).1 (.id n) k = .ok x ↔ PaidOut c calls n k x := by
    intro x
    simp only [getClaim, loadAirdrop, bind_eq_ok, KV.load_eq_ok, Except.ok.injEq]
    constructor
    · rintro ⟨_, ⟨_, rfl, _, h, rfl⟩, h'⟩
      exact (shown c calls).2 _ _ _ h'
    · intro h
      obtain ⟨⟨a, h1⟩, h2⟩ := paid_shown h
      exact ⟨_, ⟨_, rfl, _, h1, rfl⟩, h2⟩
  refine ⟨ok, fun e => ?_⟩
  constructor
  · intro h
    refine ⟨?_, fun x hx => ?_⟩
    · exact getClaim_error h
    · rw [(ok x).2 hx] at h
      cases h
  · rintro ⟨rfl, hno⟩
    cases hg : getClaim (run c initial calls).1 (.id n) k with
    | ok x => exact absurd ((ok x).1 hg) (hno x)
    | error e => rw [getClaim_error hg]

/-- Alice's claim of the examples; Bob's was refused. -/
example : PaidOut Demo.crypto dropHistory 0 "alice" 60 ∧
    getClaim (run Demo.crypto initial dropHistory).1 (.id 0) "alice" = .ok 60 ∧
    getClaim (run Demo.crypto initial dropHistory).1 (.id 0) "bob" = .error .notFound := by
  refine ⟨((C123_get_claim _ _ _ _).1 _).1 (by decide +kernel), by decide +kernel, by decide +kernel⟩

end Ibcx.Props
