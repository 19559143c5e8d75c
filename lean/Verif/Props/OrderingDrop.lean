import Verif.Props.Airdrop
/-!
# C115 for the airdrop contract: a valid claim stays valid
-/

namespace Ibcx.Props
open Ibcx Ibcx.Airdrop Ibcx.Spec

/-- **C115 (claim).** A claim that is accepted now is accepted, with the same payment, after whatever anyone sends in between,
unless its key was paid meanwhile, the airdrop was closed, or the funds left no longer suffice.  (The total of an airdrop is a
128-bit number.) -/
theorem C115_claim {c : Crypto} {s : State} (hr : Reachable c s) {env env' : Env} {info : Info} {p : ClaimPayload} {s1 : State}
    {ms : List Msg} (hv : env'.validAddr = env.validAddr) (h : execute c s env info (.claim p) = .ok (s1, ms)) (calls : List Call) :
    ∃ n a, target (run c s calls).1 (claimDrop p) = some n ∧ (run c s calls).1.drops.get n = some a ∧
      (a.closedAt = none → (run c s calls).1.claims.get (n, claimKey info p) = none →
        a.totalClaimed + claimAmount p ≤ a.totalAmount → a.totalAmount < 2 ^ 128 →
        ∃ s2, execute c (run c s calls).1 env' info (.claim p) = .ok (s2, ms)) := by
  have hg := grows_run (c := c) hr.inv calls
  cases execute_change.1 h with
  | claim p n a hva ht ha ho hk hp max hle =>
    obtain ⟨a', k0, k1, _, k3, k4, _⟩ := hg.drops n a ha
    have ht' : target (run c s calls).1 (claimDrop p) = some n := by
      cases hd : claimDrop p with
      | id m => rw [hd] at ht; exact ht
      | label l => rw [hd] at ht; exact hg.labels _ _ ht
    refine ⟨n, a', ht', k0, fun h1 h2 h3 h4 => ?_⟩
    have hp' : Proven c info a' p := by
      cases p with
      | openDrop id amount acc proof =>
        unfold Proven at hp ⊢
        rw [k1, k4]
        exact hp
      | bearer id amount acc hash sign proof =>
        unfold Proven at hp ⊢
        rw [k1, k4]
        exact hp
    have := Change.claim (c := c) (env := env') p n a' (by rw [hv]; exact hva) ht' k0 h1 h2 hp' (lt_of_le_of_lt h3 h4) h3
    rw [k3] at this
    exact ⟨_, execute_change.2 this⟩

/-- Bob could claim 40 right after the funding; then alice's 60 are paid and carol adds 20 more: Bob is still paid 40.  Without
the addition the rest would not suffice. -/
example : Reachable Demo.crypto (run Demo.crypto initial [Demo.reg, Demo.fund]).1 ∧
    (execute Demo.crypto (run Demo.crypto initial [Demo.reg, Demo.fund]).1 Demo.claimBob.env Demo.claimBob.info Demo.claimBob.msg).map
      (·.2) = .ok [.send "bob" [⟨"uosmo", 40⟩]] ∧
    (execute Demo.crypto (run Demo.crypto initial [Demo.reg, Demo.fund, Demo.claimAlice, ⟨Demo.env 12, ⟨"carol", [⟨"uosmo", 20⟩]⟩,
      .fund (.id 0)⟩]).1 Demo.claimBob.env Demo.claimBob.info Demo.claimBob.msg).map (·.2) = .ok [.send "bob" [⟨"uosmo", 40⟩]] ∧
    (execute Demo.crypto (run Demo.crypto initial [Demo.reg, Demo.fund, Demo.claimAlice]).1 Demo.claimBob.env Demo.claimBob.info
      Demo.claimBob.msg).map (·.2) = .error .insufficientAirdropFunds :=
  ⟨⟨[Demo.reg, Demo.fund], rfl⟩, by decide +kernel, by decide +kernel, by decide +kernel⟩

end Ibcx.Props
