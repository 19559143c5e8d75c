import Verif.Props.Airdrop
import Verif.Props.Merkle
/-!
# Does VerifyClaim predict Claim? (C41)
-/

namespace Ibcx.Props
open Ibcx Ibcx.Airdrop Ibcx.Spec

/-- The full claim: for a payload whose account is valid, that was not claimed before and for which enough is left,
`VerifyClaim` answers valid exactly when `Claim` is accepted. -/
def C41_full : Prop :=
  ∀ (c : Crypto) (s : State) (env : Env) (info : Info) (p : ClaimPayload), Reachable c s →
    env.validAddr (claimer info p) = true →
    (∀ n a, target s (claimDrop p) = some n → s.drops.get n = some a →
      s.claims.get (n, claimKey info p) = none ∧ a.totalClaimed + claimAmount p ≤ a.totalAmount ∧
      a.totalAmount < U128) →
    (verifyClaim c s p = .ok true ↔ ∃ out, execute c s env info (.claim p) = .ok out)

/-- **C41 (open airdrops, account given).** -/
theorem C41_open_partial {c : Crypto} {s : State} {env : Env} {info : Info} {id : DropId} {amount : Nat}
    {acc : String} {proof : List String} (hv : env.validAddr acc = true)
    (hfree : ∀ n a, target s id = some n → s.drops.get n = some a →
      s.claims.get (n, acc) = none ∧ a.totalClaimed + amount ≤ a.totalAmount ∧ a.totalAmount < U128) :
    verifyClaim c s (.openDrop id amount (some acc) proof) = .ok true ↔
      ∃ out, execute c s env info (.claim (.openDrop id amount (some acc) proof)) = .ok out := by
  constructor
  · intro h
    simp only [verifyClaim, bind_eq_ok, unwrapOpen_eq_ok] at h
    obtain ⟨⟨n, a⟩, h1, a', ⟨h2, rfl⟩, h3⟩ := h
    obtain ⟨ht, ha⟩ := loadAirdrop_eq_ok.1 h1
    obtain ⟨f1, f2, f3⟩ := hfree n _ ht ha
    split at h3
    · cases h3
    · rename_i hc
      split at h3
      · rename_i u hp
        refine ⟨_, execute_change.2 (.claim _ n _ ?_ ht ha (by simpa using hc) f1 ⟨h2, hp⟩
          (Nat.lt_of_le_of_lt f2 f3) f2)⟩
        intro x hx
        simp only [claimAccount, Option.some.injEq] at hx
        exact hx ▸ hv
      · cases h3
  · rintro ⟨⟨s', ms⟩, h⟩
    obtain ⟨n, a, h1, h2, h3, h4, h5, _⟩ := C39_open_claim h
    simp only [Option.getD_some] at h5
    simp only [verifyClaim, bind_eq_ok, unwrapOpen_eq_ok]
    refine ⟨(n, a), loadAirdrop_eq_ok.2 ⟨h1, h2⟩, a, ⟨h3, rfl⟩, ?_⟩
    rw [if_neg (by simpa using h4), h5]

/-- The case is not empty: alice's claim of the examples. -/
example : verifyClaim Demo.crypto (run Demo.crypto initial [Demo.reg, Demo.fund]).1
    (.openDrop (.id 0) 60 (some "alice") Demo.aliceProof) = .ok true := by
  decide +kernel

/-- **C41 (account omitted).** When the payload leaves the account out, `VerifyClaim` never answers valid, although
`Claim` pays the sender in that case. -/
theorem C41_omitted_account_never_valid_partial (c : Crypto) (s : State) (id : DropId) (amount : Nat) (hash sign : String)
    (proof : List String) :
    verifyClaim c s (.openDrop id amount none proof) ≠ .ok true ∧
    verifyClaim c s (.bearer id amount none hash sign proof) ≠ .ok true := by
  constructor
  · simp only [verifyClaim, ne_eq, bind_eq_ok, not_exists, not_and]
    intro x _ a _ h
    split at h <;> cases h
  · simp [verifyClaim]

/-- Alice's claim, once with and once without the account. -/
example : verifyClaim Demo.crypto (run Demo.crypto initial [Demo.reg, Demo.fund]).1
      (.openDrop (.id 0) 60 (some "alice") Demo.aliceProof) = .ok true ∧
    (verifyClaim Demo.crypto (run Demo.crypto initial [Demo.reg, Demo.fund]).1
      (.openDrop (.id 0) 60 none Demo.aliceProof)).toOption ≠ some true := by
  decide +kernel

/-- **C41 (bearer airdrops).** `VerifyClaim` checks the proof for the account; `Claim` checks it for the claim hash.
They agree when the two are the same text. -/
theorem C41_bearer_partial {c : Crypto} {s : State} {env : Env} {info : Info} {id : DropId} {amount : Nat}
    {acc : String} {sign : String} {proof : List String} (hv : env.validAddr acc = true)
    (hfree : ∀ n a, target s id = some n → s.drops.get n = some a →
      s.claims.get (n, acc) = none ∧ a.totalClaimed + amount ≤ a.totalAmount ∧ a.totalAmount < U128) :
    verifyClaim c s (.bearer id amount (some acc) acc sign proof) = .ok true ↔
      ∃ out, execute c s env info (.claim (.bearer id amount (some acc) acc sign proof)) = .ok out := by
  constructor
  · intro h
    simp only [verifyClaim, bind_eq_ok] at h
    obtain ⟨⟨n, a⟩, h1, ⟨a', pub⟩, h2, h3⟩ := h
    rw [unwrapBearer_eq_ok] at h2
    obtain ⟨⟨signer, h2⟩, rfl⟩ := h2
    obtain ⟨ht, ha⟩ := loadAirdrop_eq_ok.1 h1
    obtain ⟨f1, f2, f3⟩ := hfree n _ ht ha
    split at h3
    · cases h3
    · rename_i hc
      split at h3
      · cases h3
      · rename_i u hp
        simp only [bind_eq_ok, Except.ok.injEq] at h3
        obtain ⟨sig, h4, ok, h5, rfl⟩ := h3
        refine ⟨_, execute_change.2 (.claim _ n _ ?_ ht ha (by simpa using hc) f1
          ⟨signer, pub, sig, h2, hp, h4, h5⟩ (Nat.lt_of_le_of_lt f2 f3) f2)⟩
        intro x hx
        simp only [claimAccount, Option.some.injEq] at hx
        exact hx ▸ hv
  · rintro ⟨⟨s', ms⟩, h⟩
    obtain ⟨n, a, signer, pub, sig, h1, h2, h3, h4, h5, h6, h7, _⟩ := C39_bearer_claim h
    simp only [Option.getD_some] at h7
    simp only [verifyClaim, bind_eq_ok]
    refine ⟨(n, a), loadAirdrop_eq_ok.2 ⟨h1, h2⟩, (a, pub), unwrapBearer_eq_ok.2 ⟨⟨signer, h3⟩, rfl⟩, ?_⟩
    rw [if_neg (by simpa using h4), h5]
    simp only [bind_eq_ok]
    exact ⟨sig, h6, true, h7, rfl⟩

/-- A bearer claim whose claim hash is the account. -/
example : verifyClaim Demo.crypto (run Demo.crypto initial [Demo.regBearer]).1
      (.bearer (.id 0) 7 (some "salt") "salt"
        (Demo.toHex ((Demo.crypto.sha (utf8 "salt/salt/7")).bytes ++ [1, 2])) []) = .ok true ∧
    (execute Demo.crypto (run Demo.crypto initial [Demo.regBearer]).1 (Demo.env 15) ⟨"bob", []⟩
      (.claim (.bearer (.id 0) 7 (some "salt") "salt"
        (Demo.toHex ((Demo.crypto.sha (utf8 "salt/salt/7")).bytes ++ [1, 2])) []))).map (·.2) =
      .ok [.send "salt" [⟨"uosmo", 7⟩]] := by
  decide +kernel

/-- State with a bearer airdrop for the claim hash "salt". -/
def saltState : State := (run Demo.crypto initial [Demo.regBearer]).1

/-- Bob's claim on it, with the account written out. -/
def saltClaim : ClaimPayload := .bearer (.id 0) 7 (some "bob") "salt"
  (Demo.toHex ((Demo.crypto.sha (utf8 "salt/bob/7")).bytes ++ [1, 2])) []

/-- **C41 (false alarm).** A reachable state in which `Claim` pays bob although `VerifyClaim` answers invalid. -/
theorem C41_valid_bearer_claim_answered_invalid :
    Reachable Demo.crypto saltState ∧ verifyClaim Demo.crypto saltState saltClaim = .ok false ∧
    (execute Demo.crypto saltState (Demo.env 15) ⟨"bob", []⟩ (.claim saltClaim)).map (·.2) =
      .ok [.send "bob" [⟨"uosmo", 7⟩]] := by
  refine ⟨⟨_, rfl⟩, ?_⟩
  decide +kernel

/-- The airdrop of the witness. -/
example : (saltState.drops.get 0).map (fun a => (a.totalAmount, a.totalClaimed, a.closedAt)) = some (70, 0, none) := by
  decide +kernel

/-- **C41 (false promise).** A reachable state in which `VerifyClaim` answers valid for a claim that is rejected: the
claim hash "other" is not in the tree, the account "salt" is. -/
theorem C41_invalid_bearer_claim_answered_valid :
    let p : ClaimPayload := .bearer (.id 0) 7 (some "salt") "other"
      (Demo.toHex ((Demo.crypto.sha (utf8 "other/salt/7")).bytes ++ [1, 2])) []
    Reachable Demo.crypto saltState ∧ verifyClaim Demo.crypto saltState p = .ok true ∧
    execute Demo.crypto saltState (Demo.env 15) ⟨"bob", []⟩ (.claim p) = .error .invalidProof := by
  refine ⟨⟨_, rfl⟩, ?_⟩
  decide +kernel

/-- Its leaf is the claim hash "salt" with the amount 7. -/
example : (saltState.drops.get 0).map (·.merkleRoot) = some (Demo.toHex (Demo.leaf "salt" 7).bytes) := by
  decide +kernel

/-- **C41 refuted.** The full claim is false for the code. -/
theorem C41_full_false : ¬ C41_full := by
  intro h
  obtain ⟨hr, hv, hx⟩ := C41_valid_bearer_claim_answered_invalid
  have h1 := h Demo.crypto saltState (Demo.env 15) ⟨"bob", []⟩ saltClaim hr (by decide +kernel) (by
    intro n a ht ha
    cases ht
    have e : saltState.drops.get 0 = some
        { kind := .bearer "osmo1signer" [1, 2], creator := "carol", denom := "uosmo", totalAmount := 70
          totalClaimed := 0, merkleRoot := Demo.toHex (Demo.leaf "salt" 7).bytes, label := none, createdAt := 14
          closedAt := none } := by decide +kernel
    rw [e] at ha
    cases ha
    refine ⟨by decide +kernel, by decide, by decide +kernel⟩)
  rw [hv] at h1
  have h2 : ∃ out, execute Demo.crypto saltState (Demo.env 15) ⟨"bob", []⟩ (.claim saltClaim) = .ok out := by
    cases he : execute Demo.crypto saltState (Demo.env 15) ⟨"bob", []⟩ (.claim saltClaim) with
    | ok o => exact ⟨o, rfl⟩
    | error e => rw [he] at hx; cases hx
  have := h1.2 h2
  cases this

end Ibcx.Props
