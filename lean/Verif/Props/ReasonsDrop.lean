import Verif.Core.ErrorLemmas
import Verif.Props.AcceptDrop
/-!
# C113: every refusal names a true reason (airdrop contract)
-/

namespace Ibcx.Props
open Ibcx Ibcx.Airdrop Ibcx.Spec Ibcx.Spec.Drop

private theorem hex_error {t : String} {e : Err} (h : hexDecode t = .error e) : e = .hex ∧ NotHex t := by
  constructor
  · unfold hexDecode at h
    split at h <;> simp_all
  · rintro ⟨bs, hb⟩
    rw [hexDecode_iff.2 hb] at h
    cases h

private theorem hash_error {t : String} {e : Err} (h : hexDecode32 t = .error e) : e = .hex ∧ NotHash t := by
  constructor
  · unfold hexDecode32 at h
    split at h
    · split at h <;> simp_all
    · rename_i e' h1
      simp only [Except.error.injEq] at h
      subst h
      exact (hex_error h1).1
  · rintro ⟨bs, hb⟩
    rw [hexDecode32_iff.2 hb] at h
    cases h

private theorem fold_error {c : Crypto} {h0 : Hash32} {ps : List String} {e : Err} (h : foldProof c h0 ps = .error e) :
    e = .hex ∧ ∃ t ∈ ps, NotHash t := by
  induction ps generalizing h0 with
  | nil => cases h
  | cons p ps ih =>
    unfold foldProof at h
    rw [bind_eq_error] at h
    rcases h with h | ⟨_, _, h⟩
    · exact ⟨(hash_error h).1, p, by simp, (hash_error h).2⟩
    · obtain ⟨h1, t, h2, h3⟩ := ih h
      exact ⟨h1, t, by simp [h2], h3⟩

private theorem load_eq {s : State} {id : DropId} {n : Nat} {a : Drop} (h : loadAirdrop s id = .ok (n, a)) :
    At s id n a := loadAirdrop_eq_ok.1 h

private theorem loadDrop_error {s : State} {id : DropId} {e : Err} (h : loadAirdrop s id = .error e) :
    e = .notFound ∧ ¬ ∃ n a, At s id n a := by
  constructor
  · unfold loadAirdrop at h
    cases id with
    | id n =>
      simp only at h
      rw [bind_eq_error] at h
      rcases h with h | ⟨_, _, h⟩
      · cases h
      rw [bind_eq_error] at h
      rcases h with h | ⟨_, _, h⟩
      · exact (Core.load_error h).1
      · cases h
    | label l =>
      simp only at h
      rw [bind_eq_error] at h
      rcases h with h | ⟨_, _, h⟩
      · exact (Core.load_error h).1
      rw [bind_eq_error] at h
      rcases h with h | ⟨_, _, h⟩
      · exact (Core.load_error h).1
      · cases h
  · rintro ⟨n, a, h1⟩
    rw [loadAirdrop_eq_ok.2 h1] at h
    cases h

/-- The root of every registered airdrop is the hex of 32 bytes. -/
private theorem root_hex {c : Crypto} {s : State} (hr : Reachable c s) {n : Nat} {a : Drop}
    (ha : s.drops.get n = some a) : ∃ h, hexDecode32 a.merkleRoot = .ok h := by
  obtain ⟨calls, rfl⟩ := hr
  suffices H : ∀ (s : State), (∀ n a, s.drops.get n = some a → ∃ h, hexDecode32 a.merkleRoot = .ok h) →
      ∀ n a, (run c s calls).1.drops.get n = some a → ∃ h, hexDecode32 a.merkleRoot = .ok h from
    H initial (by simp [initial]) n a ha
  clear ha
  induction calls with
  | nil => exact fun s h => h
  | cons call calls ih =>
    intro s hs
    refine ih (step c s call).1 ?_
    rcases step_cases c s call with ⟨e, _⟩ | ⟨s', ms, e, _, h⟩
    · rw [e]; exact hs
    · rw [e]
      obtain ⟨env, info, msg⟩ := call
      simp only at h
      intro m b
      have upd : ∀ {k : Nat} {x y : Drop}, s.drops.get k = some x → y.merkleRoot = x.merkleRoot →
          (s.drops.set k y).get m = some b → ∃ h, hexDecode32 b.merkleRoot = .ok h := by
        intro k x y hx hy hb
        rw [KV.get_set] at hb
        split at hb
        · cases hb
          rw [hy]
          exact hs k x hx
        · exact hs m b hb
      cases h with
      | register p d new _ _ =>
        simp only [KV.get_set]
        split
        · rintro ⟨⟩
          exact new.root
        · exact hs m b
      | fund id k d x _ hd => exact upd hd rfl
      | claim p k d _ _ hd => exact upd hd rfl
      | close id k d _ hd => exact upd hd rfl

private theorem label_error {labels : KV String Nat} {id : Nat} {l : Option String} {e : Err}
    (h : saveLabel labels id l = .error e) : e = .alreadyExists ∧ ∃ x, l = some x ∧ labels.get x ≠ none := by
  cases l with
  | none => cases h
  | some x =>
    simp only [saveLabel] at h
    rw [bind_eq_error] at h
    rcases h with h | ⟨_, _, h⟩
    · obtain ⟨h1, h2⟩ := require_eq_error.1 h
      exact ⟨h2, x, rfl, h1⟩
    · cases h

private theorem add64_fails {a b : Nat} {e : Err} (h : add64 a b = .error e) : e = .overflow ∧ 2 ^ 64 ≤ a + b := by
  unfold add64 at h
  split at h
  · cases h
  · rename_i h1
    simp only [Except.error.injEq] at h
    exact ⟨h.symm, by omega⟩

private theorem add_fails {a b : Nat} {e : Err} (h : add a b = .error e) : e = .overflow ∧ 2 ^ 128 ≤ a + b := by
  unfold add chk at h
  split at h
  · cases h
  · rename_i h1
    simp only [Except.error.injEq] at h
    exact ⟨h.symm, Nat.le_of_not_lt h1⟩

private theorem open_reason {c : Crypto} {s : State} {env : Env} {info : Info} {root : String} {denom : Denom}
    {label : Option String} {e : Err} (h : registerOpen s env info root denom label = .error e) :
    Drop.Reason c s env info (.register (.openDrop root denom label)) e := by
  simp only [registerOpen] at h
  rw [bind_eq_error] at h
  rcases h with h | ⟨_, _, h⟩
  · replace h := hash_error h; obtain ⟨rfl, h⟩ := h
    exact h
  rw [bind_eq_error] at h
  rcases h with h | ⟨_, _, h⟩
  · replace h := mustPay_error h; obtain ⟨rfl, h⟩ := h
    exact .inl ⟨_, rfl, h⟩
  rw [bind_eq_error] at h
  rcases h with h | ⟨_, _, h⟩
  · obtain ⟨rfl, x, h1, h2⟩ := label_error h
    obtain ⟨l, rfl, rfl⟩ := Option.map_eq_some_iff.1 h1
    exact ⟨_, l, rfl, rfl, h2⟩
  rw [bind_eq_error] at h
  rcases h with h | ⟨_, _, h⟩
  · obtain ⟨rfl, h1⟩ := add64_fails h
    exact .inl ⟨_, rfl, h1⟩
  cases h

private theorem bearer_reason {c : Crypto} (hv : Verifies c) {s : State} {env : Env} {info : Info} {root : String}
    {denom : Denom} {label : Option String} {pub sig : String} {e : Err}
    (h : registerBearer c s env info root denom label pub sig = .error e) :
    Drop.Reason c s env info (.register (.bearer root denom pub sig label)) e := by
  simp only [registerBearer] at h
  rw [bind_eq_error] at h
  rcases h with h | ⟨_, _, h⟩
  · replace h := hash_error h; obtain ⟨rfl, h⟩ := h
    exact .inl h
  rw [bind_eq_error] at h
  rcases h with h | ⟨key, hk, h⟩
  · replace h := hex_error h; obtain ⟨rfl, h⟩ := h
    exact .inr (.inl h)
  rw [bind_eq_error] at h
  rcases h with h | ⟨sg, hs, h⟩
  · replace h := hex_error h; obtain ⟨rfl, h⟩ := h
    exact .inr (.inr h)
  have hsig : Signature c s info key sg (c.addrOf key) (.register (.bearer root denom pub sig label)) :=
    ⟨hexDecode_iff.1 hk, hexDecode_iff.1 hs, rfl⟩
  rw [bind_eq_error] at h
  rcases h with h | ⟨ok, hok, h⟩
  · obtain rfl := hv _ _ _ _ h
    exact ⟨key, sg, _, _, hsig, h⟩
  rw [bind_eq_error] at h
  rcases h with h | ⟨_, _, h⟩
  · obtain ⟨h1, rfl⟩ := require_eq_error.1 h
    obtain rfl : ok = false := by simpa using h1
    exact ⟨key, sg, _, hsig, hok⟩
  rw [bind_eq_error] at h
  rcases h with h | ⟨_, _, h⟩
  · replace h := mustPay_error h; obtain ⟨rfl, h⟩ := h
    exact .inl ⟨_, rfl, h⟩
  rw [bind_eq_error] at h
  rcases h with h | ⟨_, _, h⟩
  · replace h := validate_error h; obtain ⟨rfl, h⟩ := h
    exact .inr ⟨_, key, sg, _, rfl, hsig, h⟩
  rw [bind_eq_error] at h
  rcases h with h | ⟨_, _, h⟩
  · obtain ⟨rfl, x, h1, h2⟩ := label_error h
    obtain ⟨l, rfl, rfl⟩ := Option.map_eq_some_iff.1 h1
    exact ⟨_, l, rfl, rfl, h2⟩
  rw [bind_eq_error] at h
  rcases h with h | ⟨_, _, h⟩
  · obtain ⟨rfl, h1⟩ := add64_fails h
    exact .inl ⟨_, rfl, h1⟩
  cases h

private theorem fund_reason {c : Crypto} {s : State} {env : Env} {info : Info} {id : DropId} {e : Err}
    (h : Airdrop.fund s info id = .error e) : Drop.Reason c s env info (.fund id) e := by
  unfold Airdrop.fund at h
  rw [bind_eq_error] at h
  rcases h with h | ⟨⟨n, a⟩, hl, h⟩
  · replace h := loadDrop_error h; obtain ⟨rfl, h⟩ := h
    exact ⟨id, rfl, h⟩
  have hat := load_eq hl
  replace h : fundOpen s info n a = .error e := by
    simp only at h
    split at h <;> exact h
  unfold fundOpen at h
  rw [bind_eq_error] at h
  rcases h with h | ⟨_, _, h⟩
  · obtain ⟨h1, rfl⟩ := require_eq_error.1 h
    exact ⟨id, n, a, .inl rfl, hat, h1⟩
  rw [bind_eq_error] at h
  rcases h with h | ⟨_, _, h⟩
  · obtain ⟨h1, rfl⟩ := require_eq_error.1 h
    exact ⟨id, n, a, rfl, hat, h1⟩
  rw [bind_eq_error] at h
  rcases h with h | ⟨x, hx, h⟩
  · replace h := mustPay_error h; obtain ⟨rfl, h⟩ := h
    exact .inr ⟨id, n, a, rfl, hat, h⟩
  rw [bind_eq_error] at h
  rcases h with h | ⟨_, _, h⟩
  · obtain ⟨rfl, h1⟩ := add_fails h
    exact .inr (.inl ⟨id, n, a, x, rfl, hat, (mustPay_eq_ok.1 hx).1, h1⟩)
  cases h

private theorem close_reason {c : Crypto} {s : State} (hi : Inv s) {env : Env} {info : Info} {id : DropId} {e : Err}
    (h : Airdrop.close s env info id = .error e) : Drop.Reason c s env info (.close id) e := by
  unfold Airdrop.close at h
  rw [bind_eq_error] at h
  rcases h with h | ⟨⟨n, a⟩, hl, h⟩
  · replace h := loadDrop_error h; obtain ⟨rfl, h⟩ := h
    exact ⟨id, rfl, h⟩
  have hat := load_eq hl
  replace h : closeOpen s env info n a = .error e := by
    simp only at h
    split at h <;> exact h
  unfold closeOpen at h
  rw [bind_eq_error] at h
  rcases h with h | ⟨_, _, h⟩
  · obtain ⟨h1, rfl⟩ := require_eq_error.1 h
    exact ⟨id, n, a, .inr rfl, hat, h1⟩
  rw [bind_eq_error] at h
  rcases h with h | ⟨_, _, h⟩
  · obtain ⟨h1, rfl⟩ := require_eq_error.1 h
    exact ⟨id, n, a, rfl, hat, h1⟩
  rw [show sub a.totalAmount a.totalClaimed = .ok (a.totalAmount - a.totalClaimed) from
    sub_eq_ok.2 ⟨hi.claimedLe n a hat.2, rfl⟩] at h
  cases h

private theorem proof_error {c : Crypto} {s : State} (hr : Reachable c s) {n : Nat} {a : Drop}
    (ha : s.drops.get n = some a) {proof : List String} {who : String} {amount : Nat} {e : Err}
    (h : verifyMerkleProof c a.merkleRoot proof who amount = .error e) :
    (e = .hex ∧ ∃ t ∈ proof, NotHash t) ∨ (e = .invalidProof ∧ ¬ ProofHolds c a.merkleRoot proof who amount) := by
  have hn : ¬ ProofHolds c a.merkleRoot proof who amount := by
    intro h'
    rw [proofHolds_iff.2 h'] at h
    cases h
  simp only [verifyMerkleProof] at h
  rw [bind_eq_error] at h
  rcases h with h | ⟨_, _, h⟩
  · exact .inl (fold_error h)
  rw [bind_eq_error] at h
  rcases h with h | ⟨_, _, h⟩
  · obtain ⟨x, hx⟩ := root_hex hr ha
    rw [hx] at h
    cases h
  · exact .inr ⟨(require_eq_error.1 h).2, hn⟩

private theorem claimOpen_reason {c : Crypto} {s : State} (hr : Reachable c s) {env : Env} {info : Info} {id : DropId}
    {amount : Nat} {account : Option String} {proof : List String} {e : Err}
    (h : claimOpen c s id amount (account.getD info.sender) proof = .error e) :
    Drop.Reason c s env info (.claim (.openDrop id amount account proof)) e := by
  unfold claimOpen at h
  rw [bind_eq_error] at h
  rcases h with h | ⟨⟨n, a⟩, hl, h⟩
  · replace h := loadDrop_error h; obtain ⟨rfl, h⟩ := h
    exact ⟨id, rfl, h⟩
  have hat := load_eq hl
  simp only at h
  rw [bind_eq_error] at h
  rcases h with h | ⟨b, hb, h⟩
  · unfold Drop.unwrapOpen at h
    split at h
    · cases h
    · rename_i x y hk
      cases h
      exact ⟨_, n, a, rfl, hat, by rw [OtherKind, hk]; simp⟩
  obtain ⟨hk, rfl⟩ := unwrapOpen_eq_ok.1 hb
  rw [bind_eq_error] at h
  rcases h with h | ⟨_, _, h⟩
  · obtain ⟨h1, rfl⟩ := require_eq_error.1 h
    exact ⟨id, n, _, rfl, hat, h1⟩
  rw [bind_eq_error] at h
  rcases h with h | ⟨_, _, h⟩
  · obtain ⟨h1, rfl⟩ := require_eq_error.1 h
    exact ⟨_, n, _, rfl, hat, h1⟩
  rw [bind_eq_error] at h
  rcases h with h | ⟨_, _, h⟩
  · rcases proof_error hr hat.2 h with ⟨rfl, h1⟩ | ⟨rfl, h1⟩
    · exact h1
    · exact ⟨_, n, _, rfl, hat, h1⟩
  rw [bind_eq_error] at h
  rcases h with h | ⟨x, hx, h⟩
  · obtain ⟨rfl, h1⟩ := add_fails h
    exact .inr (.inr ⟨_, n, _, rfl, hat, h1⟩)
  rw [bind_eq_error] at h
  rcases h with h | ⟨_, _, h⟩
  · obtain ⟨h1, rfl⟩ := require_eq_error.1 h
    rw [(add_eq_ok.1 hx).2] at h1
    exact ⟨_, n, _, rfl, hat, by simpa [claimAmount] using h1⟩
  cases h

private theorem claimBearer_reason {c : Crypto} (hv : Verifies c) {s : State} (hr : Reachable c s) {env : Env}
    {info : Info} {id : DropId} {amount : Nat} {account : Option String} {hash sign : String} {proof : List String}
    {e : Err} (h : claimBearer c s id amount (account.getD info.sender) hash sign proof = .error e) :
    Drop.Reason c s env info (.claim (.bearer id amount account hash sign proof)) e := by
  unfold claimBearer at h
  rw [bind_eq_error] at h
  rcases h with h | ⟨⟨n, a⟩, hl, h⟩
  · replace h := loadDrop_error h; obtain ⟨rfl, h⟩ := h
    exact ⟨id, rfl, h⟩
  have hat := load_eq hl
  simp only at h
  rw [bind_eq_error] at h
  rcases h with h | ⟨⟨b, key⟩, hb, h⟩
  · unfold Drop.unwrapBearer at h
    split at h
    · cases h
    · rename_i hk
      cases h
      exact ⟨_, n, a, rfl, hat, hk⟩
  obtain ⟨⟨signer, hk⟩, rfl⟩ := unwrapBearer_eq_ok.1 hb
  simp only at h
  rw [bind_eq_error] at h
  rcases h with h | ⟨_, _, h⟩
  · obtain ⟨h1, rfl⟩ := require_eq_error.1 h
    exact ⟨id, n, _, rfl, hat, h1⟩
  rw [bind_eq_error] at h
  rcases h with h | ⟨_, _, h⟩
  · obtain ⟨h1, rfl⟩ := require_eq_error.1 h
    exact ⟨_, n, _, rfl, hat, h1⟩
  rw [bind_eq_error] at h
  rcases h with h | ⟨_, _, h⟩
  · rcases proof_error hr hat.2 h with ⟨rfl, h1⟩ | ⟨rfl, h1⟩
    · exact .inl h1
    · exact ⟨_, n, _, rfl, hat, h1⟩
  rw [bind_eq_error] at h
  rcases h with h | ⟨sg, hs, h⟩
  · replace h := hex_error h; obtain ⟨rfl, h⟩ := h
    exact .inr h
  have hsig : Signature c s info key sg (hash ++ "/" ++ account.getD info.sender ++ "/" ++ toString amount)
      (.claim (.bearer id amount account hash sign proof)) := ⟨n, _, signer, hat, hk, hexDecode_iff.1 hs, rfl⟩
  rw [bind_eq_error] at h
  rcases h with h | ⟨ok, hok, h⟩
  · obtain rfl := hv _ _ _ _ h
    exact ⟨key, sg, _, _, hsig, h⟩
  rw [bind_eq_error] at h
  rcases h with h | ⟨_, _, h⟩
  · obtain ⟨h1, rfl⟩ := require_eq_error.1 h
    obtain rfl : ok = false := by simpa using h1
    exact ⟨key, sg, _, hsig, hok⟩
  rw [bind_eq_error] at h
  rcases h with h | ⟨x, hx, h⟩
  · obtain ⟨rfl, h1⟩ := add_fails h
    exact .inr (.inr ⟨_, n, _, rfl, hat, h1⟩)
  rw [bind_eq_error] at h
  rcases h with h | ⟨_, _, h⟩
  · obtain ⟨h1, rfl⟩ := require_eq_error.1 h
    rw [(add_eq_ok.1 hx).2] at h1
    exact ⟨_, n, _, rfl, hat, by simpa [claimAmount] using h1⟩
  cases h

/-- How a message of the examples is refused after earlier ones. -/
def dropRefusal (before : List Call) (call : Call) : Option Err :=
  match execute Demo.crypto (run Demo.crypto initial before).1 call.env call.info call.msg with
  | .ok _ => none
  | .error e => some e

/-- **C113 (3).** Whenever the airdrop contract refuses a message, the kind of the error is a true statement about the
stored state, the sender, the attached coins and the message; no other kinds of errors occur. -/
theorem C113_airdrop_reason {c : Crypto} {s : State} {env : Env} {info : Info} {msg : ExecMsg} {e : Err}
    (hr : Reachable c s) (hv : Verifies c) (h : execute c s env info msg = .error e) :
    Drop.Reason c s env info msg e := by
  cases msg with
  | register p =>
    cases p with
    | openDrop => exact open_reason h
    | bearer => exact bearer_reason hv h
  | fund id => exact fund_reason h
  | close id => exact close_reason hr.inv h
  | claim p =>
    cases p with
    | openDrop id amount account proof =>
      simp only [execute, claim] at h
      rw [bind_eq_error] at h
      rcases h with h | ⟨x, hx, h⟩
      · obtain ⟨rfl, y, h1, h2⟩ := unwrapAddr_error h
        exact .inl ⟨_, y, rfl, h1, h2⟩
      · obtain ⟨_, rfl⟩ := unwrapAddr_eq_ok.1 hx
        exact claimOpen_reason hr h
    | bearer id amount account hash sign proof =>
      simp only [execute, claim] at h
      rw [bind_eq_error] at h
      rcases h with h | ⟨x, hx, h⟩
      · obtain ⟨rfl, y, h1, h2⟩ := unwrapAddr_error h
        exact .inl ⟨_, y, rfl, h1, h2⟩
      · obtain ⟨_, rfl⟩ := unwrapAddr_eq_ok.1 hx
        exact claimBearer_reason hv hr h

-- Refusals of a registration: a short root, no coin, a label that is taken.  Refusals of a claim: before the airdrop is
-- there, bob's proof for alice, more than is left, twice, after the end.
example : (∀ calls, Reachable Demo.crypto (run Demo.crypto initial calls).1) ∧ Verifies Demo.crypto ∧
    dropRefusal [] { Demo.reg with msg := .register (.openDrop "00ff" "uosmo" none) } = some .hex ∧
    dropRefusal [] { Demo.reg with info := ⟨"carol", []⟩ } = some .payment ∧
    dropRefusal [Demo.reg] Demo.reg = some .alreadyExists ∧
    dropRefusal [] Demo.claimAlice = some .notFound ∧
    dropRefusal [Demo.reg, Demo.fund]
      { Demo.claimAlice with msg := .claim (.openDrop (.id 0) 60 (some "alice") Demo.bobProof) } = some .invalidProof ∧
    dropRefusal [Demo.reg] Demo.claimAlice = some .insufficientAirdropFunds ∧
    dropRefusal [Demo.reg, Demo.fund, Demo.claimAlice] Demo.claimAlice = some .alreadyClaimed ∧
    dropRefusal [Demo.reg, Demo.close] Demo.claimAlice = some .closed := by
  refine ⟨fun calls => ⟨calls, rfl⟩, ?_, ?_⟩
  · intro d sig key e h
    simp [Demo.crypto] at h
  · decide +kernel

private theorem load_of {s : State} {id : DropId} {n : Nat} {a : Drop} (h : At s id n a) :
    loadAirdrop s id = .ok (n, a) := loadAirdrop_eq_ok.2 h

private theorem load_none {s : State} {id : DropId} (h : ¬ ∃ n a, At s id n a) :
    loadAirdrop s id = .error .notFound := by
  cases hl : loadAirdrop s id with
  | ok x => exact absurd ⟨x.1, x.2, load_eq hl⟩ h
  | error e => rw [(loadDrop_error hl).1]

/-- **C113 (4).** The other way round: a message about an airdrop that does not exist is answered as such; for an
existing one a stranger who funds or closes it, and anyone who funds, closes or claims from it after it was closed,
claims with the payload of the other kind, claims a second time, with a proof that does not hold, or more than is
left, is told exactly that (the first of these that applies). -/
theorem C113_airdrop_named {c : Crypto} {s : State} {env : Env} {info : Info} (hr : Reachable c s) :
    (∀ msg id, About msg = some id → (∀ p x, msg = .claim p → accountOf p = some x → env.validAddr x = true) →
      (¬ ∃ n a, At s id n a) → execute c s env info msg = .error .notFound) ∧
    (∀ msg id n a, (msg = .fund id ∨ msg = .close id) → At s id n a →
      (a.creator ≠ info.sender → execute c s env info msg = .error .unauthorized) ∧
      (a.creator = info.sender → a.closedAt ≠ none → execute c s env info msg = .error .closed)) ∧
    (∀ p n a, (∀ x, accountOf p = some x → env.validAddr x = true) → At s (claimDrop p) n a →
      (OtherKind a p → execute c s env info (.claim p) = .error .wrongType) ∧
      (¬ OtherKind a p →
        (a.closedAt ≠ none → execute c s env info (.claim p) = .error .closed) ∧
        (a.closedAt = none →
          (s.claims.get (n, claimKey info p) ≠ none → execute c s env info (.claim p) = .error .alreadyClaimed) ∧
          (s.claims.get (n, claimKey info p) = none →
            ((∀ t ∈ proofOf p, ¬ NotHash t) →
              ¬ ProofHolds c a.merkleRoot (proofOf p) (claimKey info p) (claimAmount p) →
              execute c s env info (.claim p) = .error .invalidProof) ∧
            (ProofHolds c a.merkleRoot (proofOf p) (claimKey info p) (claimAmount p) →
              a.kind = .openAirdrop → a.totalAmount < a.totalClaimed + claimAmount p →
              a.totalClaimed + claimAmount p < 2 ^ 128 →
              execute c s env info (.claim p) = .error .insufficientAirdropFunds))))) := by
  refine ⟨?_, ?_, ?_⟩
  · intro msg id hid hacc hn
    have hl := load_none hn
    cases msg with
    | register => cases hid
    | fund => cases hid; simp only [execute, Airdrop.fund, hl]; rfl
    | close => cases hid; simp only [execute, Airdrop.close, hl]; rfl
    | claim p =>
      cases p with
      | openDrop i amount account proof =>
        cases hid
        have hu : unwrapAddr env account info.sender = .ok (account.getD info.sender) :=
          unwrapAddr_eq_ok.2 ⟨fun x hx => hacc _ x rfl hx, rfl⟩
        have hl : loadAirdrop s i = .error .notFound := hl
        simp only [execute, claim, hu, claimOpen, hl, ok_bind]
        rfl
      | bearer i amount account hash sign proof =>
        cases hid
        have hu : unwrapAddr env account info.sender = .ok (account.getD info.sender) :=
          unwrapAddr_eq_ok.2 ⟨fun x hx => hacc _ x rfl hx, rfl⟩
        have hl : loadAirdrop s i = .error .notFound := hl
        simp only [execute, claim, hu, claimBearer, hl, ok_bind]
        rfl
  · rintro msg id n a (rfl | rfl) hat
    · have hl := load_of hat
      refine ⟨fun h => ?_, fun h h' => ?_⟩
      · have h : require (a.creator = info.sender) Err.unauthorized = .error .unauthorized := require_eq_error.2 ⟨h, rfl⟩
        simp only [execute, Airdrop.fund, hl, ok_bind, fundOpen, fundBearer, h]
        split <;> rfl
      · have h : require (a.creator = info.sender) Err.unauthorized = .ok () := require_eq_ok.2 h
        have h' : require (a.closedAt = none) Err.closed = .error .closed := require_eq_error.2 ⟨h', rfl⟩
        simp only [execute, Airdrop.fund, hl, ok_bind, fundOpen, fundBearer, h, h']
        split <;> rfl
    · have hl := load_of hat
      refine ⟨fun h => ?_, fun h h' => ?_⟩
      · have h : require (a.creator = info.sender) Err.unauthorized = .error .unauthorized := require_eq_error.2 ⟨h, rfl⟩
        simp only [execute, Airdrop.close, hl, ok_bind, closeOpen, closeBearer, h]
        split <;> rfl
      · have h : require (a.creator = info.sender) Err.unauthorized = .ok () := require_eq_ok.2 h
        have h' : require (a.closedAt = none) Err.closed = .error .closed := require_eq_error.2 ⟨h', rfl⟩
        simp only [execute, Airdrop.close, hl, ok_bind, closeOpen, closeBearer, h, h']
        split <;> rfl
  · have bad : ∀ {n a proof who amount}, s.drops.get n = some a → (∀ t ∈ proof, ¬ NotHash t) →
        ¬ ProofHolds c a.merkleRoot proof who amount →
        verifyMerkleProof c a.merkleRoot proof who amount = .error .invalidProof := by
      intro n a proof who amount ha hx hp
      cases h : verifyMerkleProof c a.merkleRoot proof who amount with
      | ok u => exact absurd (proofHolds_iff.1 h) hp
      | error e =>
        rcases proof_error hr ha h with ⟨_, t, h1, h2⟩ | ⟨rfl, _⟩
        · exact absurd h2 (hx t h1)
        · rfl
    intro p n a hacc hat
    have hl := load_of hat
    cases p with
    | openDrop i amount account proof =>
      have hl : loadAirdrop s i = .ok (n, a) := hl
      have hu : unwrapAddr env account info.sender = .ok (account.getD info.sender) := unwrapAddr_eq_ok.2 ⟨hacc, rfl⟩
      simp only [execute, claim, hu, claimOpen, hl, ok_bind]
      refine ⟨fun hk => ?_, fun hk => ?_⟩
      · have : a.unwrapOpen = .error .wrongType := by
          unfold Drop.unwrapOpen
          split
          · rename_i h; exact absurd h hk
          · rfl
        rw [this]; rfl
      have hk : a.kind = .openAirdrop := by simpa [OtherKind] using hk
      have : a.unwrapOpen = .ok a := unwrapOpen_eq_ok.2 ⟨hk, rfl⟩
      simp only [this, ok_bind]
      refine ⟨fun ho => ?_, fun ho => ?_⟩
      · rw [show require (a.closedAt = none) Err.closed = .error .closed from require_eq_error.2 ⟨ho, rfl⟩]; rfl
      rw [show require (a.closedAt = none) Err.closed = .ok () from require_eq_ok.2 ho]
      simp only [ok_bind, claimKey, proofOf, claimAmount]
      refine ⟨fun hc => ?_, fun hc => ⟨fun hx hp => ?_, fun hp _ hlt hmax => ?_⟩⟩
      · rw [show assertNotClaimed s n (account.getD info.sender) = .error .alreadyClaimed from
          require_eq_error.2 ⟨hc, rfl⟩]; rfl
      · rw [show assertNotClaimed s n (account.getD info.sender) = .ok () from require_eq_ok.2 hc, bad hat.2 hx hp]; rfl
      · rw [show assertNotClaimed s n (account.getD info.sender) = .ok () from require_eq_ok.2 hc,
          proofHolds_iff.2 hp]
        simp only [ok_bind]
        rw [show add a.totalClaimed amount = .ok (a.totalClaimed + amount) from add_eq_ok.2 ⟨hmax, rfl⟩]
        simp only [ok_bind]
        rw [show require (¬ a.totalAmount < a.totalClaimed + amount) Err.insufficientAirdropFunds =
          .error .insufficientAirdropFunds from require_eq_error.2 ⟨not_not.2 hlt, rfl⟩]
        rfl
    | bearer i amount account hash sign proof =>
      have hl : loadAirdrop s i = .ok (n, a) := hl
      have hu : unwrapAddr env account info.sender = .ok (account.getD info.sender) := unwrapAddr_eq_ok.2 ⟨hacc, rfl⟩
      simp only [execute, claim, hu, claimBearer, hl, ok_bind]
      refine ⟨fun hk => ?_, fun hk => ?_⟩
      · have : a.unwrapBearer = .error .wrongType := by
          unfold Drop.unwrapBearer
          have hk : a.kind = .openAirdrop := hk
          rw [hk]
        rw [this]; rfl
      obtain ⟨sg, key, hk'⟩ : ∃ sg key, a.kind = .bearer sg key := by
        cases h : a.kind with
        | openAirdrop => exact absurd h hk
        | bearer sg key => exact ⟨sg, key, rfl⟩
      have : a.unwrapBearer = .ok (a, key) := unwrapBearer_eq_ok.2 ⟨⟨sg, hk'⟩, rfl⟩
      simp only [this, ok_bind]
      refine ⟨fun ho => ?_, fun ho => ?_⟩
      · rw [show require (a.closedAt = none) Err.closed = .error .closed from require_eq_error.2 ⟨ho, rfl⟩]; rfl
      rw [show require (a.closedAt = none) Err.closed = .ok () from require_eq_ok.2 ho]
      simp only [ok_bind, claimKey, proofOf, claimAmount]
      refine ⟨fun hc => ?_, fun hc => ⟨fun hx hp => ?_, fun hp h => ?_⟩⟩
      · rw [show assertNotClaimed s n hash = .error .alreadyClaimed from
          require_eq_error.2 ⟨hc, rfl⟩]; rfl
      · rw [show assertNotClaimed s n hash = .ok () from require_eq_ok.2 hc, bad hat.2 hx hp]; rfl
      · rw [hk'] at h; cases h

-- Dave is a stranger to carol's airdrop; the bearer payload does not fit it; with dave's signature text bob's claim hash
-- is not paid out.
example : dropRefusal [Demo.reg] { Demo.fund with info := ⟨"dave", [⟨"uosmo", 30⟩]⟩ } = some .unauthorized ∧
    dropRefusal [Demo.reg] { Demo.close with info := ⟨"dave", []⟩ } = some .unauthorized ∧
    dropRefusal [Demo.reg, Demo.close] Demo.fund = some .closed ∧
    dropRefusal [Demo.reg, Demo.close] Demo.close = some .closed ∧
    dropRefusal [Demo.reg]
      { Demo.claimAlice with msg := .claim (.bearer (.id 0) 60 none "salt" "00" Demo.aliceProof) } = some .wrongType ∧
    dropRefusal [Demo.reg, Demo.regBearer] { Demo.claimSalt with info := ⟨"dave", []⟩ } = some .invalidSignature := by
  decide +kernel

end Ibcx.Props
