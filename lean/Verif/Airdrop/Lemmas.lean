import Verif.NumLemmas
import Verif.Spec.Airdrop
import Verif.Spec.Link
/-!
# Lemmas about the airdrop contract

Not part of the model.
-/

namespace Ibcx.Airdrop
open Ibcx Ibcx.Spec

@[simp] theorem loadAirdrop_eq_ok {s : State} {id : DropId} {n : Nat} {a : Drop} :
    loadAirdrop s id = .ok (n, a) ↔ target s id = some n ∧ s.drops.get n = some a := by
  cases id <;> simp [loadAirdrop, target] <;> grind

@[simp] theorem saveLabel_eq_ok {labels labels' : KV String Nat} {id : Nat} {label : Option String} :
    saveLabel labels id label = .ok labels' ↔
      (∀ l, label = some l → labels.get l = none) ∧
      labels' = (match label with | some l => labels.set l id | none => labels) := by
  cases label <;> simp [saveLabel] <;> grind

@[simp] theorem assertNotClaimed_eq_ok {s : State} {id : Nat} {key : String} {u : Unit} :
    assertNotClaimed s id key = .ok u ↔ s.claims.get (id, key) = none := by
  simp [assertNotClaimed]

@[simp] theorem unwrapOpen_eq_ok {a b : Drop} :
    a.unwrapOpen = .ok b ↔ a.kind = .openAirdrop ∧ b = a := by
  unfold Drop.unwrapOpen; split <;> simp_all <;> grind

@[simp] theorem unwrapBearer_eq_ok {a b : Drop} {pub : Bytes} :
    a.unwrapBearer = .ok (b, pub) ↔ (∃ signer, a.kind = .bearer signer pub) ∧ b = a := by
  unfold Drop.unwrapBearer; split <;> simp_all <;> grind

/-- The record written by an accepted registration. -/
structure NewDrop (c : Crypto) (env : Env) (info : Info) (p : RegisterPayload) (a : Drop) : Prop where
  creator : a.creator = info.sender
  claimed : a.totalClaimed = 0
  notClosed : a.closedAt = none
  created : a.createdAt = env.height
  paid : info.funds = [⟨a.denom, a.totalAmount⟩] ∧ a.totalAmount ≠ 0
  root : ∃ h, hexDecode32 a.merkleRoot = .ok h
  payload : match p with
    | .openDrop root denom label =>
      a.kind = .openAirdrop ∧ a.merkleRoot = root ∧ a.denom = denom ∧ a.label = label.map (info.sender ++ "/" ++ ·)
    | .bearer root denom pub sig label =>
      (∃ pubBytes sigBytes, hexDecode pub = .ok pubBytes ∧ hexDecode sig = .ok sigBytes ∧
        a.kind = .bearer (c.addrOf pubBytes) pubBytes ∧ env.validAddr (c.addrOf pubBytes) = true ∧
        c.verify (c.sha (utf8 (c.addrOf pubBytes))) sigBytes pubBytes = .ok true) ∧
      a.merkleRoot = root ∧ a.denom = denom ∧ a.label = label.map (info.sender ++ "/" ++ ·)

/-- When a registration is accepted, and what it does. -/
theorem register_eq_ok {c : Crypto} {s s' : State} {env : Env} {info : Info} {p : RegisterPayload} {ms : List Msg} :
    register c s env info p = .ok (s', ms) ↔
      ∃ a, NewDrop c env info p a ∧ (∀ l, a.label = some l → s.labels.get l = none) ∧ s.latest + 1 < 2 ^ 64 ∧
        s' = { s with
          labels := (match a.label with | some l => s.labels.set l s.latest | none => s.labels)
          drops := s.drops.set s.latest a
          latest := s.latest + 1 } ∧ ms = [] := by
  cases p with
  | openDrop root denom label =>
    simp only [register, registerOpen, bind_eq_ok, mustPay_eq_ok, saveLabel_eq_ok, add64_eq_ok, Except.ok.injEq,
      Prod.mk.injEq]
    constructor
    · rintro ⟨h, hh, n, ⟨h1, h2⟩, ls, ⟨h3, rfl⟩, l, ⟨h4, rfl⟩, rfl, rfl⟩
      exact ⟨_, ⟨rfl, rfl, rfl, rfl, ⟨h1, h2⟩, ⟨h, hh⟩, rfl, rfl, rfl, rfl⟩, h3, h4, rfl, rfl⟩
    · rintro ⟨a, ⟨h1, h2, h3, h4, ⟨h5, h6⟩, ⟨h, hh⟩, h8, h9, h10, h11⟩, h12, h13, rfl, rfl⟩
      obtain ⟨kind, creator, dn, ta, tc, mr, lb, ca, cl⟩ := a
      simp only at *
      subst h1 h2 h3 h4 h8 h9 h10 h11
      exact ⟨h, hh, ta, ⟨h5, h6⟩, _, ⟨h12, rfl⟩, _, ⟨h13, rfl⟩, by trivial, by trivial⟩
  | bearer root denom pub sig label =>
    simp only [register, registerBearer, bind_eq_ok, mustPay_eq_ok, saveLabel_eq_ok, add64_eq_ok, Except.ok.injEq,
      Prod.mk.injEq, require_eq_ok, validate_eq_ok]
    constructor
    · rintro ⟨h, hh, pb, hp, sb, hs, v, hv, _, rfl, n, ⟨h1, h2⟩, sg, ⟨hval, rfl⟩, ls, ⟨h3, rfl⟩, l, ⟨h4, rfl⟩, rfl, rfl⟩
      exact ⟨_, ⟨rfl, rfl, rfl, rfl, ⟨h1, h2⟩, ⟨h, hh⟩, ⟨pb, sb, hp, hs, rfl, hval, hv⟩, rfl, rfl, rfl⟩, h3, h4,
        rfl, rfl⟩
    · rintro ⟨a, ⟨h1, h2, h3, h4, ⟨h5, h6⟩, ⟨h, hh⟩, ⟨pb, sb, hp, hs, hk, hval, hv⟩, h9, h10, h11⟩, h12, h13, rfl, rfl⟩
      obtain ⟨kind, creator, dn, ta, tc, mr, lb, ca, cl⟩ := a
      simp only at *
      subst h1 h2 h3 h4 hk h9 h10 h11
      exact ⟨h, hh, pb, hp, sb, hs, true, hv, (), rfl, ta, ⟨h5, h6⟩, _, ⟨hval, rfl⟩, _, ⟨h12, rfl⟩, _, ⟨h13, rfl⟩,
        by trivial, by trivial⟩

/-- When a funding is accepted, and what it does. -/
theorem fund_eq_ok {s s' : State} {info : Info} {id : DropId} {ms : List Msg} :
    fund s info id = .ok (s', ms) ↔
      ∃ n a extra, target s id = some n ∧ s.drops.get n = some a ∧ a.creator = info.sender ∧ a.closedAt = none ∧
        info.funds = [⟨a.denom, extra⟩] ∧ extra ≠ 0 ∧ a.totalAmount + extra < U128 ∧
        s' = { s with drops := s.drops.set n { a with totalAmount := a.totalAmount + extra } } ∧ ms = [] := by
  unfold fund
  simp only [bind_eq_ok]
  constructor
  · rintro ⟨⟨n, a⟩, h1, h⟩
    rw [loadAirdrop_eq_ok] at h1
    split at h
    all_goals
      simp only [fundOpen, fundBearer, bind_eq_ok, require_eq_ok, mustPay_eq_ok, add_eq_ok, Except.ok.injEq,
        Prod.mk.injEq] at h
      obtain ⟨_, h2, _, h3, x, ⟨h4, h5⟩, t, ⟨h6, rfl⟩, rfl, rfl⟩ := h
      exact ⟨n, a, x, h1.1, h1.2, h2, h3, h4, h5, h6, rfl, rfl⟩
  · rintro ⟨n, a, x, h0, h1, h2, h3, h4, h5, h6, rfl, rfl⟩
    refine ⟨(n, a), loadAirdrop_eq_ok.2 ⟨h0, h1⟩, ?_⟩
    simp only
    split
    all_goals
      simp only [fundOpen, fundBearer, bind_eq_ok, require_eq_ok, mustPay_eq_ok, add_eq_ok, Except.ok.injEq,
        Prod.mk.injEq]
      exact ⟨(), h2, (), h3, x, ⟨h4, h5⟩, _, ⟨h6, rfl⟩, by trivial, by trivial⟩

/-- When a closing is accepted, and what it does. -/
theorem close_eq_ok {s s' : State} {env : Env} {info : Info} {id : DropId} {ms : List Msg} :
    close s env info id = .ok (s', ms) ↔
      ∃ n a, target s id = some n ∧ s.drops.get n = some a ∧ a.creator = info.sender ∧ a.closedAt = none ∧
        a.totalClaimed ≤ a.totalAmount ∧
        s' = { s with drops := s.drops.set n { a with closedAt := some env.height } } ∧
        ms = [.send a.creator [⟨a.denom, a.totalAmount - a.totalClaimed⟩]] := by
  unfold close
  simp only [bind_eq_ok]
  constructor
  · rintro ⟨⟨n, a⟩, h1, h⟩
    rw [loadAirdrop_eq_ok] at h1
    split at h
    all_goals
      simp only [closeOpen, closeBearer, bind_eq_ok, require_eq_ok, sub_eq_ok, Except.ok.injEq, Prod.mk.injEq] at h
      obtain ⟨_, h2, _, h3, t, ⟨h6, rfl⟩, rfl, rfl⟩ := h
      exact ⟨n, a, h1.1, h1.2, h2, h3, h6, rfl, rfl⟩
  · rintro ⟨n, a, h0, h1, h2, h3, h6, rfl, rfl⟩
    refine ⟨(n, a), loadAirdrop_eq_ok.2 ⟨h0, h1⟩, ?_⟩
    simp only
    split
    all_goals
      simp only [closeOpen, closeBearer, bind_eq_ok, require_eq_ok, sub_eq_ok, Except.ok.injEq, Prod.mk.injEq]
      exact ⟨(), h2, (), h3, _, ⟨h6, rfl⟩, by trivial, by trivial⟩

/-- What a claim must prove. -/
def Proven (c : Crypto) (info : Info) (a : Drop) : ClaimPayload → Prop
  | .openDrop _ amount acc proof =>
    a.kind = .openAirdrop ∧ verifyMerkleProof c a.merkleRoot proof (acc.getD info.sender) amount = .ok ()
  | .bearer _ amount acc hash sign proof =>
    ∃ signer pub sig, a.kind = .bearer signer pub ∧ verifyMerkleProof c a.merkleRoot proof hash amount = .ok () ∧
      hexDecode sign = .ok sig ∧
      c.verify (c.sha (utf8 (signText hash (acc.getD info.sender) amount))) sig pub = .ok true

/-- The account given in a claim. -/
def claimAccount : ClaimPayload → Option String
  | .openDrop _ _ acc _ => acc
  | .bearer _ _ acc _ _ _ => acc

/-- When a claim is accepted, and what it does. -/
theorem claim_eq_ok {c : Crypto} {s s' : State} {env : Env} {info : Info} {p : ClaimPayload} {ms : List Msg} :
    claim c s env info p = .ok (s', ms) ↔
      ∃ n a, (∀ x, claimAccount p = some x → env.validAddr x = true) ∧
        target s (claimDrop p) = some n ∧ s.drops.get n = some a ∧ a.closedAt = none ∧
        s.claims.get (n, claimKey info p) = none ∧ Proven c info a p ∧
        a.totalClaimed + claimAmount p < U128 ∧ a.totalClaimed + claimAmount p ≤ a.totalAmount ∧
        s' = { s with
          drops := s.drops.set n { a with totalClaimed := a.totalClaimed + claimAmount p }
          claims := s.claims.set (n, claimKey info p) (claimAmount p) } ∧
        ms = [.send (claimer info p) [⟨a.denom, claimAmount p⟩]] := by
  cases p with
  | openDrop id amount acc proof =>
    simp only [claim, claimOpen, bind_eq_ok, unwrapAddr_eq_ok, unwrapOpen_eq_ok, require_eq_ok,
      assertNotClaimed_eq_ok, add_eq_ok, Except.ok.injEq, Prod.mk.injEq, claimAccount, claimDrop, claimKey, claimAmount,
      claimer, Proven]
    constructor
    · rintro ⟨cl, ⟨h1, rfl⟩, ⟨n, a⟩, h2, b, ⟨h3, rfl⟩, _, h4, _, h5, _, h6, t, ⟨h7, rfl⟩, _, h8, rfl, rfl⟩
      rw [loadAirdrop_eq_ok] at h2
      exact ⟨n, _, h1, h2.1, h2.2, h4, h5, ⟨h3, h6⟩, h7, Nat.le_of_not_lt h8, rfl, rfl⟩
    · rintro ⟨n, a, h1, h2, h2', h4, h5, ⟨h3, h6⟩, h7, h8, rfl, rfl⟩
      exact ⟨_, ⟨h1, rfl⟩, (n, a), loadAirdrop_eq_ok.2 ⟨h2, h2'⟩, a, ⟨h3, rfl⟩, (), h4, (), h5, (), h6, _, ⟨h7, rfl⟩,
        (), Nat.not_lt_of_le h8, rfl, rfl⟩
  | bearer id amount acc hash sign proof =>
    simp only [claim, claimBearer, bind_eq_ok, unwrapAddr_eq_ok, require_eq_ok,
      assertNotClaimed_eq_ok, add_eq_ok, Except.ok.injEq, Prod.mk.injEq, claimAccount, claimDrop, claimKey, claimAmount,
      claimer, Proven]
    constructor
    · rintro ⟨cl, ⟨h1, rfl⟩, ⟨n, a⟩, h2, ⟨b, pub⟩, h3, _, h4, _, h5, _, h6, sg, h9, ok, h10, _, rfl, t, ⟨h7, rfl⟩, _, h8,
        rfl, rfl⟩
      rw [loadAirdrop_eq_ok] at h2
      rw [unwrapBearer_eq_ok] at h3
      obtain ⟨⟨signer, h3⟩, rfl⟩ := h3
      exact ⟨n, _, h1, h2.1, h2.2, h4, h5, ⟨signer, pub, sg, h3, h6, h9, h10⟩, h7, Nat.le_of_not_lt h8, rfl, rfl⟩
    · rintro ⟨n, a, h1, h2, h2', h4, h5, ⟨signer, pub, sg, h3, h6, h9, h10⟩, h7, h8, rfl, rfl⟩
      exact ⟨_, ⟨h1, rfl⟩, (n, a), loadAirdrop_eq_ok.2 ⟨h2, h2'⟩, (a, pub), unwrapBearer_eq_ok.2 ⟨⟨signer, h3⟩, rfl⟩,
        (), h4, (), h5, (), h6, sg, h9, true, h10, (), rfl, _, ⟨h7, rfl⟩, (), Nat.not_lt_of_le h8, rfl, rfl⟩

end Ibcx.Airdrop
