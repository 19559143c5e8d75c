import Verif.Spec.AcceptDrop
import Verif.Airdrop.TextLemmas
import Verif.Airdrop.Inv
import Verif.Props.AirdropDemo
/-!
# C80: airdrop messages, exactly
-/

namespace Ibcx.Props
open Ibcx Ibcx.Airdrop Ibcx.Spec

/-! ### Hex -/

theorem toNat_toLower (c : Char) :
    c.toLower.toNat = if 65 ≤ c.toNat ∧ c.toNat ≤ 90 then c.toNat + 32 else c.toNat := by
  unfold Char.toLower
  have hA : ('A'.val).toNat = 65 := rfl
  have hZ : ('Z'.val).toNat = 90 := rfl
  by_cases h : c.val ≥ 'A'.val ∧ c.val ≤ 'Z'.val
  · have h1 : 65 ≤ c.val.toNat := hA ▸ UInt32.le_iff_toNat_le.1 h.1
    have h2 : c.val.toNat ≤ 90 := hZ ▸ UInt32.le_iff_toNat_le.1 h.2
    rw [dif_pos h, if_pos ⟨h1, h2⟩]
    change (c.val + ('a'.val - 'A'.val)).toNat = c.val.toNat + 32
    rw [UInt32.toNat_add]
    have : ('a'.val - 'A'.val).toNat = 32 := by decide
    rw [this]
    exact Nat.mod_eq_of_lt (by omega)
  · rw [dif_neg h, if_neg]
    rintro ⟨h1, h2⟩
    exact h ⟨UInt32.le_iff_toNat_le.2 (hA ▸ h1), UInt32.le_iff_toNat_le.2 (hZ ▸ h2)⟩

theorem char_le_iff {a b : Char} : a ≤ b ↔ a.toNat ≤ b.toNat := UInt32.le_iff_toNat_le

theorem toNat_hexDigit : ∀ n < 16, (hexDigit n).toNat = if n < 10 then 48 + n else 87 + n := by decide

theorem char_eq_iff {a b : Char} : a = b ↔ a.toNat = b.toNat := by
  constructor
  · rintro rfl; rfl
  · intro h; exact Char.ext (UInt32.toNat_inj.1 h)

theorem hexVal_iff {ch : Char} {n : Nat} : hexVal ch = some n ↔ n < 16 ∧ ch.toLower = hexDigit n := by
  have key : hexVal ch = some n ↔ n < 16 ∧ ch.toLower.toNat = if n < 10 then 48 + n else 87 + n := by
    rw [toNat_toLower]
    unfold hexVal
    simp only [char_le_iff]
    have e1 : '0'.toNat = 48 := rfl
    have e2 : '9'.toNat = 57 := rfl
    have e3 : 'a'.toNat = 97 := rfl
    have e4 : 'f'.toNat = 102 := rfl
    have e5 : 'A'.toNat = 65 := rfl
    have e6 : 'F'.toNat = 70 := rfl
    rw [e1, e2, e3, e4, e5, e6]
    generalize ch.toNat = v
    split_ifs <;> simp <;> omega
  rw [key]
  constructor
  · rintro ⟨h1, h2⟩
    exact ⟨h1, char_eq_iff.2 (by rw [h2, toNat_hexDigit n h1])⟩
  · rintro ⟨h1, h2⟩
    exact ⟨h1, by rw [h2, toNat_hexDigit n h1]⟩

theorem hexChars_iff : ∀ {cs : List Char} {bs : Bytes},
    hexChars cs = some bs ↔
      cs.map Char.toLower = bs.flatMap (fun b => [hexDigit (b.toNat / 16), hexDigit (b.toNat % 16)])
  | [], bs => by
    cases bs <;> simp [hexChars]
  | [a], bs => by
    cases bs <;> simp [hexChars]
  | a :: b :: cs, bs => by
    have ih := fun bs => @hexChars_iff cs bs
    simp only [hexChars, Option.bind_eq_bind, Option.bind_eq_some_iff, Option.some.injEq]
    constructor
    · rintro ⟨x, hx, y, hy, rest, hr, rfl⟩
      obtain ⟨hx1, hx2⟩ := hexVal_iff.1 hx
      obtain ⟨hy1, hy2⟩ := hexVal_iff.1 hy
      have hn : (UInt8.ofNat (16 * x + y)).toNat = 16 * x + y := by
        rw [UInt8.toNat_ofNat']; exact Nat.mod_eq_of_lt (by omega)
      simp only [List.map_cons, List.flatMap_cons, List.cons_append, List.nil_append, hn]
      rw [hx2, hy2, (ih rest).1 hr]
      rw [show (16 * x + y) / 16 = x by omega, show (16 * x + y) % 16 = y by omega]
    · intro h
      cases bs with
      | nil => simp at h
      | cons z zs =>
        simp only [List.map_cons, List.flatMap_cons, List.cons_append, List.nil_append, List.cons.injEq] at h
        obtain ⟨h1, h2, h3⟩ := h
        have hz : z.toNat < 256 := z.toNat_lt
        refine ⟨z.toNat / 16, hexVal_iff.2 ⟨by omega, h1⟩, z.toNat % 16, hexVal_iff.2 ⟨by omega, h2⟩, zs,
          (ih zs).2 h3, ?_⟩
        congr 1
        rw [show 16 * (z.toNat / 16) + z.toNat % 16 = z.toNat by omega]
        exact UInt8.ofNat_toNat

theorem hexDecode_iff {s : String} {bs : Bytes} : hexDecode s = .ok bs ↔ HexOf s bs := by
  unfold hexDecode HexOf hexText
  rw [String.toList_ofList, ← hexChars_iff]
  cases hexChars s.toList <;> simp

theorem hexDecode32_iff {s : String} {h : Hash32} : hexDecode32 s = .ok h ↔ HexOf s h.bytes := by
  rw [← hexDecode_iff]
  unfold hexDecode32
  cases hexDecode s with
  | error e => simp
  | ok bs =>
    simp only [Except.ok.injEq]
    split
    · rename_i hl
      simp only [Except.ok.injEq]
      constructor
      · rintro rfl; rfl
      · intro e; exact Hash32.ext' e
    · rename_i hl
      simp only [reduceCtorEq, false_iff]
      rintro rfl
      exact hl h.len

theorem reach_eq (c : Crypto) (h : Hash32) (ps : List Hash32) : reach c h ps = climb c h ps := by
  induction ps generalizing h with
  | nil => rfl
  | cons p ps ih => exact ih _

theorem proofHolds_iff {c : Crypto} {root : String} {proof : List String} {who : String} {amount : Nat} :
    verifyMerkleProof c root proof who amount = .ok () ↔ ProofHolds c root proof who amount := by
  rw [verifyMerkleProof_eq_ok]
  simp only [ProofHolds, hexDecode32_iff, reach_eq]

/-! ### C80 -/

/-- Whether a call of the examples is accepted after earlier ones. -/
def acceptedAfter (before : List Call) (call : Call) : Bool :=
  (execute Demo.crypto (run Demo.crypto initial before).1 call.env call.info call.msg).toOption.isSome

/-- **C80 (1).** An open airdrop is registered exactly when its root is the hex of 32 bytes, exactly one
non-zero coin of its denom is attached, and its label (the sender's address, a slash and the given name) is
not taken.  The record then has the next number, holds the attached amount, and the label leads to it. -/
theorem C80_register_open_accepted_iff {c : Crypto} {s s' : State} {env : Env} {info : Info} {root : String}
    {denom : Denom} {label : Option String} {ms : List Msg} :
    execute c s env info (.register (.openDrop root denom label)) = .ok (s', ms) ↔
      ∃ amount, (∃ h : Hash32, HexOf root h.bytes) ∧
      info.funds = [⟨denom, amount⟩] ∧ amount ≠ 0 ∧
      (∀ l, label = some l → s.labels.get (info.sender ++ "/" ++ l) = none) ∧
      s.latest + 1 < 2 ^ 64 ∧
      s' = { s with
        latest := s.latest + 1
        labels := (match label with
          | some l => s.labels.set (info.sender ++ "/" ++ l) s.latest
          | none => s.labels)
        drops := s.drops.set s.latest
          { kind := .openAirdrop, creator := info.sender, denom := denom, totalAmount := amount, totalClaimed := 0
            merkleRoot := root, label := label.map (fun l => info.sender ++ "/" ++ l), createdAt := env.height
            closedAt := none } } ∧
      ms = [] := by
  have e : execute c s env info (.register (.openDrop root denom label)) =
      register c s env info (.openDrop root denom label) := rfl
  rw [e, register_eq_ok]
  constructor
  · rintro ⟨a, ⟨h1, h2, h3, h4, ⟨h5, h6⟩, ⟨h, hh⟩, h8, h9, h10, h11⟩, h12, h13, rfl, rfl⟩
    obtain ⟨kind, creator, dn, ta, tc, mr, lb, ca, cl⟩ := a
    simp only at *
    subst h1 h2 h3 h4 h8 h9 h10 h11
    refine ⟨ta, ⟨h, hexDecode32_iff.1 hh⟩, h5, h6, ?_, h13, ?_, by trivial⟩
    · intro l hl; exact h12 _ (by rw [hl]; rfl)
    · cases label <;> rfl
  · rintro ⟨amount, ⟨h, hh⟩, h1, h2, h3, h4, rfl, rfl⟩
    refine ⟨{ kind := .openAirdrop, creator := info.sender, denom := denom, totalAmount := amount, totalClaimed := 0
              merkleRoot := root, label := label.map (fun l => info.sender ++ "/" ++ l), createdAt := env.height
              closedAt := none },
      ⟨rfl, rfl, rfl, rfl, ⟨h1, h2⟩, ⟨h, hexDecode32_iff.2 hh⟩, rfl, rfl, rfl, rfl⟩, ?_, h4, ?_, rfl⟩
    · intro l hl
      cases label with
      | none => simp at hl
      | some x =>
        simp only [Option.map_some, Option.some.injEq] at hl
        subst hl
        exact h3 x rfl
    · cases label <;> rfl

-- Carol's registration is accepted; with the label taken, without funds, or with a short root it is not.
example : acceptedAfter [] Demo.reg = true ∧ acceptedAfter [Demo.reg] Demo.reg = false ∧
    acceptedAfter [] { Demo.reg with info := ⟨"carol", []⟩ } = false ∧
    acceptedAfter [] { Demo.reg with msg := .register (.openDrop "00ff" "uosmo" none) } = false := by
  decide +kernel

/-- **C80 (2).** A bearer airdrop is registered exactly when, in addition, the public key is given in hex, the
given signature text is a signature by this key of its own address, and the address is valid.  The key and its
address are recorded. -/
theorem C80_register_bearer_accepted_iff {c : Crypto} {s s' : State} {env : Env} {info : Info} {root : String}
    {denom : Denom} {pub sig : String} {label : Option String} {ms : List Msg} :
    execute c s env info (.register (.bearer root denom pub sig label)) = .ok (s', ms) ↔
      ∃ amount key, (∃ h : Hash32, HexOf root h.bytes) ∧
      info.funds = [⟨denom, amount⟩] ∧ amount ≠ 0 ∧
      HexOf pub key ∧ SignedBy c key sig (c.addrOf key) ∧ env.validAddr (c.addrOf key) = true ∧
      (∀ l, label = some l → s.labels.get (info.sender ++ "/" ++ l) = none) ∧
      s.latest + 1 < 2 ^ 64 ∧
      s' = { s with
        latest := s.latest + 1
        labels := (match label with
          | some l => s.labels.set (info.sender ++ "/" ++ l) s.latest
          | none => s.labels)
        drops := s.drops.set s.latest
          { kind := .bearer (c.addrOf key) key, creator := info.sender, denom := denom, totalAmount := amount
            totalClaimed := 0, merkleRoot := root, label := label.map (fun l => info.sender ++ "/" ++ l)
            createdAt := env.height, closedAt := none } } ∧
      ms = [] := by
  have e : execute c s env info (.register (.bearer root denom pub sig label)) =
      register c s env info (.bearer root denom pub sig label) := rfl
  rw [e, register_eq_ok]
  constructor
  · rintro ⟨a, ⟨h1, h2, h3, h4, ⟨h5, h6⟩, ⟨h, hh⟩, ⟨pb, sb, hp, hs, hk, hval, hv⟩, h9, h10, h11⟩, h12, h13, rfl, rfl⟩
    obtain ⟨kind, creator, dn, ta, tc, mr, lb, ca, cl⟩ := a
    simp only at *
    subst h1 h2 h3 h4 hk h9 h10 h11
    refine ⟨ta, pb, ⟨h, hexDecode32_iff.1 hh⟩, h5, h6, hexDecode_iff.1 hp, ⟨sb, hexDecode_iff.1 hs, hv⟩, hval, ?_,
      h13, ?_, by trivial⟩
    · intro l hl; exact h12 _ (by rw [hl]; rfl)
    · cases label <;> rfl
  · rintro ⟨amount, key, ⟨h, hh⟩, h1, h2, hp, ⟨sb, hs, hv⟩, hval, h3, h4, rfl, rfl⟩
    refine ⟨{ kind := .bearer (c.addrOf key) key, creator := info.sender, denom := denom, totalAmount := amount
              totalClaimed := 0, merkleRoot := root, label := label.map (fun l => info.sender ++ "/" ++ l)
              createdAt := env.height, closedAt := none },
      ⟨rfl, rfl, rfl, rfl, ⟨h1, h2⟩, ⟨h, hexDecode32_iff.2 hh⟩,
      ⟨key, sb, hexDecode_iff.2 hp, hexDecode_iff.2 hs, rfl, hval, hv⟩, rfl, rfl, rfl⟩, ?_, h4, ?_, rfl⟩
    · intro l hl
      cases label with
      | none => simp at hl
      | some x =>
        simp only [Option.map_some, Option.some.injEq] at hl
        subst hl
        exact h3 x rfl
    · cases label <;> rfl

-- A bearer airdrop with a signature by its key is accepted; with another key or a wrong signature it is not.
example : acceptedAfter [] Demo.regBearer = true ∧
    acceptedAfter [] { Demo.regBearer with msg := .register (.bearer Demo.root "uosmo" "0103"
      (Demo.toHex ((Demo.crypto.sha (utf8 "osmo1signer")).bytes ++ [1, 2])) none) } = false ∧
    acceptedAfter [] { Demo.regBearer with msg := .register (.bearer Demo.root "uosmo" "0102" "00" none) } = false := by
  decide +kernel

/-- **C80 (3).** Funding is accepted exactly when the airdrop exists and is open, the sender created it, exactly
one non-zero coin of its denom is attached and the new total fits in 128 bits; the total then grows by it. -/
theorem C80_fund_accepted_iff {c : Crypto} {s s' : State} {env : Env} {info : Info} {id : DropId} {ms : List Msg} :
    execute c s env info (.fund id) = .ok (s', ms) ↔
      ∃ n a amount, target s id = some n ∧ s.drops.get n = some a ∧ a.creator = info.sender ∧ a.closedAt = none ∧
      info.funds = [⟨a.denom, amount⟩] ∧ amount ≠ 0 ∧ a.totalAmount + amount < 2 ^ 128 ∧
      s' = { s with drops := s.drops.set n { a with totalAmount := a.totalAmount + amount } } ∧ ms = [] :=
  fund_eq_ok

-- Only the creator can fund, only with the right coin, and only while the airdrop is open.
example : acceptedAfter [Demo.reg] Demo.fund = true ∧ acceptedAfter [] Demo.fund = false ∧
    acceptedAfter [Demo.reg] { Demo.fund with info := ⟨"dave", [⟨"uosmo", 30⟩]⟩ } = false ∧
    acceptedAfter [Demo.reg] { Demo.fund with info := ⟨"carol", [⟨"uion", 30⟩]⟩ } = false ∧
    acceptedAfter [Demo.reg, Demo.close] Demo.fund = false := by
  decide +kernel

/-- **C80 (4).** A claim on an open airdrop is accepted exactly when the given account (if any) is a valid
address, the airdrop exists, is of the open kind and not closed, the claimer has not claimed, the proof leads
from the claimer's leaf to the root, and enough is left.  Then the claim is recorded, the total claimed grows and
the claimer is paid. -/
theorem C80_open_claim_accepted_iff {c : Crypto} {s s' : State} {env : Env} {info : Info} {id : DropId}
    {amount : Nat} {account : Option String} {proof : List String} {ms : List Msg} :
    execute c s env info (.claim (.openDrop id amount account proof)) = .ok (s', ms) ↔
      ∃ n a, (∀ x, account = some x → env.validAddr x = true) ∧
      target s id = some n ∧ s.drops.get n = some a ∧ a.kind = .openAirdrop ∧ a.closedAt = none ∧
      s.claims.get (n, account.getD info.sender) = none ∧
      ProofHolds c a.merkleRoot proof (account.getD info.sender) amount ∧
      a.totalClaimed + amount < 2 ^ 128 ∧ a.totalClaimed + amount ≤ a.totalAmount ∧
      s' = { s with
        drops := s.drops.set n { a with totalClaimed := a.totalClaimed + amount }
        claims := s.claims.set (n, account.getD info.sender) amount } ∧
      ms = [.send (account.getD info.sender) [⟨a.denom, amount⟩]] := by
  have e : execute c s env info (.claim (.openDrop id amount account proof)) =
      claim c s env info (.openDrop id amount account proof) := rfl
  rw [e, claim_eq_ok]
  simp only [claimAccount, claimDrop, claimKey, claimAmount, claimer, Proven, proofHolds_iff]
  constructor
  · rintro ⟨n, a, h1, h2, h3, h4, h5, ⟨h6, h7⟩, h8, h9, h10, h11⟩
    exact ⟨n, a, h1, h2, h3, h6, h4, h5, h7, h8, h9, h10, h11⟩
  · rintro ⟨n, a, h1, h2, h3, h6, h4, h5, h7, h8, h9, h10, h11⟩
    exact ⟨n, a, h1, h2, h3, h4, h5, ⟨h6, h7⟩, h8, h9, h10, h11⟩

-- Alice's 60 need the extra funding, can be claimed once, and not with bob's proof.
example : acceptedAfter [Demo.reg, Demo.fund] Demo.claimAlice = true ∧ acceptedAfter [Demo.reg] Demo.claimAlice = false ∧
    acceptedAfter [Demo.reg, Demo.fund, Demo.claimAlice] Demo.claimAlice = false ∧
    acceptedAfter [Demo.reg, Demo.fund]
      { Demo.claimAlice with msg := .claim (.openDrop (.id 0) 60 (some "alice") Demo.bobProof) } = false := by
  decide +kernel

/-- **C80 (5).** A claim on a bearer airdrop is accepted exactly when the given account (if any) is a valid
address, the airdrop exists, is of the bearer kind and not closed, the claim hash has not been claimed, the proof
leads from the leaf of the claim hash to the root, the signature text is a signature by the registered key of
the claim hash, the claimer and the amount, and enough is left. -/
theorem C80_bearer_claim_accepted_iff {c : Crypto} {s s' : State} {env : Env} {info : Info} {id : DropId}
    {amount : Nat} {account : Option String} {hash sign : String} {proof : List String} {ms : List Msg} :
    execute c s env info (.claim (.bearer id amount account hash sign proof)) = .ok (s', ms) ↔
      ∃ n a signer key, (∀ x, account = some x → env.validAddr x = true) ∧
      target s id = some n ∧ s.drops.get n = some a ∧ a.kind = .bearer signer key ∧ a.closedAt = none ∧
      s.claims.get (n, hash) = none ∧
      ProofHolds c a.merkleRoot proof hash amount ∧
      SignedBy c key sign (hash ++ "/" ++ account.getD info.sender ++ "/" ++ toString amount) ∧
      a.totalClaimed + amount < 2 ^ 128 ∧ a.totalClaimed + amount ≤ a.totalAmount ∧
      s' = { s with
        drops := s.drops.set n { a with totalClaimed := a.totalClaimed + amount }
        claims := s.claims.set (n, hash) amount } ∧
      ms = [.send (account.getD info.sender) [⟨a.denom, amount⟩]] := by
  have e : execute c s env info (.claim (.bearer id amount account hash sign proof)) =
      claim c s env info (.bearer id amount account hash sign proof) := rfl
  rw [e, claim_eq_ok]
  simp only [claimAccount, claimDrop, claimKey, claimAmount, claimer, Proven, proofHolds_iff, hexDecode_iff]
  constructor
  · rintro ⟨n, a, h1, h2, h3, h4, h5, ⟨sg, pub, sig, h6, h7, h8, h9⟩, h10, h11, h12, h13⟩
    exact ⟨n, a, sg, pub, h1, h2, h3, h6, h4, h5, h7, ⟨sig, h8, h9⟩, h10, h11, h12, h13⟩
  · rintro ⟨n, a, sg, pub, h1, h2, h3, h6, h4, h5, h7, ⟨sig, h8, h9⟩, h10, h11, h12, h13⟩
    exact ⟨n, a, h1, h2, h3, h4, h5, ⟨sg, pub, sig, h6, h7, h8, h9⟩, h10, h11, h12, h13⟩

-- Bob redeems the claim hash with the signature made for bob; dave cannot use it.
example : acceptedAfter [Demo.reg, Demo.regBearer] Demo.claimSalt = true ∧
    acceptedAfter [Demo.reg, Demo.regBearer] { Demo.claimSalt with info := ⟨"dave", []⟩ } = false ∧
    acceptedAfter [Demo.reg, Demo.regBearer, Demo.claimSalt] Demo.claimSalt = false := by
  decide +kernel

/-- **C80 (6).** Closing is accepted exactly when the airdrop exists and is open and the sender created it; the
height is recorded and the creator is paid what was not claimed. -/
theorem C80_close_accepted_iff {c : Crypto} {s s' : State} {env : Env} {info : Info} {id : DropId} {ms : List Msg}
    (hr : Reachable c s) :
    execute c s env info (.close id) = .ok (s', ms) ↔
      ∃ n a, target s id = some n ∧ s.drops.get n = some a ∧ a.creator = info.sender ∧ a.closedAt = none ∧
      s' = { s with drops := s.drops.set n { a with closedAt := some env.height } } ∧
      ms = [.send a.creator [⟨a.denom, a.totalAmount - a.totalClaimed⟩]] := by
  change close s env info _ = _ ↔ _
  rw [close_eq_ok]
  constructor
  · rintro ⟨n, a, h1, h2, h3, h4, h5, h6, h7⟩
    exact ⟨n, a, h1, h2, h3, h4, h6, h7⟩
  · rintro ⟨n, a, h1, h2, h3, h4, h6, h7⟩
    exact ⟨n, a, h1, h2, h3, h4, hr.inv.claimedLe n a h2, h6, h7⟩

-- Carol closes once; dave cannot.
example : acceptedAfter [Demo.reg] Demo.close = true ∧ acceptedAfter [Demo.reg, Demo.close] Demo.close = false ∧
    acceptedAfter [Demo.reg] { Demo.close with info := ⟨"dave", []⟩ } = false := by
  decide +kernel

example : Reachable Demo.crypto (run Demo.crypto initial [Demo.reg, Demo.fund]).1 := ⟨_, rfl⟩

end Ibcx.Props
