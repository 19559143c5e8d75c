import Verif.Spec.Airdrop
/-!
# What happened to an airdrop (specification of C123)

Histories as lists of messages; a rejected message is one that did not happen.
-/

namespace Ibcx.Spec
open Ibcx Ibcx.Airdrop

/-- In the history `calls` of the contract the message `call` came after those in `before` and was accepted. -/
def Happened (c : Crypto) (calls before : List Call) (call : Call) : Prop :=
  (∃ after, calls = before ++ call :: after) ∧
  ∃ out, execute c (run c initial before).1 call.env call.info call.msg = .ok out

/-- The record `a` shows what the registration `p`, sent in `call`, says: creator, height, root, denom, the label under
the name of the creator, and for a bearer airdrop the key and its address. -/
def ShowsRegistration (c : Crypto) (call : Call) (p : RegisterPayload) (a : Drop) : Prop :=
  a.creator = call.info.sender ∧ a.createdAt = call.env.height ∧
  match p with
  | .openDrop root denom label =>
    a.kind = .openAirdrop ∧ a.merkleRoot = root ∧ a.denom = denom ∧
      a.label = label.map (fun x => call.info.sender ++ "/" ++ x)
  | .bearer root denom pub _ label =>
    (∃ key, hexDecode pub = .ok key ∧ a.kind = .bearer (c.addrOf key) key) ∧ a.merkleRoot = root ∧ a.denom = denom ∧
      a.label = label.map (fun x => call.info.sender ++ "/" ++ x)

/-- Airdrop number `n` was registered by `call` with `p`: `n` registrations were accepted before. -/
def RegisteredBy (c : Crypto) (calls : List Call) (n : Nat) (call : Call) (p : RegisterPayload) : Prop :=
  ∃ before, Happened c calls before call ∧ call.msg = .register p ∧ registrations c initial before = n

/-- A claim of `x` with claim key `k` was paid by airdrop number `n`. -/
def PaidOut (c : Crypto) (calls : List Call) (n : Nat) (k : String) (x : Nat) : Prop :=
  ∃ before call p, Happened c calls before call ∧ call.msg = .claim p ∧
    target (run c initial before).1 (claimDrop p) = some n ∧ claimKey call.info p = k ∧ claimAmount p = x

/-- Airdrop number `n` was closed at height `h`. -/
def ClosedAt (c : Crypto) (calls : List Call) (n h : Nat) : Prop :=
  ∃ before call id, Happened c calls before call ∧ call.msg = .close id ∧
    target (run c initial before).1 id = some n ∧ call.env.height = h

end Ibcx.Spec
