import Mathlib.Data.List.Induction
import Verif.Airdrop.TextLemmas
import Verif.Props.Airdrop
/-!
# Properties of Merkle proofs, leaf texts and signed texts (C37, C38)
-/

namespace Ibcx.Props
open Ibcx Ibcx.Airdrop Ibcx.Spec

private theorem climb_path {c : Crypto} {who : String} {amount : Nat} {t : MerkleTree} {path : List Hash32}
    (h : t.Path c who amount path) : climb c (c.sha (leafBytes who amount)) path = t.hash c := by
  induction h with
  | leaf => rfl
  | left h ih => rw [climb_append, ih]; rfl
  | right h ih => rw [climb_append, ih]; simp only [climb, MerkleTree.hash]; rw [pairBytes_comm]

/-- **C37 (completeness).** For every tree, the path of each leaf, written in hex, is accepted against the root. -/
theorem C37_leaf_proofs_are_accepted {c : Crypto} {t : MerkleTree} {who : String} {amount : Nat} {path : List Hash32}
    (h : t.Path c who amount path) :
    verifyMerkleProof c (hexText (t.hash c).bytes) (path.map (fun q => hexText q.bytes)) who amount = .ok () := by
  rw [verifyMerkleProof_eq_ok]
  refine ⟨path, ?_, ?_⟩
  · rw [List.forall₂_map_left_iff]
    exact List.forall₂_same.2 (fun q _ => hexDecode32_hexText q)
  · rw [hexDecode32_hexText, climb_path h]

/-- Bob's leaf below two nodes. -/
example : (MerkleTree.node (.node (.leaf "alice" 60) (.leaf "bob" 40)) (.leaf "erin" 5)).Path Demo.crypto "bob" 40
    ([(MerkleTree.leaf "alice" 60).hash Demo.crypto] ++ [(MerkleTree.leaf "erin" 5).hash Demo.crypto]) :=
  .left (.right .leaf)

/-- **C37 (every leaf has a path).** -/
theorem C37_every_leaf_has_a_path (c : Crypto) {t : MerkleTree} {who : String} {amount : Nat} (h : t.Has who amount) :
    ∃ path, t.Path c who amount path := by
  induction t with
  | leaf w a =>
    obtain ⟨rfl, rfl⟩ := h
    exact ⟨[], .leaf⟩
  | node l r ihl ihr =>
    rcases h with h | h
    · obtain ⟨p, hp⟩ := ihl h; exact ⟨_, .left hp⟩
    · obtain ⟨p, hp⟩ := ihr h; exact ⟨_, .right hp⟩

/-- Erin is a leaf of this tree, with another path than Bob. -/
example : (MerkleTree.node (.node (.leaf "alice" 60) (.leaf "bob" 40)) (.leaf "erin" 5)).Path Demo.crypto "erin" 5
    ([] ++ [(MerkleTree.node (.leaf "alice" 60) (.leaf "bob" 40)).hash Demo.crypto]) :=
  .right .leaf

private theorem pathHashed_append (c : Crypto) (h : Hash32) (ps : List Hash32) (q : Hash32) :
    pathHashed c h (ps ++ [q]) = pathHashed c h ps ++ [pairBytes (climb c h ps) q] := by
  induction ps generalizing h with
  | nil => rfl
  | cons p ps ih => simp only [List.cons_append, pathHashed, climb, ih]

private theorem leafBytes_inj {a a' : String} {n n' : Nat} (h : leafBytes a n = leafBytes a' n') : a = a' ∧ n = n' :=
  leafText_inj (utf8_inj h)

/-- What an accepted proof can mean. -/
private def Verdict (c : Crypto) (t : MerkleTree) (who : String) (amount : Nat) (path : List Hash32) : Prop :=
  t.Has who amount ∨
  (∃ x ∈ t.hashed c, ∃ y ∈ checkHashed c who amount path, x ≠ y ∧ c.sha x = c.sha y) ∨
  ((leafBytes who amount).length = 64 ∧ leafBytes who amount ∈ t.hashed c) ∨
  ∃ w a, t.Has w a ∧ (leafBytes w a).length = 64 ∧ leafBytes w a ∈ checkHashed c who amount path

private theorem verdict_node {c : Crypto} {l r s : MerkleTree} {who : String} {amount : Nat} {ps : List Hash32} {q : Hash32}
    (hs : s = l ∨ s = r) (h : Verdict c s who amount ps) : Verdict c (.node l r) who amount (ps ++ [q]) := by
  have hsub : ∀ x ∈ s.hashed c, x ∈ (MerkleTree.node l r).hashed c := by
    intro x hx
    rcases hs with rfl | rfl <;> simp [MerkleTree.hashed, hx]
  have hchk : ∀ y ∈ checkHashed c who amount ps, y ∈ checkHashed c who amount (ps ++ [q]) := by
    intro y hy
    simp only [checkHashed, pathHashed_append, List.mem_cons, List.mem_append] at hy ⊢
    grind
  have hhas : ∀ w a, s.Has w a → (MerkleTree.node l r).Has w a := by
    intro w a hw
    rcases hs with rfl | rfl
    · exact .inl hw
    · exact .inr hw
  rcases h with h | ⟨x, hx, y, hy, h⟩ | ⟨h1, h2⟩ | ⟨w, a, h1, h2, h3⟩
  · exact .inl (hhas _ _ h)
  · exact .inr (.inl ⟨x, hsub x hx, y, hchk y hy, h⟩)
  · exact .inr (.inr (.inl ⟨h1, hsub _ h2⟩))
  · exact .inr (.inr (.inr ⟨w, a, hhas _ _ h1, h2, hchk _ h3⟩))

private theorem climb_sound {c : Crypto} {who : String} {amount : Nat} (path : List Hash32) : ∀ t : MerkleTree,
    climb c (c.sha (leafBytes who amount)) path = t.hash c → Verdict c t who amount path := by
  induction path using List.reverseRecOn with
  | nil =>
    intro t h
    simp only [climb] at h
    have hmem : leafBytes who amount ∈ checkHashed c who amount [] := by simp [checkHashed]
    cases t with
    | leaf w a =>
      by_cases e : leafBytes w a = leafBytes who amount
      · obtain ⟨rfl, rfl⟩ := leafBytes_inj e
        exact .inl ⟨rfl, rfl⟩
      · exact .inr (.inl ⟨_, by simp [MerkleTree.hashed], _, hmem, e, h.symm⟩)
    | node l r =>
      by_cases e : pairBytes (l.hash c) (r.hash c) = leafBytes who amount
      · refine .inr (.inr (.inl ⟨?_, ?_⟩))
        · rw [← e]; exact pairBytes_length _ _
        · rw [← e]; simp [MerkleTree.hashed]
      · exact .inr (.inl ⟨_, by simp [MerkleTree.hashed], _, hmem, e, h.symm⟩)
  | append_singleton ps q ih =>
    intro t h
    rw [climb_append] at h
    simp only [climb] at h
    have hmem : pairBytes (climb c (c.sha (leafBytes who amount)) ps) q ∈ checkHashed c who amount (ps ++ [q]) := by
      simp [checkHashed, pathHashed_append]
    cases t with
    | leaf w a =>
      by_cases e : leafBytes w a = pairBytes (climb c (c.sha (leafBytes who amount)) ps) q
      · refine .inr (.inr (.inr ⟨w, a, ⟨rfl, rfl⟩, ?_, ?_⟩))
        · rw [e]; exact pairBytes_length _ _
        · rw [e]; exact hmem
      · exact .inr (.inl ⟨_, by simp [MerkleTree.hashed], _, hmem, e, h.symm⟩)
    | node l r =>
      by_cases e : pairBytes (l.hash c) (r.hash c) = pairBytes (climb c (c.sha (leafBytes who amount)) ps) q
      · rcases pairBytes_inj e with ⟨h1, _⟩ | ⟨_, h1⟩
        · exact verdict_node (.inl rfl) (ih l h1.symm)
        · exact verdict_node (.inr rfl) (ih r h1.symm)
      · exact .inr (.inl ⟨_, by simp [MerkleTree.hashed], _, hmem, e, h.symm⟩)

/-- **C37 (soundness).** If a proof is accepted against the root of a tree, then the claimed account and amount are a
leaf of the tree, or the byte strings hashed in building the tree and in checking the proof contain a collision of
the hash function, or one of the texts involved is 64 bytes long and is at the same time a pair of hashes. -/
theorem C37_accepted_proofs_are_leaves {c : Crypto} {t : MerkleTree} {root : String} {proof : List String} {who : String}
    {amount : Nat} {path : List Hash32} (hroot : hexDecode32 root = .ok (t.hash c))
    (hpath : List.Forall₂ (fun p q => hexDecode32 p = .ok q) proof path)
    (h : verifyMerkleProof c root proof who amount = .ok ()) :
    t.Has who amount ∨
    (∃ x ∈ t.hashed c, ∃ y ∈ checkHashed c who amount path, x ≠ y ∧ c.sha x = c.sha y) ∨
    ((leafBytes who amount).length = 64 ∧ leafBytes who amount ∈ t.hashed c) ∨
    ∃ w a, t.Has w a ∧ (leafBytes w a).length = 64 ∧ leafBytes w a ∈ checkHashed c who amount path := by
  obtain ⟨path', h1, h2⟩ := verifyMerkleProof_eq_ok.1 h
  have e : path' = path := by
    clear h h2 hroot
    induction hpath generalizing path' with
    | nil => cases h1; rfl
    | cons hp _ ih =>
      cases h1 with
      | cons hp' h1 =>
        rw [hp] at hp'; cases hp'
        rw [ih _ h1]
  subst e
  rw [hroot] at h2
  exact climb_sound path' t (Except.ok.inj h2).symm

/-- Bob's proof is accepted with 40 and refused with 41. -/
example : hexDecode32 Demo.root = .ok ((MerkleTree.node (.leaf "alice" 60) (.leaf "bob" 40)).hash Demo.crypto) ∧
    verifyMerkleProof Demo.crypto Demo.root Demo.bobProof "bob" 41 = .error .invalidProof ∧
    verifyMerkleProof Demo.crypto Demo.root Demo.bobProof "bob" 40 = .ok () := by
  decide +kernel

/-- **C37 (on the contract).** An accepted open claim on an airdrop registered with the root of a tree pays a leaf of
that tree, unless the hash function collides on the strings hashed or a text of 64 bytes is a pair of hashes. -/
theorem C37_only_leaves_are_paid {c : Crypto} {s s' : State} {env : Env} {info : Info} {id : DropId} {amount : Nat}
    {account : Option String} {proof : List String} {ms : List Msg} {t : MerkleTree}
    (h : execute c s env info (.claim (.openDrop id amount account proof)) = .ok (s', ms))
    (hroot : ∀ n a, target s id = some n → s.drops.get n = some a → hexDecode32 a.merkleRoot = .ok (t.hash c))
    (hlen : (leafBytes (account.getD info.sender) amount).length ≠ 64)
    (htree : ∀ w a, t.Has w a → (leafBytes w a).length ≠ 64)
    (hcol : ∀ path, List.Forall₂ (fun p q => hexDecode32 p = .ok q) proof path →
      ∀ x ∈ t.hashed c, ∀ y ∈ checkHashed c (account.getD info.sender) amount path, c.sha x = c.sha y → x = y) :
    t.Has (account.getD info.sender) amount := by
  obtain ⟨n, a, h1, h2, _, _, h3, _⟩ := C39_open_claim h
  obtain ⟨path, hp, _⟩ := verifyMerkleProof_eq_ok.1 h3
  rcases C37_accepted_proofs_are_leaves (hroot n a h1 h2) hp h3 with h | ⟨x, hx, y, hy, hne, he⟩ | ⟨h, _⟩ | ⟨w, b, h, h', _⟩
  · exact h
  · exact absurd (hcol path hp x hx y hy he) hne
  · exact absurd h hlen
  · exact absurd h' (htree w b h)

/-- Alice's claim, with a hash that has no collision between the checked texts. -/
example :
    let t : MerkleTree := .node (.leaf "alice" 60) (.leaf "bob" 40)
    (execute Demo.crypto (run Demo.crypto initial [Demo.reg, Demo.fund]).1 Demo.claimAlice.env Demo.claimAlice.info
      Demo.claimAlice.msg).map (·.2) = .ok [.send "alice" [⟨"uosmo", 60⟩]] ∧
    hexDecode32 Demo.root = .ok (t.hash Demo.crypto) ∧ (leafBytes "alice" 60).length ≠ 64 ∧
    (leafBytes "bob" 40).length ≠ 64 ∧
    ∀ x ∈ t.hashed Demo.crypto, ∀ y ∈ checkHashed Demo.crypto "alice" 60 [(MerkleTree.leaf "bob" 40).hash Demo.crypto],
      Demo.crypto.sha x = Demo.crypto.sha y → x = y := by
  decide +kernel

/-- **C37 (every leaf is payable).** On an open airdrop registered with the root of a tree, each leaf not yet claimed
and still funded can be claimed with its path, by anyone on behalf of the account. -/
theorem C37_every_leaf_can_be_claimed {c : Crypto} {s : State} {env : Env} {info : Info} {t : MerkleTree} {n : Nat}
    {a : Drop} {who : String} {amount : Nat} {path : List Hash32} (hp : t.Path c who amount path)
    (ha : s.drops.get n = some a) (hk : a.kind = .openAirdrop) (ho : a.closedAt = none)
    (hr : a.merkleRoot = hexText (t.hash c).bytes) (hv : env.validAddr who = true)
    (hc : s.claims.get (n, who) = none) (hf : a.totalClaimed + amount ≤ a.totalAmount) (hmax : a.totalAmount < U128) :
    ∃ s' ms, execute c s env info
      (.claim (.openDrop (.id n) amount (some who) (path.map (fun q => hexText q.bytes)))) = .ok (s', ms) := by
  refine ⟨_, _, execute_change.2 (.claim _ n a ?_ rfl ha ho hc ⟨hk, ?_⟩ (Nat.lt_of_le_of_lt hf hmax) hf)⟩
  · intro x hx
    simp only [claimAccount, Option.some.injEq] at hx
    exact hx ▸ hv
  · rw [hr]
    exact C37_leaf_proofs_are_accepted hp

/-- A tree of three leaves and a path in it. -/
def threeLeaves : MerkleTree := .node (.node (.leaf "alice" 60) (.leaf "bob" 40)) (.leaf "erin" 5)

example : threeLeaves.Path Demo.crypto "bob" 40
    ([(MerkleTree.leaf "alice" 60).hash Demo.crypto] ++ [(MerkleTree.leaf "erin" 5).hash Demo.crypto]) :=
  .left (.right .leaf)

/-- A wrong amount is rejected. -/
example : verifyMerkleProof Demo.crypto Demo.root Demo.bobProof "bob" 41 = .error .invalidProof ∧
    verifyMerkleProof Demo.crypto Demo.root Demo.bobProof "bob" 40 = .ok () := by
  decide +kernel

/-- The hypotheses of `C37_only_leaves_are_paid` for alice's claim of the examples: no collision, no text of 64
bytes. -/
example :
    let t : MerkleTree := .node (.leaf "alice" 60) (.leaf "bob" 40)
    hexDecode32 Demo.root = .ok (t.hash Demo.crypto) ∧ (leafBytes "alice" 60).length ≠ 64 ∧
    ∀ x ∈ t.hashed Demo.crypto, ∀ y ∈ checkHashed Demo.crypto "alice" 60 [(MerkleTree.leaf "bob" 40).hash Demo.crypto],
      Demo.crypto.sha x = Demo.crypto.sha y → x = y := by
  decide +kernel

/-! ### C38 -/

/-- **C38 (leaf).** The bytes of a leaf determine account and amount. -/
theorem C38_leaf_text_is_unambiguous {a a' : String} {n n' : Nat}
    (h : utf8 (leafText a n) = utf8 (leafText a' n')) : a = a' ∧ n = n' :=
  leafText_inj (utf8_inj h)

/-- The same characters in another order of account and amount. -/
example : utf8 (leafText "alice6" 0) ≠ utf8 (leafText "alice" 60) := by decide +kernel

/-- **C38 (signature).** The signed bytes determine claim hash, claimer and amount, when claimers contain no slash. -/
theorem C38_signed_text_is_unambiguous {h h' a a' : String} {n n' : Nat} (ha : '/' ∉ a.toList) (ha' : '/' ∉ a'.toList)
    (e : utf8 (signText h a n) = utf8 (signText h' a' n')) : h = h' ∧ a = a' ∧ n = n' :=
  signText_inj ha ha' (utf8_inj e)

/-- Texts are compared exactly: neighbouring claims differ. -/
example : utf8 (leafText "alice:6" 0) ≠ utf8 (leafText "alice" 60) ∧
    utf8 (signText "salt" "bob" 71) ≠ utf8 (signText "salt" "bob7" 1) := by
  decide +kernel

/-- Without the condition on the claimer two different claims share a signed text. -/
example : signText "a" "b/c" 1 = signText "a/b" "c" 1 := by decide +kernel

end Ibcx.Props
