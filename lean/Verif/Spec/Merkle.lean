import Verif.Airdrop.Verify
/-!
# Merkle trees

The trees whose roots are registered; used to state what an accepted proof means.
-/

namespace Ibcx.Spec
open Ibcx Ibcx.Airdrop

/-- A binary tree over pairs of an account (or claim hash) and an amount. -/
inductive MerkleTree where
  | leaf (who : String) (amount : Nat)
  | node (l r : MerkleTree)
deriving DecidableEq, Repr

/-- The bytes hashed for a leaf: account, colon, decimal amount. -/
def leafBytes (who : String) (amount : Nat) : Bytes := (who ++ ":" ++ toString amount).toUTF8.data.toList

/-- The bytes hashed for an inner node: the two hashes, the smaller one first. -/
def pairBytes (a b : Hash32) : Bytes := if a.bytes ≤ b.bytes then a.bytes ++ b.bytes else b.bytes ++ a.bytes

/-- Hash of a tree. -/
def MerkleTree.hash (c : Crypto) : MerkleTree → Hash32
  | .leaf who amount => c.sha (leafBytes who amount)
  | .node l r => c.sha (pairBytes (l.hash c) (r.hash c))

/-- The pair is a leaf of the tree. -/
def MerkleTree.Has (who : String) (amount : Nat) : MerkleTree → Prop
  | .leaf w a => w = who ∧ a = amount
  | .node l r => l.Has who amount ∨ r.Has who amount

/-- Sum of the amounts of a tree. -/
def MerkleTree.total : MerkleTree → Nat
  | .leaf _ a => a
  | .node l r => l.total + r.total

/-- The path of a leaf: the hashes of the siblings from the leaf up to the root. -/
inductive MerkleTree.Path (c : Crypto) (who : String) (amount : Nat) : MerkleTree → List Hash32 → Prop
  | leaf : Path c who amount (.leaf who amount) []
  | left {l r : MerkleTree} {p : List Hash32} : Path c who amount l p → Path c who amount (.node l r) (p ++ [r.hash c])
  | right {l r : MerkleTree} {p : List Hash32} : Path c who amount r p → Path c who amount (.node l r) (p ++ [l.hash c])

/-- All byte strings hashed when the tree is built. -/
def MerkleTree.hashed (c : Crypto) : MerkleTree → List Bytes
  | .leaf who amount => [leafBytes who amount]
  | .node l r => pairBytes (l.hash c) (r.hash c) :: (l.hashed c ++ r.hashed c)

/-- The byte strings hashed on the way up from a hash along a path. -/
def pathHashed (c : Crypto) : Hash32 → List Hash32 → List Bytes
  | _, [] => []
  | h, p :: ps => pairBytes h p :: pathHashed c (c.sha (pairBytes h p)) ps

/-- All byte strings hashed when a proof is checked. -/
def checkHashed (c : Crypto) (who : String) (amount : Nat) (path : List Hash32) : List Bytes :=
  leafBytes who amount :: pathHashed c (c.sha (leafBytes who amount)) path

/-- Hex digit of a number below 16. -/
def hexDigit (n : Nat) : Char := if n < 10 then Char.ofNat (48 + n) else Char.ofNat (87 + n)

/-- Lower-case hex text of bytes. -/
def hexText (bs : Bytes) : String :=
  String.ofList (bs.flatMap (fun b => [hexDigit (b.toNat / 16), hexDigit (b.toNat % 16)]))

end Ibcx.Spec
