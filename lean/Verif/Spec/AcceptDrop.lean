import Verif.Spec.Airdrop
import Verif.Spec.Merkle
import Mathlib.Data.List.Forall2
/-!
# Vocabulary for the exact acceptance of airdrop messages
-/

namespace Ibcx.Spec
open Ibcx Ibcx.Airdrop

/-- `text` is a hex text of the bytes, with digits of either case. -/
def HexOf (text : String) (bs : Bytes) : Prop := text.toList.map Char.toLower = (hexText bs).toList

/-- The hash reached from `h` by hashing it together with the hashes of a path, one after the other, the
smaller hash of each pair first. -/
def reach (c : Crypto) : Hash32 → List Hash32 → Hash32
  | h, [] => h
  | h, p :: ps => reach c (c.sha (pairBytes h p)) ps

/-- The proof texts are the hex of a path that leads from the leaf of `who` and `amount` to the root. -/
def ProofHolds (c : Crypto) (root : String) (proof : List String) (who : String) (amount : Nat) : Prop :=
  ∃ path : List Hash32, List.Forall₂ (fun text h => HexOf text h.bytes) proof path ∧
    HexOf root (reach c (c.sha (leafBytes who amount)) path).bytes

/-- The signature text is the hex of a signature of the message by the key. -/
def SignedBy (c : Crypto) (pub : Bytes) (text message : String) : Prop :=
  ∃ sig, HexOf text sig ∧ c.verify (c.sha message.toUTF8.data.toList) sig pub = .ok true

end Ibcx.Spec
