import Verif.Num
/-!
# Hashes, hex and Merkle proofs

Models `/repo/contracts/airdrop/src/verify.rs`.
-/

namespace Ibcx.Airdrop
open Ibcx

/-- Byte strings.  Arguments of `/repo/contracts/airdrop/src/verify.rs:7-39`. -/
abbrev Bytes := List UInt8

/-- `[u8; 32]`.  `/repo/contracts/airdrop/src/verify.rs:7,53,61`. -/
structure Hash32 where
  bytes : Bytes
  len : bytes.length = 32
deriving DecidableEq

/-- The cryptographic primitives; all of them arbitrary.
* `sha` is `sha256_digest`, `/repo/contracts/airdrop/src/verify.rs:7-17` (its length check never fails);
* `addrOf` is `pub_to_addr(_, "osmo")`, `/repo/contracts/airdrop/src/verify.rs:31-39` (SHA-256, RIPEMD-160 and Bech32
of a fixed prefix and
  length, which never fail);
* `verify` is `deps.api.secp256k1_verify(digest, signature, public_key)`, which may also return an error. -/
structure Crypto where
  sha : Bytes → Hash32
  addrOf : Bytes → Addr
  verify : Hash32 → Bytes → Bytes → Res Bool

/-- `str::as_bytes`.  `/repo/contracts/airdrop/src/verify.rs:50`. -/
def utf8 (s : String) : Bytes := s.toUTF8.data.toList

/-- Value of a hex digit, either case (crate `hex` 0.4.3, `val`).  Under
`/repo/contracts/airdrop/src/verify.rs:54,62`. -/
def hexVal (c : Char) : Option Nat :=
  if '0' ≤ c ∧ c ≤ '9' then some (c.toNat - 48)
  else if 'a' ≤ c ∧ c ≤ 'f' then some (c.toNat - 87)
  else if 'A' ≤ c ∧ c ≤ 'F' then some (c.toNat - 55)
  else none

/-- Pairs of hex digits to bytes.  Under `/repo/contracts/airdrop/src/verify.rs:54,62`. -/
def hexChars : List Char → Option Bytes
  | [] => some []
  | [_] => none
  | a :: b :: cs => do
    let x ← hexVal a
    let y ← hexVal b
    let rest ← hexChars cs
    some (UInt8.ofNat (16 * x + y) :: rest)

/-- `hex::decode` (crate `hex` 0.4.3).  Simplified: works on characters instead of bytes; a string with a
non-ASCII character fails in both.  Called in `/repo/contracts/airdrop/src/query/claim.rs:122` and in
`/repo/contracts/airdrop/src/execute/register.rs:132-133`. -/
def hexDecode (s : String) : Res Bytes :=
  match hexChars s.toList with
  | some bs => .ok bs
  | none => .error .hex

/-- `hex::decode_to_slice` into a buffer of 32 bytes.  Called in `/repo/contracts/airdrop/src/verify.rs:54,62`,
`/repo/contracts/airdrop/src/execute/register.rs:61`. -/
def hexDecode32 (s : String) : Res Hash32 :=
  match hexDecode s with
  | .ok bs => if h : bs.length = 32 then .ok ⟨bs, h⟩ else .error .hex
  | .error e => .error e

/-- `let mut hashes = [hash, proof_buf]; hashes.sort_unstable(); hashes.concat()`,
`/repo/contracts/airdrop/src/verify.rs:55-58`
(lexicographic order of byte arrays). -/
def sortedConcat (a b : Hash32) : Bytes :=
  if b.bytes < a.bytes then b.bytes ++ a.bytes else a.bytes ++ b.bytes

/-- The `try_fold` over the proof, `/repo/contracts/airdrop/src/verify.rs:52-59`. -/
def foldProof (c : Crypto) : Hash32 → List String → Res Hash32
  | h, [] => .ok h
  | h, p :: ps => do
    let b ← hexDecode32 p
    foldProof c (c.sha (sortedConcat h b)) ps

/-- `format!("{claim_proof}:{amount}")`, `/repo/contracts/airdrop/src/verify.rs:48`. -/
def leafText (claimProof : String) (amount : Nat) : String := claimProof ++ ":" ++ toString amount

/-- `verify_merkle_proof`, `/repo/contracts/airdrop/src/verify.rs:42-68`. -/
def verifyMerkleProof (c : Crypto) (root : String) (proof : List String) (claimProof : String) (amount : Nat) :
    Res Unit := do
  let hash := c.sha (utf8 (leafText claimProof amount))
  let hash ← foldProof c hash proof
  let rootBuf ← hexDecode32 root
  require (rootBuf = hash) .invalidProof

end Ibcx.Airdrop
