import Verif.Airdrop.Query
/-!
# A concrete airdrop used by the examples
-/

namespace Ibcx.Airdrop.Demo
open Ibcx Ibcx.Airdrop

instance {α β : Type} [DecidableEq α] [DecidableEq β] : DecidableEq (Except α β)
  | .ok a, .ok b => if h : a = b then .isTrue (by rw [h]) else .isFalse (by simpa using h)
  | .error a, .error b => if h : a = b then .isTrue (by rw [h]) else .isFalse (by simpa using h)
  | .ok _, .error _ => .isFalse (by simp)
  | .error _, .ok _ => .isFalse (by simp)

/-- One round of the toy hash. -/
def mixByte (st : Bytes) (b : UInt8) : Bytes := st.tail ++ [st.headD 0 * 5 + b * 3 + 7]

theorem mix_length (st : Bytes) (x : Bytes) (h : st.length = 32) : (x.foldl mixByte st).length = 32 := by
  induction x generalizing st with
  | nil => exact h
  | cons b x ih =>
    apply ih
    simp [mixByte, h]

/-- A toy hash function with 32 bytes. -/
def toySha (x : Bytes) : Hash32 := ⟨x.foldl mixByte (List.replicate 32 0), mix_length _ _ (by decide)⟩

/-- Toy primitives: a signature of a digest is the digest followed by the public key. -/
def crypto : Crypto :=
  { sha := toySha
    addrOf := fun pub => if pub = [1, 2] then "osmo1signer" else "osmo1other"
    verify := fun h sig pub => .ok (sig = h.bytes ++ pub) }

/-- Environment of the examples. -/
def env (height : Nat) : Env :=
  { now := 0, height := height, contract := "airdrop", validAddr := fun a => a ≠ ""
    estOut := fun _ _ => .error .querier, estIn := fun _ _ => .error .querier }

def hexDigit (n : Nat) : Char := if n < 10 then Char.ofNat (48 + n) else Char.ofNat (87 + n)

/-- Hex text of bytes. -/
def toHex (bs : Bytes) : String :=
  String.ofList (bs.flatMap (fun b => [hexDigit (b.toNat / 16), hexDigit (b.toNat % 16)]))

/-- Hash of a leaf. -/
def leaf (who : String) (amount : Nat) : Hash32 := crypto.sha (utf8 (who ++ ":" ++ toString amount))

/-- Root of the tree with alice's 60 and bob's 40. -/
def root : String := toHex (crypto.sha (sortedConcat (leaf "alice" 60) (leaf "bob" 40))).bytes

def aliceProof : List String := [toHex (leaf "bob" 40).bytes]
def bobProof : List String := [toHex (leaf "alice" 60).bytes]

/-- Carol registers an open airdrop of 50 uosmo with the label "gift". -/
def reg : Call := ⟨env 10, ⟨"carol", [⟨"uosmo", 50⟩]⟩, .register (.openDrop root "uosmo" (some "gift"))⟩
/-- Carol adds 30 uosmo. -/
def fund : Call := ⟨env 11, ⟨"carol", [⟨"uosmo", 30⟩]⟩, .fund (.label "carol/gift")⟩
/-- Dave claims alice's 60 for alice. -/
def claimAlice : Call := ⟨env 12, ⟨"dave", []⟩, .claim (.openDrop (.id 0) 60 (some "alice") aliceProof)⟩
/-- Bob claims 40. -/
def claimBob : Call := ⟨env 12, ⟨"bob", []⟩, .claim (.openDrop (.id 0) 40 none bobProof)⟩
/-- Carol closes the airdrop. -/
def close : Call := ⟨env 13, ⟨"carol", []⟩, .close (.id 0)⟩

/-- Carol registers a bearer airdrop whose only leaf is the claim hash "salt" with 7. -/
def regBearer : Call := ⟨env 14, ⟨"carol", [⟨"uosmo", 70⟩]⟩,
  .register (.bearer (toHex (leaf "salt" 7).bytes) "uosmo" "0102"
    (toHex ((crypto.sha (utf8 "osmo1signer")).bytes ++ [1, 2])) none)⟩
/-- Bob redeems it. -/
def claimSalt : Call := ⟨env 15, ⟨"bob", []⟩, .claim (.bearer (.id 1) 7 none "salt"
    (toHex ((crypto.sha (utf8 "salt/bob/7")).bytes ++ [1, 2])) [])⟩

end Ibcx.Airdrop.Demo
