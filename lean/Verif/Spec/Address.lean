/-!
# Reading a Bech32 address

A decoder written after the reference code of BIP 173, independent of the model: it checks the prefix, the alphabet
and the checksum and returns the bytes.
-/

namespace Ibcx.Spec

/-- The Bech32 alphabet. -/
def alphabet : List Char := "qpzry9x8gf2tvdw0s3jn54khce6mua7l".toList

/-- `bech32_polymod` of BIP 173. -/
def polymod (values : List Nat) : Nat :=
  values.foldl (fun chk v =>
    let b := chk / 2 ^ 25
    [(0, 0x3b6a57b2), (1, 0x26508e6d), (2, 0x1ea119fa), (3, 0x3d4233dd), (4, 0x2a1462b3)].foldl
      (fun chk g => if b / 2 ^ g.1 % 2 = 1 then chk ^^^ g.2 else chk) (chk % 2 ^ 25 * 32 ^^^ v)) 1

/-- `bech32_hrp_expand` of BIP 173. -/
def expand (pre : String) : List Nat :=
  pre.toList.map (fun c => c.toNat / 32) ++ [0] ++ pre.toList.map (fun c => c.toNat % 32)

/-- Digits in base 32 to a number, most significant first. -/
def number32 (ds : List Nat) : Nat := ds.foldl (fun n d => 32 * n + d) 0

/-- A number as `n` bytes, most significant first. -/
def bytesOf (n x : Nat) : List UInt8 := (List.range n).map (fun i => UInt8.ofNat (x / 256 ^ (n - 1 - i)))

/-- The 20 bytes an address with a prefix stands for; `none` if it is not a valid address of 20 bytes. -/
def decodeAddress (pre text : String) : Option (List UInt8) :=
  let head := pre.toList ++ ['1']
  if text.toList.take head.length = head then
    match (text.toList.drop head.length).mapM alphabet.idxOf? with
    | some vs =>
      if vs.length = 38 ∧ polymod (expand pre ++ vs) = 1 then some (bytesOf 20 (number32 (vs.take 32))) else none
    | none => none
  else none

end Ibcx.Spec
