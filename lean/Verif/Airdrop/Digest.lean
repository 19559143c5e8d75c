import Verif.Airdrop.Verify
/-!
# SHA-256, RIPEMD-160 and Bech32

The contract calls the crates `sha2`, `ripemd` and `bech32` (`/repo/contracts/airdrop/src/verify.rs:1-39`).  The crates
are not part of `/repo`; these definitions follow the standards they implement (FIPS 180-4, the RIPEMD-160 paper and
BIP 173), so that `pub_to_addr` is modelled down to the bits.  The theorems about the contract hold for every
`Crypto`; the definitions here give one that agrees with the test vectors of the repository
(`Verif/Conformance/Airdrop.lean`).
-/

namespace Ibcx.Airdrop
open Ibcx

namespace Digest

/-- `2^32`.  Under `/repo/contracts/airdrop/src/verify.rs:7-39`. -/
def W : Nat := 4294967296

/-- Rotation of a 32 bit word to the right.  Under `/repo/contracts/airdrop/src/verify.rs:7-39`. -/
def rotr (n x : Nat) : Nat := ((x >>> n) ||| (x <<< (32 - n))) % W

/-- Rotation of a 32 bit word to the left.  Under `/repo/contracts/airdrop/src/verify.rs:7-39`. -/
def rotl (n x : Nat) : Nat := ((x <<< n) ||| (x >>> (32 - n))) % W

/-- Complement of a 32 bit word.  Under `/repo/contracts/airdrop/src/verify.rs:7-39`. -/
def not32 (x : Nat) : Nat := x ^^^ 4294967295

/-- The last `n` bytes of a number, most significant first.  Under `/repo/contracts/airdrop/src/verify.rs:7-39`. -/
def bytesBE : Nat → Nat → Bytes
  | 0, _ => []
  | n + 1, x => bytesBE n (x / 256) ++ [UInt8.ofNat (x % 256)]

/-- The first `n` bytes of a number, least significant first.  Under `/repo/contracts/airdrop/src/verify.rs:7-39`. -/
def bytesLE : Nat → Nat → Bytes
  | 0, _ => []
  | n + 1, x => UInt8.ofNat (x % 256) :: bytesLE n (x / 256)

/-- Bytes to a number, most significant first.  Under `/repo/contracts/airdrop/src/verify.rs:7-39`. -/
def ofBytesBE (bs : Bytes) : Nat := bs.foldl (fun n b => 256 * n + b.toNat) 0

/-- Bytes to 32 bit words, most significant byte first.  Under `/repo/contracts/airdrop/src/verify.rs:7-39`. -/
def wordsBE : Bytes → List Nat
  | a :: b :: c :: d :: r => (a.toNat * 16777216 + b.toNat * 65536 + c.toNat * 256 + d.toNat) :: wordsBE r
  | _ => []

/-- Bytes to 32 bit words, least significant byte first.  Under `/repo/contracts/airdrop/src/verify.rs:7-39`. -/
def wordsLE : Bytes → List Nat
  | a :: b :: c :: d :: r => (d.toNat * 16777216 + c.toNat * 65536 + b.toNat * 256 + a.toNat) :: wordsLE r
  | _ => []

/-- The padding in front of the length: `0x80` and zeros up to 56 modulo 64.  Under
`/repo/contracts/airdrop/src/verify.rs:7-39`. -/
def padZeros (len : Nat) : Bytes := 128 :: List.replicate ((119 - len % 64) % 64) 0

/-- Blocks of sixteen words.  Under `/repo/contracts/airdrop/src/verify.rs:7-39`. -/
def blocks : Nat → List Nat → List (List Nat)
  | 0, _ => []
  | n + 1, ws => ws.take 16 :: blocks n (ws.drop 16)

/-! ## SHA-256 (FIPS 180-4) -/

/-- Round constants.  Under `/repo/contracts/airdrop/src/verify.rs:7-17`. -/
def shaK : List Nat :=
  [0x428a2f98, 0x71374491, 0xb5c0fbcf, 0xe9b5dba5, 0x3956c25b, 0x59f111f1, 0x923f82a4, 0xab1c5ed5,
   0xd807aa98, 0x12835b01, 0x243185be, 0x550c7dc3, 0x72be5d74, 0x80deb1fe, 0x9bdc06a7, 0xc19bf174,
   0xe49b69c1, 0xefbe4786, 0x0fc19dc6, 0x240ca1cc, 0x2de92c6f, 0x4a7484aa, 0x5cb0a9dc, 0x76f988da,
   0x983e5152, 0xa831c66d, 0xb00327c8, 0xbf597fc7, 0xc6e00bf3, 0xd5a79147, 0x06ca6351, 0x14292967,
   0x27b70a85, 0x2e1b2138, 0x4d2c6dfc, 0x53380d13, 0x650a7354, 0x766a0abb, 0x81c2c92e, 0x92722c85,
   0xa2bfe8a1, 0xa81a664b, 0xc24b8b70, 0xc76c51a3, 0xd192e819, 0xd6990624, 0xf40e3585, 0x106aa070,
   0x19a4c116, 0x1e376c08, 0x2748774c, 0x34b0bcb5, 0x391c0cb3, 0x4ed8aa4a, 0x5b9cca4f, 0x682e6ff3,
   0x748f82ee, 0x78a5636f, 0x84c87814, 0x8cc70208, 0x90befffa, 0xa4506ceb, 0xbef9a3f7, 0xc67178f2]

/-- The eight words of the state.  Under `/repo/contracts/airdrop/src/verify.rs:7-39`. -/
structure Sha where
  a : Nat
  b : Nat
  c : Nat
  d : Nat
  e : Nat
  f : Nat
  g : Nat
  h : Nat

/-- Initial state.  Under `/repo/contracts/airdrop/src/verify.rs:7-17`. -/
def shaInit : Sha :=
  ⟨0x6a09e667, 0xbb67ae85, 0x3c6ef372, 0xa54ff53a, 0x510e527f, 0x9b05688c, 0x1f83d9ab, 0x5be0cd19⟩

/-- The message schedule, newest word first.  Under `/repo/contracts/airdrop/src/verify.rs:7-17`. -/
def shaSchedule : Nat → List Nat → List Nat
  | 0, ws => ws
  | n + 1, ws =>
    let x := ws.getD 1 0
    let y := ws.getD 14 0
    let s1 := rotr 17 x ^^^ rotr 19 x ^^^ (x >>> 10)
    let s0 := rotr 7 y ^^^ rotr 18 y ^^^ (y >>> 3)
    shaSchedule n ((s1 + ws.getD 6 0 + s0 + ws.getD 15 0) % W :: ws)

/-- One round with constant `k` and word `w`.  Under `/repo/contracts/airdrop/src/verify.rs:7-17`. -/
def shaRound (s : Sha) (k w : Nat) : Sha :=
  let t1 := s.h + (rotr 6 s.e ^^^ rotr 11 s.e ^^^ rotr 25 s.e) + ((s.e &&& s.f) ^^^ (not32 s.e &&& s.g)) + k + w
  let t2 := (rotr 2 s.a ^^^ rotr 13 s.a ^^^ rotr 22 s.a) + ((s.a &&& s.b) ^^^ (s.a &&& s.c) ^^^ (s.b &&& s.c))
  ⟨(t1 + t2) % W, s.a, s.b, s.c, (s.d + t1) % W, s.e, s.f, s.g⟩

/-- The rounds.  Under `/repo/contracts/airdrop/src/verify.rs:7-17`. -/
def shaRounds : Sha → List Nat → List Nat → Sha
  | s, k :: ks, w :: ws => shaRounds (shaRound s k w) ks ws
  | s, _, _ => s

/-- The compression function.  Under `/repo/contracts/airdrop/src/verify.rs:7-17`. -/
def shaBlock (s : Sha) (block : List Nat) : Sha :=
  let t := shaRounds s shaK (shaSchedule 48 block.reverse).reverse
  ⟨(s.a + t.a) % W, (s.b + t.b) % W, (s.c + t.c) % W, (s.d + t.d) % W,
   (s.e + t.e) % W, (s.f + t.f) % W, (s.g + t.g) % W, (s.h + t.h) % W⟩

/-- The state after a message.  Under `/repo/contracts/airdrop/src/verify.rs:7-17`. -/
def shaState (m : Bytes) : Sha :=
  let ws := wordsBE (m ++ (padZeros m.length ++ bytesBE 8 (8 * m.length)))
  (blocks (ws.length / 16) ws).foldl shaBlock shaInit

/-- The state as 32 bytes.  Under `/repo/contracts/airdrop/src/verify.rs:7-17`. -/
def shaBytes (s : Sha) : Bytes :=
  bytesBE 4 s.a ++ bytesBE 4 s.b ++ bytesBE 4 s.c ++ bytesBE 4 s.d ++
    bytesBE 4 s.e ++ bytesBE 4 s.f ++ bytesBE 4 s.g ++ bytesBE 4 s.h

theorem bytesBE_length (n x : Nat) : (bytesBE n x).length = n := by
  induction n generalizing x with
  | zero => rfl
  | succ n ih => simp [bytesBE, ih]

theorem bytesLE_length (n x : Nat) : (bytesLE n x).length = n := by
  induction n generalizing x with
  | zero => rfl
  | succ n ih => simp [bytesLE, ih]

/-- `sha256_digest`, `/repo/contracts/airdrop/src/verify.rs:7-17`. -/
def sha256 (m : Bytes) : Hash32 :=
  ⟨shaBytes (shaState m), by simp [shaBytes, bytesBE_length]⟩

/-! ## RIPEMD-160 -/

/-- Order of the words in the left line.  Under `/repo/contracts/airdrop/src/verify.rs:19-29`. -/
def ripR : List Nat :=
  [0, 1, 2, 3, 4, 5, 6, 7, 8, 9, 10, 11, 12, 13, 14, 15,
   7, 4, 13, 1, 10, 6, 15, 3, 12, 0, 9, 5, 2, 14, 11, 8,
   3, 10, 14, 4, 9, 15, 8, 1, 2, 7, 0, 6, 13, 11, 5, 12,
   1, 9, 11, 10, 0, 8, 12, 4, 13, 3, 7, 15, 14, 5, 6, 2,
   4, 0, 5, 9, 7, 12, 2, 10, 14, 1, 3, 8, 11, 6, 15, 13]

/-- Order of the words in the right line.  Under `/repo/contracts/airdrop/src/verify.rs:19-29`. -/
def ripR' : List Nat :=
  [5, 14, 7, 0, 9, 2, 11, 4, 13, 6, 15, 8, 1, 10, 3, 12,
   6, 11, 3, 7, 0, 13, 5, 10, 14, 15, 8, 12, 4, 9, 1, 2,
   15, 5, 1, 3, 7, 14, 6, 9, 11, 8, 12, 2, 10, 0, 4, 13,
   8, 6, 4, 1, 3, 11, 15, 0, 5, 12, 2, 13, 9, 7, 10, 14,
   12, 15, 10, 4, 1, 5, 8, 7, 6, 2, 13, 14, 0, 3, 9, 11]

/-- Rotations of the left line.  Under `/repo/contracts/airdrop/src/verify.rs:19-29`. -/
def ripS : List Nat :=
  [11, 14, 15, 12, 5, 8, 7, 9, 11, 13, 14, 15, 6, 7, 9, 8,
   7, 6, 8, 13, 11, 9, 7, 15, 7, 12, 15, 9, 11, 7, 13, 12,
   11, 13, 6, 7, 14, 9, 13, 15, 14, 8, 13, 6, 5, 12, 7, 5,
   11, 12, 14, 15, 14, 15, 9, 8, 9, 14, 5, 6, 8, 6, 5, 12,
   9, 15, 5, 11, 6, 8, 13, 12, 5, 12, 13, 14, 11, 8, 5, 6]

/-- Rotations of the right line.  Under `/repo/contracts/airdrop/src/verify.rs:19-29`. -/
def ripS' : List Nat :=
  [8, 9, 9, 11, 13, 15, 15, 5, 7, 7, 8, 11, 14, 14, 12, 6,
   9, 13, 15, 7, 12, 8, 9, 11, 7, 7, 12, 7, 6, 15, 13, 11,
   9, 7, 15, 11, 8, 6, 6, 14, 12, 13, 5, 14, 13, 13, 7, 5,
   15, 5, 8, 11, 14, 14, 6, 14, 6, 9, 12, 9, 12, 5, 15, 8,
   8, 5, 12, 9, 12, 5, 14, 6, 8, 13, 6, 5, 15, 13, 11, 11]

/-- Constants of the left line, one for each sixteen steps.  Under `/repo/contracts/airdrop/src/verify.rs:19-29`. -/
def ripK : List Nat := [0x00000000, 0x5a827999, 0x6ed9eba1, 0x8f1bbcdc, 0xa953fd4e]

/-- Constants of the right line.  Under `/repo/contracts/airdrop/src/verify.rs:19-29`. -/
def ripK' : List Nat := [0x50a28be6, 0x5c4dd124, 0x6d703ef3, 0x7a6d76e9, 0x00000000]

/-- The five functions.  Under `/repo/contracts/airdrop/src/verify.rs:19-29`. -/
def ripF (j x y z : Nat) : Nat :=
  match j with
  | 0 => x ^^^ y ^^^ z
  | 1 => (x &&& y) ||| (not32 x &&& z)
  | 2 => (x ||| not32 y) ^^^ z
  | 3 => (x &&& z) ||| (y &&& not32 z)
  | _ => x ^^^ (y ||| not32 z)

/-- The five words of a line.  Under `/repo/contracts/airdrop/src/verify.rs:7-39`. -/
structure Rip where
  a : Nat
  b : Nat
  c : Nat
  d : Nat
  e : Nat

/-- Initial state.  Under `/repo/contracts/airdrop/src/verify.rs:19-29`. -/
def ripInit : Rip := ⟨0x67452301, 0xefcdab89, 0x98badcfe, 0x10325476, 0xc3d2e1f0⟩

/-- One step: function `j`, word `x`, constant `k`, rotation `s`.  Under
`/repo/contracts/airdrop/src/verify.rs:19-29`. -/
def ripStep (r : Rip) (j x k s : Nat) : Rip :=
  ⟨r.e, (rotl s ((r.a + ripF j r.b r.c r.d + x + k) % W) + r.e) % W, r.b, rotl 10 r.c, r.d⟩

/-- One line; step `n` uses function `fn (n / 16)` and constant `n / 16`.  Under
`/repo/contracts/airdrop/src/verify.rs:19-29`. -/
def ripLine (fn : Nat → Nat) (ks block : List Nat) : Nat → List Nat → List Nat → Rip → Rip
  | n, w :: ws, s :: ss, r =>
    ripLine fn ks block (n + 1) ws ss (ripStep r (fn (n / 16)) (block.getD w 0) (ks.getD (n / 16) 0) s)
  | _, _, _, r => r

/-- The compression function.  Under `/repo/contracts/airdrop/src/verify.rs:19-29`. -/
def ripBlock (s : Rip) (block : List Nat) : Rip :=
  let l := ripLine (fun j => j) ripK block 0 ripR ripS s
  let r := ripLine (fun j => 4 - j) ripK' block 0 ripR' ripS' s
  ⟨(s.b + l.c + r.d) % W, (s.c + l.d + r.e) % W, (s.d + l.e + r.a) % W, (s.e + l.a + r.b) % W,
   (s.a + l.b + r.c) % W⟩

/-- The state after a message.  Under `/repo/contracts/airdrop/src/verify.rs:19-29`. -/
def ripState (m : Bytes) : Rip :=
  let ws := wordsLE (m ++ (padZeros m.length ++ bytesLE 8 (8 * m.length)))
  (blocks (ws.length / 16) ws).foldl ripBlock ripInit

/-- `ripemd160_digest`, `/repo/contracts/airdrop/src/verify.rs:19-29`: 20 bytes. -/
def ripemd160 (m : Bytes) : Bytes :=
  let s := ripState m
  bytesLE 4 s.a ++ bytesLE 4 s.b ++ bytesLE 4 s.c ++ bytesLE 4 s.d ++ bytesLE 4 s.e

theorem ripemd160_length (m : Bytes) : (ripemd160 m).length = 20 := by
  simp [ripemd160, bytesLE_length]

/-! ## Bech32 (BIP 173) -/

/-- The last `n` groups of five bits of a number, most significant first.  Under
`/repo/contracts/airdrop/src/verify.rs:31-39`. -/
def base32 : Nat → Nat → List Nat
  | 0, _ => []
  | n + 1, x => base32 n (x / 32) ++ [x % 32]

/-- `to_base32` for 20 bytes: 160 bits are exactly 32 groups of five, so no padding bits are added.  Under
`/repo/contracts/airdrop/src/verify.rs:31-39`. -/
def toBase32 (bs : Bytes) : List Nat := base32 32 (ofBytesBE bs)

/-- The 32 characters.  Under `/repo/contracts/airdrop/src/verify.rs:31-39`. -/
def bech32Chars : List Char := "qpzry9x8gf2tvdw0s3jn54khce6mua7l".toList

/-- The character of a group.  Under `/repo/contracts/airdrop/src/verify.rs:31-39`. -/
def bech32Char (x : Nat) : Char := bech32Chars.getD x 'q'

/-- One step of the checksum.  Under `/repo/contracts/airdrop/src/verify.rs:31-39`. -/
def polymodStep (chk v : Nat) : Nat :=
  let top := chk >>> 25
  let c := ((chk &&& 0x1ffffff) <<< 5) ^^^ v
  let c := if top.testBit 0 then c ^^^ 0x3b6a57b2 else c
  let c := if top.testBit 1 then c ^^^ 0x26508e6d else c
  let c := if top.testBit 2 then c ^^^ 0x1ea119fa else c
  let c := if top.testBit 3 then c ^^^ 0x3d4233dd else c
  if top.testBit 4 then c ^^^ 0x2a1462b3 else c

/-- The human readable part inside the checksum.  Under `/repo/contracts/airdrop/src/verify.rs:31-39`. -/
def hrpExpand (hrp : String) : List Nat :=
  hrp.toList.map (fun c => c.toNat / 32) ++ 0 :: hrp.toList.map (fun c => c.toNat % 32)

/-- The checksum: six groups (variant `Bech32`: the final constant is 1).  Under
`/repo/contracts/airdrop/src/verify.rs:31-39`. -/
def bech32Checksum (hrp : String) (data : List Nat) : List Nat :=
  base32 6 ((hrpExpand hrp ++ data ++ [0, 0, 0, 0, 0, 0]).foldl polymodStep 1 ^^^ 1)

/-- `bech32::encode(hrp, data, Variant::Bech32)`, `/repo/contracts/airdrop/src/verify.rs:35`.  Simplified: the errors
for an empty or mixed case
prefix are left out; the contract only uses `"osmo"`. -/
def bech32Encode (hrp : String) (data : List Nat) : String :=
  hrp ++ "1" ++ String.ofList ((data ++ bech32Checksum hrp data).map bech32Char)

/-- `pub_to_addr`, `/repo/contracts/airdrop/src/verify.rs:31-39`. -/
def pubToAddr (pubKey : Bytes) (prefix_ : String) : Addr :=
  bech32Encode prefix_ (toBase32 (ripemd160 (sha256 pubKey).bytes))

end Digest

/-- The primitives with the contract's own hashes and addresses; only the signature check is left open.  Under
`/repo/contracts/airdrop/src/verify.rs:7-39`. -/
def realCrypto (verify : Hash32 → Bytes → Bytes → Res Bool) : Crypto :=
  { sha := Digest.sha256
    addrOf := fun pub => Digest.pubToAddr pub "osmo"
    verify := verify }

end Ibcx.Airdrop
