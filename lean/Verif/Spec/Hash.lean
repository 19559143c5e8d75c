import Mathlib.Data.Nat.Nth
import Mathlib.Data.Nat.Prime.Defs
import Mathlib.Data.Fin.VecNotation
import Mathlib.Logic.Function.Iterate
/-!
# SHA-256 and RIPEMD-160, as the standards define them

FIPS 180-4 and the paper of Dobbertin, Bosselaers and Preneel, over words of 32 bits, with the constants given by what they are
and not by tables: roots of the first primes, permutations of the words.  Independent of the model, which computes with numbers
and tables.
-/

namespace Ibcx.Spec.Hash

/-- A word of 32 bits. -/
abbrev Word := BitVec 32

/-- The integer part of the `e`-th root of `x`. -/
def root (e x : Nat) : Nat := Nat.findGreatest (fun n => n ^ e ≤ x) x

/-- The prime number `t`, counting from zero. -/
noncomputable def prime (t : Nat) : Nat := Nat.nth Nat.Prime t

/-- The message, one bit set, as few zeros as make whole blocks of 64 bytes, and the number of its bits in eight bytes. -/
def Padded (bits : Nat → List UInt8) (m p : List UInt8) : Prop :=
  ∃ k, (m.length + 1 + k + 8) % 64 = 0 ∧ (∀ j < k, (m.length + 1 + j + 8) % 64 ≠ 0) ∧
    p = m ++ [0x80] ++ List.replicate k 0 ++ bits (8 * m.length)

/-- Eight bytes of a number, the highest first. -/
def highFirst (n : Nat) : List UInt8 := (List.range 8).map fun i => UInt8.ofNat (n / 256 ^ (7 - i))

/-- Eight bytes of a number, the lowest first. -/
def lowFirst (n : Nat) : List UInt8 := (List.range 8).map fun i => UInt8.ofNat (n / 256 ^ i)

/-- Byte `i`. -/
def byte (p : List UInt8) (i : Nat) : BitVec 8 := (p.getD i 0).toBitVec

/-- Word `i`, its highest byte first. -/
def wordHigh (p : List UInt8) (i : Nat) : Word := byte p (4 * i) ++ byte p (4 * i + 1) ++ byte p (4 * i + 2) ++ byte p (4 * i + 3)

/-- Word `i`, its lowest byte first. -/
def wordLow (p : List UInt8) (i : Nat) : Word := byte p (4 * i + 3) ++ byte p (4 * i + 2) ++ byte p (4 * i + 1) ++ byte p (4 * i)

/-! ## SHA-256, FIPS 180-4 -/

/-- `Ch`, (4.2). -/
def ch (x y z : Word) : Word := (x &&& y) ^^^ (~~~x &&& z)

/-- `Maj`, (4.3). -/
def maj (x y z : Word) : Word := (x &&& y) ^^^ (x &&& z) ^^^ (y &&& z)

/-- `Σ₀`, (4.4). -/
def bigSigma0 (x : Word) : Word := x.rotateRight 2 ^^^ x.rotateRight 13 ^^^ x.rotateRight 22

/-- `Σ₁`, (4.5). -/
def bigSigma1 (x : Word) : Word := x.rotateRight 6 ^^^ x.rotateRight 11 ^^^ x.rotateRight 25

/-- `σ₀`, (4.6). -/
def sigma0 (x : Word) : Word := x.rotateRight 7 ^^^ x.rotateRight 18 ^^^ x >>> 3

/-- `σ₁`, (4.7). -/
def sigma1 (x : Word) : Word := x.rotateRight 17 ^^^ x.rotateRight 19 ^^^ x >>> 10

/-- The constants, 4.2.2: the first 32 bits after the point of the cube roots of the first 64 primes. -/
noncomputable def shaK (t : Nat) : Word := BitVec.ofNat 32 (root 3 (prime t * 2 ^ 96))

/-- The first hash value, 5.3.3: the first 32 bits after the point of the square roots of the first eight primes. -/
noncomputable def shaH (i : Fin 8) : Word := BitVec.ofNat 32 (root 2 (prime i * 2 ^ 64))

/-- The message schedule, 6.2.2 step 1. -/
def schedule (m : Nat → Word) (t : Nat) : Word :=
  if t < 16 then m t
  else sigma1 (schedule m (t - 2)) + schedule m (t - 7) + sigma0 (schedule m (t - 15)) + schedule m (t - 16)
termination_by t
decreasing_by all_goals omega

/-- One round, 6.2.2 step 3; the words are `a` to `h`. -/
def shaRound (k w : Word) (v : Fin 8 → Word) : Fin 8 → Word :=
  let t1 := v 7 + bigSigma1 (v 4) + ch (v 4) (v 5) (v 6) + k + w
  let t2 := bigSigma0 (v 0) + maj (v 0) (v 1) (v 2)
  ![t1 + t2, v 0, v 1, v 2, v 3 + t1, v 4, v 5, v 6]

/-- A block, 6.2.2: 64 rounds, and the sum with the value before. -/
noncomputable def shaBlock (m : Nat → Word) (h : Fin 8 → Word) : Fin 8 → Word :=
  let v := (List.range 64).foldl (fun v t => shaRound (shaK t) (schedule m t) v) h
  fun i => v i + h i

/-- The bytes are the hash of the message: 32 bytes, whose words are the value after the last block. -/
def IsSha256 (m d : List UInt8) : Prop :=
  ∃ p, Padded highFirst m p ∧ d.length = 32 ∧
    ∀ i : Fin 8, wordHigh d i = (List.range (p.length / 64)).foldl (fun h j => shaBlock (fun t => wordHigh p (16 * j + t)) h) shaH i

/-! ## RIPEMD-160 -/

/-- The functions `f₁` to `f₅`, counting from zero. -/
def ripF (j : Nat) (x y z : Word) : Word :=
  match j with
  | 0 => x ^^^ y ^^^ z
  | 1 => (x &&& y) ||| (~~~x &&& z)
  | 2 => (x ||| ~~~y) ^^^ z
  | 3 => (x &&& z) ||| (y &&& ~~~z)
  | _ => x ^^^ (y ||| ~~~z)

/-- The permutation `ρ`. -/
def rho (i : Nat) : Nat := [7, 4, 13, 1, 10, 6, 15, 3, 12, 0, 9, 5, 2, 14, 11, 8].getD i 0

/-- The permutation `π`. -/
def pi (i : Nat) : Nat := (9 * i + 5) % 16

/-- The word of step `t`: `id, ρ, ρ², ρ³, ρ⁴` on the left, the same after `π` on the right. -/
def choose (right : Bool) (t : Nat) : Nat := rho^[t / 16] (if right then pi (t % 16) else t % 16)

/-- The shifts: one for each round and word, the same on both sides. -/
def shift (round word : Nat) : Nat :=
  ([[11, 14, 15, 12, 5, 8, 7, 9, 11, 13, 14, 15, 6, 7, 9, 8],
    [12, 13, 11, 15, 6, 9, 9, 7, 12, 15, 11, 13, 7, 8, 7, 7],
    [13, 15, 14, 11, 7, 7, 6, 8, 13, 14, 13, 12, 5, 5, 6, 9],
    [14, 11, 12, 14, 8, 6, 5, 5, 15, 12, 15, 14, 9, 9, 8, 6],
    [15, 12, 13, 13, 9, 5, 8, 6, 14, 11, 12, 11, 8, 6, 5, 5]].getD round []).getD word 0

/-- The constants: zero and the square roots of 2, 3, 5, 7 on the left, their cube roots and zero on the right, times `2^30`. -/
def ripK (right : Bool) (round : Nat) : Word :=
  BitVec.ofNat 32 <| if right then [root 3 (2 * 2 ^ 90), root 3 (3 * 2 ^ 90), root 3 (5 * 2 ^ 90), root 3 (7 * 2 ^ 90), 0].getD round 0
    else [0, root 2 (2 * 2 ^ 60), root 2 (3 * 2 ^ 60), root 2 (5 * 2 ^ 60), root 2 (7 * 2 ^ 60)].getD round 0

/-- The first value. -/
def ripH : Fin 5 → Word := ![0x67452301, 0xefcdab89, 0x98badcfe, 0x10325476, 0xc3d2e1f0]

/-- Step `t` on one side; the words are `A` to `E`. -/
def ripStep (right : Bool) (m : Nat → Word) (v : Fin 5 → Word) (t : Nat) : Fin 5 → Word :=
  let f := ripF (if right then 4 - t / 16 else t / 16) (v 1) (v 2) (v 3)
  let w := choose right t
  ![v 4, (v 0 + f + m w + ripK right (t / 16)).rotateLeft (shift (t / 16) w) + v 4, v 1, (v 2).rotateLeft 10, v 3]

/-- A block: 80 steps on both sides, and the sums with the value before. -/
def ripBlock (m : Nat → Word) (h : Fin 5 → Word) : Fin 5 → Word :=
  let l := (List.range 80).foldl (ripStep false m) h
  let r := (List.range 80).foldl (ripStep true m) h
  fun i => h (i + 1) + l (i + 2) + r (i + 3)

/-- The bytes are the hash of the message: 20 bytes, whose words are the value after the last block. -/
def IsRipemd160 (m d : List UInt8) : Prop :=
  ∃ p, Padded lowFirst m p ∧ d.length = 20 ∧
    ∀ i : Fin 5, wordLow d i = (List.range (p.length / 64)).foldl (fun h j => ripBlock (fun t => wordLow p (16 * j + t)) h) ripH i

end Ibcx.Spec.Hash
