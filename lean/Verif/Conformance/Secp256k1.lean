import Verif.Airdrop.Digest
/-!
# ECDSA over secp256k1, for the tests

The contract asks the chain to check signatures (`deps.api.secp256k1_verify`); the chain is not part of `/repo` and
the theorems leave the check open.  To replay the contract's tests with their real signatures, this file follows
`cosmwasm_crypto::secp256k1_verify` 1.5.2: a 64 byte signature with both halves in range, either half `s` accepted,
a compressed or uncompressed key on the curve.
-/

namespace Ibcx.Airdrop.Secp
open Ibcx Ibcx.Airdrop Ibcx.Airdrop.Digest

/-- The prime of the field. -/
def P : Nat := 0xfffffffffffffffffffffffffffffffffffffffffffffffffffffffefffffc2f

/-- The order of the group. -/
def N : Nat := 0xfffffffffffffffffffffffffffffffebaaedce6af48a03bbfd25e8cd0364141

/-- A point in Jacobian coordinates; `z = 0` is the neutral element. -/
structure Point where
  x : Nat
  y : Nat
  z : Nat

/-- The generator. -/
def G : Point :=
  ⟨0x79be667ef9dcbbac55a06295ce870b07029bfcdb2dce28d959f2815b16f81798,
   0x483ada7726a3c4655da4fbfc0e1108a8fd17b448a68554199c47d08ffb10d4b8, 1⟩

/-- Difference modulo `P`. -/
def subP (a b : Nat) : Nat := (a + P - b) % P

/-- Doubling. -/
def dbl (p : Point) : Point :=
  let yy := p.y * p.y % P
  let s := 4 * p.x * yy % P
  let m := 3 * p.x * p.x % P
  let x := subP (m * m % P) (2 * s % P)
  ⟨x, subP (m * subP s x % P) (8 * yy * yy % P), 2 * p.y * p.z % P⟩

/-- Addition. -/
def addPt (p q : Point) : Point :=
  if p.z = 0 then q
  else if q.z = 0 then p
  else
    let pz := p.z * p.z % P
    let qz := q.z * q.z % P
    let u1 := p.x * qz % P
    let u2 := q.x * pz % P
    let s1 := p.y * (q.z * qz % P) % P
    let s2 := q.y * (p.z * pz % P) % P
    if u1 = u2 then (if s1 = s2 then dbl p else ⟨1, 1, 0⟩)
    else
      let h := subP u2 u1
      let r := subP s2 s1
      let hh := h * h % P
      let hhh := h * hh % P
      let v := u1 * hh % P
      let x := subP (r * r % P) ((hhh + 2 * v) % P)
      ⟨x, subP (r * subP v x % P) (s1 * hhh % P), h * (p.z * q.z % P) % P⟩

/-- `k1 · p + k2 · q`, bits from the top; `n` is the number of bits. -/
def mul2 (p q pq : Point) (k1 k2 : Nat) : Nat → Point → Point
  | 0, acc => acc
  | n + 1, acc =>
    let a := dbl acc
    mul2 p q pq k1 k2 n
      (match k1.testBit n, k2.testBit n with
       | true, true => addPt a pq
       | true, false => addPt a p
       | false, true => addPt a q
       | false, false => a)

/-- Powers modulo `m`, bits from the top. -/
def powMod (m b e : Nat) : Nat → Nat → Nat
  | 0, acc => acc
  | n + 1, acc =>
    if e.testBit n then powMod m b e n (acc * acc % m * b % m) else powMod m b e n (acc * acc % m)

/-- The key of 33 or 65 bytes as a point of the curve. -/
def readKey (key : Bytes) : Option Point :=
  match key with
  | 2 :: r | 3 :: r =>
    if r.length = 32 ∧ ofBytesBE r < P then
      let x := ofBytesBE r
      let c := (x * x % P * x + 7) % P
      let y := powMod P c ((P + 1) / 4) 256 1
      if y * y % P = c then
        some ⟨x, if y % 2 = (key.headD 0).toNat % 2 then y else P - y, 1⟩
      else none
    else none
  | 4 :: r =>
    if r.length = 64 then
      let x := ofBytesBE (r.take 32)
      let y := ofBytesBE (r.drop 32)
      if x < P ∧ y < P ∧ y * y % P = (x * x % P * x + 7) % P then some ⟨x, y, 1⟩ else none
    else none
  | _ => none

/-- `secp256k1_verify` of cosmwasm-crypto 1.5.2. -/
def verify (h : Hash32) (sig key : Bytes) : Res Bool :=
  if sig.length ≠ 64 then .error .generic
  else
    let r := ofBytesBE (sig.take 32)
    let s := ofBytesBE (sig.drop 32)
    if r = 0 ∨ N ≤ r ∨ s = 0 ∨ N ≤ s then .error .generic
    else
      match readKey key with
      | none => .error .generic
      | some q =>
        let e := ofBytesBE h.bytes
        let w := powMod N s (N - 2) 256 1
        let t := mul2 G q (addPt G q) (e * w % N) (r * w % N) 256 ⟨1, 1, 0⟩
        let zz := t.z * t.z % P
        .ok (decide (t.z ≠ 0 ∧ (r * zz % P = t.x % P ∨ (r + N < P ∧ (r + N) * zz % P = t.x % P))))

end Ibcx.Airdrop.Secp
