import Verif.Num
/-!
# Fixed-point powers

Models `/repo/packages/math/src/pow.rs`.  A `Decimal256` (cosmwasm-std 1.5.2) is a natural number of atomics
(multiples of 10^-18) below `2^256`; a `Uint256` is a natural number below `2^256`.  The operators of `Decimal256`
abort when the result does not fit; this is the error value `overflow`.
-/

namespace Ibcx.Math
open Ibcx

/-- `2^256`, the first value that does not fit `Uint256`.  Used in `/repo/packages/math/src/pow.rs:10-126` and
`/repo/packages/pool/src/weighted.rs:10-200`. -/
def U256 : Nat := 2 ^ 256

/-- Conversion of a wide intermediate result to 256 bits.  Used in `/repo/packages/math/src/pow.rs:10-126` and
`/repo/packages/pool/src/weighted.rs:10-200`. -/
def chk256 (n : Nat) : Res Nat := if n < U256 then .ok n else .error .overflow

/-- `Decimal256 * Decimal256` (truncating), also `Uint256 * Decimal256`.  Used in
`/repo/packages/math/src/pow.rs:10-126` and `/repo/packages/pool/src/weighted.rs:10-200`. -/
def dmul (a b : Nat) : Res Nat := chk256 (a * b / ONE)

/-- `Decimal256 / Decimal256` (truncating).  Used in `/repo/packages/math/src/pow.rs:10-126` and
`/repo/packages/pool/src/weighted.rs:10-200`. -/
def ddiv (a b : Nat) : Res Nat := if b = 0 then .error .divideByZero else chk256 (ONE * a / b)

/-- `Decimal256 + Decimal256`, `Uint256 + Uint256`.  Used in `/repo/packages/math/src/pow.rs:10-126` and
`/repo/packages/pool/src/weighted.rs:10-200`. -/
def dadd (a b : Nat) : Res Nat := chk256 (a + b)

/-- `Decimal256 - Decimal256`, `Uint256 - Uint256`.  Used in `/repo/packages/math/src/pow.rs:10-126` and
`/repo/packages/pool/src/weighted.rs:10-200`. -/
def dsub (a b : Nat) : Res Nat := if b ≤ a then .ok (a - b) else .error .overflow

/-- `Decimal256::from_atomics(v, 0)`, `Decimal256::from_ratio(v, 1)`.  Used in `/repo/packages/math/src/pow.rs:10-126`
and `/repo/packages/pool/src/weighted.rs:10-200`. -/
def toDec (v : Nat) : Res Nat := chk256 (ONE * v)

/-- `abs_diff_with_sign`, `/repo/packages/math/src/pow.rs:124-126`: the distance and whether the first is greater. -/
def absDiffWithSign (x y : Nat) : Nat × Bool := (if x ≤ y then y - x else x - y, decide (y < x))

/-- `POW_PRECISION`, `/repo/packages/math/src/pow.rs:6`, in atomics. -/
def POW_PRECISION : Nat := 10 ^ 10

/-- The loop of `pow_int`, `/repo/packages/math/src/pow.rs:54-68`.  The first argument only bounds the number of
iterations; `powInt` starts
it at the exponent, which is never exhausted (`powIntLoop_fuel` in `Verif/Math/PowLemmas.lean`: a larger bound changes
nothing). -/
def powIntLoop : Nat → Nat → Nat → Nat → Res Nat
  | 0, _, _, _ => .error .panic
  | fuel + 1, base, tmp, i =>
    if i ≤ 1 then dmul base tmp
    else do
      let tmp' ← if i % 2 ≠ 0 then dmul tmp base else .ok tmp
      let base' ← dmul base base
      powIntLoop fuel base' tmp' (i / 2)

/-- `pow_int`, `/repo/packages/math/src/pow.rs:45-69`. -/
def powInt (base power : Nat) : Res Nat :=
  if power ≤ 1 then .ok ONE else powIntLoop power base ONE power

/-- The loop of `pow_approx`, `/repo/packages/math/src/pow.rs:89-119`.  The first argument bounds the number of
iterations (the code has no
bound); `C53` shows that the bound used in `powApprox` is never exhausted. -/
def approxLoop (a x : Nat) (xNeg : Bool) (prec : Nat) : Nat → Nat → Nat → Bool → Nat → Res Nat
  | 0, _, _, _, _ => .error .panic
  | fuel + 1, term, sum, negative, i =>
    if term < prec then .ok sum
    else do
      let r ← toDec i
      let bigK ← dmul ONE r
      let k1 ← dsub bigK ONE
      let (c, cNeg) := absDiffWithSign a k1
      let cx ← dmul c x
      let term1 ← dmul term cx
      let term2 ← ddiv term1 bigK
      if term2 = 0 then .ok sum
      else do
        let n1 := if xNeg then !negative else negative
        let n2 := if cNeg then !n1 else n1
        let sum' ← if n2 then dsub sum term2 else dadd sum term2
        let i' ← add64 i 1
        approxLoop a x xNeg prec fuel term2 sum' n2 i'

/-- `pow_approx`, `/repo/packages/math/src/pow.rs:71-122`, with a bound on the number of iterations. -/
def powApproxN (fuel base exp prec : Nat) : Res Nat :=
  if exp = 0 then .ok 0
  else
    let (x, xNeg) := absDiffWithSign base ONE
    approxLoop exp x xNeg prec fuel ONE ONE false 1

/-- `pow_approx`, `/repo/packages/math/src/pow.rs:71-122`.  The bound of the model, 10^18 + 1 iterations, is never
reached (`C53`). -/
def powApprox (base exp prec : Nat) : Res Nat := powApproxN (ONE + 1) base exp prec

/-- `pow`, `/repo/packages/math/src/pow.rs:10-43`. -/
def pow (base exp : Nat) : Res Nat :=
  if base = 0 then .error .negativeBase
  else if 2 * ONE ≤ base then .error .baseTooLarge
  else if exp = ONE then .ok base
  else do
    let integer := exp / ONE
    let fractional := exp - ONE * (exp / ONE)
    let integerPow ← powInt base integer
    if fractional = 0 then .ok integerPow
    else do
      let fractionalPow ← powApprox base fractional POW_PRECISION
      dmul integerPow fractionalPow

end Ibcx.Math
