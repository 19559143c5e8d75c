import Verif.Math.Pow
/-!
# The solver for stable pools

Models `/repo/packages/pool/src/stable.rs:33-283`.  The contracts do not use this code: `swap_exact_amount_in` and
`swap_exact_amount_out` of a stable pool ask the chain instead (`/repo/packages/pool/src/stable.rs:302-350`; a comment
there announces the
switch to these functions).
-/

namespace Ibcx.Pool
open Ibcx Ibcx.Math

/-- `Decimal256::checked_pow` (cosmwasm-std 1.5.2): squaring, with the accumulated factor `y`.  The first argument
bounds the number of iterations; any bound from the exponent on gives the same result. 
`/repo/packages/pool/src/stable.rs:37,65-66,96,130,138,143`. -/
def dpowLoop : Nat → Nat → Nat → Nat → Res Nat
  | 0, _, _, _ => .error .panic
  | fuel + 1, x, y, n =>
    if n ≤ 1 then dmul x y
    else if n % 2 = 0 then do
      let x' ← dmul x x
      dpowLoop fuel x' y (n / 2)
    else do
      let y' ← dmul x y
      let x' ← dmul x x
      dpowLoop fuel x' y' ((n - 1) / 2)

/-- `Decimal256::checked_pow`.  `/repo/packages/pool/src/stable.rs:37,65-66,96,130,138,143`. -/
def dpow (x n : Nat) : Res Nat := if n = 0 then .ok ONE else dpowLoop (n + 1) x ONE n

/-- Integer square root, one binary digit at a time from the top.  Under `/repo/packages/pool/src/stable.rs:145-147`.
-/
def isqrtLoop (n : Nat) : Nat → Nat → Nat
  | 0, acc => acc
  | k + 1, acc => isqrtLoop n k (if (acc + 2 ^ k) * (acc + 2 ^ k) ≤ n then acc + 2 ^ k else acc)

/-- `Uint256::isqrt` (cosmwasm-std `math/isqrt.rs`).  Simplified: computed digit by digit instead of by Newton's
method; both give the largest number whose square is at most `n` (`C75_square_root`).  Under
`/repo/packages/pool/src/stable.rs:145-147`. -/
def isqrt (n : Nat) : Nat := isqrtLoop n 128 0

/-- `Decimal256::sqrt`: the largest `i` from the list for which `d * 100^i` fits 256 bits decides the precision. 
`/repo/packages/pool/src/stable.rs:145-147`. -/
def dsqrtFrom (d : Nat) : List Nat → Nat
  | [] => 0
  | i :: is => if d * 100 ^ i < U256 then isqrt (d * 100 ^ i) * 10 ^ (9 - i) else dsqrtFrom d is

/-- `Decimal256::sqrt`.  `/repo/packages/pool/src/stable.rs:145-147`. -/
def dsqrt (d : Nat) : Nat := dsqrtFrom d [9, 8, 7, 6, 5, 4, 3, 2, 1, 0]

/-- `Pool::cfmm_constant_multi_no_v` with `cfmm_constant_multi_no_vy`, `/repo/packages/pool/src/stable.rs:40-69`. -/
def cfmmConstant (x y w : Nat) : Res Nat := do
  require (0 < x ∧ 0 < y) .generic
  let xx ← dpow x 2
  let yy ← dpow y 2
  let s ← dadd xx yy
  let s' ← dadd s w
  let v ← dmul x s'
  dmul v y

/-- `Pool::solve_cfmm_direct`, `/repo/packages/pool/src/stable.rs:103-169`. -/
def solveDirect (x y w yIn : Nat) (neg : Bool) : Res Nat := do
  let cubeRootTwo := dsqrt (dsqrt (ONE * 2))
  require (0 < x ∧ 0 < y ∧ 0 < yIn) .generic
  require (yIn < y) .generic
  let k ← cfmmConstant x y w
  let kk ← dpow k 2
  let yNew ← if neg then dsub y yIn else dadd y yIn
  let y2 ← dpow yNew 2
  let y3 ← dmul y2 yNew
  let y4 ← dmul y3 yNew
  let wy ← dmul w yNew
  let wypy3 ← dadd wy y3
  let wypy3Pow3 ← dpow wypy3 3
  let a1 ← dmul kk y4
  let a2 ← dmul a1 (ONE * 729)
  let b1 ← dmul y3 (ONE * 108)
  let b2 ← dmul b1 wypy3Pow3
  let ab ← dadd a2 b2
  let sqrtTerm := dsqrt ab
  let c1 ← dmul k y2
  let c2 ← dmul c1 (ONE * 27)
  let c3 ← dadd sqrtTerm c2
  let cubeRootTerm := dsqrt (dsqrt c3)
  let d1 ← dmul cubeRootTwo (ONE * 3)
  let d2 ← dmul d1 yNew
  let term1 ← ddiv cubeRootTerm d2
  let e1 ← dmul cubeRootTwo wypy3
  let term2 ← ddiv e1 cubeRootTerm
  let xNew ← dsub term1 term2
  let xOut ← dsub x xNew
  require (xOut < x) .generic
  .ok xOut

/-- The sum of squares of `Pool::solve_cfmm`, `/repo/packages/pool/src/stable.rs:93-98`. -/
def sumSquares : List Nat → Nat → Res Nat
  | [], acc => .ok acc
  | r :: rs, acc => do
    let q ← dpow r 2
    let acc' ← dadd acc q
    sumSquares rs acc'

/-- `Pool::solve_cfmm`, `/repo/packages/pool/src/stable.rs:87-101`. -/
def solveCfmm (x y : Nat) (rest : List Nat) (yIn : Nat) (neg : Bool) : Res Nat := do
  let w ← sumSquares rest 0
  solveDirect x y w yIn neg

/-- `Pool`, `/repo/packages/pool/src/stable.rs:11-24`: the coins with their scaling factors.  Simplified: one list of
pairs instead of two
lists; a missing factor aborts in the code and cannot be written here. -/
structure StablePool where
  liquidity : List (Coin × Nat)
deriving DecidableEq, Repr

/-- `Decimal256::from_ratio(amount, scale)`.  `/repo/packages/pool/src/stable.rs:190-215`. -/
def scaled (c : Coin × Nat) : Res Nat := ddiv c.1.amount c.2

/-- `Pool::scaled_sorted_pool_reserves`, `/repo/packages/pool/src/stable.rs:178-207`: coins of the first denom, then
of the second, then the
others in their order.  Simplified: the code sorts by an index which is 0 and 1 for these denoms and counts up from 2
for the others; the sort is stable. -/
def StablePool.reserves (p : StablePool) (first second : Denom) : Res (List Nat) :=
  ((p.liquidity.filter fun c => decide (c.1.denom = first)) ++
    (p.liquidity.filter fun c => decide (c.1.denom ≠ first ∧ c.1.denom = second)) ++
    (p.liquidity.filter fun c => decide (c.1.denom ≠ first ∧ c.1.denom ≠ second))).mapM scaled

/-- The scaling factor of the first coin of a denom, `/repo/packages/pool/src/stable.rs:210-214, 222-224`. -/
def StablePool.factor (p : StablePool) (d : Denom) : Option Nat :=
  (p.liquidity.find? fun c => decide (c.1.denom = d)).map (·.2)

/-- `Pool::scale_coin`, `/repo/packages/pool/src/stable.rs:209-219`. -/
def StablePool.scaleCoin (p : StablePool) (c : Coin) : Res Nat :=
  match p.factor c.denom with
  | none => .error .generic
  | some f => ddiv c.amount f

/-- `Pool::descale_amount`, `/repo/packages/pool/src/stable.rs:221-230`. -/
def StablePool.descale (p : StablePool) (d : Denom) (amount : Nat) : Res Nat := do
  let f ← ddiv ((p.factor d).getD 1) 1
  dmul amount f

/-- `Pool::calc_out_amount_given_in`, `/repo/packages/pool/src/stable.rs:232-257`. -/
def StablePool.calcOut (p : StablePool) (input : Coin) (outDenom : Denom) (fee : Nat) : Res Nat := do
  let rs ← p.reserves input.denom outDenom
  match rs with
  | a :: b :: rest => do
    let v ← p.scaleCoin input
    let keep ← dsub ONE fee
    let cin ← dmul v keep
    let cout ← solveCfmm b a rest cin false
    p.descale outDenom cout
  | _ => .error .panic

/-- `Pool::calc_in_amount_given_out`, `/repo/packages/pool/src/stable.rs:258-282`. -/
def StablePool.calcIn (p : StablePool) (output : Coin) (inDenom : Denom) (fee : Nat) : Res Nat := do
  let rs ← p.reserves inDenom output.denom
  match rs with
  | a :: b :: rest => do
    let v ← p.scaleCoin output
    let cout ← solveCfmm a b rest v true
    let keep ← dsub ONE fee
    let cin ← ddiv cout keep
    p.descale inDenom cin
  | _ => .error .panic

end Ibcx.Pool
