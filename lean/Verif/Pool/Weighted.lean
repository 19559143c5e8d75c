import Verif.Math.Pow
/-!
# Weighted pools

Models `/repo/packages/pool/src/weighted.rs`.
-/

namespace Ibcx.Pool
open Ibcx Ibcx.Math

/-- `PoolAsset`, `/repo/packages/pool/src/weighted.rs:60-64`; the amount and the weight are 256-bit numbers. -/
structure Asset where
  denom : Denom
  amount : Nat
  weight : Nat
deriving DecidableEq, Repr

/-- `Pool`, `/repo/packages/pool/src/weighted.rs:34-52`.  Simplified: only the fields the simulation uses.  The id is
kept as a number; the
code parses a string and aborts if it is none (`/repo/packages/pool/src/weighted.rs:208-210`). -/
structure WeightedPool where
  id : Nat
  swapFee : Nat
  assets : List Asset
deriving DecidableEq, Repr

/-- `Pool::get_asset`, `/repo/packages/pool/src/weighted.rs:89-96`: the first asset of the denom. -/
def getAsset : List Asset → Denom → Res Asset
  | [], _ => .error .generic
  | a :: as, d => if a.denom = d then .ok a else getAsset as d

/-- `solve_constant_function_invariants`, `/repo/packages/pool/src/weighted.rs:14-32`.  All arguments are decimals in
atomics. -/
def solveInvariants (fixedBefore fixedAfter weightFixed unknownBefore weightUnknown : Nat) : Res (Nat × Bool) := do
  let weightRatio ← ddiv weightFixed weightUnknown
  let y ← ddiv fixedBefore fixedAfter
  let yw ← pow y weightRatio
  let (par, neg) := absDiffWithSign ONE yw
  let amount ← dmul unknownBefore par
  .ok (amount, neg)

/-- `Decimal256::to_uint_floor`.  `/repo/packages/pool/src/weighted.rs:160`. -/
def toUintFloor (d : Nat) : Nat := d / ONE

/-- `Decimal256::to_uint_ceil`.  `/repo/packages/pool/src/weighted.rs:195`. -/
def toUintCeil (d : Nat) : Nat := if d = 0 then 0 else 1 + (d - 1) / ONE

/-- `Pool::calc_out_amount_given_in`, `/repo/packages/pool/src/weighted.rs:124-161`. -/
def calcOutGivenIn (assets : List Asset) (input : Coin) (outDenom : Denom) (spread : Nat) : Res Nat := do
  let tokenOut ← getAsset assets outDenom
  let tokenIn ← getAsset assets input.denom
  let keep ← dsub ONE spread
  let inAfterFee ← dmul input.amount keep
  let postIn ← dadd tokenIn.amount inAfterFee
  let d1 ← toDec tokenIn.amount
  let d2 ← toDec postIn
  let d3 ← toDec tokenIn.weight
  let d4 ← toDec tokenOut.amount
  let d5 ← toDec tokenOut.weight
  let (amount, neg) ← solveInvariants d1 d2 d3 d4 d5
  require (neg = true) .mathApprox
  .ok (toUintFloor amount)

/-- `Pool::calc_in_amount_given_out`, `/repo/packages/pool/src/weighted.rs:164-204`. -/
def calcInGivenOut (assets : List Asset) (inDenom : Denom) (output : Coin) (spread : Nat) : Res Nat := do
  let tokenOut ← getAsset assets output.denom
  let tokenIn ← getAsset assets inDenom
  let postOut ← dsub tokenOut.amount output.amount
  let d1 ← toDec tokenOut.amount
  let d2 ← toDec postOut
  let d3 ← toDec tokenOut.weight
  let d4 ← toDec tokenIn.amount
  let d5 ← toDec tokenIn.weight
  let (amount, neg) ← solveInvariants d1 d2 d3 d4 d5
  let keep ← dsub ONE spread
  let beforeFee ← ddiv amount keep
  require (neg = false) .mathApprox
  .ok (toUintCeil beforeFee)

/-- `Pool::apply_new_pool_assets`, `/repo/packages/pool/src/weighted.rs:98-121`. -/
def applyNewAssets (assets : List Asset) (inDenom outDenom : Denom) (inValue outValue : Nat) : Res (List Asset) := do
  let beforeIn ← getAsset assets inDenom
  let beforeOut ← getAsset assets outDenom
  let afterIn ← dadd beforeIn.amount inValue
  let afterOut ← dsub beforeOut.amount outValue
  .ok (assets.map fun a =>
    if a.denom = inDenom then { a with amount := afterIn }
    else if a.denom = outDenom then { a with amount := afterOut }
    else a)

/-- `swap_exact_amount_in`, `/repo/packages/pool/src/weighted.rs:224-243`. -/
def WeightedPool.swapExactIn (p : WeightedPool) (input : Coin) (outDenom : Denom) (spread : Nat) :
    Res (Nat × WeightedPool) := do
  let out ← calcOutGivenIn p.assets input outDenom spread
  let assets ← applyNewAssets p.assets input.denom outDenom input.amount out
  .ok (out, { p with assets := assets })

/-- `swap_exact_amount_out`, `/repo/packages/pool/src/weighted.rs:245-264`. -/
def WeightedPool.swapExactOut (p : WeightedPool) (inDenom : Denom) (output : Coin) (spread : Nat) :
    Res (Nat × WeightedPool) := do
  let inp ← calcInGivenOut p.assets inDenom output spread
  let assets ← applyNewAssets p.assets inDenom output.denom inp output.amount
  .ok (inp, { p with assets := assets })

end Ibcx.Pool
