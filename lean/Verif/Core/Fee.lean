import Verif.Core.Units
/-!
# Fees

Models `/repo/contracts/core/src/state/fee.rs` and `/repo/contracts/core/src/execute/fee.rs`.
-/

namespace Ibcx.Core
open Ibcx

/-- `MAX_STREAMING_FEE_RATE = "0.000000021979553"`, `/repo/contracts/core/src/state/fee.rs:14`, in atomics. -/
def MAX_STREAMING_FEE_RATE : Nat := 21979553000

/-- `rate_checker`, `/repo/contracts/core/src/state/fee.rs:16-32`. -/
def rateChecker : Option Nat → Res Unit
  | none => .ok ()
  | some r => require (0 < r ∧ r < ONE) .invalid

/-- `Fee::check_rates`, `/repo/contracts/core/src/state/fee.rs:104-122`. -/
def Fee.checkRates (f : Fee) : Res Unit := do
  rateChecker f.mintFee
  rateChecker f.burnFee
  rateChecker (f.streamingFee.map (·.rate))
  match f.streamingFee with
  | some sf => require (¬ MAX_STREAMING_FEE_RATE < sf.rate) .invalid
  | none => .ok ()

/-- The loop body of `/repo/contracts/core/src/state/fee.rs:73-86`: add an amount to the collected coins, at the first
coin of the
denom or at the end. -/
def addCollected : List Coin → Coin → Res (List Coin)
  | [], c => .ok [c]
  | x :: xs, c =>
    if x.denom = c.denom then do
      let a ← add x.amount c.amount
      .ok (⟨x.denom, a⟩ :: xs)
    else do
      let xs' ← addCollected xs c
      .ok (x :: xs')

/-- The per-unit computation of `/repo/contracts/core/src/state/fee.rs:62-67`: `(new_unit, fee_unit)`. -/
def splitUnit (rate : Nat) (e : Denom × Nat) : Res (Denom × Nat × Nat) := do
  let feeUnit ← decMul e.2 rate
  let newUnit ← sub e.2 feeUnit
  .ok (e.1, newUnit, feeUnit)

/-- `StreamingFee::collect`, `/repo/contracts/core/src/state/fee.rs:44-91`.  Returns the updated fee record and the new
units.  (The Rust function also returns a copy of the collected coins, which no caller uses:
`/repo/contracts/core/src/execute/fee.rs:16`, `/repo/contracts/core/src/query.rs:71,98,184,217`.) -/
def StreamingFee.collect (sf : StreamingFee) (units : Units) (now supply : Nat) :
    Res (StreamingFee × Units) := do
  let delta ← sub now sf.lastCollectedAt
  if sf.freeze = true ∨ delta = 0 then
    .ok (sf, units)
  else do
    let base ← add ONE sf.rate
    let p ← checkedPow base (delta % 2 ^ 32)
    let rate ← sub p ONE
    let split ← units.mapM (splitUnit rate)
    let amounts ← split.mapM fun (d, _, feeUnit) => do
      let a ← mulInt feeUnit supply
      .ok (⟨d, a⟩ : Coin)
    let collected ← amounts.foldlM addCollected sf.collected
    .ok ({ sf with collected := collected, lastCollectedAt := now },
      split.map fun (d, newUnit, _) => (d, newUnit))

/-- `collect_streaming_fee`, `/repo/contracts/core/src/execute/fee.rs:10-23`. -/
def collectStreamingFee (s : State) (now : Nat) : Res State :=
  match s.fee.streamingFee with
  | none => .ok s
  | some sf => do
    let (sf', units') ← sf.collect s.indexUnits now s.totalSupply
    .ok { s with fee := { s.fee with streamingFee := some sf' }, indexUnits := units' }

/-- `realize_streaming_fee`, `/repo/contracts/core/src/execute/fee.rs:25-49`. -/
def realizeStreamingFee (s : State) (info : Info) : Res Out := do
  assertSender s.fee.collector info.sender
  match s.fee.streamingFee with
  | none => .ok (s, [])
  | some sf =>
    .ok ({ s with fee := { s.fee with streamingFee := some { sf with collected := [] } } },
      [.send s.fee.collector sf.collected])

end Ibcx.Core
