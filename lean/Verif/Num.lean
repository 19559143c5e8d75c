/-!
# Errors and numbers

Arithmetic of `cosmwasm-std` 1.5.2 (`/repo/Cargo.toml:26`, `/repo/Cargo.lock`) as used by
the contracts.  `Uint128`, `u64` and `Decimal` values are natural numbers; a `Decimal`
is represented by its atomics (multiples of 10^-18).  Every operation that can leave the
128-bit range, underflow, or divide by zero returns an error.

Rust `panic!`/`unwrap` failures and returned `Err`s are both failed transactions; panics are
the error value `Err.panic`.
-/

namespace Ibcx

/-- Failure values.  Models `/repo/contracts/core/src/error.rs:5-125` and
`/repo/contracts/airdrop/src/error.rs`, `/repo/packages/pool/src/error.rs`,
`/repo/contracts/periphery/src/error.rs`.  Simplified: message strings are dropped. -/
inductive Err where
  | overflow            -- OverflowError / CheckedFromRatioError::Overflow (and panicking variants)
  | divideByZero        -- DivideByZero (and panicking variants)
  | panic               -- `unwrap` on `None`, index out of bounds, `assert!`
  | notFound            -- StdError::NotFound from storage loads and `sub_key`
  | generic             -- StdError::GenericErr
  | invalidAddr         -- `addr_validate` failed
  | payment             -- cw_utils::PaymentError
  | unauthorized
  | paused
  | notPaused
  | invalid             -- ValidationError
  | insufficientFunds
  | onRebalancing
  | notOnRebalancing
  | onTradeCooldown
  | tradeError
  | unableToFinalize
  | unknownReplyId
  | querier             -- a query to the chain failed
  | bank                -- a bank / token factory / pool manager message failed
  | wrongType           -- airdrop: InvalidAirdropType
  | closed              -- airdrop: AirdropClosed
  | alreadyClaimed
  | alreadyExists
  | invalidProof
  | invalidSignature
  | insufficientAirdropFunds
  | hex
  | tradeAmountExceeded
  | maxLoopExceeded
  | mathApprox
  | baseTooLarge
  | negativeBase
deriving DecidableEq, Repr

/-- Result of a contract computation.  Results of all handlers, e.g. `/repo/contracts/core/src/contract.rs:75-106`. -/
abbrev Res (α : Type) := Except Err α

/-- `if !c { return Err(e) }`.  E.g. `/repo/contracts/core/src/execute/rebalance/finalize.rs:38-42`. -/
def require (c : Prop) [Decidable c] (e : Err) : Res Unit :=
  if c then .ok () else .error e

/-- `2^128`, the first value that does not fit `Uint128`.  Amounts, e.g.
`/repo/contracts/core/src/execute/token.rs:45-52`. -/
def U128 : Nat := 2 ^ 128

/-- `Decimal::one()` in atomics, `DECIMAL_FRACTIONAL = 10^18` (cosmwasm-std `decimal.rs`). 
`/repo/contracts/core/src/state/fee.rs:55-57`. -/
def ONE : Nat := 10 ^ 18

/-- Conversion of a wide intermediate result to 128 bits (`try_into` / overflow check).  E.g.
`/repo/contracts/core/src/state/fee.rs:63-64,82`. -/
def chk (n : Nat) : Res Nat := if n < U128 then .ok n else .error .overflow

/-- `Uint128::checked_add`, `Uint128 + Uint128`, `Decimal::checked_add`. 
`/repo/contracts/core/src/state/units.rs:86`, `/repo/contracts/core/src/state/fee.rs:82`. -/
def add (a b : Nat) : Res Nat := chk (a + b)

/-- `Uint128::checked_sub`, `Uint128 - Uint128`, `Decimal::checked_sub`, and `u64` subtraction
under `overflow-checks = true` (`/repo/Cargo.toml:14`).  `/repo/contracts/core/src/state/units.rs:99,150`,
`/repo/contracts/core/src/execute/token.rs:64,151`. -/
def sub (a b : Nat) : Res Nat := if b ≤ a then .ok (a - b) else .error .overflow

/-- `u64` addition under `overflow-checks = true`.  `/repo/contracts/airdrop/src/execute/register.rs:91,170`;
`/repo/Cargo.toml` line 14. -/
def add64 (a b : Nat) : Res Nat := if a + b < 2 ^ 64 then .ok (a + b) else .error .overflow

/-- `Decimal * Uint128` and `Uint128 * Decimal`: `floor(u * d / 10^18)`, fails above 128 bits. 
`/repo/contracts/core/src/execute/token.rs:63,150`. -/
def mulInt (d u : Nat) : Res Nat := chk (d * u / ONE)

/-- `Decimal::checked_mul` and `Decimal * Decimal`: truncating fixed-point product. 
`/repo/contracts/core/src/state/fee.rs:63`. -/
def decMul (a b : Nat) : Res Nat := chk (a * b / ONE)

/-- `Decimal::checked_from_ratio(n, d)` and `Decimal / Decimal` (which calls it on the
atomics).  `/repo/contracts/core/src/execute/rebalance/trade/deflate.rs:124-125`,
`/repo/packages/pool/src/sim/route.rs:45,105`. -/
def ratio (n d : Nat) : Res Nat :=
  if d = 0 then .error .divideByZero else chk (n * ONE / d)

/-- The loop of `Decimal::checked_pow` (cosmwasm-std 1.5.2 `decimal.rs`, exponentiation by
squaring).  The first argument only bounds the number of iterations; `checkedPow` starts it
at the exponent, which is never exhausted (`powLoop_fuel` in `Verif/NumLemmas.lean`). 
`/repo/contracts/core/src/state/fee.rs:56`. -/
def powLoop : Nat → Nat → Nat → Nat → Res Nat
  | 0, _, _, _ => .error .panic
  | fuel + 1, x, y, n =>
    if n ≤ 1 then decMul x y
    else if n % 2 = 0 then do
      let x2 ← decMul x x
      powLoop fuel x2 y (n / 2)
    else do
      let y2 ← decMul x y
      let x2 ← decMul x x
      powLoop fuel x2 y2 ((n - 1) / 2)

/-- `Decimal::checked_pow(exp: u32)`.  `/repo/contracts/core/src/state/fee.rs:56`. -/
def checkedPow (x n : Nat) : Res Nat :=
  if n = 0 then .ok ONE else powLoop n x ONE n

/-- A denom (`String`).  E.g. `/repo/contracts/core/src/state/units.rs:8-12`. -/
abbrev Denom := String

/-- An address (`Addr` / `String`).  E.g. `/repo/contracts/core/src/state/config.rs:8-14`. -/
abbrev Addr := String

/-- `cosmwasm_std::Coin`.  E.g. `/repo/contracts/core/src/state/fee.rs:34-41`. -/
structure Coin where
  denom : Denom
  amount : Nat
deriving DecidableEq, Repr

/-- Insert before the first coin whose denom is strictly greater (stable insertion). 
`/repo/contracts/core/src/execute/token.rs:153`, `/repo/contracts/periphery/src/lib.rs:37-39`. -/
def insertCoin (c : Coin) : List Coin → List Coin
  | [] => [c]
  | x :: xs => if x.denom ≤ c.denom then x :: insertCoin c xs else c :: x :: xs

/-- `coins.sort_by(|a, b| a.denom.cmp(&b.denom))` (stable sort by denom):
`/repo/contracts/core/src/execute/token.rs:151`, `/repo/contracts/periphery/src/lib.rs:37-39`.
The algorithm is modelled by insertion sort; a stable sort's result is unique. -/
def sortCoins (cs : List Coin) : List Coin :=
  cs.foldl (fun acc c => insertCoin c acc) []

/-- Sum of the amounts of a denom in a coin list (used by specifications and the bank).  Not in the code; e.g. of the
coins in `/repo/contracts/core/src/execute/token.rs:153-178`. -/
def amountOf (d : Denom) : List Coin → Nat
  | [] => 0
  | c :: cs => (if c.denom = d then c.amount else 0) + amountOf d cs

/-- `/repo/packages/interface/src/types.rs:13-16` `SwapRoute`. -/
structure SwapRoute where
  poolId : Nat
  tokenDenom : Denom
deriving DecidableEq, Repr

/-- Messages emitted by the contracts (`CosmosMsg`).  `tfMint`, `tfBurn`, `createDenom` are the
token-factory messages, `send` is `BankMsg::Send`, the swaps are the pool-manager messages built in
`/repo/packages/interface/src/types.rs:118-148`. -/
inductive Msg where
  | createDenom (sender : Addr) (subdenom : Denom)
  | tfMint (sender mintTo : Addr) (amount : Coin)
  | tfBurn (sender burnFrom : Addr) (amount : Coin)
  | send (to : Addr) (amount : List Coin)
  | swapExactIn (sender : Addr) (routes : List SwapRoute) (tokenIn : Coin) (minOut : Nat)
  | swapExactOut (sender : Addr) (routes : List SwapRoute) (tokenOut : Coin) (maxIn : Nat)
deriving DecidableEq, Repr

/-- The environment of a call: block (`env.block.time.seconds()`, height), own address,
`addr_validate`, and the answers of the pool-manager estimators
(`/repo/packages/interface/src/types.rs:79-116`).  All of them are arbitrary. -/
structure Env where
  now : Nat
  height : Nat
  contract : Addr
  validAddr : Addr → Bool
  /-- `estimate_swap_exact_amount_in`: amount out for routes and token in -/
  estOut : List SwapRoute → Coin → Res Nat
  /-- `estimate_swap_exact_amount_out`: amount in for routes and token out -/
  estIn : List SwapRoute → Coin → Res Nat

/-- `MessageInfo`.  Argument of `/repo/contracts/core/src/contract.rs:75`. -/
structure Info where
  sender : Addr
  funds : List Coin
deriving DecidableEq, Repr

/-- `deps.api.addr_validate(&a)?`.  E.g. `/repo/contracts/core/src/execute/gov/update.rs:22,87`. -/
def validate (env : Env) (a : Addr) : Res Addr :=
  if env.validAddr a then .ok a else .error .invalidAddr

/-- `addr.map(|v| api.addr_validate(&v)).transpose()?`
(e.g. `/repo/contracts/core/src/execute/rebalance/init.rs:52-55`). -/
def validateOpt (env : Env) : Option Addr → Res (Option Addr)
  | none => .ok none
  | some a => do
    let a ← validate env a
    .ok (some a)

/-- `unwrap_addr`, `/repo/contracts/core/src/execute/token.rs:14-19`. -/
def unwrapAddr (env : Env) (a : Option Addr) (fallback : Addr) : Res Addr := do
  let a ← validateOpt env a
  .ok (a.getD fallback)

/-- `cw_utils::must_pay(&info, denom)` (cw-utils 1.0.3): exactly one coin, of the denom, with a
nonzero amount.  `/repo/contracts/core/src/execute/token.rs:149`,
`/repo/contracts/periphery/src/execute.rs:28,109,180,239`, `/repo/contracts/airdrop/src/execute/fund.rs:39,64`. -/
def mustPay (info : Info) (denom : Denom) : Res Nat :=
  match info.funds with
  | [c] =>
    if c.amount = 0 then .error .payment
    else if c.denom = denom then .ok c.amount
    else .error .payment
  | _ => .error .payment

end Ibcx
