import Verif.KV
/-!
# State and messages of the core contract
-/

namespace Ibcx.Core

/-- `/repo/contracts/core/src/state/units.rs:8-12` `Units`: a list of `(denom, unit)`; the unit is a
`Decimal` in atomics. -/
abbrev Units := List (Denom × Nat)

/-- `/repo/contracts/core/src/state/pause.rs:6-11` `PauseInfo` (default: not paused). -/
structure PauseInfo where
  paused : Bool := false
  expiresAt : Option Nat := none
deriving DecidableEq, Repr

/-- `/repo/contracts/core/src/state/config.rs:8-14` `Config`. -/
structure Config where
  gov : Addr
  paused : PauseInfo
  indexDenom : Denom
  reserveDenom : Denom
deriving DecidableEq, Repr

/-- `/repo/contracts/core/src/state/fee.rs:34-41` `StreamingFee`. -/
structure StreamingFee where
  rate : Nat
  collected : List Coin
  freeze : Bool
  lastCollectedAt : Nat
deriving DecidableEq, Repr

/-- `/repo/contracts/core/src/state/fee.rs:94-101` `Fee`. -/
structure Fee where
  collector : Addr
  mintFee : Option Nat
  burnFee : Option Nat
  streamingFee : Option StreamingFee
deriving DecidableEq, Repr

/-- `/repo/contracts/core/src/state/rebalance.rs:12-18` `Rebalance`. -/
structure Rebalance where
  manager : Option Addr
  deflation : Units
  inflation : Units
deriving DecidableEq, Repr

/-- `/repo/contracts/core/src/state/rebalance.rs:90-96` `TradeInfo`. -/
structure TradeInfo where
  routes : List SwapRoute
  cooldown : Nat
  maxTradeAmount : Nat
  lastTradedAt : Option Nat
deriving DecidableEq, Repr

/-- The storage of the contract, `/repo/contracts/core/src/state/mod.rs:16-38`.  Items that always
exist after instantiation (`CONFIG`, `FEE`, `TOTAL_SUPPLY`, `INDEX_UNITS`) are plain fields, the
others are optional.  The `cw2` version record is modelled in `Verif/Iface/Version.lean`. -/
structure State where
  config : Config
  pendingGov : Option Addr
  fee : Fee
  totalSupply : Nat
  indexUnits : Units
  rebalance : Option Rebalance
  reserveUnits : Option Units
  tradeInfos : KV (Denom × Denom) TradeInfo
deriving DecidableEq, Repr

/-- `/repo/packages/interface/src/core.rs:6-11`. -/
structure StreamingFeePayload where
  rate : Nat
  freeze : Bool
deriving DecidableEq, Repr

/-- `/repo/packages/interface/src/core.rs:13-20`. -/
structure FeePayload where
  collector : Addr
  mintFee : Option Nat
  burnFee : Option Nat
  streamingFee : Option StreamingFeePayload
deriving DecidableEq, Repr

/-- `/repo/packages/interface/src/core.rs:22-30`. -/
structure InstantiateMsg where
  gov : Addr
  fee : FeePayload
  indexDenom : Denom
  indexUnits : Units
  reserveDenom : Denom
deriving DecidableEq, Repr

/-- `/repo/packages/interface/src/core.rs:32-53`. -/
inductive GovMsg where
  | pause (expiresAt : Option Nat)
  | release
  | updateGov (newGov : Addr)
  | acceptGov
  | revokeGov
  | updateFeeStrategy (newFee : FeePayload)
  | updateRebalanceManager (newManager : Option Addr)
  | updateReserveDenom (newDenom : Denom)
  | updateTradeInfo (denom : Denom) (routes : List SwapRoute) (cooldown maxTradeAmount : Nat)
deriving DecidableEq, Repr

/-- `/repo/packages/interface/src/core.rs:55-69`. -/
inductive TradeMsg where
  | deflate (targetDenom : Denom) (amountOut maxAmountIn : Nat)
  | inflate (targetDenom : Denom) (amountIn minAmountOut : Nat)
deriving DecidableEq, Repr

/-- `/repo/packages/interface/src/core.rs:71-80`. -/
inductive RebalanceMsg where
  | init (manager : Option Addr) (deflation inflation : Units)
  | trade (msg : TradeMsg)
  | finalize
deriving DecidableEq, Repr

/-- `/repo/packages/interface/src/core.rs:82-96`. -/
inductive ExecMsg where
  | mint (amount : Nat) (receiver refundTo : Option Addr)
  | burn (redeemTo : Option Addr)
  | realize
  | gov (msg : GovMsg)
  | rebalance (msg : RebalanceMsg)
deriving DecidableEq, Repr

/-- What a handler returns: the new storage and the messages of the `Response`
(the attributes are in `Verif/Events/Core.lean`).  Result of `/repo/contracts/core/src/contract.rs:75-106`. -/
abbrev Out := State × List Msg

/-- `assert_sender`, `/repo/contracts/core/src/lib.rs:22-28`. -/
def assertSender (expected actual : Addr) : Res Unit :=
  require (expected = actual) .unauthorized

/-- `Config::check_gov`, `/repo/contracts/core/src/state/config.rs:17-20`. -/
def Config.checkGov (c : Config) (sender : Addr) : Res Unit :=
  assertSender c.gov sender

/-- `PauseInfo::refresh`, `/repo/contracts/core/src/state/pause.rs:14-24`. -/
def PauseInfo.refresh (p : PauseInfo) (now : Nat) : PauseInfo :=
  if p.paused then
    match p.expiresAt with
    | some expiry => if expiry ≤ now then {} else p
    | none => p
  else p

/-- `Config::assert_paused`, `/repo/contracts/core/src/state/config.rs:22-25`,
`/repo/contracts/core/src/state/pause.rs:26-32`. -/
def Config.assertPaused (c : Config) (now : Nat) : Res Unit :=
  require ((c.paused.refresh now).paused = true) .notPaused

/-- `Config::assert_not_paused`, `/repo/contracts/core/src/state/config.rs:27-30`,
`/repo/contracts/core/src/state/pause.rs:34-40`. -/
def Config.assertNotPaused (c : Config) (now : Nat) : Res Unit :=
  require ((c.paused.refresh now).paused = false) .paused

end Ibcx.Core
