import Verif.Json.Messages
import Verif.Json.History
import Verif.Pool.Decode
import Verif.Periphery.Query
/-!
# The answers of the chain about pools

The `#[cw_serde]` types of `/repo/packages/pool/src/{weighted,stable,concentrated}.rs`, and `decode_pool` of
`/repo/packages/pool/src/query.rs:42-62` on the bytes the chain answers with.
-/

namespace Ibcx.Json
open Ibcx Ibcx.Pool

/-! ## Weighted pools -/

/-- `BigCoin`, `/repo/packages/pool/src/weighted.rs:54-58`. -/
def bigCoin : Codec (Denom × Nat) where
  enc c := .obj [("denom", text.enc c.1), ("amount", u256.enc c.2)]
  dec j := do
    let fs ← record ["denom", "amount"] j
    let denom ← req fs "denom" text
    let amount ← req fs "amount" u256
    some (denom, amount)
  Fits c := u256.Fits c.2

/-- `PoolAsset`, `/repo/packages/pool/src/weighted.rs:60-64`. -/
def poolAsset : Codec Asset where
  enc a := .obj [("token", bigCoin.enc (a.denom, a.amount)), ("weight", u256.enc a.weight)]
  dec j := do
    let fs ← record ["token", "weight"] j
    let token ← req fs "token" bigCoin
    let weight ← req fs "weight" u256
    some ⟨token.1, token.2, weight⟩
  Fits a := u256.Fits a.amount ∧ u256.Fits a.weight

/-- `PoolSmoothWeightChangeParams`, `/repo/packages/pool/src/weighted.rs:66-72`. -/
structure Smooth where
  initial : List Asset
  target : List Asset
  startTime : String
  duration : String
deriving DecidableEq, Repr

/-- `PoolSmoothWeightChangeParams`, `/repo/packages/pool/src/weighted.rs:66-72`. -/
def smooth : Codec Smooth where
  enc s := .obj [("initial_pool_weights", poolAsset.list.enc s.initial), ("target_pool_weights", poolAsset.list.enc s.target),
    ("start_time", text.enc s.startTime), ("duration", text.enc s.duration)]
  dec j := do
    let fs ← record ["initial_pool_weights", "target_pool_weights", "start_time", "duration"] j
    let initial ← req fs "initial_pool_weights" poolAsset.list
    let target ← req fs "target_pool_weights" poolAsset.list
    let startTime ← req fs "start_time" text
    let duration ← req fs "duration" text
    some ⟨initial, target, startTime, duration⟩
  Fits s := poolAsset.list.Fits s.initial ∧ poolAsset.list.Fits s.target

/-- `PoolParams`, `/repo/packages/pool/src/weighted.rs:47-52`. -/
structure WeightedParams where
  swapFee : Nat
  exitFee : Nat
  smooth : Option Smooth
deriving DecidableEq, Repr

/-- `PoolParams`, `/repo/packages/pool/src/weighted.rs:47-52`. -/
def weightedParams : Codec WeightedParams where
  enc p := .obj [("swap_fee", decimal.enc p.swapFee), ("exit_fee", decimal.enc p.exitFee),
    ("smooth_weight_change_params", smooth.opt.enc p.smooth)]
  dec j := do
    let fs ← record ["swap_fee", "exit_fee", "smooth_weight_change_params"] j
    let swapFee ← req fs "swap_fee" decimal
    let exitFee ← req fs "exit_fee" decimal
    let change ← optional fs "smooth_weight_change_params" smooth
    some ⟨swapFee, exitFee, change⟩
  Fits p := decimal.Fits p.swapFee ∧ decimal.Fits p.exitFee ∧ smooth.opt.Fits p.smooth

/-- `Pool`, `/repo/packages/pool/src/weighted.rs:34-45`. -/
structure WeightedAnswer where
  typeUrl : String
  address : String
  id : String
  governor : String
  params : WeightedParams
  assets : List Asset
  shares : Coin
  totalWeight : Nat
deriving DecidableEq, Repr

/-- `Pool`, `/repo/packages/pool/src/weighted.rs:34-45`. -/
def weightedAnswer : Codec WeightedAnswer where
  enc p := .obj [("@type", text.enc p.typeUrl), ("address", text.enc p.address), ("id", text.enc p.id),
    ("future_pool_governor", text.enc p.governor), ("pool_params", weightedParams.enc p.params),
    ("pool_assets", poolAsset.list.enc p.assets), ("total_shares", coin.enc p.shares), ("total_weight", u256.enc p.totalWeight)]
  dec j := do
    let fs ← record ["@type", "address", "id", "future_pool_governor", "pool_params", "pool_assets", "total_shares",
      "total_weight"] j
    let typeUrl ← req fs "@type" text
    let address ← req fs "address" text
    let id ← req fs "id" text
    let governor ← req fs "future_pool_governor" text
    let params ← req fs "pool_params" weightedParams
    let assets ← req fs "pool_assets" poolAsset.list
    let shares ← req fs "total_shares" coin
    let totalWeight ← req fs "total_weight" u256
    some ⟨typeUrl, address, id, governor, params, assets, shares, totalWeight⟩
  Fits p := weightedParams.Fits p.params ∧ poolAsset.list.Fits p.assets ∧ coin.Fits p.shares ∧ u256.Fits p.totalWeight

/-! ## Stable pools -/

/-- `PoolParams`, `/repo/packages/pool/src/stable.rs:28-32`. -/
structure StableParams where
  swapFee : Nat
  exitFee : Nat
deriving DecidableEq, Repr

/-- `PoolParams`, `/repo/packages/pool/src/stable.rs:28-32`. -/
def stableParams : Codec StableParams where
  enc p := .obj [("swap_fee", decimal.enc p.swapFee), ("exit_fee", decimal.enc p.exitFee)]
  dec j := do
    let fs ← record ["swap_fee", "exit_fee"] j
    let swapFee ← req fs "swap_fee" decimal
    let exitFee ← req fs "exit_fee" decimal
    some ⟨swapFee, exitFee⟩
  Fits p := decimal.Fits p.swapFee ∧ decimal.Fits p.exitFee

/-- `Pool`, `/repo/packages/pool/src/stable.rs:11-26`. -/
structure StableAnswer where
  typeUrl : String
  address : String
  id : String
  params : StableParams
  liquidity : List Coin
  factors : List Nat
  controller : String
  shares : Coin
  governor : String
deriving DecidableEq, Repr

/-- `Pool`, `/repo/packages/pool/src/stable.rs:11-26`. -/
def stableAnswer : Codec StableAnswer where
  enc p := .obj [("@type", text.enc p.typeUrl), ("address", text.enc p.address), ("id", text.enc p.id),
    ("pool_params", stableParams.enc p.params), ("pool_liquidity", coin.list.enc p.liquidity),
    ("scaling_factors", (uint 64).list.enc p.factors), ("scaling_factor_controller", text.enc p.controller),
    ("total_shares", coin.enc p.shares), ("future_pool_governor", text.enc p.governor)]
  dec j := do
    let fs ← record ["@type", "address", "id", "pool_params", "pool_liquidity", "scaling_factors",
      "scaling_factor_controller", "total_shares", "future_pool_governor"] j
    let typeUrl ← req fs "@type" text
    let address ← req fs "address" text
    let id ← req fs "id" text
    let params ← req fs "pool_params" stableParams
    let liquidity ← req fs "pool_liquidity" coin.list
    let factors ← req fs "scaling_factors" (uint 64).list
    let controller ← req fs "scaling_factor_controller" text
    let shares ← req fs "total_shares" coin
    let governor ← req fs "future_pool_governor" text
    some ⟨typeUrl, address, id, params, liquidity, factors, controller, shares, governor⟩
  Fits p := stableParams.Fits p.params ∧ coin.list.Fits p.liquidity ∧ (uint 64).list.Fits p.factors ∧ coin.Fits p.shares

/-! ## Concentrated pools -/

/-- `Pool`, `/repo/packages/pool/src/concentrated.rs:7-28`. -/
structure ConcentratedAnswer where
  typeUrl : String
  address : String
  id : String
  incentives : String
  rewards : String
  token0 : String
  token1 : String
  liquidity : String
  sqrtPrice : String
  tick : String
  spacing : String
  spread : String
  exponent : String
  updated : String
deriving DecidableEq, Repr

/-- `Pool`, `/repo/packages/pool/src/concentrated.rs:7-28`. -/
def concentratedAnswer : Codec ConcentratedAnswer where
  enc p := .obj [("@type", text.enc p.typeUrl), ("address", text.enc p.address), ("id", text.enc p.id),
    ("incentives_address", text.enc p.incentives), ("spread_rewards_address", text.enc p.rewards),
    ("token0", text.enc p.token0), ("token1", text.enc p.token1), ("current_tick_liquidity", text.enc p.liquidity),
    ("current_sqrt_price", text.enc p.sqrtPrice), ("current_tick", text.enc p.tick), ("tick_spacing", text.enc p.spacing),
    ("spread_factor", text.enc p.spread), ("exponent_at_price_one", text.enc p.exponent),
    ("last_liquidity_update", text.enc p.updated)]
  dec j := do
    let fs ← record ["@type", "address", "id", "incentives_address", "spread_rewards_address", "token0", "token1",
      "current_tick_liquidity", "current_sqrt_price", "current_tick", "tick_spacing", "spread_factor",
      "exponent_at_price_one", "last_liquidity_update"] j
    let typeUrl ← req fs "@type" text
    let address ← req fs "address" text
    let id ← req fs "id" text
    let incentives ← req fs "incentives_address" text
    let rewards ← req fs "spread_rewards_address" text
    let token0 ← req fs "token0" text
    let token1 ← req fs "token1" text
    let liquidity ← req fs "current_tick_liquidity" text
    let sqrtPrice ← req fs "current_sqrt_price" text
    let tick ← req fs "current_tick" text
    let spacing ← req fs "tick_spacing" text
    let spread ← req fs "spread_factor" text
    let exponent ← req fs "exponent_at_price_one" text
    let updated ← req fs "last_liquidity_update" text
    some ⟨typeUrl, address, id, incentives, rewards, token0, token1, liquidity, sqrtPrice, tick, spacing, spread, exponent,
      updated⟩
  Fits _ := True

/-! ## Decoding -/

/-- `PoolResponse`, `/repo/packages/pool/src/query.rs:52-55`. -/
def poolResponse {α : Type} (c : Codec α) : Codec α where
  enc a := .obj [("pool", c.enc a)]
  dec j := do
    let fs ← record ["pool"] j
    let pool ← req fs "pool" c
    some pool
  Fits := c.Fits

/-- `get_id`: `/repo/packages/pool/src/weighted.rs:208-210`, `/repo/packages/pool/src/stable.rs:286-288`,
`/repo/packages/pool/src/concentrated.rs:31-33`.  The code reads the text when the pool is first used, which every
simulation does at its beginning (`/repo/packages/pool/src/sim/index_in.rs:75-79`); here it is read with the answer. -/
def poolId (id : String) : Res Nat :=
  match parseUnsigned 64 id.toList with
  | some n => .ok n
  | none => .error .panic

/-- `get_spread_factor` of a concentrated pool, `/repo/packages/pool/src/concentrated.rs:39-41`. -/
def spreadText (s : String) : Res Nat :=
  match parseDecimal s.toList with
  | some n => .ok n
  | none => .error .generic

/-- What the simulation uses of a weighted pool, `/repo/packages/pool/src/weighted.rs:207-264`. -/
def WeightedAnswer.pool (a : WeightedAnswer) : Res Pool := do
  let n ← poolId a.id
  .ok (.weighted ⟨n, a.params.swapFee, a.assets⟩)

/-- What the simulation uses of a stable pool, `/repo/packages/pool/src/stable.rs:285-350`. -/
def StableAnswer.pool (a : StableAnswer) : Res Pool := do
  let n ← poolId a.id
  .ok (.queried n (.ok a.params.swapFee))

/-- What the simulation uses of a concentrated pool, `/repo/packages/pool/src/concentrated.rs:30-78`. -/
def ConcentratedAnswer.pool (a : ConcentratedAnswer) : Res Pool := do
  let n ← poolId a.id
  .ok (.queried n (spreadText a.spread))

/-- The `match` of `/repo/packages/pool/src/query.rs:57-61`. -/
def readPool (k : PoolType) (v : Storage.Bytes) : Res Pool :=
  match k with
  | .weighted => do
    let a ← readMsg (poolResponse weightedAnswer) v
    a.pool
  | .stable => do
    let a ← readMsg (poolResponse stableAnswer) v
    a.pool
  | .concentrated => do
    let a ← readMsg (poolResponse concentratedAnswer) v
    a.pool

/-- `decode_pool`, `/repo/packages/pool/src/query.rs:42-62`, on the bytes of the answer. -/
def decodeAnswer (v : Storage.Bytes) : Res (Option Pool) := decodePool (fun v => (fromUtf8 v).isSome) readPool v

/-- What the contract learns about a pool: `raw_query` and `decode_pool`, `/repo/packages/pool/src/query.rs:64-79`.
Simplified: the code asks all questions before it decodes the first answer. -/
def askPool (raw : Nat → Res Storage.Bytes) (n : Nat) : Res (Option Pool) := do
  let v ← raw n
  decodeAnswer v

/-- The surroundings of the periphery contract when the chain answers about pools with bytes.
`/repo/packages/pool/src/query.rs:64-79`. -/
def withAnswers (p : Periphery.PEnv) (raw : Nat → Res Storage.Bytes) : Periphery.PEnv := { p with pool := askPool raw }

end Ibcx.Json
