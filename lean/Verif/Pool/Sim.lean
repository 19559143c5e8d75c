import Verif.Pool.Weighted
import Verif.Core.Rebalance
/-!
# The swap simulator

Models `/repo/packages/pool/src/lib.rs:21-46`, `/repo/packages/pool/src/stable.rs:285-351`,
`/repo/packages/pool/src/concentrated.rs:30-78`, `sim/` and
`/repo/packages/interface/src/periphery.rs:11-28`.
-/

namespace Ibcx.Pool
open Ibcx

/-- A pool as decoded by `/repo/packages/pool/src/query.rs:42-62`.  Stable and concentrated pools are simulated by
asking the chain
(`/repo/packages/pool/src/stable.rs:302-350`, `/repo/packages/pool/src/concentrated.rs:47-77`); of their fields only
the id and the spread factor (which may fail to
parse, `/repo/packages/pool/src/concentrated.rs:39-41`) are used. -/
inductive Pool where
  | weighted (p : WeightedPool)
  | queried (id : Nat) (spread : Res Nat)

/-- `get_id`.  `/repo/packages/pool/src/lib.rs:22`. -/
def Pool.id : Pool → Nat
  | .weighted p => p.id
  | .queried id _ => id

/-- `get_spread_factor`, `/repo/packages/pool/src/weighted.rs:216-218`, `/repo/packages/pool/src/stable.rs:294-296`,
`/repo/packages/pool/src/concentrated.rs:39-41`. -/
def Pool.spreadFactor : Pool → Res Nat
  | .weighted p => .ok p.swapFee
  | .queried _ s => s

/-- `swap_exact_amount_in`, `/repo/packages/pool/src/weighted.rs:224-243`,
`/repo/packages/pool/src/stable.rs:302-325`, `/repo/packages/pool/src/concentrated.rs:47-61`. -/
def Pool.swapExactIn (env : Env) (input : Coin) (outDenom : Denom) (spread : Nat) : Pool → Res (Nat × Pool)
  | .weighted p => do
    let (out, p') ← p.swapExactIn input outDenom spread
    .ok (out, .weighted p')
  | .queried id s => do
    let out ← Core.simSwapExactIn env [⟨id, outDenom⟩] input
    .ok (out, .queried id s)

/-- `swap_exact_amount_out`, `/repo/packages/pool/src/weighted.rs:245-264`,
`/repo/packages/pool/src/stable.rs:327-350`, `/repo/packages/pool/src/concentrated.rs:63-77`. -/
def Pool.swapExactOut (env : Env) (inDenom : Denom) (output : Coin) (spread : Nat) : Pool → Res (Nat × Pool)
  | .weighted p => do
    let (inp, p') ← p.swapExactOut inDenom output spread
    .ok (inp, .weighted p')
  | .queried id s => do
    let inp ← Core.simSwapExactOut env [⟨id, inDenom⟩] output
    .ok (inp, .queried id s)

/-- `SwapInfo`, `/repo/packages/interface/src/periphery.rs:11-15`. -/
structure SwapInfo where
  src : Denom
  dst : Denom
  routes : List SwapRoute
deriving DecidableEq, Repr

/-- `Simulator`, `/repo/packages/pool/src/sim/mod.rs:44-49`. -/
structure Simulator where
  env : Env
  pools : List Pool
  swapInfo : List SwapInfo
  units : Core.Units

/-- The pools by id, `/repo/packages/pool/src/sim/index_in.rs:75-79`, `/repo/packages/pool/src/sim/index_out.rs:78-82`
(a later pool with the same id replaces an earlier). -/
def poolsMap (pools : List Pool) : KV Nat Pool := pools.foldl (fun m p => m.set p.id p) []

/-- `swap_info.iter().find(..)`, `/repo/packages/pool/src/sim/index_in.rs:34-41`,
`/repo/packages/pool/src/sim/index_out.rs:34-41`. -/
def findRoutes (infos : List SwapInfo) (src dst : Denom) : Res (List SwapRoute) :=
  match infos.find? (fun i => decide (i.src = src ∧ i.dst = dst)) with
  | some i => .ok i.routes
  | none => .error .notFound

/-- One step of the fold `/repo/packages/pool/src/sim/index_in.rs:43-61`. -/
def hopIn (env : Env) (st : KV Nat Pool × Coin) (route : SwapRoute) : Res (KV Nat Pool × Coin) := do
  let pool ← st.1.load route.poolId
  let spread ← pool.spreadFactor
  let (out, pool') ← pool.swapExactIn env st.2 route.tokenDenom spread
  let out ← chk out
  .ok (st.1.set route.poolId pool', ⟨route.tokenDenom, out⟩)

/-- `SimAmountOutRoute`, `/repo/packages/pool/src/sim/route.rs:7-12`. -/
structure SimOut where
  amountIn : Coin
  simAmountOut : Nat
  routes : Option (List SwapRoute)
deriving DecidableEq, Repr

/-- `SimAmountInRoute`, `/repo/packages/pool/src/sim/route.rs:67-72`. -/
structure SimIn where
  simAmountIn : Nat
  amountOut : Coin
  routes : Option (List SwapRoute)
deriving DecidableEq, Repr

/-- `estimate_out_given_in`, `/repo/packages/pool/src/sim/index_in.rs:28-68`. -/
def estOutGivenIn (s : Simulator) (tokenIn : Coin) (tokenOut : Denom) (pools : KV Nat Pool) :
    Res (SimOut × KV Nat Pool) := do
  let routes ← findRoutes s.swapInfo tokenIn.denom tokenOut
  let (pools, ret) ← routes.foldlM (hopIn s.env) (pools, tokenIn)
  .ok (⟨tokenIn, ret.amount, some routes⟩, pools)

/-- One step of the fold `/repo/packages/pool/src/sim/index_out.rs:46-64`. -/
def hopOut (env : Env) (st : KV Nat Pool × Coin) (route : SwapRoute) : Res (KV Nat Pool × Coin) := do
  let pool ← st.1.load route.poolId
  let spread ← pool.spreadFactor
  let (inp, pool') ← pool.swapExactOut env route.tokenDenom st.2 spread
  let inp ← chk inp
  .ok (st.1.set route.poolId pool', ⟨route.tokenDenom, inp⟩)

/-- `estimate_in_given_out`, `/repo/packages/pool/src/sim/index_out.rs:28-71`: the routes are reversed, and stay so in
the result. -/
def estInGivenOut (s : Simulator) (tokenIn : Denom) (tokenOut : Coin) (pools : KV Nat Pool) :
    Res (SimIn × KV Nat Pool) := do
  let routes ← findRoutes s.swapInfo tokenIn tokenOut.denom
  let routes := routes.reverse
  let (pools, ret) ← routes.foldlM (hopOut s.env) (pools, tokenOut)
  .ok (⟨ret.amount, tokenOut, some routes⟩, pools)

/-- The map over the units, `/repo/packages/pool/src/sim/index_in.rs:81-99`. -/
def outRoutes (s : Simulator) (index : Nat) (output : Denom) : Core.Units → KV Nat Pool → Res (List SimOut)
  | [], _ => .ok []
  | (d, u) :: us, pools => do
    let a ← mulInt u index
    let (r, pools) ←
      if d = output then .ok (⟨⟨d, a⟩, a, none⟩, pools) else estOutGivenIn s ⟨d, a⟩ output pools
    let rs ← outRoutes s index output us pools
    .ok (r :: rs)

/-- The map over the units, `/repo/packages/pool/src/sim/index_out.rs:84-101`. -/
def inRoutes (s : Simulator) (index : Nat) (input : Denom) : Core.Units → KV Nat Pool → Res (List SimIn)
  | [], _ => .ok []
  | (d, u) :: us, pools => do
    let a ← mulInt u index
    let (r, pools) ←
      if d = input then .ok (⟨a, ⟨d, a⟩, none⟩, pools) else estInGivenOut s input ⟨d, a⟩ pools
    let rs ← inRoutes s index input us pools
    .ok (r :: rs)

/-- `try_fold(Uint128::zero(), checked_add)`, `/repo/packages/pool/src/sim/index_in.rs:101-105`,
`/repo/packages/pool/src/sim/route.rs:38-40`. -/
def sumOut (rs : List SimOut) : Res Nat := rs.foldlM (fun acc r => add acc r.simAmountOut) 0

/-- `try_fold(Uint128::zero(), checked_add)`, `/repo/packages/pool/src/sim/index_out.rs:103-107`,
`/repo/packages/pool/src/sim/route.rs:98-100`. -/
def sumIn (rs : List SimIn) : Res Nat := rs.foldlM (fun acc r => add acc r.simAmountIn) 0

/-- `estimate_token_given_index_in`, `/repo/packages/pool/src/sim/index_in.rs:70-113`: total received and routes. -/
def tokenGivenIndexIn (s : Simulator) (index : Nat) (output : Denom) : Res (Nat × List SimOut) := do
  let rs ← outRoutes s index output s.units (poolsMap s.pools)
  let total ← sumOut rs
  .ok (total, rs)

/-- `estimate_token_given_index_out`, `/repo/packages/pool/src/sim/index_out.rs:73-115`: total spent and routes. -/
def tokenGivenIndexOut (s : Simulator) (index : Nat) (input : Denom) : Res (Nat × List SimIn) := do
  let rs ← inRoutes s index input s.units (poolsMap s.pools)
  let total ← sumIn rs
  .ok (total, rs)

/-- `MAX_LOOP`, `/repo/packages/pool/src/sim/mod.rs:15`. -/
def MAX_LOOP : Nat := 256

/-- `MAX_ERROR`, `/repo/packages/pool/src/sim/mod.rs:16`. -/
def MAX_ERROR : Nat := 5000

/-- `SearchAmountForOutputResp`, `/repo/packages/pool/src/sim/index_in.rs:20-25`. -/
structure SearchOut where
  index : Nat
  received : Nat
  routes : List SimOut
deriving DecidableEq, Repr

/-- `SearchAmountForInputResp`, `/repo/packages/pool/src/sim/index_out.rs:20-25`. -/
structure SearchIn where
  spent : Nat
  index : Nat
  routes : List SimIn
deriving DecidableEq, Repr

/-- `search_efficient_amount_for_output_f`, `/repo/packages/pool/src/sim/index_in.rs:115-133`. -/
def searchOutF (s : Simulator) (desired : Coin) (testOut testIn : Nat) : Res SearchOut := do
  let r ← ratio desired.amount testOut
  let index ← mulInt r testIn
  let (total, rs) ← tokenGivenIndexIn s index desired.denom
  .ok ⟨index, total, rs⟩

/-- The loop `/repo/packages/pool/src/sim/index_in.rs:151-175`; the first argument counts the remaining iterations. -/
def searchOutLoop (s : Simulator) (desired : Coin) : Nat → SearchOut → Res SearchOut
  | 0, _ => .error .maxLoopExceeded
  | n + 1, acc => do
    let acc ← searchOutF s desired acc.received acc.index
    let err ← ratio desired.amount acc.received
    if ONE ≤ err then do
      let gap ← sub desired.amount acc.received
      if gap < MAX_ERROR then .ok acc else searchOutLoop s desired n acc
    else searchOutLoop s desired n acc

/-- `search_efficient_amount_for_output`, `/repo/packages/pool/src/sim/index_in.rs:135-176`. -/
def searchForOutput (s : Simulator) (desired : Coin) (init : Option Nat) : Res SearchOut := do
  let index := init.getD 1000000
  let (total, rs) ← tokenGivenIndexIn s index desired.denom
  searchOutLoop s desired MAX_LOOP ⟨index, total, rs⟩

/-- `search_efficient_amount_for_input_f`, `/repo/packages/pool/src/sim/index_out.rs:117-135`. -/
def searchInF (s : Simulator) (desired : Coin) (testOut testIn : Nat) : Res SearchIn := do
  let r ← ratio desired.amount testIn
  let index ← mulInt r testOut
  let (total, rs) ← tokenGivenIndexOut s index desired.denom
  .ok ⟨total, index, rs⟩

/-- The loop `/repo/packages/pool/src/sim/index_out.rs:153-178`; the first argument counts the remaining iterations. -/
def searchInLoop (s : Simulator) (desired : Coin) : Nat → SearchIn → Res SearchIn
  | 0, _ => .error .maxLoopExceeded
  | n + 1, acc => do
    let acc ← searchInF s desired acc.index acc.spent
    let err ← ratio desired.amount acc.spent
    if ONE ≤ err then do
      let gap ← sub desired.amount acc.spent
      if gap < MAX_ERROR then .ok acc else searchInLoop s desired n acc
    else searchInLoop s desired n acc

/-- `search_efficient_amount_for_input`, `/repo/packages/pool/src/sim/index_out.rs:137-179`. -/
def searchForInput (s : Simulator) (desired : Coin) (init : Option Nat) : Res SearchIn := do
  let index := init.getD 1000000
  let (total, rs) ← tokenGivenIndexOut s index desired.denom
  searchInLoop s desired MAX_LOOP ⟨total, index, rs⟩

/-- `err_tolerance.unwrap_or_else(|| Decimal::from_ratio(1u64, 3u64))`, `/repo/packages/pool/src/sim/mod.rs:124,173`:
one third in
atomics. -/
def THIRD : Nat := 333333333333333333

/-- `estimate_index_for_input`, `/repo/packages/pool/src/sim/mod.rs:98-145`: the search result and, with a minimum,
the revised estimate.
Simplified: `err_tolerance` is always `None` in the callers (`/repo/contracts/periphery/src/execute.rs:40`,
`/repo/contracts/periphery/src/query.rs:29`). -/
def estIndexForInput (s : Simulator) (desired : Coin) (init min : Option Nat) : Res (SearchIn × Option SearchIn) := do
  let res ← searchForInput s desired init
  match min with
  | none => .ok (res, none)
  | some m => do
    require (¬ res.index < m) .tradeAmountExceeded
    let gap ← sub res.index m
    let part ← mulInt THIRD gap
    let revised ← sub res.index part
    let (total, rs) ← tokenGivenIndexOut s revised desired.denom
    .ok (res, some ⟨total, revised, rs⟩)

/-- `estimate_index_for_output`, `/repo/packages/pool/src/sim/mod.rs:147-192`; `err_tolerance` is always `None` in the
callers
(`/repo/contracts/periphery/src/execute.rs:251`, `/repo/contracts/periphery/src/query.rs:132`). -/
def estIndexForOutput (s : Simulator) (desired : Coin) (init max : Option Nat) :
    Res (SearchOut × Option SearchOut) := do
  let res ← searchForOutput s desired init
  match max with
  | none => .ok (res, none)
  | some m => do
    require (¬ m < res.index) .tradeAmountExceeded
    let gap ← sub m res.index
    let part ← mulInt THIRD gap
    let revised ← add res.index part
    let (total, rs) ← tokenGivenIndexIn s revised desired.denom
    .ok (res, some ⟨revised, total, rs⟩)

/-- The message of one route, `/repo/packages/pool/src/sim/route.rs:50-60` and
`/repo/packages/interface/src/types.rs:118-132`. -/
def outMsg (contract : Addr) (amp : Nat) (r : SimOut) : Res (Option Msg) :=
  match r.routes with
  | none => .ok none
  | some routes => do
    let min ← mulInt amp r.simAmountOut
    .ok (some (.swapExactIn contract routes r.amountIn min))

/-- `SimAmountOutRoutes::to_msgs`, `/repo/packages/pool/src/sim/route.rs:33-64`. -/
def outMsgs (rs : List SimOut) (contract : Addr) (minOutput : Nat) : Res (List Msg) := do
  let total ← sumOut rs
  require (¬ total < minOutput) .tradeAmountExceeded
  let amp ← ratio minOutput total
  let ms ← rs.mapM (outMsg contract amp)
  .ok (ms.filterMap id)

/-- The message of one route, `/repo/packages/pool/src/sim/route.rs:110-121` (the routes are reversed back) and
`/repo/packages/interface/src/types.rs:134-148`. -/
def inMsg (contract : Addr) (amp : Nat) (r : SimIn) : Res (Option Msg) :=
  match r.routes with
  | none => .ok none
  | some routes => do
    let max ← mulInt amp r.simAmountIn
    .ok (some (.swapExactOut contract routes.reverse r.amountOut max))

/-- `SimAmountInRoutes::to_msgs`, `/repo/packages/pool/src/sim/route.rs:93-126`. -/
def inMsgs (rs : List SimIn) (contract : Addr) (maxInput : Nat) : Res (List Msg) := do
  let total ← sumIn rs
  require (¬ maxInput < total) .tradeAmountExceeded
  let amp ← ratio maxInput total
  let ms ← rs.mapM (inMsg contract amp)
  .ok (ms.filterMap id)

/-- Insertion of a pool id at its place; a known id is not inserted again. 
`/repo/packages/interface/src/periphery.rs:17-28`. -/
def insertId (n : Nat) : List Nat → List Nat
  | [] => [n]
  | m :: ms => if n < m then n :: m :: ms else if n = m then m :: ms else m :: insertId n ms

/-- `extract_pool_ids`, `/repo/packages/interface/src/periphery.rs:17-28`.  The code collects the ids in a `HashSet`
and sorts them; the result is modelled by insertion into a sorted list without repetitions. -/
def extractPoolIds (infos : List SwapInfo) : List Nat :=
  (infos.flatMap fun i => i.routes.map (·.poolId)).foldl (fun acc n => insertId n acc) []

/-- `query_pools`, `/repo/packages/pool/src/query.rs:64-79`.  `ask` is the chain's answer for a pool id, decoded
(`decode_pool`,
`/repo/packages/pool/src/query.rs:42-62`): `none` is a pool of an unknown type, which is dropped. -/
def queryPools (ask : Nat → Res (Option Pool)) (ids : List Nat) : Res (List Pool) := do
  let ps ← ids.mapM ask
  .ok (ps.filterMap id)

end Ibcx.Pool
