import Verif.Periphery.Query
import Verif.Spec.Route
import Verif.Spec.Zap
import Mathlib.Data.List.Forall2
/-!
# Vocabulary for the acceptance of zaps

What the periphery learns from the core contract and the pools, what a basket costs or brings there, and the swap
messages that follow from it.
-/

namespace Ibcx.Spec
open Ibcx Ibcx.Pool Ibcx.Periphery

/-- The pools of the routes: every pool named in a route is asked for once, in increasing order of the ids; answers of
an unknown type are dropped. -/
def PoolsRead (ask : Nat → Res (Option Pool)) (infos : List SwapInfo) (pools : List Pool) : Prop :=
  ∃ ids answers, ids.Pairwise (· < ·) ∧ (∀ n, n ∈ ids ↔ ∃ i ∈ infos, ∃ r ∈ i.routes, r.poolId = n) ∧
    List.Forall₂ (fun n answer => ask n = .ok answer) ids answers ∧ pools = answers.filterMap id

/-- What the periphery reads: at the address `a` there is a core contract in state `c`, its units after collecting the
pending streaming fee are `us` (and the basket of the whole supply fits 128 bits), and `ps` are the pools of the
routes. -/
structure Reads (p : PEnv) (a : Addr) (infos : List SwapInfo) (c : Core.State) (us : Core.Units) (ps : Pools) :
    Prop where
  valid : p.env.validAddr a = true
  core : p.core a = some c
  units : ∃ c1, Core.collectStreamingFee c p.env.now = .ok c1 ∧ us = c1.indexUnits
  whole : ∀ e ∈ us, part e.2 c.totalSupply < 2 ^ 128
  pools : ∃ pools, PoolsRead p.pool infos pools ∧ ps = byId pools

/-- All coins of the basket fit 128 bits. -/
def Fits (us : Core.Units) (index : Nat) : Prop := ∀ c ∈ basket us index, c.amount < 2 ^ 128

/-- `costs` are the simulated costs, coin by coin, of buying the basket of `index` with `input`. -/
structure Bill (env : Env) (infos : List SwapInfo) (ps : Pools) (us : Core.Units) (input : Denom) (index : Nat)
    (costs : List Nat) : Prop where
  fits : Fits us index
  bought : BasketBought env infos input ps (basket us index) costs
  sum : costs.sum < 2 ^ 128

/-- `outs` are the simulated proceeds, coin by coin, of selling the basket of `index` for `output`. -/
structure Sale (env : Env) (infos : List SwapInfo) (ps : Pools) (us : Core.Units) (output : Denom) (index : Nat)
    (outs : List Nat) : Prop where
  fits : Fits us index
  sold : BasketSold env infos output ps (basket us index) outs
  sum : outs.sum < 2 ^ 128

/-- The basket of `index` costs `v` in total. -/
def CostsInAll (env : Env) (infos : List SwapInfo) (ps : Pools) (us : Core.Units) (input : Denom) (index v : Nat) : Prop :=
  ∃ costs, Bill env infos ps us input index costs ∧ v = costs.sum

/-- The basket of `index` brings `v` in total. -/
def BringsInAll (env : Env) (infos : List SwapInfo) (ps : Pools) (us : Core.Units) (output : Denom) (index v : Nat) :
    Prop :=
  ∃ outs, Sale env infos ps us output index outs ∧ v = outs.sum

/-- The share of one swap in a limit for all: in proportion to its simulated value, rounded down twice. -/
def shareOfLimit (limit all one : Nat) : Nat := limit * 10 ^ 18 / all * one / 10 ^ 18

/-- The limit can be shared: it is a ratio of 128 bits, and something is simulated at all. -/
def Shareable (limit all : Nat) : Prop := 0 < all ∧ limit * 10 ^ 18 / all < 2 ^ 128

/-- The purchases: every coin of the basket but `input` itself, along the first route listed for its pair, for at most
its share of the limit. -/
def purchases (self : Addr) (infos : List SwapInfo) (input : Denom) (limit : Nat) (coins : List Coin)
    (costs : List Nat) : List PMsg :=
  (coins.zip costs).filterMap fun x =>
    if x.1.denom = input then none
    else (infos.find? fun i => decide (i.src = input ∧ i.dst = x.1.denom)).map fun i =>
      .chain (.swapExactOut self i.routes x.1 (shareOfLimit limit costs.sum x.2))

/-- The sales: every coin of the basket but `output` itself, along the first route listed for its pair, for at least
its share of the limit. -/
def sales (self : Addr) (infos : List SwapInfo) (output : Denom) (limit : Nat) (coins : List Coin)
    (outs : List Nat) : List PMsg :=
  (coins.zip outs).filterMap fun x =>
    if x.1.denom = output then none
    else (infos.find? fun i => decide (i.src = x.1.denom ∧ i.dst = output)).map fun i =>
      .chain (.swapExactIn self i.routes x.1 (shareOfLimit limit outs.sum x.2))

/-- The basket in order of the denoms. -/
def Sorted (funds : List Coin) (us : Core.Units) (index : Nat) : Prop :=
  funds.Perm (basket us index) ∧ (funds.map (·.denom)).Pairwise (· < ·)

/-- A third of the way, as the code rounds it. -/
def third (gap : Nat) : Nat := 333333333333333333 * gap / 10 ^ 18

/-- What is left of an amount after the fee rate `f`, rounded down. -/
def lessFee (f : Option Nat) (n : Nat) : Nat := part (10 ^ 18 - f.getD 0) n

/-- The factor that undoes the fee rate `f`, rounded down to 18 digits. -/
def undoRate (f : Option Nat) : Nat := 10 ^ 18 * 10 ^ 18 / (10 ^ 18 - f.getD 0)

end Ibcx.Spec
