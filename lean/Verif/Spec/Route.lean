import Verif.Pool.Sim
/-!
# Vocabulary for simulated routes

What it means to sell or to buy along a route through pools, one swap after the other.
-/

namespace Ibcx.Spec
open Ibcx Ibcx.Pool

/-- Pools by id. -/
abbrev Pools := Nat → Option Pool

/-- The pools of a list; of two pools with one id the later counts. -/
def byId (ps : List Pool) : Pools := fun n => ps.reverse.find? fun p => decide (p.id = n)

/-- One pool replaced. -/
def Pools.put (ps : Pools) (n : Nat) (p : Pool) : Pools := fun m => if m = n then some p else ps m

/-- Selling a coin for denom `d` in a pool gives `out` and leaves the second pool.  A weighted pool charges its own
swap fee; other pools answer what the chain answers for a one-hop swap, and their state stays. -/
inductive Sold (env : Env) (c : Coin) (d : Denom) : Pool → Nat → Pool → Prop where
  | weighted {p p' : WeightedPool} {out : Nat} (h : p.swapExactIn c d p.swapFee = .ok (out, p')) :
      Sold env c d (.weighted p) out (.weighted p')
  | chain {id fee out : Nat} (h : env.estOut [⟨id, d⟩] c = .ok out) :
      Sold env c d (.queried id (.ok fee)) out (.queried id (.ok fee))

/-- Buying a coin with denom `d` in a pool costs `inp` and leaves the second pool. -/
inductive Bought (env : Env) (c : Coin) (d : Denom) : Pool → Nat → Pool → Prop where
  | weighted {p p' : WeightedPool} {inp : Nat} (h : p.swapExactOut d c p.swapFee = .ok (inp, p')) :
      Bought env c d (.weighted p) inp (.weighted p')
  | chain {id fee inp : Nat} (h : env.estIn [⟨id, d⟩] c = .ok inp) :
      Bought env c d (.queried id (.ok fee)) inp (.queried id (.ok fee))

/-- Selling a coin hop by hop: each hop sells the result of the hop before, in the pools as the hops before left
them.  All amounts fit 128 bits. -/
inductive SoldAlong (env : Env) : Pools → Coin → List SwapRoute → Pools → Nat → Prop where
  | done (ps : Pools) (c : Coin) : SoldAlong env ps c [] ps c.amount
  | hop {ps ps' : Pools} {c : Coin} {r : SwapRoute} {rs : List SwapRoute} {p p' : Pool} {out last : Nat}
      (h1 : ps r.poolId = some p) (h2 : Sold env c r.tokenDenom p out p') (h3 : out < 2 ^ 128)
      (h4 : SoldAlong env (ps.put r.poolId p') ⟨r.tokenDenom, out⟩ rs ps' last) :
      SoldAlong env ps c (r :: rs) ps' last

/-- Buying a coin, from the last hop (the head of the list) back to the first: each hop buys what the hop after it
needs, in the pools as the hops before left them.  All amounts fit 128 bits. -/
inductive BoughtBack (env : Env) : Pools → Coin → List SwapRoute → Pools → Nat → Prop where
  | done (ps : Pools) (c : Coin) : BoughtBack env ps c [] ps c.amount
  | hop {ps ps' : Pools} {c : Coin} {r : SwapRoute} {rs : List SwapRoute} {p p' : Pool} {inp first : Nat}
      (h1 : ps r.poolId = some p) (h2 : Bought env c r.tokenDenom p inp p') (h3 : inp < 2 ^ 128)
      (h4 : BoughtBack env (ps.put r.poolId p') ⟨r.tokenDenom, inp⟩ rs ps' first) :
      BoughtBack env ps c (r :: rs) ps' first

/-- Selling the coins of a basket one after the other for `output`, each along the first route listed for its pair, in
the pools as the earlier sales left them; a coin that is `output` already is kept.  The list holds the proceeds. -/
inductive BasketSold (env : Env) (infos : List SwapInfo) (output : Denom) : Pools → List Coin → List Nat → Prop where
  | nil (ps : Pools) : BasketSold env infos output ps [] []
  | keep {ps : Pools} {c : Coin} {cs : List Coin} {outs : List Nat} (h1 : c.denom = output)
      (h2 : BasketSold env infos output ps cs outs) : BasketSold env infos output ps (c :: cs) (c.amount :: outs)
  | sell {ps ps' : Pools} {c : Coin} {cs : List Coin} {i : SwapInfo} {out : Nat} {outs : List Nat}
      (h1 : c.denom ≠ output)
      (h2 : infos.find? (fun i => decide (i.src = c.denom ∧ i.dst = output)) = some i)
      (h3 : SoldAlong env ps c i.routes ps' out) (h4 : BasketSold env infos output ps' cs outs) :
      BasketSold env infos output ps (c :: cs) (out :: outs)

/-- Buying the coins of a basket one after the other with `input`. -/
inductive BasketBought (env : Env) (infos : List SwapInfo) (input : Denom) : Pools → List Coin → List Nat → Prop where
  | nil (ps : Pools) : BasketBought env infos input ps [] []
  | keep {ps : Pools} {c : Coin} {cs : List Coin} {costs : List Nat} (h1 : c.denom = input)
      (h2 : BasketBought env infos input ps cs costs) : BasketBought env infos input ps (c :: cs) (c.amount :: costs)
  | buy {ps ps' : Pools} {c : Coin} {cs : List Coin} {i : SwapInfo} {cost : Nat} {costs : List Nat}
      (h1 : c.denom ≠ input)
      (h2 : infos.find? (fun i => decide (i.src = input ∧ i.dst = c.denom)) = some i)
      (h3 : BoughtBack env ps c i.routes.reverse ps' cost) (h4 : BasketBought env infos input ps' cs costs) :
      BasketBought env infos input ps (c :: cs) (cost :: costs)

/-- An amount of index tokens and what it costs or brings. -/
structure Trial where
  index : Nat
  value : Nat

/-- Close enough to the target: not above it and less than 5000 below. -/
def Close (target : Nat) (t : Trial) : Prop := 0 < t.value ∧ t.value ≤ target ∧ target < t.value + 5000

/-- The next trial: the amount is scaled by target over value (rounded down to 18 digits), rounded down, and priced. -/
def Corrected (priced : Nat → Nat → Prop) (target : Nat) (t t' : Trial) : Prop :=
  0 < t.value ∧ target * 10 ^ 18 / t.value < 2 ^ 128 ∧
    t'.index = target * 10 ^ 18 / t.value * t.index / 10 ^ 18 ∧ t'.index < 2 ^ 128 ∧ priced t'.index t'.value

/-- `Search priced target n t r`: from the trial `t`, after one to `n` corrections, the first trial close to the target
is `r`. -/
inductive Search (priced : Nat → Nat → Prop) (target : Nat) : Nat → Trial → Trial → Prop where
  | stop {n : Nat} {t r : Trial} (h1 : Corrected priced target t r) (h2 : Close target r) :
      Search priced target (n + 1) t r
  | more {n : Nat} {t t' r : Trial} (h1 : Corrected priced target t t') (h2 : ¬ Close target t')
      (h3 : Search priced target n t' r) : Search priced target (n + 1) t r

end Ibcx.Spec
