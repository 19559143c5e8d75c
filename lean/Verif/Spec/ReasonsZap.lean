import Verif.Spec.ZapAccept
import Verif.Spec.Text
/-!
# What a refusal of the periphery says

For each kind of error the fact about the message, the core contract and the pools that it stands for.
-/

namespace Ibcx.Spec.Zaps
open Ibcx Ibcx.Pool Ibcx.Periphery

/-! ### Weighted pools -/

/-- The first asset of a denom in a pool. -/
def assetOf (w : WeightedPool) (d : Denom) : Option Asset := w.assets.find? fun a => decide (a.denom = d)

/-- What the pool counts of a coin paid in: the amount less the swap fee, rounded down. -/
def counted (w : WeightedPool) (n : Nat) : Nat := n * (10 ^ 18 - w.swapFee) / 10 ^ 18

/-- Why a weighted pool does not take a coin for denom `d`. -/
def SaleRefused (w : WeightedPool) (c : Coin) (d : Denom) : Err → Prop
  -- one of the two denoms is not in the pool
  | .generic => assetOf w c.denom = none ∨ assetOf w d = none
  -- the denom bought has no weight, or there is nothing of the denom sold, neither in the pool nor paid in
  | .divideByZero => (∃ a, assetOf w d = some a ∧ a.weight = 0) ∨
      ∃ a, assetOf w c.denom = some a ∧ a.amount + counted w c.amount = 0
  -- the pool would hold more than 10^18 times of what it holds of the denom sold
  | .negativeBase => ∃ a, assetOf w c.denom = some a ∧ 10 ^ 18 * a.amount < a.amount + counted w c.amount
  -- the balance of the denom sold over its new balance, to the power of the weights' ratio, is computed as one: the
  -- coin does not move the pool
  | .mathApprox => ∃ a b, assetOf w c.denom = some a ∧ assetOf w d = some b ∧
      Math.pow (10 ^ 18 * a.amount / (a.amount + counted w c.amount)) (10 ^ 18 * a.weight / b.weight) = .ok (10 ^ 18)
  | .overflow => True
  | _ => False

/-- Why a weighted pool does not give a coin against denom `d`. -/
def PurchaseRefused (w : WeightedPool) (c : Coin) (d : Denom) : Err → Prop
  -- one of the two denoms is not in the pool
  | .generic => assetOf w c.denom = none ∨ assetOf w d = none
  -- the denom paid has no weight, the coin is all the pool has, or the swap fee is all of the payment
  | .divideByZero => (∃ a, assetOf w d = some a ∧ a.weight = 0) ∨
      (∃ a, assetOf w c.denom = some a ∧ a.amount = c.amount) ∨ w.swapFee = 10 ^ 18
  -- the coin is half or more of what the pool has
  | .baseTooLarge => ∃ a, assetOf w c.denom = some a ∧ a.amount ≤ 2 * c.amount ∧ c.amount < a.amount
  | .overflow => True
  | _ => False

/-- Two states of one pool: the same pool, with other balances if it is a weighted one. -/
inductive SamePool : Pool → Pool → Prop where
  | weighted {w w' : WeightedPool} (h1 : w'.id = w.id) (h2 : w'.swapFee = w.swapFee)
      (h3 : w'.assets.map (fun a => (a.denom, a.weight)) = w.assets.map (fun a => (a.denom, a.weight))) :
      SamePool (.weighted w) (.weighted w')
  | queried (id : Nat) (s : Res Nat) : SamePool (.queried id s) (.queried id s)

/-! ### Messages -/

/-- The routes given with a message. -/
def textsOf : PExecMsg → List Compact
  | .mintExactIn _ _ _ si => si
  | .mintExactOut _ _ _ si => si
  | .burnExactIn _ _ _ si => si
  | .burnExactOut _ _ si => si
  | .finishOperation _ _ => []

/-- The address named in a message. -/
def addressOf : PExecMsg → Addr
  | .mintExactIn a _ _ _ => a
  | .mintExactOut a _ _ _ => a
  | .burnExactIn a _ _ _ => a
  | .burnExactOut a _ _ => a
  | .finishOperation a _ => a

/-- The denom that the basket is bought with. -/
def payDenom : PExecMsg → Option Denom
  | .mintExactIn _ d _ _ => some d
  | .mintExactOut _ _ d _ => some d
  | _ => none

/-- The denom that the basket is sold for. -/
def getDenom : PExecMsg → Option Denom
  | .burnExactIn _ d _ _ => some d
  | .burnExactOut _ c _ => some c.denom
  | _ => none

/-- The denom that must be attached: what the basket is bought with, or the index token. -/
def attachedDenom (c : Core.State) (msg : PExecMsg) : Denom := (payDenom msg).getD c.config.indexDenom

/-- The message is a zap, and not the end of one. -/
def IsZap : PExecMsg → Prop
  | .finishOperation _ _ => False
  | _ => True

/-- The text of a hop is not readable: what stands before the first comma is no numeral of 64 bits. -/
def BadHop (text : String) : Prop := ¬ ∃ num id, FirstPart text.toList num ∧ Numeral num id ∧ id < 2 ^ 64

/-- A pool of the routes. -/
def Uses (infos : List SwapInfo) (n : Nat) : Prop := ∃ i ∈ infos, ∃ r ∈ i.routes, r.poolId = n

/-- The chain itself answers with this error: to the question for a pool of the routes, in the fee of such a pool, or to
a question for an estimate at such a pool. -/
inductive ChainSays (p : PEnv) (msg : PExecMsg) (e : Err) : Prop where
  | pool {infos : List SwapInfo} {n : Nat} (h1 : parseInfos (textsOf msg) = .ok infos) (h2 : Uses infos n)
      (h3 : p.pool n = .error e)
  | spread {infos : List SwapInfo} {n id : Nat} (h1 : parseInfos (textsOf msg) = .ok infos) (h2 : Uses infos n)
      (h3 : p.pool n = .ok (some (.queried id (.error e))))
  | sale {infos : List SwapInfo} {n id fee : Nat} {c : Coin} {d : Denom}
      (h1 : parseInfos (textsOf msg) = .ok infos) (h2 : Uses infos n)
      (h3 : p.pool n = .ok (some (.queried id (.ok fee)))) (h4 : getDenom msg ≠ none)
      (h5 : p.env.estOut [⟨id, d⟩] c = .error e)
  | purchase {infos : List SwapInfo} {n id fee : Nat} {c : Coin} {d : Denom}
      (h1 : parseInfos (textsOf msg) = .ok infos) (h2 : Uses infos n)
      (h3 : p.pool n = .ok (some (.queried id (.ok fee)))) (h4 : payDenom msg ≠ none)
      (h5 : p.env.estIn [⟨id, d⟩] c = .error e)

/-- A weighted pool of the routes, perhaps with other balances after the swaps before, refuses a swap: a sale when the
basket is sold, a purchase when it is bought. -/
def PoolRefuses (p : PEnv) (msg : PExecMsg) (e : Err) : Prop :=
  ∃ infos n w w' c d, parseInfos (textsOf msg) = .ok infos ∧ Uses infos n ∧
    p.pool n = .ok (some (.weighted w)) ∧ SamePool (.weighted w) (.weighted w') ∧
    ((getDenom msg ≠ none ∧ SaleRefused w' c d e) ∨ (payDenom msg ≠ none ∧ PurchaseRefused w' c d e))

/-- The basket is worth nothing: some amount of index tokens is simulated to cost or to bring nothing. -/
def Worthless (p : PEnv) (msg : PExecMsg) : Prop :=
  ∃ infos c us ps index, parseInfos (textsOf msg) = .ok infos ∧ Reads p (addressOf msg) infos c us ps ∧
    ((∃ d, payDenom msg = some d ∧ CostsInAll p.env infos ps us d index 0) ∨
      ∃ d, getDenom msg = some d ∧ BringsInAll p.env infos ps us d index 0)

/-- A denom of the basket has no route, or a hop goes through a pool that the chain does not know or of a kind that the
code does not know. -/
def NoWay (p : PEnv) (msg : PExecMsg) : Prop :=
  ∃ infos c us ps, parseInfos (textsOf msg) = .ok infos ∧ Reads p (addressOf msg) infos c us ps ∧
    ((∃ n, Uses infos n ∧ ps n = none) ∨
      ∃ e ∈ us, (∃ d, payDenom msg = some d ∧ d ≠ e.1 ∧ ∀ i ∈ infos, ¬ (i.src = d ∧ i.dst = e.1)) ∨
        ∃ d, getDenom msg = some d ∧ d ≠ e.1 ∧ ∀ i ∈ infos, ¬ (i.src = e.1 ∧ i.dst = d))

/-- `n` corrections after the trial `t`, none of them close to the target. -/
inductive Missed (priced : Nat → Nat → Prop) (target : Nat) : Nat → Trial → Prop where
  | zero (t : Trial) : Missed priced target 0 t
  | more {n : Nat} {t t' : Trial} (h1 : Corrected priced target t t') (h2 : ¬ Close target t')
      (h3 : Missed priced target n t') : Missed priced target (n + 1) t

/-- The search for an amount does not end in 256 corrections. -/
def NotFound (p : PEnv) (info : Info) (msg : PExecMsg) : Prop :=
  ∃ infos c us ps paid v0, parseInfos (textsOf msg) = .ok infos ∧ Reads p (addressOf msg) infos c us ps ∧
    info.funds = [⟨attachedDenom c msg, paid⟩] ∧
    ((∃ a d min si, msg = .mintExactIn a d min si ∧ CostsInAll p.env infos ps us d min v0 ∧
        Missed (CostsInAll p.env infos ps us d) paid 256 ⟨min, v0⟩) ∨
      ∃ a out si, msg = .burnExactOut a out si ∧ BringsInAll p.env infos ps us out.denom paid v0 ∧
        Missed (BringsInAll p.env infos ps us out.denom) out.amount 256 ⟨paid, v0⟩)

/-- The limit of the message cannot be kept: what is paid buys less than the minimum, what is redeemed brings less than
the minimum, or the output needs more index tokens than are attached. -/
def LimitBroken (p : PEnv) (info : Info) (msg : PExecMsg) : Prop :=
  ∃ infos c us ps paid, parseInfos (textsOf msg) = .ok infos ∧ Reads p (addressOf msg) infos c us ps ∧
    info.funds = [⟨attachedDenom c msg, paid⟩] ∧
    ((∃ a d min si v0 found, msg = .mintExactIn a d min si ∧ CostsInAll p.env infos ps us d min v0 ∧
        Search (CostsInAll p.env infos ps us d) paid 256 ⟨min, v0⟩ found ∧ found.index < min) ∨
      (∃ a d min si v, msg = .burnExactIn a d min si ∧
        BringsInAll p.env infos ps us d (lessFee c.fee.burnFee paid) v ∧ v < min) ∨
      ∃ a out si v0 found, msg = .burnExactOut a out si ∧ BringsInAll p.env infos ps us out.denom paid v0 ∧
        Search (BringsInAll p.env infos ps us out.denom) out.amount 256 ⟨paid, v0⟩ found ∧
        (paid < found.index ∨ paid + 1 < part (undoRate c.fee.burnFee) found.index))

/-- The fact that an error of the periphery stands for, apart from errors of the chain. -/
def Reason (p : PEnv) (info : Info) (msg : PExecMsg) : Err → Prop
  | .panic => (∃ a d, msg = .finishOperation a d ∧ info.sender ≠ p.env.contract) ∨
      ∃ i ∈ textsOf msg, ∃ text ∈ i.routes, BadHop text
  | .invalidAddr => p.env.validAddr (addressOf msg) = false
  | .querier => IsZap msg ∧ p.core (addressOf msg) = none
  | .payment => IsZap msg ∧ ∃ c, p.core (addressOf msg) = some c ∧
      ¬ ∃ n, info.funds = [⟨attachedDenom c msg, n⟩] ∧ n ≠ 0
  | .notFound => NoWay p msg
  | .tradeAmountExceeded => LimitBroken p info msg
  | .maxLoopExceeded => NotFound p info msg
  | .divideByZero => PoolRefuses p msg .divideByZero ∨ Worthless p msg
  | .generic => PoolRefuses p msg .generic
  | .negativeBase => PoolRefuses p msg .negativeBase
  | .baseTooLarge => PoolRefuses p msg .baseTooLarge
  | .mathApprox => PoolRefuses p msg .mathApprox
  | .overflow => IsZap msg
  | _ => False

end Ibcx.Spec.Zaps
