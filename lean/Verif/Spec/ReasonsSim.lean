import Verif.Spec.ReasonsZap
import Verif.Json.Messages
/-!
# What a refused question to the periphery says

The four questions of the periphery simulate the four zaps.  For each kind of error the fact about the question, the core
contract and the pools that it stands for.
-/

namespace Ibcx.Spec.Zaps
open Ibcx Ibcx.Pool Ibcx.Periphery Ibcx.Json

/-- The zap that a question is about; a question has no limit. -/
def asZap : ZapQuery → PExecMsg
  | .mintExactIn a input si => .mintExactIn a input.denom 0 si
  | .mintExactOut a n d si => .mintExactOut a n d si
  | .burnExactIn a _ d si => .burnExactIn a d 0 si
  | .burnExactOut a output si => .burnExactOut a output si

/-- The question asks for an amount that has to be searched. -/
def Searches : ZapQuery → Prop
  | .mintExactIn _ _ _ => True
  | .burnExactOut _ _ _ => True
  | _ => False

/-- The search, which starts at one million, does not end in 256 corrections. -/
def NeverFound (p : PEnv) (q : ZapQuery) : Prop :=
  ∃ infos c us ps v0, parseInfos (textsOf (asZap q)) = .ok infos ∧ Reads p (addressOf (asZap q)) infos c us ps ∧
    ((∃ a input si, q = .mintExactIn a input si ∧ CostsInAll p.env infos ps us input.denom 1000000 v0 ∧
        Missed (CostsInAll p.env infos ps us input.denom) input.amount 256 ⟨1000000, v0⟩) ∨
      ∃ a output si, q = .burnExactOut a output si ∧ BringsInAll p.env infos ps us output.denom 1000000 v0 ∧
        Missed (BringsInAll p.env infos ps us output.denom) output.amount 256 ⟨1000000, v0⟩)

/-- The fact that an error of a question stands for, apart from errors of the chain. -/
def QueryReason (p : PEnv) (q : ZapQuery) : Err → Prop
  | .panic => ∃ i ∈ textsOf (asZap q), ∃ text ∈ i.routes, BadHop text
  | .invalidAddr => p.env.validAddr (addressOf (asZap q)) = false
  | .querier => p.core (addressOf (asZap q)) = none
  | .notFound => NoWay p (asZap q)
  | .maxLoopExceeded => NeverFound p q
  | .divideByZero => PoolRefuses p (asZap q) .divideByZero ∨ (Searches q ∧ Worthless p (asZap q))
  | .generic => PoolRefuses p (asZap q) .generic
  | .negativeBase => PoolRefuses p (asZap q) .negativeBase
  | .baseTooLarge => PoolRefuses p (asZap q) .baseTooLarge
  | .mathApprox => PoolRefuses p (asZap q) .mathApprox
  | .overflow => True
  | _ => False

end Ibcx.Spec.Zaps
