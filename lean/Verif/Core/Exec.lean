import Verif.Core.Token
import Verif.Core.Gov
import Verif.Core.Rebalance
/-!
# Entry points and histories

Models `/repo/contracts/core/src/contract.rs`.
-/

namespace Ibcx.Core
open Ibcx

/-- `instantiate`, `/repo/contracts/core/src/contract.rs:16-72`. -/
def instantiate (env : Env) (msg : InstantiateMsg) : Res Out := do
  require (msg.indexUnits.checkDuplicate = false) .invalid
  let collector ← validate env msg.fee.collector
  let fee : Fee :=
    { collector := collector, mintFee := msg.fee.mintFee, burnFee := msg.fee.burnFee
      streamingFee := msg.fee.streamingFee.map (·.toState env.now) }
  fee.checkRates
  let gov ← validate env msg.gov
  .ok ({ config := { gov := gov, paused := {}, indexDenom := "undefined"
                     reserveDenom := msg.reserveDenom }
         pendingGov := none
         fee := fee
         totalSupply := 0
         indexUnits := msg.indexUnits
         rebalance := none
         reserveUnits := none
         tradeInfos := [] },
    [.createDenom env.contract msg.indexDenom])

/-- `reply`, `/repo/contracts/core/src/contract.rs:109-128`; `newDenom` is `MsgCreateDenomResponse.new_token_denom`,
`none`
when the reply carries no data or cannot be parsed. -/
def reply (s : State) (id : Nat) (newDenom : Option Denom) : Res Out :=
  if id = 0 then
    match newDenom with
    | none => .error .panic
    | some d => .ok ({ s with config := { s.config with indexDenom := d } }, [])
  else .error .unknownReplyId

/-- Does `execute` collect the streaming fee before this message?  `/repo/contracts/core/src/contract.rs:84-91`. -/
def collectsFirst : ExecMsg → Bool
  | .mint .. => true
  | .burn .. => true
  | .realize => true
  | .rebalance (.init ..) => true
  | .gov (.updateFeeStrategy ..) => true
  | _ => false

/-- The dispatch of `execute`, `/repo/contracts/core/src/contract.rs:94-105`. -/
def dispatch (s : State) (env : Env) (info : Info) : ExecMsg → Res Out
  | .mint amount receiver refundTo => mint s env info amount receiver refundTo
  | .burn redeemTo => burn s env info redeemTo
  | .realize => realizeStreamingFee s info
  | .gov m => handleGov s env info m
  | .rebalance m => handleRebalance s env info m

/-- `execute`, `/repo/contracts/core/src/contract.rs:75-106`. -/
def execute (s : State) (env : Env) (info : Info) (msg : ExecMsg) : Res Out := do
  let s ← if collectsFirst msg then collectStreamingFee s env.now else .ok s
  dispatch s env info msg

/-- One message delivered to the contract.  Arguments of `/repo/contracts/core/src/contract.rs:75`. -/
structure Call where
  env : Env
  info : Info
  msg : ExecMsg

/-- Delivery of one call: a failed message changes nothing and emits nothing
(transaction atomicity of the chain).  Entry point `/repo/contracts/core/src/contract.rs:75-106`. -/
def step (s : State) (c : Call) : State × List Msg :=
  match execute s c.env c.info c.msg with
  | .ok o => o
  | .error _ => (s, [])

/-- Delivery of a list of calls; the messages of all accepted calls in order.  Entry point
`/repo/contracts/core/src/contract.rs:75-106`. -/
def run (s : State) : List Call → State × List Msg
  | [] => (s, [])
  | c :: cs =>
    let (s1, m1) := step s c
    let (s2, m2) := run s1 cs
    (s2, m1 ++ m2)

/-- The states the contract can be in right after its creation transaction.  After
`/repo/contracts/core/src/contract.rs:16-72` and `/repo/contracts/core/src/contract.rs:109-128`. -/
def Fresh (s : State) : Prop :=
  ∃ env msg s0 ms d ms', instantiate env msg = .ok (s0, ms) ∧ reply s0 0 (some d) = .ok (s, ms')

/-- The states reachable by any history of calls with any environments.  Entry points
`/repo/contracts/core/src/contract.rs:16-106`. -/
def Reachable (s : State) : Prop := ∃ s0 cs, Fresh s0 ∧ s = (run s0 cs).1

end Ibcx.Core
