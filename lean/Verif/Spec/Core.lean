import Verif.Core.Exec
/-!
# Vocabulary of the specifications

Plain functions used to state the properties.  They do not use the helper functions of the model
(only its data types), so a mistake in a helper cannot hide in a statement.
-/

namespace Ibcx.Spec
open Ibcx Ibcx.Core

/-- The integer part of a decimal `u` (a multiple of `10^-18`) times an integer `a`. -/
def part (u a : Nat) : Nat := u * a / 1000000000000000000

/-- Total amount of a denom in a list of coins. -/
def total (d : Denom) (cs : List Coin) : Nat :=
  ((cs.filter (fun c => c.denom == d)).map (·.amount)).sum

/-- Total amount of `d` the messages ask the token factory to mint. -/
def minted (d : Denom) : List Msg → Nat
  | [] => 0
  | .tfMint _ _ c :: ms => (if c.denom = d then c.amount else 0) + minted d ms
  | _ :: ms => minted d ms

/-- Total amount of `d` the messages ask the token factory to burn. -/
def burned (d : Denom) : List Msg → Nat
  | [] => 0
  | .tfBurn _ _ c :: ms => (if c.denom = d then c.amount else 0) + burned d ms
  | _ :: ms => burned d ms

/-- Total amount of `d` sent by bank transfers in the messages. -/
def sent (d : Denom) : List Msg → Nat
  | [] => 0
  | .send _ cs :: ms => total d cs + sent d ms
  | _ :: ms => sent d ms

/-- Total amount of `d` sent to `a` by bank transfers in the messages. -/
def sentTo (a : Addr) (d : Denom) : List Msg → Nat
  | [] => 0
  | .send b cs :: ms => (if b = a then total d cs else 0) + sentTo a d ms
  | _ :: ms => sentTo a d ms

/-- The contract is paused at time `t`. -/
def pausedAt (s : State) (t : Nat) : Prop :=
  s.config.paused.paused = true ∧ ∀ e, s.config.paused.expiresAt = some e → t < e

/-- Each denom of a list of coins is listed once (always true for the funds of a message: the chain
rejects other lists). -/
def distinct (cs : List Coin) : Prop := (cs.map (·.denom)).Nodup

/-- Was the call accepted? -/
def accepted (s : State) (c : Call) : Prop :=
  ∃ s' ms, execute s c.env c.info c.msg = .ok (s', ms)

/-- No message of the kind `P` is accepted when the calls are delivered from `s` on. -/
def NoneAccepted (P : ExecMsg → Prop) : State → List Call → Prop
  | _, [] => True
  | s, c :: cs => (P c.msg → ¬ accepted s c) ∧ NoneAccepted P (step s c).1 cs

end Ibcx.Spec
