import Mathlib.Data.List.Forall2
import Verif.Num
import Verif.Storage.Raw
/-!
# What protobuf bytes say

The wire format, given as a grammar, and what the fields of the messages of the chain are.  Independent of the model's writer
and reader.
-/

namespace Ibcx.Spec.Proto
open Ibcx
open Ibcx.Storage (Bytes textBytes)

/-- The bytes spell a number: seven bits each, the lowest first, all but the last marked by the eighth bit. -/
inductive Spells : Bytes → Nat → Prop
  | last {a : Nat} : a < 128 → Spells [a] a
  | more {a n : Nat} {b : Bytes} : a < 128 → Spells b n → Spells ((a + 128) :: b) (a + 128 * n)

/-- A number as it may stand in a message: at most ten bytes, below `2^64`. -/
def Number (b : Bytes) (n : Nat) : Prop := Spells b n ∧ b.length ≤ 10 ∧ n < 2 ^ 64

/-- The number of a field, which is not zero, and the kind of its value. -/
def Key (b : Bytes) (tag kind : Nat) : Prop := Number b (tag * 8 + kind) ∧ 1 ≤ tag ∧ tag < 2 ^ 29

/-- The value of a field. -/
inductive Value where
  | num (n : Nat)
  | fixed (b : Bytes)
  | block (b : Bytes)

/-- The value of a field of a kind: a number, eight bytes, a length and so many bytes, or four bytes. -/
inductive Item : Nat → Bytes → Value → Prop
  | num {b : Bytes} {n : Nat} : Number b n → Item 0 b (.num n)
  | eight {b : Bytes} : b.length = 8 → Item 1 b (.fixed b)
  | block {l b : Bytes} : Number l b.length → Item 2 (l ++ b) (.block b)
  | four {b : Bytes} : b.length = 4 → Item 5 b (.fixed b)

/-- The bytes consist of these fields.  Groups, a form no longer in use, are left out. -/
inductive Fields : Bytes → List (Nat × Value) → Prop
  | none : Fields [] []
  | more {k v r : Bytes} {tag kind : Nat} {x : Value} {fs : List (Nat × Value)} :
    Key k tag kind → Item kind v x → Fields r fs → Fields (k ++ v ++ r) ((tag, x) :: fs)

/-- The values of a repeated field of blocks, in order. -/
def blocks (tag : Nat) : List (Nat × Value) → List Bytes
  | [] => []
  | (t, .block b) :: fs => if t = tag then b :: blocks tag fs else blocks tag fs
  | _ :: fs => blocks tag fs

/-- A text or message field: the last value counts, and it is empty if there is none. -/
def field (tag : Nat) (fs : List (Nat × Value)) : Bytes := (blocks tag fs).getLast?.getD []

/-- The values of a number field, in order. -/
def nums (tag : Nat) : List (Nat × Value) → List Nat
  | [] => []
  | (t, .num n) :: fs => if t = tag then n :: nums tag fs else nums tag fs
  | _ :: fs => nums tag fs

/-- A number field: the last value counts, and it is zero if there is none. -/
def number (tag : Nat) (fs : List (Nat × Value)) : Nat := (nums tag fs).getLast?.getD 0

/-- `Coin`: denom and decimal amount. -/
def IsCoin (c : Coin) (b : Bytes) : Prop :=
  ∃ fs, Fields b fs ∧ field 1 fs = textBytes c.denom ∧ field 2 fs = textBytes (toString c.amount)

/-- A hop: the pool and the denom. -/
def IsRoute (r : SwapRoute) (b : Bytes) : Prop :=
  ∃ fs, Fields b fs ∧ number 1 fs = r.poolId ∧ field 2 fs = textBytes r.tokenDenom

/-- The messages of the token factory and the pool manager. -/
def Says (url : String) (b : Bytes) (m : Msg) : Prop :=
  ∃ fs, Fields b fs ∧
    match m with
    | .createDenom sender subdenom => url = "/osmosis.tokenfactory.v1beta1.MsgCreateDenom" ∧
      field 1 fs = textBytes sender ∧ field 2 fs = textBytes subdenom
    | .tfMint sender mintTo amount => url = "/osmosis.tokenfactory.v1beta1.MsgMint" ∧
      field 1 fs = textBytes sender ∧ IsCoin amount (field 2 fs) ∧ field 3 fs = textBytes mintTo
    | .tfBurn sender burnFrom amount => url = "/osmosis.tokenfactory.v1beta1.MsgBurn" ∧
      field 1 fs = textBytes sender ∧ IsCoin amount (field 2 fs) ∧ field 3 fs = textBytes burnFrom
    | .send _ _ => False
    | .swapExactIn sender routes tokenIn minOut => url = "/osmosis.poolmanager.v1beta1.MsgSwapExactAmountIn" ∧
      field 1 fs = textBytes sender ∧ List.Forall₂ IsRoute routes (blocks 2 fs) ∧ IsCoin tokenIn (field 3 fs) ∧
      field 4 fs = textBytes (toString minOut)
    | .swapExactOut sender routes tokenOut maxIn => url = "/osmosis.poolmanager.v1beta1.MsgSwapExactAmountOut" ∧
      field 1 fs = textBytes sender ∧ List.Forall₂ IsRoute routes (blocks 2 fs) ∧ field 3 fs = textBytes (toString maxIn) ∧
      IsCoin tokenOut (field 4 fs)

/-- A question for the output of a swap: the pool of the first hop, amount and denom in one text, and the hops. -/
def AsksOut (b : Bytes) (routes : List SwapRoute) (tokenIn : Coin) : Prop :=
  ∃ fs, Fields b fs ∧ routes.head?.map (·.poolId) = some (number 2 fs) ∧
    field 3 fs = textBytes (toString tokenIn.amount) ++ textBytes tokenIn.denom ∧ List.Forall₂ IsRoute routes (blocks 4 fs)

/-- A question for the input of a swap. -/
def AsksIn (b : Bytes) (routes : List SwapRoute) (tokenOut : Coin) : Prop :=
  ∃ fs, Fields b fs ∧ routes.head?.map (·.poolId) = some (number 2 fs) ∧ List.Forall₂ IsRoute routes (blocks 3 fs) ∧
    field 4 fs = textBytes (toString tokenOut.amount) ++ textBytes tokenOut.denom

/-- The question for a pool. -/
def AsksPool (b : Bytes) (id : Nat) : Prop := ∃ fs, Fields b fs ∧ number 1 fs = id

/-- The chain's response to `MsgCreateDenom`: the new denom in the first field, which is text wherever it stands. -/
def Created (b : Bytes) (denom : String) : Prop :=
  ∃ fs, Fields b fs ∧ (∀ x, (1, x) ∈ fs → ∃ t, x = .block (textBytes t)) ∧ field 1 fs = textBytes denom

end Ibcx.Spec.Proto
