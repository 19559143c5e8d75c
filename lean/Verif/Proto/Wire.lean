import Verif.Core.Exec
import Verif.Json.Text
import Verif.Storage.Raw
/-!
# Messages and questions to the chain as protobuf bytes

The contracts send the messages of the token factory and of the pool manager, and ask about pools, as `CosmosMsg::Stargate` and
`QueryRequest::Stargate`: a type and the protobuf bytes of a message of osmosis-std 0.22, written and read by prost 0.12.3.
Simplified: numbers and lengths are unbounded where Rust has `u64`.
-/

namespace Ibcx.Proto
open Ibcx
open Ibcx.Storage (Bytes textBytes)

/-! ## Writing -/

/-- `varint`, with the number as its own bound on the steps.  Under `/repo/packages/interface/src/types.rs:118-148`. -/
def varintF : Nat → Nat → Bytes
  | 0, n => [n]
  | k + 1, n => if n < 128 then [n] else (n % 128 + 128) :: varintF k (n / 128)

/-- `encode_varint` of prost 0.12.3: seven bits per byte, the lowest first, the eighth bit on all but the last.  Under
`/repo/packages/interface/src/types.rs:118-148`. -/
def varint (n : Nat) : Bytes := varintF n n

/-- `encode_key`: number and kind of a field (0 a number, 2 bytes with their length).  Under
`/repo/packages/interface/src/types.rs:118-148`. -/
def key (tag kind : Nat) : Bytes := varint (tag * 8 + kind)

/-- A field of bytes: `message::encode`, `string::encode`.  Under `/repo/packages/interface/src/types.rs:118-148`. -/
def block (tag : Nat) (b : Bytes) : Bytes := key tag 2 ++ varint b.length ++ b

/-- A text field, left out when empty (proto3).  Under `/repo/packages/interface/src/types.rs:118-148`. -/
def textField (tag : Nat) (s : String) : Bytes := if s = "" then [] else block tag (textBytes s)

/-- A `uint64` field, left out when zero (proto3).  Under `/repo/packages/interface/src/types.rs:118-148`. -/
def numField (tag n : Nat) : Bytes := if n = 0 then [] else key tag 0 ++ varint n

/-- `cosmos.base.v1beta1.Coin`; `coin(..).into()`, `/repo/packages/interface/src/types.rs:128`. -/
def coinBytes (c : Coin) : Bytes := textField 1 c.denom ++ textField 2 (toString c.amount)

/-- `SwapAmountInRoute`, `/repo/packages/interface/src/types.rs:45-55`, and `SwapAmountOutRoute`,
`/repo/packages/interface/src/types.rs:57-67`: the same numbers and kinds. -/
def routeBytes (r : SwapRoute) : Bytes := numField 1 r.poolId ++ textField 2 r.tokenDenom

/-- The routes of a message, in order: `From<SwapRoutes>`, `/repo/packages/interface/src/types.rs:45-67`. -/
def routesBytes (tag : Nat) (rs : List SwapRoute) : Bytes := rs.flatMap fun r => block tag (routeBytes r)

/-- The type and the bytes of a `CosmosMsg::Stargate`; `BankMsg::Send` is no such message.  `MsgCreateDenom`
`/repo/contracts/core/src/contract.rs:60-63`, `MsgMint` `/repo/contracts/core/src/execute/token.rs:72-76`, `MsgBurn`
`/repo/contracts/core/src/execute/token.rs:161-165`, `MsgSwapExactAmountIn` `/repo/packages/interface/src/types.rs:118-132`,
`MsgSwapExactAmountOut` `/repo/packages/interface/src/types.rs:134-148`. -/
def stargate : Msg → Option (String × Bytes)
  | .createDenom sender subdenom =>
    some ("/osmosis.tokenfactory.v1beta1.MsgCreateDenom", textField 1 sender ++ textField 2 subdenom)
  | .tfMint sender mintTo amount =>
    some ("/osmosis.tokenfactory.v1beta1.MsgMint", textField 1 sender ++ block 2 (coinBytes amount) ++ textField 3 mintTo)
  | .tfBurn sender burnFrom amount =>
    some ("/osmosis.tokenfactory.v1beta1.MsgBurn", textField 1 sender ++ block 2 (coinBytes amount) ++ textField 3 burnFrom)
  | .send _ _ => none
  | .swapExactIn sender routes tokenIn minOut =>
    some ("/osmosis.poolmanager.v1beta1.MsgSwapExactAmountIn",
      textField 1 sender ++ routesBytes 2 routes ++ block 3 (coinBytes tokenIn) ++ textField 4 (toString minOut))
  | .swapExactOut sender routes tokenOut maxIn =>
    some ("/osmosis.poolmanager.v1beta1.MsgSwapExactAmountOut",
      textField 1 sender ++ routesBytes 2 routes ++ textField 3 (toString maxIn) ++ block 4 (coinBytes tokenOut))

/-- `Coin::to_string` of cosmwasm-std 1.5.2, under `/repo/packages/interface/src/types.rs:89,109`. -/
def coinText (c : Coin) : String := toString c.amount ++ c.denom

/-- `PoolRequest`, `/repo/packages/pool/src/query.rs:70`. -/
def poolQuestion (id : Nat) : String × Bytes := ("/osmosis.poolmanager.v1beta1.Query/Pool", numField 1 id)

/-- `EstimateSwapExactAmountInRequest`, `/repo/packages/interface/src/types.rs:78-94`; `unwrap` of the first route fails when
there is none. -/
def estimateIn (routes : List SwapRoute) (tokenIn : Coin) : Res (String × Bytes) :=
  match routes with
  | [] => .error .panic
  | r :: _ => .ok ("/osmosis.poolmanager.v1beta1.Query/EstimateSwapExactAmountIn",
      numField 2 r.poolId ++ textField 3 (coinText tokenIn) ++ routesBytes 4 routes)

/-- `EstimateSwapExactAmountOutRequest`, `/repo/packages/interface/src/types.rs:96-116`. -/
def estimateOut (routes : List SwapRoute) (tokenOut : Coin) : Res (String × Bytes) :=
  match routes with
  | [] => .error .panic
  | r :: _ => .ok ("/osmosis.poolmanager.v1beta1.Query/EstimateSwapExactAmountOut",
      numField 2 r.poolId ++ routesBytes 3 routes ++ textField 4 (coinText tokenOut))

/-! ## Reading -/

/-- `decode_varint` of prost 0.12.3 with what follows: `k` more bytes may be read.  Under
`/repo/contracts/core/src/contract.rs:113`. -/
def readVarintF : Nat → Bytes → Option (Nat × Bytes)
  | 0, _ => none
  | _ + 1, [] => none
  | k + 1, a :: r =>
    if a < 128 then if k = 0 ∧ 2 ≤ a then none else some (a, r)
    else do
      let (n, r) ← readVarintF k r
      some (a - 128 + 128 * n, r)

/-- `decode_varint` of prost 0.12.3: at most ten bytes, and at most a one in the tenth.  Under
`/repo/contracts/core/src/contract.rs:113`. -/
def readVarint (b : Bytes) : Option (Nat × Bytes) := readVarintF 10 b

/-- The next `n` bytes and the rest.  Under `/repo/contracts/core/src/contract.rs:113`. -/
def take (n : Nat) (b : Bytes) : Option (Bytes × Bytes) := if n ≤ b.length then some (b.take n, b.drop n) else none

/-- `decode_key` of prost 0.12.3: number and kind.  Under `/repo/contracts/core/src/contract.rs:113`. -/
def readKey (b : Bytes) : Option ((Nat × Nat) × Bytes) := do
  let (k, r) ← readVarint b
  if k < 2 ^ 32 ∧ k % 8 ≤ 5 ∧ 1 ≤ k / 8 then some ((k / 8, k % 8), r) else none

/-- `skip_field` of prost 0.12.3.  Groups (kinds 3 and 4) are refused: simplified, prost passes over a complete group.  Under
`/repo/contracts/core/src/contract.rs:113`. -/
def skip (kind : Nat) (b : Bytes) : Option Bytes :=
  if kind = 0 then (readVarint b).map (·.2)
  else if kind = 1 then (take 8 b).map (·.2)
  else if kind = 2 then do
    let (n, r) ← readVarint b
    let (_, r) ← take n r
    some r
  else if kind = 5 then (take 4 b).map (·.2)
  else none

/-- `MsgCreateDenomResponse::decode` of osmosis-std 0.22 (field 1 is the new denom), with the denom read so far: the last one
counts, and its bytes must be UTF-8.  Each step takes a byte, which bounds the steps.
Under `/repo/contracts/core/src/contract.rs:113`. -/
def readDenomF : Nat → Bytes → String → Option String
  | _, [], d => some d
  | 0, _ :: _, _ => none
  | k + 1, b, d => do
    let ((tag, kind), r) ← readKey b
    if tag = 1 then
      if kind = 2 then do
        let (n, r) ← readVarint r
        let (t, r) ← take n r
        let cs ← Json.fromUtf8 t
        readDenomF k r (String.ofList cs)
      else none
    else do
      let r ← skip kind r
      readDenomF k r d

/-- `reply_data.try_into()`, `/repo/contracts/core/src/contract.rs:113`. -/
def readDenom (b : Bytes) : Option String := readDenomF b.length b ""

/-- `reply` with the data of the chain's response, `/repo/contracts/core/src/contract.rs:109-128`: without data `unwrap` fails. -/
def reply (s : Core.State) (id : Nat) (data : Option Bytes) : Res Core.Out := Core.reply s id (data.bind readDenom)

end Ibcx.Proto
