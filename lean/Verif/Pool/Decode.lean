import Verif.Pool.Sim
/-!
# Telling the kinds of pools apart

Models `/repo/packages/pool/src/query.rs:8-79`.  The chain's answer is a byte string (the JSON text of a pool).
The code looks at the base64 form of the answer.
-/

namespace Ibcx.Pool
open Ibcx

/-- The alphabet of `Binary::to_base64` (cosmwasm-std 1.5.2 `binary.rs`: the standard alphabet of RFC 4648).  Under
`/repo/packages/pool/src/query.rs:43`. -/
def base64Char (n : Nat) : Char :=
  if n < 26 then Char.ofNat (65 + n)
  else if n < 52 then Char.ofNat (97 + (n - 26))
  else if n < 62 then Char.ofNat (48 + (n - 52))
  else if n = 62 then '+' else '/'

/-- `Binary::to_base64` (cosmwasm-std 1.5.2 `binary.rs`): standard base64 with padding; bytes are numbers below 256. 
`/repo/packages/pool/src/query.rs:43`. -/
def toBase64 : List Nat → List Char
  | [] => []
  | [a] => [base64Char (a / 4), base64Char (a % 4 * 16), '=', '=']
  | [a, b] => [base64Char (a / 4), base64Char (a % 4 * 16 + b / 16), base64Char (b % 16 * 4), '=']
  | a :: b :: c :: rest =>
    base64Char (a / 4) :: base64Char (a % 4 * 16 + b / 16) :: base64Char (b % 16 * 4 + c / 64) ::
      base64Char (c % 64) :: toBase64 rest

/-- `POOL_WEIGHTED`, `/repo/packages/pool/src/query.rs:29`. -/
def POOL_WEIGHTED : String := "eyJwb29sIjp7IkB0eXBlIjoiL29zbW9zaXMuZ2FtbS52MWJldGExLlBvb2wi"

/-- `POOL_STABLE`, `/repo/packages/pool/src/query.rs:30-31`. -/
def POOL_STABLE : String :=
  "eyJwb29sIjp7IkB0eXBlIjoiL29zbW9zaXMuZ2FtbS5wb29sbW9kZWxzLnN0YWJsZXN3YXAudjFiZXRhMS5Qb29sI"

/-- `POOL_CONCENTRATED`, `/repo/packages/pool/src/query.rs:32-33`. -/
def POOL_CONCENTRATED : String :=
  "eyJwb29sIjp7IkB0eXBlIjoiL29zbW9zaXMuY29uY2VudHJhdGVkbGlxdWlkaXR5LnYxYmV0YTEuUG9v"

/-- `PoolType`, `/repo/packages/pool/src/query.rs:35-40`. -/
inductive PoolType where
  | weighted
  | stable
  | concentrated
deriving DecidableEq, Repr

/-- The `match` of `decode_pool`, `/repo/packages/pool/src/query.rs:43-48`. -/
def poolType (v : List Nat) : Option PoolType :=
  let b := toBase64 v
  if POOL_WEIGHTED.toList.isPrefixOf b then some .weighted
  else if POOL_STABLE.toList.isPrefixOf b then some .stable
  else if POOL_CONCENTRATED.toList.isPrefixOf b then some .concentrated
  else none

/-- `decode_pool`, `/repo/packages/pool/src/query.rs:42-62`.  `utf8` tells whether the bytes are UTF-8 text (the
`println!` of `/repo/packages/pool/src/query.rs:50`
aborts otherwise) and `parse` is `from_json` for the kind; both are arbitrary here
and given in `Verif/Json/Pools.lean`. -/
def decodePool (utf8 : List Nat → Bool) (parse : PoolType → List Nat → Res Pool) (v : List Nat) :
    Res (Option Pool) :=
  match poolType v with
  | none => .ok none
  | some k => do
    require (utf8 v = true) .panic
    let p ← parse k v
    .ok (some p)

/-- `query_pools`, `/repo/packages/pool/src/query.rs:64-79`, with the raw answers of the chain: first all questions
are asked, then all answers
are decoded, and answers of unknown kind are dropped. -/
def queryRawPools (raw : Nat → Res (List Nat)) (utf8 : List Nat → Bool) (parse : PoolType → List Nat → Res Pool)
    (ids : List Nat) : Res (List Pool) := do
  let answers ← ids.mapM raw
  let pools ← answers.mapM (decodePool utf8 parse)
  .ok (pools.filterMap id)

end Ibcx.Pool
