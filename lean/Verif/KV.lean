import Verif.Num
/-!
# Key-value stores

`cw_storage_plus::Map` (1.2.0).  A store is an association list; `get` reads the entry of a key,
`set` replaces it or adds it.  Iteration order is the key order; `sorted` produces it.  Keys of the
contracts are `u64` (big-endian bytes, so numeric order), strings (byte order, which for UTF-8
is the code point order of Lean's `String`) and pairs, always read under a fixed first component.
Simplified: a store per map, without namespaces and serialization; `Verif/Storage/Raw.lean` models the one byte
storage below, and C93 relates the two.
-/

namespace Ibcx

/-- A store with keys `K` and values `V`.  Under the maps of `/repo/contracts/core/src/state/mod.rs:37-38`,
`/repo/contracts/airdrop/src/state.rs:42-49`. -/
abbrev KV (K V : Type) := List (K × V)

namespace KV
variable {K V : Type} [DecidableEq K]

/-- `Map::may_load`.  Under the maps of `/repo/contracts/core/src/state/mod.rs:37-38`,
`/repo/contracts/airdrop/src/state.rs:42-49`. -/
def get : KV K V → K → Option V
  | [], _ => none
  | (k', v) :: m, k => if k' = k then some v else get m k

/-- `Map::save`.  Under the maps of `/repo/contracts/core/src/state/mod.rs:37-38`,
`/repo/contracts/airdrop/src/state.rs:42-49`. -/
def set : KV K V → K → V → KV K V
  | [], k, v => [(k, v)]
  | (k', v') :: m, k, v => if k' = k then (k, v) :: m else (k', v') :: set m k v

/-- `Map::load`: an absent key is a `NotFound` error.  Under the maps of
`/repo/contracts/core/src/state/mod.rs:37-38`, `/repo/contracts/airdrop/src/state.rs:42-49`. -/
def load (m : KV K V) (k : K) : Res V :=
  match m.get k with
  | some v => .ok v
  | none => .error .notFound

/-- Keys of a store.  Under the maps of `/repo/contracts/core/src/state/mod.rs:37-38`,
`/repo/contracts/airdrop/src/state.rs:42-49`. -/
def keys (m : KV K V) : List K := m.map (·.1)

end KV
end Ibcx
