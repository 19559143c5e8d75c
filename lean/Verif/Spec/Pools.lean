import Verif.Spec.Schema
import Verif.Pool.Sim
/-!
# The answers of the chain about pools, as tables

The types of `/repo/packages/pool/src/{weighted,stable,concentrated}.rs` as tables, and which pool an answer describes.
-/

namespace Ibcx.Spec
open Ibcx Ibcx.Json

namespace Schema

/-- `/repo/packages/pool/src/weighted.rs:54-64`. -/
def poolAsset : Schema := .record [("token", .record [("denom", .text), ("amount", .wide)]), ("weight", .wide)]

/-- `/repo/packages/pool/src/weighted.rs:34-52,66-72`. -/
def weightedAnswer : Schema := .record [("pool", .record
  [("@type", .text), ("address", .text), ("id", .text), ("future_pool_governor", .text),
   ("pool_params", .record
     [("swap_fee", .decimal), ("exit_fee", .decimal),
      ("smooth_weight_change_params", .optional (.record
        [("initial_pool_weights", .list poolAsset), ("target_pool_weights", .list poolAsset), ("start_time", .text),
         ("duration", .text)]))]),
   ("pool_assets", .list poolAsset), ("total_shares", coin), ("total_weight", .wide)])]

/-- `/repo/packages/pool/src/stable.rs:11-32`. -/
def stableAnswer : Schema := .record [("pool", .record
  [("@type", .text), ("address", .text), ("id", .text),
   ("pool_params", .record [("swap_fee", .decimal), ("exit_fee", .decimal)]),
   ("pool_liquidity", .list coin), ("scaling_factors", .list (.number 64)), ("scaling_factor_controller", .text),
   ("total_shares", coin), ("future_pool_governor", .text)])]

/-- `/repo/packages/pool/src/concentrated.rs:7-28`. -/
def concentratedAnswer : Schema := .record [("pool", .record
  [("@type", .text), ("address", .text), ("id", .text), ("incentives_address", .text), ("spread_rewards_address", .text),
   ("token0", .text), ("token1", .text), ("current_tick_liquidity", .text), ("current_sqrt_price", .text),
   ("current_tick", .text), ("tick_spacing", .text), ("spread_factor", .text), ("exponent_at_price_one", .text),
   ("last_liquidity_update", .text)])]

end Schema

namespace Pools
open JsonText (NumberText DecimalText)

/-- An asset of a weighted pool as written in full, `/repo/packages/pool/src/weighted.rs:54-64`. -/
def assetTree (a : Pool.Asset) : Json :=
  .obj [("token", .obj [("denom", .str a.denom), ("amount", .str (toString a.amount))]), ("weight", .str (toString a.weight))]

/-- The weighted pool an answer describes: its number, its fee and its assets. -/
def Weighted (dec : Nat → String) (full : Json) (p : Pool.Pool) : Prop :=
  ∃ n fee assets id fs ps, p = .weighted ⟨n, fee, assets⟩ ∧ fee < 2 ^ 128 ∧
    (∀ a ∈ assets, a.amount < 2 ^ 256 ∧ a.weight < 2 ^ 256) ∧ full = .obj [("pool", .obj fs)] ∧
    ("id", .str id) ∈ fs ∧ NumberText 64 id.toList n ∧
    ("pool_params", .obj ps) ∈ fs ∧ ("swap_fee", .str (dec fee)) ∈ ps ∧ ("pool_assets", .arr (assets.map assetTree)) ∈ fs

/-- The stable pool an answer describes: its number and its fee. -/
def Stable (dec : Nat → String) (full : Json) (p : Pool.Pool) : Prop :=
  ∃ n fee id fs ps, p = .queried n (.ok fee) ∧ fee < 2 ^ 128 ∧ full = .obj [("pool", .obj fs)] ∧
    ("id", .str id) ∈ fs ∧ NumberText 64 id.toList n ∧ ("pool_params", .obj ps) ∈ fs ∧ ("swap_fee", .str (dec fee)) ∈ ps

/-- The concentrated pool an answer describes: its number, and its spread factor or an error if that is not a decimal
number. -/
def Concentrated (full : Json) (p : Pool.Pool) : Prop :=
  ∃ n spread id s fs, p = .queried n spread ∧ full = .obj [("pool", .obj fs)] ∧ ("id", .str id) ∈ fs ∧
    NumberText 64 id.toList n ∧ ("spread_factor", .str s) ∈ fs ∧
    ((∃ d, DecimalText s.toList d ∧ spread = .ok d) ∨ ((∀ d, ¬ DecimalText s.toList d) ∧ spread = .error .generic))

/-- The bytes `v` are the UTF-8 form of a JSON text of the form `S`, which says in full what the tree `full` says. -/
def Answer (dec : Nat → String) (S : Schema) (v : List Nat) (full : Json) : Prop :=
  ∃ cs j, v = (cs.flatMap String.utf8EncodeChar).map UInt8.toNat ∧ JsonText.IsText cs j ∧ Schema.Means dec S j full

end Pools
end Ibcx.Spec
