import Verif.Math.Pow
import Verif.Iface.Semver
import Verif.Periphery.Text
import Verif.Props.AirdropDemo
/-!
# The unit tests of the packages, replayed on the model

The `#[test]`s of `/repo/packages/` that do not need a running chain: `math/src/pow.rs`, `utils/src/lib.rs` and
`interface/src/periphery.rs`.  The tests of `osmosis/weighted.rs` and of the simulator (`sim/mod.rs`) start an Osmosis
node and
cannot be replayed.  These are tests of the model, not proofs of properties.
-/

namespace Ibcx.Conformance
open Ibcx Ibcx.Math Ibcx.Iface Ibcx.Periphery

/-- `pow` succeeds with a result at most `err` away from `res`. -/
def powWithin (base exp res err : Nat) : Bool :=
  match pow base exp with
  | .ok v => decide (v ≤ res + err ∧ res ≤ v + err)
  | .error _ => false

/-- `test_pow`, `/repo/packages/math/src/pow.rs:136-201`. -/
example : powWithin 800000000000000000 320000000000000000 931083850000000000 10000000000 = true ∧
    pow 800000000000000000 0 = .ok 1000000000000000000 ∧
    powWithin 1999900000000000000 230000000000000000 1172821461000000000 10000000000 = true ∧
    pow 12300000000000 123000000000000000000 = .ok 0 ∧
    powWithin 1777000000000000000 20000000000000000000 98570862372081602000000 1000000 = true ∧
    pow 1000000000000000000 123000000000000000000 = .ok 1000000000000000000 := by decide +kernel

/-- The denom of `/repo/packages/interface/src/periphery.rs:211`. -/
def akt : String := "factory/osmo1jjx3kvnf0jk3fu2twfgt8wld9qtzfw08nyvm65/uakt-v1"

/-- `test_swap_info_compact`, `/repo/packages/interface/src/periphery.rs:209-230`, and `test_swap_infos_compact`,
`/repo/packages/interface/src/periphery.rs:232-267`. -/
example : parseInfo ⟨"uosmo," ++ akt, ["808,uosmo"]⟩ = .ok ⟨"uosmo", akt, [⟨808, "uosmo"⟩]⟩ ∧
    parseInfos (List.replicate 10 ⟨"uosmo," ++ akt, ["808,uosmo"]⟩) =
      .ok (List.replicate 10 ⟨"uosmo", akt, [⟨808, "uosmo"⟩]⟩) := by decide +kernel

/-- `test_store_version`, `/repo/packages/utils/src/lib.rs:56-71`. -/
example : storeVersion parseVersion (some ⟨"test_contract", "0.1.0"⟩) "test_contract" "0.1.1" =
      .ok (some ⟨"test_contract", "0.1.1"⟩) ∧
    (storeVersion parseVersion (some ⟨"test_contract", "0.1.1"⟩) "test_contract" "0.0.9").toOption = none ∧
    (storeVersion parseVersion (some ⟨"test_contract", "0.1.1"⟩) "another_test_contract" "0.1.1").toOption = none := by
  decide +kernel

end Ibcx.Conformance
