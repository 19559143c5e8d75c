import Verif.Core.Exec
import Verif.Core.Query
/-!
# A concrete contract used by the examples
-/

namespace Ibcx.Demo
open Ibcx Ibcx.Core

instance {α β : Type} [DecidableEq α] [DecidableEq β] : DecidableEq (Except α β)
  | .ok a, .ok b => if h : a = b then .isTrue (by rw [h]) else .isFalse (by simpa using h)
  | .error a, .error b => if h : a = b then .isTrue (by rw [h]) else .isFalse (by simpa using h)
  | .ok _, .error _ => .isFalse (by simp)
  | .error _, .ok _ => .isFalse (by simp)

/-- Environment of the examples: every address except the empty one is valid, the market answers
`out + 1` for exact-out swaps and `in - 1` for exact-in swaps. -/
def env (now : Nat) : Env :=
  { now := now, height := 1, contract := "core", validAddr := fun a => a ≠ ""
    estOut := fun _ c => .ok (c.amount - 1), estIn := fun _ c => .ok (c.amount + 1) }

/-- 1.5 uosmo, 0.25 uatom per index token; mint fee 1%, burn fee 2%, streaming fee `2·10^-8` per
second. -/
def inst : InstantiateMsg :=
  { gov := "gov"
    fee := { collector := "collector", mintFee := some 10000000000000000, burnFee := some 20000000000000000
             streamingFee := some { rate := 20000000000, freeze := false } }
    indexDenom := "ibcx"
    indexUnits := [("uosmo", 1500000000000000000), ("uatom", 250000000000000000)]
    reserveDenom := "uosmo" }

/-- The state right after creation at time 1000. -/
def s0 : State :=
  { config := { gov := "gov", paused := {}, indexDenom := "factory/core/ibcx", reserveDenom := "uosmo" }
    pendingGov := none
    fee := { collector := "collector", mintFee := some 10000000000000000, burnFee := some 20000000000000000
             streamingFee := some { rate := 20000000000, collected := [], freeze := false, lastCollectedAt := 1000 } }
    totalSupply := 0
    indexUnits := [("uosmo", 1500000000000000000), ("uatom", 250000000000000000)]
    rebalance := none
    reserveUnits := none
    tradeInfos := [] }

theorem s0_fresh : Fresh s0 :=
  ⟨env 1000, inst, _, _, "factory/core/ibcx", [], rfl, rfl⟩

theorem s0_reachable : Reachable s0 := ⟨s0, [], s0_fresh, rfl⟩

/-- Alice mints 10000 index tokens. -/
def mintInfo : Info := { sender := "alice", funds := [⟨"uatom", 3000⟩, ⟨"uosmo", 15000⟩] }

/-- The state after Alice's mint. -/
def s1 : State := { s0 with totalSupply := 10000 }

/-- The messages of Alice's mint. -/
def mintMsgs : List Msg :=
  [.tfMint "core" "core" ⟨"factory/core/ibcx", 10000⟩, .send "collector" [⟨"factory/core/ibcx", 100⟩],
   .send "alice" [⟨"factory/core/ibcx", 9900⟩], .send "alice" [⟨"uatom", 500⟩]]

theorem mint_ok : execute s0 (env 1000) mintInfo (.mint 10000 none none) = .ok (s1, mintMsgs) := by
  decide +kernel

end Ibcx.Demo
