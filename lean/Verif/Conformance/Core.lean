import Verif.Events.Core
import Verif.Props.AirdropDemo
/-!
# The unit tests of the core contract, replayed on the model

Every `#[test]` under `/repo/contracts/core/src/` is repeated here on the model's functions with the same inputs and
the same expected results; the kernel evaluates them.  These are tests of the model, not proofs of properties.

Left out: the error texts (the model keeps only the kind of an error), and the two cases of `test_trade`
(`/repo/contracts/core/src/execute/rebalance/trade/mod.rs:96-104,111-119`) that run without a stored `CONFIG`, which
the model cannot represent.
-/

namespace Ibcx.Core.Conformance
open Ibcx Ibcx.Core

set_option synthInstance.maxSize 1000

/-- `0.01` in atomics. -/
abbrev cent : Nat := 10000000000000000

/-- `mock_env().block.time.seconds()` of cosmwasm-std 1.5.2. -/
abbrev stdTime : Nat := 1571797419

/-- `mock_env()` at a time; the price is what `register_sim_swap_exact_in/out` is given, as a fraction,
`/repo/contracts/core/src/test/mock.rs:30-74`. -/
def envAt (now : Nat) : Env :=
  { now := now, height := 12345, contract := "cosmos2contract", validAddr := fun a => 3 ≤ a.length
    estOut := fun _ c => .ok (c.amount / 2), estIn := fun _ c => .ok (c.amount * 2) }

/-- `Default::default()` for every stored item, `/repo/contracts/core/src/state/mod.rs:51-162`. -/
def base : State :=
  { config := ⟨"", {}, "", ""⟩, pendingGov := none, fee := ⟨"", none, none, none⟩, totalSupply := 0
    indexUnits := [], rebalance := none, reserveUnits := none, tradeInfos := [] }

/-- `mock_config()`, `/repo/contracts/core/src/state/mod.rs:164-171`. -/
def mockConfig : Config := ⟨"gov", {}, "uibcx", "uosmo"⟩

/-! ## `state/units.rs` -/

/-- `test_pop_key`, `/repo/contracts/core/src/state/units.rs:185-212`. -/
example : Units.popKey [("uatom", 50 * cent), ("uosmo", 25 * cent)] "uatom" = some (50 * cent, [("uosmo", 25 * cent)]) ∧
    Units.popKey [("uosmo", 25 * cent)] "uatom" = none ∧
    Units.popKey [("uosmo", 25 * cent)] "uosmo" = some (25 * cent, []) := by decide

/-- `test_prune_zero`, `/repo/contracts/core/src/state/units.rs:214-221`. -/
example : Units.pruneZero [("uatom", 50 * cent), ("uosmo", 25 * cent), ("ujuno", 0)] =
    [("uatom", 50 * cent), ("uosmo", 25 * cent)] := by decide

/-- `test_check_empty`, `/repo/contracts/core/src/state/units.rs:223-234`. -/
example : Units.checkEmpty [("uatom", 50 * cent), ("uosmo", 0)] = false ∧
    Units.checkEmpty [("uatom", 0), ("uosmo", 0)] = true ∧ Units.checkEmpty [] = true := by decide

/-- `test_check_duplication`, `/repo/contracts/core/src/state/units.rs:236-246`. -/
example : Units.checkDuplicate [("uatom", 50 * cent), ("uatom", 25 * cent)] = true ∧
    Units.checkDuplicate [("uatom", 50 * cent), ("uosmo", 25 * cent)] = false := by decide

/-- `test_calc_refund_amount`, `/repo/contracts/core/src/state/units.rs:248-274`. -/
example : Units.calcRefund [("uatom", 50 * cent), ("uosmo", 25 * cent)] [⟨"uatom", 55⟩, ⟨"uosmo", 30⟩] 100 =
      .ok [⟨"uatom", 5⟩, ⟨"uosmo", 5⟩] ∧
    Units.calcRefund [("uatom", 50 * cent), ("uosmo", 25 * cent)] [⟨"uatom", 55⟩, ⟨"uosmo", 30⟩, ⟨"ujuno", 20⟩] 100 =
      .error .generic := by decide +kernel

/-! ## `state/fee.rs` -/

/-- `test_streaming_fee_collect`, `/repo/contracts/core/src/state/fee.rs:147-200`: a year at `0.000000000047529` per
second.  The test asks for fees
in (2998, 3000) and (1498, 1500) and units in (19970, 19970.1) and (9985, 9985.1); a second collection at the same
time changes nothing. -/
example : StreamingFee.collect ⟨47529000, [], false, 0⟩ [("uatom", 2000000 * cent), ("uosmo", 1000000 * cent)]
      (86400 * 365) 100 =
      .ok (⟨47529000, [⟨"uatom", 2999⟩, ⟨"uosmo", 1499⟩], false, 31536000⟩,
        [("uatom", 19970000031669961020000), ("uosmo", 9985000015834980510000)]) ∧
    StreamingFee.collect ⟨47529000, [⟨"uatom", 2999⟩, ⟨"uosmo", 1499⟩], false, 31536000⟩
      [("uatom", 19970000031669961020000), ("uosmo", 9985000015834980510000)] (86400 * 365) 100 =
      .ok (⟨47529000, [⟨"uatom", 2999⟩, ⟨"uosmo", 1499⟩], false, 31536000⟩,
        [("uatom", 19970000031669961020000), ("uosmo", 9985000015834980510000)]) ∧
    1997000 * cent < 19970000031669961020000 ∧ 19970000031669961020000 < 1997010 * cent ∧
    998500 * cent < 9985000015834980510000 ∧ 9985000015834980510000 < 998510 * cent := by
  decide +kernel

/-- `test_streaming_fee_collect_no_delta`, `/repo/contracts/core/src/state/fee.rs:202-218`, and
`test_streaming_fee_collect_freeze`,
`/repo/contracts/core/src/state/fee.rs:220-236`. -/
example : StreamingFee.collect ⟨100 * cent, [], false, 0⟩ [("uatom", 200 * cent), ("uosmo", 100 * cent)] 0 100 =
      .ok (⟨100 * cent, [], false, 0⟩, [("uatom", 200 * cent), ("uosmo", 100 * cent)]) ∧
    StreamingFee.collect ⟨100 * cent, [], true, 0⟩ [("uatom", 200 * cent), ("uosmo", 100 * cent)] 86400 100 =
      .ok (⟨100 * cent, [], true, 0⟩, [("uatom", 200 * cent), ("uosmo", 100 * cent)]) := by decide +kernel

/-- `test_fee_check_rates`, `/repo/contracts/core/src/state/fee.rs:238-309`. -/
example : Fee.checkRates ⟨"", some (110 * cent), none, none⟩ = .error .invalid ∧
    Fee.checkRates ⟨"", some (90 * cent), none, none⟩ = .ok () ∧
    Fee.checkRates ⟨"", none, some (110 * cent), none⟩ = .error .invalid ∧
    Fee.checkRates ⟨"", none, none, some ⟨110 * cent, [], false, 0⟩⟩ = .error .invalid ∧
    Fee.checkRates ⟨"", none, none, some ⟨MAX_STREAMING_FEE_RATE + 47529000, [], false, 0⟩⟩ = .error .invalid ∧
    Fee.checkRates ⟨"", none, none, some ⟨47529000, [], false, 0⟩⟩ = .ok () := by decide +kernel

/-! ## `state/rebalance.rs` -/

/-- `test_rebalance_validate`, `/repo/contracts/core/src/state/rebalance.rs:141-222`. -/
example : Rebalance.validate ⟨none, [], [("ukrw", 100 * cent)]⟩ [] = .error .invalid ∧
    Rebalance.validate ⟨none, [("ukrw", 100 * cent)], []⟩ [] = .error .invalid ∧
    Rebalance.validate ⟨none, [("uatom", 100 * cent), ("uatom", 120 * cent)], [("ukrw", 100 * cent)]⟩
      [("uatom", 230 * cent)] = .error .invalid ∧
    Rebalance.validate ⟨none, [("ukrw", 100 * cent)], [("uosmo", 100 * cent), ("uosmo", 120 * cent)]⟩
      [("uatom", 230 * cent)] = .error .invalid ∧
    Rebalance.validate ⟨none, [("uatom", 230 * cent)], [("ukrw", 100 * cent)]⟩ [("uatom", 100 * cent)] =
      .error .invalid ∧
    Rebalance.validate ⟨none, [("uosmo", 230 * cent)], [("ukrw", 100 * cent)]⟩ [("uatom", 100 * cent)] =
      .error .invalid ∧
    Rebalance.validate ⟨none, [("uatom", 130 * cent)], [("uatom", 120 * cent)]⟩ [("uatom", 230 * cent)] =
      .error .invalid ∧
    Rebalance.validate ⟨none, [("uatom", 130 * cent)], [("uosmo", 120 * cent)]⟩ [("uatom", 230 * cent)] =
      .ok () := by decide +kernel

/-- `test_trade_info_assert_cooldown`, `/repo/contracts/core/src/state/rebalance.rs:224-241`. -/
example : TradeInfo.assertCooldown ⟨[], 60, 0, none⟩ 40 = .ok () ∧
    TradeInfo.assertCooldown ⟨[], 60, 0, some 0⟩ 40 = .error .onTradeCooldown ∧
    TradeInfo.assertCooldown ⟨[], 60, 0, some 0⟩ 70 = .ok () := by decide +kernel

/-! ## `state/config.rs`, `state/pause.rs` -/

/-- `test_check_gov`, `/repo/contracts/core/src/state/config.rs:52-67`. -/
example : Config.checkGov ⟨"gov", {}, "", ""⟩ "user" = .error .unauthorized ∧
    Config.checkGov ⟨"gov", {}, "", ""⟩ "gov" = .ok () := by decide

/-- `test_assert_paused`, `/repo/contracts/core/src/state/config.rs:69-97`, and
`/repo/contracts/core/src/state/pause.rs:96-120`. -/
example : ∀ c ∈ [((⟨false, none⟩ : PauseInfo), Except.error Err.notPaused, Except.ok ()),
      (⟨true, some (stdTime - 1)⟩, .error .notPaused, .ok ()),
      (⟨true, some (stdTime + 1)⟩, .ok (), .error .paused),
      (⟨true, none⟩, .ok (), .error .paused)],
    Config.assertPaused ⟨"", c.1, "", ""⟩ stdTime = c.2.1 ∧
    Config.assertNotPaused ⟨"", c.1, "", ""⟩ stdTime = c.2.2 := by decide +kernel

/-- `test_refresh`, `/repo/contracts/core/src/state/pause.rs:50-94`. -/
example : (∀ p ∈ [(⟨false, none⟩ : PauseInfo), ⟨false, some stdTime⟩, ⟨true, none⟩, ⟨true, some (stdTime + 1)⟩],
      p.refresh stdTime = p) ∧
    (⟨true, some (stdTime - 1)⟩ : PauseInfo).refresh stdTime = ⟨false, none⟩ := by decide +kernel

/-! ## `execute/token.rs` -/

/-- State of the four tests. -/
def tokenState (mintFee burnFee : Option Nat) : State :=
  { base with
    config := ⟨"", {}, "uibcx", ""⟩
    fee := ⟨"collector", mintFee, burnFee, none⟩
    indexUnits := [("uatom", 100 * cent)]
    totalSupply := 10000000 }

/-- `test_mint_with_fee`, `/repo/contracts/core/src/execute/token.rs:267-313`. -/
example : (mintR (tokenState (some (10 * cent)) none) (envAt stdTime) ⟨"minter", [⟨"uatom", 110⟩]⟩ 100
      (some "receiver") (some "refund_to")).map (fun r => (r.1.2, r.1.1.totalSupply, r.2)) =
    .ok ([.tfMint "cosmos2contract" "cosmos2contract" ⟨"uibcx", 100⟩, .send "collector" [⟨"uibcx", 10⟩],
        .send "receiver" [⟨"uibcx", 90⟩], .send "refund_to" [⟨"uatom", 10⟩]], 10000100,
      mintEvent "minter" "receiver" "refund_to" 100) := by decide +kernel

/-- `test_mint_without_fee`, `/repo/contracts/core/src/execute/token.rs:315-360`. -/
example : (mintR (tokenState none none) (envAt stdTime) ⟨"minter", [⟨"uatom", 110⟩]⟩ 100
      (some "receiver") (some "refund_to")).map (fun r => (r.1.2, r.1.1.totalSupply, r.2)) =
    .ok ([.tfMint "cosmos2contract" "cosmos2contract" ⟨"uibcx", 100⟩,
        .send "receiver" [⟨"uibcx", 100⟩], .send "refund_to" [⟨"uatom", 10⟩]], 10000100,
      mintEvent "minter" "receiver" "refund_to" 100) := by decide +kernel

/-- `test_burn_with_fee`, `/repo/contracts/core/src/execute/token.rs:406-452`. -/
example : (burnR (tokenState none (some (20 * cent))) (envAt stdTime) ⟨"burner", [⟨"uibcx", 100⟩]⟩
      (some "redeem_to")).map (fun r => (r.1.2, r.1.1.totalSupply, r.2)) =
    .ok ([.tfBurn "cosmos2contract" "cosmos2contract" ⟨"uibcx", 80⟩, .send "collector" [⟨"uibcx", 20⟩],
        .send "redeem_to" [⟨"uatom", 80⟩]], 9999920, burnEvent "burner" "redeem_to" 80) := by decide +kernel

/-- `test_burn_without_fee`, `/repo/contracts/core/src/execute/token.rs:454-495`. -/
example : (burnR (tokenState none none) (envAt stdTime) ⟨"burner", [⟨"uibcx", 100⟩]⟩
      (some "redeem_to")).map (fun r => (r.1.2, r.1.1.totalSupply, r.2)) =
    .ok ([.tfBurn "cosmos2contract" "cosmos2contract" ⟨"uibcx", 100⟩,
        .send "redeem_to" [⟨"uatom", 100⟩]], 9999900, burnEvent "burner" "redeem_to" 100) := by decide +kernel

/-! ## `execute/fee.rs` -/

/-- `test_collect_streaming_fee`, `/repo/contracts/core/src/execute/fee.rs:69-130`: one percent per second. -/
def feeState (freeze : Bool) : State :=
  { base with
    fee := ⟨"", none, none, some ⟨cent, [], freeze, 0⟩⟩
    indexUnits := [("uatom", 1000000 * cent)]
    totalSupply := 1 }

/-- `test_collect_streaming_fee`, `/repo/contracts/core/src/execute/fee.rs:69-130`. -/
example : collectStreamingFee (feeState true) 86400 = .ok (feeState true) ∧
    collectStreamingFee (feeState false) 0 = .ok (feeState false) ∧
    (collectStreamingFee (feeState false) 10).map (fun s => (s.indexUnits.map fun e =>
        decide (895370 * cent < e.2 ∧ e.2 < 895380 * cent), s.fee.streamingFee.map (·.collected))) =
      .ok ([true], some [⟨"uatom", 1046⟩]) := by decide +kernel

/-- `test_realize_streaming_fee`, `/repo/contracts/core/src/execute/fee.rs:132-202`. -/
example : (realizeR { base with fee := ⟨"collector", none, none, some ⟨0, [⟨"uatom", 10000⟩, ⟨"uosmo", 12345⟩], false, 0⟩⟩ }
      ⟨"user", []⟩ = .error .unauthorized) ∧
    (realizeR { base with fee := ⟨"collector", none, none, none⟩ } ⟨"collector", []⟩).map
      (fun r => (r.1.2, r.2)) = .ok ([], [("method", "realize"), ("executor", "collector")]) ∧
    (realizeR { base with fee := ⟨"collector", none, none, some ⟨0, [⟨"uatom", 10000⟩, ⟨"uosmo", 12345⟩], false, 0⟩⟩ }
      ⟨"collector", []⟩).map (fun r => (r.1.2, r.2, r.1.1.fee.streamingFee.map (·.collected))) =
      .ok ([.send "collector" [⟨"uatom", 10000⟩, ⟨"uosmo", 12345⟩]],
        [("method", "realize"), ("executor", "collector")], some []) := by decide +kernel

/-! ## `execute/gov/` -/

/-- `test_pause`, `/repo/contracts/core/src/execute/gov/pause.rs:96-177`. -/
example : ∀ c ∈ [((⟨false, none⟩ : PauseInfo), (none : Option Nat),
        (Except.ok [("method", "gov::pause"), ("executor", "gov"), ("expires_at", "never")] : Res (List Attr))),
      (⟨false, none⟩, some (stdTime - 1), .error .invalid),
      (⟨true, none⟩, none, .error .paused),
      (⟨true, some (stdTime - 1)⟩, some (stdTime - 1), .error .invalid),
      (⟨true, some (stdTime - 1)⟩, some (stdTime + 1),
        .ok [("method", "gov::pause"), ("executor", "gov"), ("expires_at", "1571797420")])],
    (govR { base with config := { mockConfig with paused := c.1 } } (envAt stdTime) ⟨"gov", []⟩ (.pause c.2.1)).map
      (·.2) = c.2.2 := by decide +kernel

/-- `test_release`, `/repo/contracts/core/src/execute/gov/pause.rs:179-234`. -/
example : ∀ c ∈ [((⟨false, none⟩ : PauseInfo), (Except.error Err.notPaused : Res (List Attr))),
      (⟨true, none⟩, .ok [("method", "gov::release"), ("executor", "gov")]),
      (⟨true, some (stdTime - 1)⟩, .error .notPaused)],
    (govR { base with config := { mockConfig with paused := c.1 } } (envAt stdTime) ⟨"gov", []⟩ .release).map
      (·.2) = c.2 := by decide +kernel

/-- `test_update_gov`, `/repo/contracts/core/src/execute/gov/update.rs:239-262`. -/
example : (govR { base with config := mockConfig } (envAt stdTime) ⟨"user", []⟩ (.updateGov "new_gov")).map (·.2) =
      .error .unauthorized ∧
    (govR { base with config := mockConfig } (envAt stdTime) ⟨"gov", []⟩ (.updateGov "new_gov")).map (·.2) =
      .ok [("method", "gov::update_gov"), ("executor", "gov"), ("pending_gov", "new_gov")] := by decide +kernel

/-- `test_update_fee`, `/repo/contracts/core/src/execute/gov/update.rs:264-399`. -/
example : (∀ p ∈ [(⟨"new_collector", none, none, none⟩ : FeePayload), ⟨"collector", some (10 * cent), none, none⟩,
        ⟨"collector", none, some (10 * cent), none⟩, ⟨"collector", none, none, some ⟨21979553000, false⟩⟩],
      (govR { base with config := mockConfig } (envAt stdTime) ⟨"gov", []⟩ (.updateFeeStrategy p)).map
        (fun r => (r.2, r.1.1.fee)) =
      .ok ([("method", "gov::update_fee"), ("executor", "gov")],
        ⟨p.collector, p.mintFee, p.burnFee, p.streamingFee.map fun q => ⟨q.rate, [], q.freeze, stdTime⟩⟩)) ∧
    (govR { base with config := mockConfig } (envAt stdTime) ⟨"user", []⟩
      (.updateFeeStrategy ⟨"", none, none, none⟩)).map (·.2) = .error .unauthorized ∧
    (govR { base with config := mockConfig, rebalance := some ⟨none, [], []⟩ } (envAt stdTime) ⟨"gov", []⟩
      (.updateFeeStrategy ⟨"", none, none, none⟩)).map (·.2) = .error .onRebalancing := by decide +kernel

/-- State of `test_update_rebalance_manager`. -/
def managerState (m : Option Addr) : State :=
  { base with config := ⟨"gov", {}, "", ""⟩, rebalance := some ⟨m, [], []⟩ }

/-- `test_update_rebalance_manager`, `/repo/contracts/core/src/execute/gov/update.rs:401-449`. -/
example : (govR (managerState (some "manager")) (envAt stdTime) ⟨"abuser", []⟩ (.updateRebalanceManager none)).map (·.2) =
      .error .unauthorized ∧
    (govR (managerState (some "manager")) (envAt stdTime) ⟨"gov", []⟩ (.updateRebalanceManager none)).map
      (fun r => (r.2, r.1.1)) =
      .ok ([("method", "gov::update_rebalance_manager"), ("executor", "gov"), ("new_manager", "none")],
        managerState none) ∧
    (govR (managerState none) (envAt stdTime) ⟨"gov", []⟩ (.updateRebalanceManager (some "manager"))).map
      (fun r => (r.2, r.1.1)) =
      .ok ([("method", "gov::update_rebalance_manager"), ("executor", "gov"), ("new_manager", "manager")],
        managerState (some "manager")) := by decide +kernel

/-! ## `execute/rebalance/` -/

/-- `test_freeze_streaming_fee`, `/repo/contracts/core/src/execute/rebalance/init.rs:96-121`, and
`test_unfreeze_streaming_fee`,
`/repo/contracts/core/src/execute/rebalance/finalize.rs:92-126`. -/
example : (freezeStreamingFee { base with fee := ⟨"", none, none, some ⟨0, [], false, 0⟩⟩ }).fee.streamingFee.map
      (·.freeze) = some true ∧
    (unfreezeStreamingFee base 30).fee.streamingFee = none ∧
    (unfreezeStreamingFee { base with fee := ⟨"", none, none, some ⟨0, [], true, 10⟩⟩ } 12345).fee.streamingFee =
      some ⟨0, [], false, 12345⟩ := by decide +kernel

/-- State of `test_init`. -/
def initState (r : Option Rebalance) : State :=
  { base with config := ⟨"gov", {}, "", ""⟩, indexUnits := [("uatom", 110 * cent)], rebalance := r }

/-- `test_init`, `/repo/contracts/core/src/execute/rebalance/init.rs:123-198`. -/
example : (initR (initState none) (envAt stdTime) ⟨"gov", []⟩ (some "manager") [("uatom", 90 * cent)]
      [("uosmo", 100 * cent)]).map (fun r => (r.2, r.1.1.rebalance, r.1.1.reserveUnits)) =
      .ok ([("method", "rebalance::init"), ("executor", "gov"), ("manager", "manager")],
        some ⟨some "manager", [("uatom", 90 * cent)], [("uosmo", 100 * cent)]⟩, some []) ∧
    (initR (initState none) (envAt stdTime) ⟨"gov", []⟩ none [("uatom", 90 * cent)]
      [("uosmo", 100 * cent)]).map (fun r => (r.2, r.1.1.rebalance, r.1.1.reserveUnits)) =
      .ok ([("method", "rebalance::init"), ("executor", "gov"), ("manager", "none")],
        some ⟨none, [("uatom", 90 * cent)], [("uosmo", 100 * cent)]⟩, some []) ∧
    (initR (initState (some ⟨none, [], []⟩)) (envAt stdTime) ⟨"gov", []⟩ none [("uatom", 90 * cent)]
      [("uosmo", 100 * cent)]).map (·.2) = .error .onRebalancing := by decide +kernel

/-- State of `test_finalize` and `test_pruning`. -/
def finalState (index reserve : Nat) (r : Option Rebalance) : State :=
  { base with indexUnits := [("uatom", index)], reserveUnits := some [("uatom", reserve)], rebalance := r }

/-- `test_finalize`, `/repo/contracts/core/src/execute/rebalance/finalize.rs:128-234`. -/
example : ∀ c ∈ [("user", 89 * cent, 0, (none : Option Rebalance), (Except.error Err.notOnRebalancing : Res Unit)),
      ("user", 89 * cent, 0, some ⟨none, [("uatom", 90 * cent)], []⟩, .ok ()),
      ("user", 89 * cent, 0, some ⟨some "manager", [("uatom", 90 * cent)], []⟩, .error .unauthorized),
      ("manager", 89 * cent, 0, some ⟨some "manager", [("uatom", 90 * cent)], []⟩, .ok ()),
      ("manager", 91 * cent, 0, some ⟨some "manager", [("uatom", 90 * cent)], []⟩, .error .unableToFinalize),
      ("manager", 89 * cent, cent, some ⟨some "manager", [("uatom", 90 * cent)], []⟩, .error .unableToFinalize)],
    (finalizeR (finalState c.2.1 c.2.2.1 c.2.2.2.1) (envAt stdTime) ⟨c.1, []⟩).map
      (fun r => (r.2, r.1.1.rebalance, r.1.1.reserveUnits)) =
    c.2.2.2.2.map (fun _ => ([("method", "rebalance::finalize"), ("executor", c.1), ("finalized_at", "12345")],
      none, none)) := by decide +kernel

/-- `test_pruning`, `/repo/contracts/core/src/execute/rebalance/finalize.rs:236-290`. -/
example : (finalize (finalState 0 0 (some ⟨some "manager", [("uatom", 0)], []⟩)) (envAt stdTime) ⟨"manager", []⟩).map
      (·.1.indexUnits) = .ok [] ∧
    (finalize (finalState (89 * cent) 0 (some ⟨some "manager", [("uatom", 90 * cent)], []⟩)) (envAt stdTime)
      ⟨"manager", []⟩).map (·.1.indexUnits) = .ok [("uatom", 89 * cent)] := by decide +kernel

/-- `test_trade`, `/repo/contracts/core/src/execute/rebalance/trade/mod.rs:85-141`, the cases with an answer before
`CONFIG` is read. -/
example : (trade base (envAt stdTime) ⟨"user", []⟩ (.deflate "" 0 0)).map (·.2) = .error .notOnRebalancing ∧
    (trade { base with rebalance := some ⟨some "manager", [], []⟩ } (envAt stdTime) ⟨"user", []⟩ (.deflate "" 0 0)).map
      (·.2) = .error .unauthorized := by decide +kernel

/-- The rebalance of the deflation tests. -/
def deflRebalance : Rebalance := ⟨none, [("uatom", 80 * cent)], [("ukrw", 600 * cent), ("ujpy", 400 * cent)]⟩

/-- State of `test_deflate_reserve`. -/
def deflReserveState : State :=
  { base with
    totalSupply := 10000
    indexUnits := [("uatom", 100 * cent)]
    reserveUnits := some []
    rebalance := some deflRebalance }

/-- `test_deflate_reserve`, `/repo/contracts/core/src/execute/rebalance/trade/deflate.rs:203-243`. -/
example : (deflateReserveR deflReserveState ⟨"manager", []⟩ deflRebalance "uatom").map
      (fun r => (r.2, r.1.1.indexUnits, r.1.1.reserveUnits)) =
    .ok (tradeAttrs "deflate" "manager" "uatom" 2000 2000 "true", [("uatom", 80 * cent)],
      some [("ukrw", 12 * cent), ("ujpy", 8 * cent)]) := by decide +kernel

/-- State of `test_deflate`. -/
def deflState : State :=
  { base with
    config := ⟨"", {}, "", "uosmo"⟩
    totalSupply := 10000
    indexUnits := [("uatom", 100 * cent)]
    reserveUnits := some []
    rebalance := some deflRebalance
    tradeInfos := [(("uatom", "uosmo"), ⟨[⟨0, "uosmo"⟩], 60, 2000, some (stdTime - 60)⟩)] }

/-- `test_deflate`, `/repo/contracts/core/src/execute/rebalance/trade/deflate.rs:245-382`, at the price one half. -/
example : (deflateR deflState (envAt stdTime) ⟨"manager", []⟩ deflRebalance "uatom" 1000 2000).map
      (fun r => (r.2, r.1.2, r.1.1.indexUnits, r.1.1.reserveUnits, r.1.1.tradeInfos.map (·.2.lastTradedAt))) =
      .ok (tradeAttrs "deflate" "manager" "uatom" 2000 1000 "false",
        [.swapExactOut "cosmos2contract" [⟨0, "uosmo"⟩] ⟨"uosmo", 1000⟩ 2000], [("uatom", 80 * cent)],
        some [("ukrw", 6 * cent), ("ujpy", 4 * cent)], [some stdTime]) ∧
    (deflateR deflState (envAt (stdTime - 1)) ⟨"manager", []⟩ deflRebalance "uatom" 1000 2000).map (·.2) =
      .error .onTradeCooldown ∧
    (deflateR deflState (envAt stdTime) ⟨"manager", []⟩ deflRebalance "uatom" 2001 4002).map (·.2) =
      .error .tradeError ∧
    (deflateR deflState (envAt stdTime) ⟨"manager", []⟩ deflRebalance "uatom" 1001 2002).map (·.2) =
      .error .tradeError ∧
    (deflateR deflState (envAt stdTime) ⟨"manager", []⟩ deflRebalance "uatom" 1000 1999).map (·.2) =
      .error .tradeError := by decide +kernel

/-- State of `test_inflate_reserve`. -/
def inflReserveState : State :=
  { base with
    totalSupply := 10000
    indexUnits := [("uatom", 80 * cent)]
    reserveUnits := some [("uatom", 120 * cent)] }

/-- `test_inflate_reserve`, `/repo/contracts/core/src/execute/rebalance/trade/inflate.rs:158-190`. -/
example : (inflateReserveR inflReserveState ⟨"manager", []⟩ "uatom").map
      (fun r => (r.2, r.1.1.indexUnits, r.1.1.reserveUnits)) =
    .ok (tradeAttrs "inflate" "manager" "uatom" 12000 12000 "true", [("uatom", 200 * cent)],
      some [("uatom", 0)]) := by decide +kernel

/-- State of `test_inflate`. -/
def inflState : State :=
  { base with
    config := ⟨"", {}, "", "uosmo"⟩
    totalSupply := 10000
    reserveUnits := some [("ukrw", 100 * cent)]
    tradeInfos := [(("uosmo", "ukrw"), ⟨[⟨0, "ukrw"⟩], 60, 20000, some (stdTime - 60)⟩)] }

/-- `test_inflate`, `/repo/contracts/core/src/execute/rebalance/trade/inflate.rs:192-312`, at the price one half. -/
example : (inflateR inflState (envAt stdTime) ⟨"manager", []⟩ "ukrw" 10000 5000).map
      (fun r => (r.2, r.1.2, r.1.1.indexUnits, r.1.1.reserveUnits, r.1.1.tradeInfos.map (·.2.lastTradedAt))) =
      .ok (tradeAttrs "inflate" "manager" "ukrw" 10000 5000 "false",
        [.swapExactIn "cosmos2contract" [⟨0, "ukrw"⟩] ⟨"uosmo", 10000⟩ 5000], [("ukrw", 50 * cent)],
        some [("ukrw", 0)], [some stdTime]) ∧
    (inflateR inflState (envAt stdTime) ⟨"manager", []⟩ "ukrw" 20001 10000).map (·.2) = .error .tradeError ∧
    (inflateR inflState (envAt stdTime) ⟨"manager", []⟩ "ukrw" 10001 5000).map (·.2) = .error .tradeError ∧
    (inflateR inflState (envAt stdTime) ⟨"manager", []⟩ "ukrw" 10000 5001).map (·.2) = .error .tradeError := by
  decide +kernel

end Ibcx.Core.Conformance
