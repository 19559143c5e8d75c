import Verif.Periphery.Lemmas
import Verif.Periphery.Query
import Verif.Props.ZapBurn
/-!
# Sweeping of leftovers and simulations of the periphery (C49, C50)
-/

namespace Ibcx.Props
open Ibcx Ibcx.Core Ibcx.Chain Ibcx.Periphery Ibcx.Spec Ibcx.Pool

/-! ### C49 -/

/-- **C49 (who).** `FinishOperation` succeeds exactly for the periphery itself (and a valid recipient); then it sends
the whole balance of the denom to the recipient and does nothing else. -/
theorem C49_finish_only_self {p : PEnv} {info : Info} {to' : Addr} {d : Denom} {ms : List PMsg} :
    Periphery.execute p info (.finishOperation to' d) = .ok ms ↔
      info.sender = p.env.contract ∧ p.env.validAddr to' = true ∧ ms = [.chain (.send to' [⟨d, p.balance d⟩])] :=
  finishOperation_eq_ok

/-- The contract itself may sweep, Bob may not. -/
example : (Periphery.execute (zapWorld3.penv zapEnv zapPools) ⟨"zap", []⟩ (.finishOperation "bob" "ujuno")).toOption =
      some [.chain (.send "bob" [⟨"ujuno", 20000⟩])] ∧
    (Periphery.execute (zapWorld3.penv zapEnv zapPools) ⟨"bob", []⟩ (.finishOperation "bob" "ujuno")).toOption = none := by
  decide +kernel

/-- The denoms an operation may leave in the periphery: the input of a purchase, the output of a sale, and for a sale
with exact output the index tokens not burned. -/
def leftoverDenoms (index : Denom) : PExecMsg → List Denom
  | .mintExactIn _ input _ _ => [input]
  | .mintExactOut _ _ input _ => [input]
  | .burnExactIn _ output _ _ => [output]
  | .burnExactOut _ output _ => [index, output.denom]
  | .finishOperation _ _ => []

/-- The core contract an operation names. -/
def coreOf : PExecMsg → Option Addr
  | .mintExactIn a _ _ _ => some a
  | .mintExactOut a _ _ _ => some a
  | .burnExactIn a _ _ _ => some a
  | .burnExactOut a _ _ => some a
  | .finishOperation _ _ => none

/-- A message that does not pay anybody: a swap for the periphery's own account, or a call of the core contract. -/
def paysNobody (zap core : Addr) : PMsg → Prop
  | .chain (.swapExactOut sender _ _ _) => sender = zap
  | .chain (.swapExactIn sender _ _ _) => sender = zap
  | .core a _ _ => a = core
  | _ => False

private theorem inMsgs_pay {rs : List SimIn} {zap core : Addr} {n : Nat} {ms : List Msg} (h : inMsgs rs zap n = .ok ms) :
    ∀ m ∈ ms, paysNobody zap core (.chain m) := by
  simp only [inMsgs, bind_eq_ok, Except.ok.injEq] at h
  obtain ⟨_, _, _, _, _, _, ms', hm, rfl⟩ := h
  rw [inMsgs_map hm]
  intro m hm
  rw [List.mem_map] at hm
  obtain ⟨_, _, rfl⟩ := hm
  rfl

private theorem outMsgs_pay {rs : List SimOut} {zap core : Addr} {n : Nat} {ms : List Msg} (h : outMsgs rs zap n = .ok ms) :
    ∀ m ∈ ms, paysNobody zap core (.chain m) := by
  simp only [outMsgs, bind_eq_ok, Except.ok.injEq] at h
  obtain ⟨_, _, _, _, _, _, ms', hm, rfl⟩ := h
  rw [outMsgs_map hm]
  intro m hm
  rw [List.mem_map] at hm
  obtain ⟨_, _, rfl⟩ := hm
  rfl

/-- **C49 (when).** The messages of a user operation are swaps and calls of the named core contract, followed by one
`FinishOperation` for each denom the operation may leave over, with the caller as recipient. -/
theorem C49_operations_end_with_sweep {p : PEnv} {info : Info} {msg : PExecMsg} {a : Addr} {ms : List PMsg}
    (ha : coreOf msg = some a) (h : Periphery.execute p info msg = .ok ms) :
    ∃ core pre, p.core a = some core ∧ (∀ m ∈ pre, paysNobody p.env.contract a m) ∧
      ms = pre ++ (leftoverDenoms core.config.indexDenom msg).map (PMsg.finish info.sender) := by
  cases msg with
  | finishOperation => cases ha
  | mintExactIn a' input min si =>
    cases ha
    simp only [Periphery.execute, bind_eq_ok] at h
    obtain ⟨infos, _, h⟩ := h
    obtain ⟨core, s1, paid, sim, res, est, swaps, _, hc, _, _, _, _, _, hsw, _, _, rfl⟩ := mintExactIn_spec h
    refine ⟨core, swaps.map PMsg.chain ++ [.core a (.mint _ (some info.sender) (some info.sender)) (sortCoins _)], hc, ?_,
      (List.append_assoc _ [_] [_]).symm⟩
    intro m hm
    rw [List.mem_append, List.mem_map, List.mem_singleton] at hm
    rcases hm with ⟨x, hx, rfl⟩ | rfl
    · exact inMsgs_pay hsw x hx
    · rfl
  | mintExactOut a' n input si =>
    cases ha
    simp only [Periphery.execute, bind_eq_ok] at h
    obtain ⟨infos, _, h⟩ := h
    obtain ⟨core, s1, paid, sim, total, routes, swaps, _, hc, _, _, _, _, _, _, hsw, _, _, rfl⟩ := mintExactOut_spec h
    refine ⟨core, swaps.map PMsg.chain ++ [.core a (.mint _ (some info.sender) (some info.sender)) (sortCoins _)], hc, ?_,
      (List.append_assoc _ [_] [_]).symm⟩
    intro m hm
    rw [List.mem_append, List.mem_map, List.mem_singleton] at hm
    rcases hm with ⟨x, hx, rfl⟩ | rfl
    · exact inMsgs_pay hsw x hx
    · rfl
  | burnExactIn a' output min si =>
    cases ha
    simp only [Periphery.execute, bind_eq_ok] at h
    obtain ⟨infos, _, h⟩ := h
    obtain ⟨core, s1, paid, sim, total, routes, swaps, _, hc, _, _, _, _, _, _, hsw, rfl⟩ := burnExactIn_spec h
    refine ⟨core, .core a (.burn none) _ :: swaps.map PMsg.chain, hc, ?_, rfl⟩
    intro m hm
    rw [List.mem_cons, List.mem_map] at hm
    rcases hm with rfl | ⟨x, hx, rfl⟩
    · rfl
    · exact outMsgs_pay hsw x hx
  | burnExactOut a' desired si =>
    cases ha
    simp only [Periphery.execute, bind_eq_ok] at h
    obtain ⟨infos, _, h⟩ := h
    obtain ⟨core, s1, paid, sim, mn, rev, rate, burn, total, routes, swaps, _, hc, _, _, _, _, _, _, _, _, _, _, hsw,
      rfl⟩ := burnExactOut_spec h
    refine ⟨core, .core a (.burn none) _ :: swaps.map PMsg.chain, hc, ?_, rfl⟩
    intro m hm
    rw [List.mem_cons, List.mem_map] at hm
    rcases hm with rfl | ⟨x, hx, rfl⟩
    · rfl
    · exact outMsgs_pay hsw x hx

/-- The messages of Bob's purchase. -/
example : (Periphery.execute (zapWorld.penv zapEnv zapPools) ⟨"bob", [⟨"uosmo", 80000⟩]⟩
      (.mintExactOut "core" 40000 "uosmo" zapRoutes)).toOption =
    some [.chain (.swapExactOut "zap" [⟨1, "uosmo"⟩] ⟨"uatom", 10000⟩ 11428),
      .core "core" (.mint 40000 (some "bob") (some "bob")) [⟨"uatom", 10000⟩, ⟨"uosmo", 60000⟩],
      .finish "bob" "uosmo"] := by decide +kernel

/-! ### C50 -/

/-- The full claim C50 for purchases with exact output: the coins of the simulation are those attached to the mint. -/
def C50_mint_out_full : Prop :=
  ∀ (p : PEnv) (info : Info) (a : Addr) (n : Nat) (input : Denom) (infos : List SwapInfo) (r : SimResp)
    (ms : List PMsg), simMintExactOut p a n input infos = .ok r → mintExactOut p info a n input infos = .ok ms →
    ∃ k, PMsg.core a (.mint k (some info.sender) (some info.sender)) r.coins ∈ ms

/-- The full claim C50 for purchases with exact input: executed with the simulated amount as minimum, the purchase
delivers the simulated amount. -/
def C50_mint_in_full : Prop :=
  ∀ (w w' : ZWorld) (env : Env) (pool : Nat → Res (Option Pool)) (market : List Nat) (info : Info) (a : Addr)
    (input : Denom) (paid : Nat) (si : List Compact) (infos : List SwapInfo) (r : SimResp),
    Reachable w.core → input ≠ w.core.config.indexDenom → parseInfos si = .ok infos → payWith input infos →
    info.funds = [⟨input, paid⟩] → simMintExactIn (w.penv env pool) a ⟨input, paid⟩ infos = .ok r →
    zapTx w env pool market info (.mintExactIn a input r.amount si) = .ok w' →
    w.bank.bal info.sender w.core.config.indexDenom + r.amount ≤ w'.bank.bal info.sender w.core.config.indexDenom

/-- With a mint fee the simulation prices only the basket after the fee: for 40000 index tokens it names 9900 uatom
and 59400 uosmo, the purchase needs 10000 uatom and 60000 uosmo. -/
theorem C50_mint_out_full_false : ¬ C50_mint_out_full := by
  intro h
  have := h (zapWorld.penv zapEnv zapPools) ⟨"bob", [⟨"uosmo", 80000⟩]⟩ "core" 40000 "uosmo"
    [⟨"uosmo", "uatom", [⟨1, "uosmo"⟩]⟩] ⟨39600, [⟨"uatom", 9900⟩, ⟨"uosmo", 59400⟩], ⟨"uosmo", 69300⟩⟩
    [.chain (.swapExactOut "zap" [⟨1, "uosmo"⟩] ⟨"uatom", 10000⟩ 11428),
      .core "core" (.mint 40000 (some "bob") (some "bob")) [⟨"uatom", 10000⟩, ⟨"uosmo", 60000⟩],
      .finish "bob" "uosmo"] (by decide +kernel) (by decide +kernel)
  obtain ⟨k, hk⟩ := this
  revert hk
  simp

/-- With a mint fee the simulation with exact input divides by one minus the fee where it should multiply. -/
theorem simMintIn_ok : simMintExactIn (zapWorld.penv zapEnv zapPools) "core" ⟨"uosmo", 9000⟩
      [⟨"uosmo", "uatom", [⟨1, "uosmo"⟩]⟩] =
    .ok ⟨5093, [⟨"uatom", 1273⟩, ⟨"uosmo", 7639⟩], ⟨"uosmo", 8998⟩⟩ := by decide +kernel

theorem zapMintIn2_ok :
    (zapTx zapWorld zapEnv zapPools [1285] ⟨"bob", [⟨"uosmo", 9000⟩]⟩ (.mintExactIn "core" "uosmo" 5093 zapRoutes)).map
      (fun w => (w.bank.bal "bob" "factory/core/ibcx", w.bank.bal "bob" "uosmo")) = .ok (5076, 91025) := by
  decide +kernel

/-- For 9000 uosmo Bob is promised 5093 index tokens and receives 5076, although 5093 is the minimum of the call. -/
theorem C50_mint_in_full_false : ¬ C50_mint_in_full := by
  intro hall
  obtain ⟨w', hz, h⟩ := ok_of_map zapMintIn2_ok
  have hle := hall _ _ _ _ _ _ _ _ _ _ _ _ Demo.s0_reachable (by decide) zapRoutes_ok zapRoutes_pay rfl simMintIn_ok hz
  have e : w'.bank.bal "bob" "factory/core/ibcx" = 5076 := (Prod.mk.inj h).1
  have e0 : zapWorld.bank.bal "bob" "factory/core/ibcx" = 0 := by decide
  have e1 : zapWorld.bank.bal "bob" "factory/core/ibcx" + 5093 ≤ w'.bank.bal "bob" "factory/core/ibcx" := hle
  omega

private theorem outRoutes_lt {s : Simulator} {index : Nat} {output : Denom} :
    ∀ {us : Core.Units} {pools : KV Nat Pool} {rs : List SimOut}, outRoutes s index output us pools = .ok rs →
      ∀ e ∈ us, e.2 * index / ONE < U128 := by
  intro us
  induction us with
  | nil => intro pools rs h e he; cases he
  | cons x us ih =>
    obtain ⟨d, u⟩ := x
    intro pools rs h e he
    rw [outRoutes] at h
    simp only [bind_eq_ok, mulInt_eq_ok] at h
    obtain ⟨a, ⟨hlt, rfl⟩, h⟩ := h
    have h : ∃ pools' rs', outRoutes s index output us pools' = .ok rs' := by
      split at h <;>
      · simp only [bind_eq_ok] at h
        obtain ⟨_, _, rs', h, _⟩ := h
        exact ⟨_, rs', h⟩
    obtain ⟨_, _, h⟩ := h
    rcases List.mem_cons.1 he with rfl | he
    · exact hlt
    · exact ih h e he

/-- **C50 (sales with exact input).** If the sale of `paid` index tokens is accepted then its simulation succeeds, with
at least the required minimum; the swaps of the sale sell exactly the simulated coins other than the output, and the
amount is the attached one less the fee, rounded down. -/
theorem C50_burn_in_agrees {p : PEnv} {info : Info} {a : Addr} {output : Denom} {min : Nat} {infos : List SwapInfo}
    {ms : List PMsg} (h : burnExactIn p info a output min infos = .ok ms) :
    ∃ (core : Core.State) (paid : Nat) (r : SimResp) (swaps : List Msg), p.core a = some core ∧ info.funds = [⟨core.config.indexDenom, paid⟩] ∧
      simBurnExactIn p a paid output infos = .ok r ∧ r.amount = simulatedBurn core paid ∧
      r.swapResult.denom = output ∧ min ≤ r.swapResult.amount ∧
      ms = .core a (.burn none) [⟨core.config.indexDenom, paid⟩] ::
        (swaps.map PMsg.chain ++ [.finish info.sender output]) ∧
      (swaps.map soldCoin).Perm (r.coins.filter fun c => decide (c.denom ≠ output)) := by
  have h0 := h
  obtain ⟨core, s1, paid, sim, t, routes, swaps, hv, hc, hs1, hf, hp, hsim, hfee, hest, hsw, hms⟩ := burnExactIn_spec h
  simp only [burnExactIn, bind_eq_ok, findCore_eq_ok] at h0
  obtain ⟨core', ⟨_, hc'⟩, fee, hgf, _, _, port, hport, _⟩ := h0
  rw [hc] at hc'
  cases hc'
  obtain ⟨s1', hs1', hu'⟩ := getPortfolio_units hport
  rw [hs1] at hs1'
  cases hs1'
  obtain ⟨_, hbf, _⟩ := getFee_frame hgf
  obtain ⟨_, _, hu⟩ := makeSim_units hsim
  have hlt : (ONE - core.fee.burnFee.getD 0) * paid / ONE < U128 := by
    simp only [burnExactIn, bind_eq_ok, findCore_eq_ok, mustPay_eq_ok, mulInt_eq_ok, deductFee_eq_ok] at h
    obtain ⟨core', ⟨_, hc'⟩, fee', hgf', cfg, hcfg, _, _, paid', ⟨hf', _⟩, _, _, rate, ⟨_, rfl⟩, _, ⟨hlt, rfl⟩, _⟩ := h
    rw [hc] at hc'
    cases hc'
    rw [hgf] at hgf'
    cases hgf'
    rw [hf] at hf'
    have : paid = paid' := by
      simp only [List.cons.injEq, Coin.mk.injEq, and_true] at hf'
      exact hf'.2
    rw [hbf, ← this] at hlt
    exact hlt
  have hord := C47_sale_route_order hest hsw
  have hbk : ∀ e ∈ s1.indexUnits, part e.2 ((ONE - core.fee.burnFee.getD 0) * paid / ONE) < 2 ^ 128 := by
    simp only [tokenGivenIndexIn, bind_eq_ok] at hest
    obtain ⟨rs', h1, _⟩ := hest
    intro e he
    rw [← part_eq]
    exact outRoutes_lt h1 e (by rw [hu]; exact he)
  refine ⟨core, paid, ⟨simulatedBurn core paid, sortCoins (basket s1.indexUnits (simulatedBurn core paid)),
    ⟨output, t⟩⟩, swaps, hc, hf, ?_, rfl, rfl, ?_, hms, ?_⟩
  · simp only [simBurnExactIn, bind_eq_ok, findCore_eq_ok, deductFee_eq_ok, mulInt_eq_ok, basketCoins_eq_ok]
    refine ⟨core, ⟨hv, hc⟩, fee, hgf, port, hport, sim, by rw [hu']; exact hsim, _, ⟨by rw [hbf]; exact hfee, rfl⟩, _,
      ⟨by rw [hbf]; exact hlt, rfl⟩, _, ⟨by rw [hbf, hu']; exact hbk, rfl⟩, (t, routes), by rw [hbf]; exact hest, ?_⟩
    rw [hbf, hu']
    rfl
  · simp only [outMsgs, bind_eq_ok, require_eq_ok] at hsw
    obtain ⟨t', ht', _, hle, _⟩ := hsw
    have e1 := sumOut_eq ht'
    have e2 := (tokenGivenIndexIn_spec hest).2
    simp only
    omega
  · have : swaps.map soldCoin = (basket s1.indexUnits (simulatedBurn core paid)).filter
        fun c => decide (c.denom ≠ output) := by
      rw [hu] at hord
      change List.Forall₂ _ ((basket s1.indexUnits (simulatedBurn core paid)).filter _) swaps at hord
      generalize (basket s1.indexUnits (simulatedBurn core paid)).filter (fun c => decide (c.denom ≠ output)) = cs at hord
      clear hsw hms
      induction hord with
      | nil => rfl
      | cons hcm _ ih =>
        obtain ⟨_, _, _, rfl⟩ := hcm
        rw [List.map_cons, ih]
        rfl
    rw [this]
    exact ((sortCoins_perm _).filter _).symm

/-- The sale of the example and its simulation. -/
example : (burnExactIn (zapWorld2.penv zapEnv zapPools) ⟨"bob", [⟨"factory/core/ibcx", 1012⟩]⟩ "core" "uosmo" 1717
      [⟨"uatom", "uosmo", [⟨1, "uosmo"⟩]⟩]).toOption =
      some [.core "core" (.burn none) [⟨"factory/core/ibcx", 1012⟩],
        .chain (.swapExactIn "zap" [⟨1, "uosmo"⟩] ⟨"uatom", 247⟩ 244), .finish "bob" "uosmo"] ∧
    (simBurnExactIn (zapWorld2.penv zapEnv zapPools) "core" 1012 "uosmo" [⟨"uatom", "uosmo", [⟨1, "uosmo"⟩]⟩]).toOption =
      some ⟨991, [⟨"uatom", 247⟩, ⟨"uosmo", 1486⟩], ⟨"uosmo", 1733⟩⟩ := by decide +kernel

/-- **C50 (what holds for purchases with exact output).** Without a mint fee an accepted purchase of `n` index tokens
has a simulation, which names `n`, the coins attached to the mint, and a cost of at most the attached amount. -/
theorem C50_mint_out_without_fee_partial {p : PEnv} {info : Info} {a : Addr} {n : Nat} {input : Denom}
    {infos : List SwapInfo} {ms : List PMsg} (hfee : ∀ core, p.core a = some core → core.fee.mintFee = none)
    (h : mintExactOut p info a n input infos = .ok ms) :
    ∃ paid r, info.funds = [⟨input, paid⟩] ∧ simMintExactOut p a n input infos = .ok r ∧ r.amount = n ∧
      r.swapResult.denom = input ∧ r.swapResult.amount ≤ paid ∧
      PMsg.core a (.mint n (some info.sender) (some info.sender)) r.coins ∈ ms := by
  have hP := ONE_pos
  obtain ⟨core, s1, paid, sim, t, routes, swaps, hv, hc, hs1, hf, hp, hsim, hest, hle, hsw, hbk, _, hms⟩ := mintExactOut_spec h
  have hnone := hfee core hc
  simp only [mintExactOut, bind_eq_ok, findCore_eq_ok, deductFee_eq_ok, mulInt_eq_ok] at h
  obtain ⟨core', ⟨_, hc'⟩, fee, hgf, _, _, port, hport, _, _, _, _, _, _, _, _, _, _, _, _, rate, ⟨_, hrate⟩, _, ⟨hlt, _⟩, _⟩ := h
  rw [hc] at hc'
  cases hc'
  obtain ⟨s1', hs1', hu'⟩ := getPortfolio_units hport
  rw [hs1] at hs1'
  cases hs1'
  obtain ⟨hmf, _, _⟩ := getFee_frame hgf
  rw [hmf, hnone] at hrate
  have hn : rate * n / ONE = n := by
    rw [hrate, Option.getD_none, Nat.sub_zero, Nat.mul_div_cancel_left _ hP]
  refine ⟨paid, ⟨n, sortCoins (basket s1.indexUnits n), ⟨input, t⟩⟩, hf, ?_, rfl, rfl, hle, by rw [hms]; simp⟩
  simp only [simMintExactOut, bind_eq_ok, findCore_eq_ok, deductFee_eq_ok, mulInt_eq_ok, basketCoins_eq_ok]
  refine ⟨core, ⟨hv, hc⟩, fee, hgf, port, hport, sim, by rw [hu']; exact hsim, rate,
    ⟨by rw [hmf, hnone]; exact Nat.zero_le _, by rw [hmf, hnone]; exact hrate⟩, n, ⟨hlt, hn.symm⟩,
    _, ⟨by rw [hu']; exact hbk, rfl⟩, (t, routes), hest, ?_⟩
  rw [hu']

/-- The example contract without fees. -/
def freeInst : InstantiateMsg :=
  { Demo.inst with fee := { collector := "collector", mintFee := none, burnFee := none, streamingFee := none } }

/-- Its state right after creation. -/
def freeCore : Core.State :=
  { Demo.s0 with fee := { collector := "collector", mintFee := none, burnFee := none, streamingFee := none } }

theorem freeCore_reachable : Reachable freeCore :=
  ⟨freeCore, [], ⟨Demo.env 1000, freeInst, _, _, "factory/core/ibcx", [], rfl, rfl⟩, rfl⟩

/-- The example world with that contract. -/
def freeWorld : ZWorld := { zapWorld with core := freeCore }

/-- A purchase without fee: the hypotheses of `C45_minimum_without_fee_partial` and
`C50_mint_out_without_fee_partial` hold. -/
example : Reachable freeWorld.core ∧ freeWorld.core.fee.mintFee = none ∧
    (zapTx freeWorld zapEnv zapPools [9990] ⟨"bob", [⟨"uosmo", 70000⟩]⟩ (.mintExactIn "core" "uosmo" 39990 zapRoutes)).map
      (fun w => (w.bank.bal "bob" "factory/core/ibcx", w.bank.bal "bob" "uosmo")) = .ok (39997, 30015) ∧
    (mintExactOut (freeWorld.penv zapEnv zapPools) ⟨"bob", [⟨"uosmo", 80000⟩]⟩ "core" 40000 "uosmo"
      [⟨"uosmo", "uatom", [⟨1, "uosmo"⟩]⟩]).isOk := by
  refine ⟨freeCore_reachable, rfl, ?_, ?_⟩ <;> decide +kernel

/-- **C50 (purchases with exact output and a fee).** The simulation for `n` index tokens tells about the purchase of the
amount `r.amount` that it names, which is `n` less the fee: that purchase, if accepted, mints `r.amount`, attaches
exactly the simulated coins and is offered at least the simulated cost. -/
theorem C50_mint_out_of_named_amount_partial {p : PEnv} {info : Info} {a : Addr} {n : Nat} {input : Denom}
    {infos : List SwapInfo} {r : SimResp} {ms : List PMsg} (hs : simMintExactOut p a n input infos = .ok r)
    (h : mintExactOut p info a r.amount input infos = .ok ms) :
    ∃ paid, info.funds = [⟨input, paid⟩] ∧ r.swapResult.denom = input ∧ r.swapResult.amount ≤ paid ∧
      (∀ core, p.core a = some core → r.amount = part (10 ^ 18 - core.fee.mintFee.getD 0) n) ∧
      PMsg.core a (.mint r.amount (some info.sender) (some info.sender)) r.coins ∈ ms := by
  obtain ⟨core, s1, paid, sim, t, routes, swaps, hv, hc, hs1, hf, hp, hsim, hest, hle, hsw, hbk, _, hms⟩ :=
    mintExactOut_spec h
  simp only [simMintExactOut, bind_eq_ok, findCore_eq_ok, deductFee_eq_ok, mulInt_eq_ok, basketCoins_eq_ok,
    Except.ok.injEq] at hs
  obtain ⟨core', ⟨_, hc'⟩, fee, hgf, port, hport, sim', hsim', rate, ⟨_, hrate⟩, m, ⟨_, hm⟩, coins, ⟨_, hcoins⟩,
    ⟨t', routes'⟩, hest', rfl⟩ := hs
  rw [hc] at hc'
  cases hc'
  obtain ⟨s1', hs1', hu'⟩ := getPortfolio_units hport
  rw [hs1] at hs1'
  cases hs1'
  rw [hu'] at hsim' hcoins
  rw [hsim] at hsim'
  cases hsim'
  simp only at hest h hms
  rw [hest] at hest'
  cases hest'
  obtain ⟨hmf, _, _⟩ := getFee_frame hgf
  refine ⟨paid, hf, rfl, hle, ?_, by rw [hms, hcoins]; simp⟩
  intro core' hcore'
  rw [hc] at hcore'
  cases hcore'
  rw [hm, hrate, hmf]
  rfl

/-- For 40000 index tokens at a fee of 1% the simulation names 39600 and their cost, which a purchase of 39600 meets. -/
example : simMintExactOut (zapWorld.penv zapEnv zapPools) "core" 40000 "uosmo" [⟨"uosmo", "uatom", [⟨1, "uosmo"⟩]⟩] =
      .ok ⟨39600, [⟨"uatom", 9900⟩, ⟨"uosmo", 59400⟩], ⟨"uosmo", 69300⟩⟩ ∧
    (mintExactOut (zapWorld.penv zapEnv zapPools) ⟨"bob", [⟨"uosmo", 80000⟩]⟩ "core" 39600 "uosmo"
      [⟨"uosmo", "uatom", [⟨1, "uosmo"⟩]⟩]).toOption.isSome = true := by
  constructor <;> decide +kernel

end Ibcx.Props
