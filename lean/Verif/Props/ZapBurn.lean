import Verif.Props.ZapMint
/-!
# Selling index tokens through the periphery, end to end (C48, C63)
-/

namespace Ibcx.Props
open Ibcx Ibcx.Core Ibcx.Chain Ibcx.Periphery Ibcx.Spec Ibcx.Pool

/-- Every supplied route to `output` is not empty and its last hop pays out `output`.  (Nothing in the code checks
this.) -/
def payOut (output : Denom) (infos : List SwapInfo) : Prop :=
  ∀ i ∈ infos, i.dst = output → ∃ r, i.routes.getLast? = some r ∧ r.tokenDenom = output

/-- What is simulated to be burned of `x` index tokens: `floor((1 - rate)·x)`. -/
def simulatedBurn (s : Core.State) (x : Nat) : Nat := part (1000000000000000000 - s.fee.burnFee.getD 0) x

private theorem sells_of_order {s : Simulator} {output : Denom} {zap : Addr} {cs : List Coin} {ms : List Msg}
    (hp : payOut output s.swapInfo)
    (h : List.Forall₂ (fun c m => ∃ info least, s.swapInfo.find? (fun i => decide (i.src = c.denom ∧ i.dst = output)) = some info ∧
        m = Msg.swapExactIn zap info.routes c least) cs ms) (hne : ∀ c ∈ cs, c.denom ≠ output) :
    (∀ m ∈ ms, SellsFor zap output m) ∧ ms.map soldCoin = cs := by
  induction h with
  | nil => simp
  | cons hcm _ ih =>
    obtain ⟨i1, i2⟩ := ih fun c hc => hne c (List.mem_cons_of_mem _ hc)
    obtain ⟨info, least, hf, rfl⟩ := hcm
    have hm := List.find?_some hf
    simp only [decide_eq_true_eq] at hm
    obtain ⟨r, hrs, hr⟩ := hp info (List.mem_of_find?_eq_some hf) hm.2
    refine ⟨?_, by rw [List.map_cons, i2]; rfl⟩
    intro m hm'
    rcases List.mem_cons.1 hm' with rfl | hm'
    · exact ⟨_, r, _, least, rfl, hrs, hr, hne _ List.mem_cons_self⟩
    · exact i1 m hm'

/-- The simulated burn is the burned amount or one less. -/
theorem simulatedBurn_close {s : Core.State} (hi : Inv s) (x : Nat) :
    simulatedBurn s x ≤ x - burnFeeOf s x ∧ x - burnFeeOf s x ≤ simulatedBurn s x + 1 := by
  have hp := ONE_pos
  unfold simulatedBurn burnFeeOf
  rw [← ONE_eq]
  cases h : s.fee.burnFee with
  | none =>
    simp only [Option.getD_none, part_eq, Nat.sub_zero]
    rw [Nat.mul_div_cancel_left _ hp]
    omega
  | some v =>
    have hv := (hi.burnRate v h).2
    simp only [Option.getD_some, part_eq]
    generalize ONE = P at *
    have h1 : (P - v) * x + v * x = P * x := by rw [← Nat.add_mul]; congr 1; omega
    have h2 := Nat.div_add_mod (v * x) P
    have h3 := Nat.mod_lt (v * x) hp
    have h4 := Nat.div_add_mod ((P - v) * x) P
    have h5 := Nat.mod_lt ((P - v) * x) hp
    generalize v * x / P = q at *
    generalize (P - v) * x / P = q' at *
    have h6 : P * (q + q') ≤ P * x := by rw [Nat.mul_add]; omega
    have h7 : P * x < P * (q + q' + 2) := by rw [Nat.mul_add, Nat.mul_add]; omega
    have h8 := Nat.le_of_mul_le_mul_left h6 hp
    have h9 := Nat.lt_of_mul_lt_mul_left h7
    omega

/-- A burn followed by the sale of the simulated basket. -/
private theorem burn_then_sell {w w' : ZWorld} {env : Env} {pool : Nat → Res (Option Pool)} {market : List Nat}
    {output : Denom} {x m least t : Nat} {sim : Simulator} {rs : List SimOut} {swaps : List Msg} {rest : List PMsg}
    {s1 : Core.State} (hr : Reachable w.core) (hout : output ≠ w.core.config.indexDenom) (hz : w.zap ≠ w.coreAddr)
    (hc : collectStreamingFee w.core env.now = .ok s1)
    (hu : sim.units = s1.indexUnits) (hp : payOut output sim.swapInfo)
    (ht : tokenGivenIndexIn sim m output = .ok (t, rs)) (hm : outMsgs rs w.zap least = .ok swaps)
    (h : runPMsgs pool env w market (.core w.coreAddr (.burn none) [⟨w.core.config.indexDenom, x⟩] ::
      (swaps.map PMsg.chain ++ rest)) = .ok w') :
    ∃ b mk got, runPMsgs pool env { w with
        core := { s1 with totalSupply := w.core.totalSupply - (x - burnFeeOf w.core x) }, bank := b } mk rest = .ok w' ∧
      x ≠ 0 ∧ x - burnFeeOf w.core x ≤ w.core.totalSupply ∧
      (swaps.map leastProceeds).sum ≤ got ∧
      (∀ a d, a ≠ w.zap → b.bal a d +
          (if a = w.coreAddr then total d (basket s1.indexUnits (x - burnFeeOf w.core x)) else 0) =
        w.bank.bal a d +
          (if a = w.core.fee.collector ∧ d = w.core.config.indexDenom then burnFeeOf w.core x else 0)) ∧
      (∀ d, d ≠ output → b.bal w.zap d + (if d = w.core.config.indexDenom then x else 0) +
          total d (basket s1.indexUnits m) =
        w.bank.bal w.zap d + total d (basket s1.indexUnits (x - burnFeeOf w.core x)) +
          (if w.zap = w.core.fee.collector ∧ d = w.core.config.indexDenom then burnFeeOf w.core x else 0)) ∧
      b.bal w.zap output = w.bank.bal w.zap output + total output (basket s1.indexUnits (x - burnFeeOf w.core x)) + got := by
  simp only [runPMsgs, runPMsg, bind_eq_ok, Except.ok.injEq] at h
  obtain ⟨⟨w1, mk1⟩, ⟨w1', h1, h1'⟩, h2⟩ := h
  cases h1'
  obtain ⟨c1, c2, c3, b1, rfl, c4⟩ := callCore_burn hr hc h1
  have hord := C47_sale_route_order ht hm
  rw [hu] at hord
  obtain ⟨hs, hst⟩ := sells_of_order hp hord (by
    intro c hc; simpa using (List.mem_filter.1 hc).2)
  obtain ⟨b2, mk, got, g1, g2, g3, g4, g5, h⟩ := runPMsgs_sells (w := { w with core := _, bank := b1 }) hs h2
  have hsold : ∀ d, d ≠ output → total d (swaps.map soldCoin) = total d (basket s1.indexUnits m) := by
    intro d hd
    rw [hst, total_filter_ne hd]
  refine ⟨b2, mk, got, h, c1, c3, g3, ?_, ?_, ?_⟩
  · intro a d ha
    have e1 := g2 a d ha
    have e2 := c4 a d
    simp only [ha, false_and, if_false] at e1 e2
    omega
  · intro d hd
    have e1 := g5 d hd
    have e2 := c4 w.zap d
    have e3 := hsold d hd
    simp only [hz, if_true, if_false, true_and] at e1 e2
    omega
  · have e1 := g4
    have e2 := c4 w.zap output
    simp only [hz, hout, if_true, if_false, and_false] at e1 e2
    omega

/-- How a sale of `x` index tokens for `output` is settled when the swaps yield `got` in total: `burnt` and `fee` are
the two parts of `x`, and the swaps sell the basket of `sold` index tokens. -/
structure SaleSettled (w w' : ZWorld) (user : Addr) (output : Denom) (units : Units) (x burnt fee sold got : Nat) :
    Prop where
  /-- The fee is the core contract's burn fee. -/
  split : fee = burnFeeOf w.core x ∧ burnt + fee = x ∧ 0 < x
  /-- The amount priced is the amount burned or one less. -/
  priced : sold ≤ burnt ∧ burnt ≤ sold + 1
  /-- The core contract records the burn. -/
  supply : w'.core.totalSupply + burnt = w.core.totalSupply
  /-- The user gets the proceeds of the swaps, the basket's part of the output denom and what the periphery held. -/
  proceeds : w'.bank.bal user output =
    w.bank.bal user output + w.bank.bal w.zap output + total output (basket units burnt) + got
  /-- The user's balances other than output and index tokens do not change. -/
  other : ∀ d, d ≠ output → d ≠ w.core.config.indexDenom → w'.bank.bal user d = w.bank.bal user d
  /-- The core contract pays exactly the basket of the burned amount (and gets the fee, should it be the collector). -/
  reserve : ∀ d, w'.bank.bal w.coreAddr d + total d (basket units burnt) = w.bank.bal w.coreAddr d +
    (if w.coreAddr = w.core.fee.collector ∧ d = w.core.config.indexDenom then fee else 0)
  /-- Third parties only see the fee. -/
  third : ∀ a d, a ≠ user → a ≠ w.zap → a ≠ w.coreAddr → w'.bank.bal a d = w.bank.bal a d +
    (if a = w.core.fee.collector ∧ d = w.core.config.indexDenom then fee else 0)
  /-- The periphery keeps none of the output denom. -/
  swept : w'.bank.bal w.zap output = 0
  /-- It keeps what was redeemed and not sold of the other denoms. -/
  dust : ∀ d, d ≠ output → d ≠ w.core.config.indexDenom →
    w'.bank.bal w.zap d + total d (basket units sold) = w.bank.bal w.zap d + total d (basket units burnt)
  same : w'.coreAddr = w.coreAddr ∧ w'.zap = w.zap

private theorem unrouted_total {s : Simulator} {m : Nat} {output : Denom} {us : Units} {rs : List SimOut}
    (h : List.Forall₂ (OutSpec s m output) us rs) :
    ((rs.filter (·.routes.isNone)).map (·.simAmountOut)).sum = total output (basket us m) := by
  induction h with
  | nil => rfl
  | @cons e r us rs he _ ih =>
    obtain ⟨_, h1, h2⟩ := he
    have hb : basket (e :: us) m = ⟨e.1, part e.2 m⟩ :: basket us m := rfl
    rw [hb, total_cons]
    by_cases hd : e.1 = output
    · obtain ⟨h3, h4⟩ := h1 hd
      rw [List.filter_cons_of_pos (by rw [h4]; rfl), List.map_cons, List.sum_cons, ih, h3, ← part_eq]
      simp [hd]
    · obtain ⟨i, _, h4⟩ := h2 hd
      rw [List.filter_cons_of_neg (by rw [h4]; simp), ih]
      simp [hd]

theorem total_basket_mono {us : Units} {m n : Nat} (h : m ≤ n) (d : Denom) :
    total d (basket us m) ≤ total d (basket us n) := by
  induction us with
  | nil => exact Nat.le_refl _
  | cons e us ih =>
    have hb : ∀ k, basket (e :: us) k = ⟨e.1, part e.2 k⟩ :: basket us k := fun _ => rfl
    rw [hb, hb, total_cons, total_cons]
    have : part e.2 m ≤ part e.2 n := Nat.div_le_div_right (Nat.mul_le_mul_left _ h)
    dsimp only
    split <;> omega

/-- The example contract after a mint of 10000 index tokens, of which Bob holds 9900. -/
def zapWorld2 : ZWorld :=
  { core := Demo.s1, coreAddr := "core", zap := "zap"
    bank := { bal := fun a d => if a = "bob" ∧ d = "factory/core/ibcx" then 9900 else
                if a = "core" ∧ d = "uatom" then 2500 else if a = "core" ∧ d = "uosmo" then 15000 else 0
              supply := fun d => if d = "factory/core/ibcx" then 10000 else 1000000 } }

/-- The route of the examples. -/
def zapSaleRoutes : List Compact := [⟨"uatom,uosmo", ["1,uosmo"]⟩]

theorem zapSaleRoutes_ok : parseInfos zapSaleRoutes = .ok [⟨"uatom", "uosmo", [⟨1, "uosmo"⟩]⟩] := by decide +kernel

theorem zapSaleRoutes_pay : payOut "uosmo" [⟨"uatom", "uosmo", [⟨1, "uosmo"⟩]⟩] := by
  intro i hi _
  simp only [List.mem_singleton] at hi
  subst hi
  exact ⟨_, rfl, rfl⟩

/-- Bob sells 1012 index tokens for at least 1717 uosmo.  The fee is 20, the basket of 992 is redeemed and that of 991
sold, so one uatom stays in the periphery. -/
theorem zapBurnIn_ok :
    (zapTx zapWorld2 zapEnv zapPools [246] ⟨"bob", [⟨"factory/core/ibcx", 1012⟩]⟩
      (.burnExactIn "core" "uosmo" 1717 zapSaleRoutes)).map
      (fun w => [w.bank.bal "bob" "factory/core/ibcx", w.bank.bal "bob" "uosmo", w.bank.bal "zap" "uosmo",
        w.bank.bal "zap" "uatom", w.bank.bal "core" "uosmo", w.bank.bal "core" "uatom",
        w.bank.bal "collector" "factory/core/ibcx"]) =
    .ok [8888, 1734, 0, 1, 13512, 2252, 20] := by decide +kernel

/-- Bob sells up to 5000 index tokens for 1717 uosmo.  1000 are burned (fee 20) and Bob receives 1715 uosmo. -/
theorem zapBurnOut_ok :
    (zapTx zapWorld2 zapEnv zapPools [245] ⟨"bob", [⟨"factory/core/ibcx", 5000⟩]⟩
      (.burnExactOut "core" ⟨"uosmo", 1717⟩ zapSaleRoutes)).map
      (fun w => (w.bank.bal "bob" "uosmo", w.bank.bal "bob" "factory/core/ibcx", w.bank.bal "zap" "factory/core/ibcx",
        w.bank.bal "zap" "uosmo")) =
    .ok (1715, 8900, 0, 0) := by decide +kernel

theorem ok_of_map {α β : Type} {r : Res α} {f : α → β} {b : β} (h : r.map f = .ok b) : ∃ a, r = .ok a ∧ f a = b := by
  cases r with
  | error e => cases h
  | ok a => exact ⟨a, rfl, Except.ok.inj h⟩

/-- **C63 (exact amount of index tokens).** A successful `BurnExactAmountIn` whose routes pay out the output denom is
settled exactly: the user gives up the attached index tokens and receives the proceeds, which reach the requested
minimum up to one unit per swap and a `10^-18` part of the simulated proceeds. -/
theorem C63_burn_exact_in_settles {w w' : ZWorld} {env : Env} {pool : Nat → Res (Option Pool)} {market : List Nat}
    {info : Info} {addr : Addr} {min : Nat} {output : Denom} {si : List Compact} {infos : List SwapInfo}
    (hr : Reachable w.core) (hout : output ≠ w.core.config.indexDenom) (hsi : parseInfos si = .ok infos)
    (hp : payOut output infos)
    (h : zapTx w env pool market info (.burnExactIn addr output min si) = .ok w') :
    ∃ s1 x burnt fee sold got t, collectStreamingFee w.core env.now = .ok s1 ∧ addr = w.coreAddr ∧
      info.funds = [⟨w.core.config.indexDenom, x⟩] ∧ sold = simulatedBurn w.core x ∧
      SaleSettled w w' info.sender output s1.indexUnits x burnt fee sold got ∧
      w'.bank.bal info.sender w.core.config.indexDenom + x = w.bank.bal info.sender w.core.config.indexDenom +
        (if info.sender = w.core.fee.collector then fee else 0) ∧
      min ≤ t ∧
      w.bank.bal info.sender output + min ≤
        w'.bank.bal info.sender output + s1.indexUnits.length + t / 1000000000000000000 := by
  simp only [zapTx, bind_eq_ok, require_eq_ok, Periphery.execute, hsi, Except.ok.injEq] at h
  obtain ⟨_, ⟨he, hz, huz, huc, _⟩, b0, hsend, ms, ⟨_, rfl, hm⟩, hrun⟩ := h
  obtain ⟨core, s1, x, sim, t, routes, swaps, hv, hcore, hs1, hf, hpaid, hsim, hle, hest, hsw, rfl⟩ :=
    burnExactIn_spec hm
  obtain ⟨_, hsi', hu⟩ := makeSim_units hsim
  have ha : addr = w.coreAddr ∧ core = w.core := by
    simp only [ZWorld.penv] at hcore
    split at hcore
    · rename_i h; exact ⟨h, (Option.some.inj hcore).symm⟩
    · cases hcore
  obtain ⟨rfl, rfl⟩ := ha
  rw [hf] at hsend
  have hsw' : outMsgs routes w.zap min = .ok swaps := he ▸ hsw
  have hsb : (ONE - w.core.fee.burnFee.getD 0) * x / ONE = simulatedBurn w.core x := by
    rw [simulatedBurn, part_eq, ← ONE_eq]
  rw [hsb] at hest
  obtain ⟨b, mk, got, h2, hx, hsup, g1, g2, g3, g4⟩ := burn_then_sell (w := { w with bank := b0 }) hr hout hz hs1 hu
    (hsi' ▸ hp) hest hsw' hrun
  simp only [runPMsgs, bind_eq_ok] at h2
  obtain ⟨⟨w2, mk2⟩, h2, h3⟩ := h2
  cases h3
  obtain ⟨_, _, b3, rfl, f1, f2, f3, f4, f5⟩ := runPMsg_finish (w := { w with core := _, bank := b }) huz h2
  obtain ⟨p1, p2⟩ := simulatedBurn_close hr.inv x
  have hfee := burnFeeOf_le hr.inv x
  have hs : ∀ a d, _ := send_move_one hsend
  have h44 := (C44_least_proceeds_partial hsw').1
  rw [unrouted_total (tokenGivenIndexIn_spec hest).1, hu] at h44
  rw [← (tokenGivenIndexIn_spec hest).2] at h44
  have hlen : swaps.length ≤ s1.indexUnits.length := by
    have hl := (C47_sale_route_order hest hsw').length_eq
    rw [← hl, ← hu]
    exact (List.length_filter_le _ _).trans (by rw [basket, List.length_map])
  have hmono := total_basket_mono (us := s1.indexUnits) p1 output
  have hmint : min ≤ t := by
    simp only [outMsgs, bind_eq_ok, require_eq_ok] at hsw'
    obtain ⟨t', ht', _, hle', _⟩ := hsw'
    have := sumOut_eq ht'
    rw [(tokenGivenIndexIn_spec hest).2, ← this]
    omega
  have huz' : ¬ w.zap = info.sender := fun e => huz e.symm
  have hcz : ¬ w.coreAddr = w.zap := fun e => hz e.symm
  have hcu : ¬ w.coreAddr = info.sender := fun e => huc e.symm
  have hout' : ¬ w.core.config.indexDenom = output := fun e => hout e.symm
  simp only at *
  generalize hsd : simulatedBurn w.core x = sold at *
  generalize hfe : burnFeeOf w.core x = fee at *
  have hprc : b3.bal info.sender output =
      w.bank.bal info.sender output + w.bank.bal w.zap output + total output (basket s1.indexUnits (x - fee)) + got := by
    have e1 := g2 info.sender output huz
    have e2 := hs info.sender output
    have e3 := hs w.zap output
    simp only [huz, huz', huc, hout, if_false, and_false, if_true] at e1 e2 e3
    omega
  refine ⟨s1, x, x - fee, fee, sold, got, t, hs1, trivial, hf, hsd.symm, ?_, ?_, hmint, ?_⟩
  · constructor
    · exact ⟨hfe.symm, by omega, by omega⟩
    · exact ⟨p1, p2⟩
    · dsimp only; omega
    · exact hprc
    · intro d hd hdi
      have e1 := f4 info.sender d hd
      have e2 := g2 info.sender d huz
      have e3 := hs info.sender d
      simp only [huc, hdi, if_false, and_false] at e1 e2 e3
      dsimp only
      omega
    · intro d
      have e1 := f5 w.coreAddr d hcz hcu
      have e2 := g2 w.coreAddr d hcz
      have e3 := hs w.coreAddr d
      simp only [hcz, hcu, if_false, if_true, false_and] at e1 e2 e3
      dsimp only
      omega
    · intro a d h1 h2 h3
      have e1 := f5 a d h2 h1
      have e2 := g2 a d h2
      have e3 := hs a d
      simp only [h1, h2, h3, if_false, false_and] at e1 e2 e3
      dsimp only
      omega
    · exact f2
    · intro d hd hdi
      have e1 := f4 w.zap d hd
      have e2 := g3 d hd
      have e3 := hs w.zap d
      simp only [hdi, if_false, and_false] at e1 e2 e3
      dsimp only
      omega
    · exact ⟨rfl, rfl⟩
  · have e1 := f4 info.sender _ hout'
    have e2 := g2 info.sender w.core.config.indexDenom huz
    have e3 := hs info.sender w.core.config.indexDenom
    simp only [huz, huz', huc, if_false, if_true, and_true, and_self, false_and] at e1 e2 e3
    omega
  · rw [hprc]
    omega

/-- Bob sells 1012 index tokens. -/
example : Reachable zapWorld2.core ∧ "uosmo" ≠ zapWorld2.core.config.indexDenom ∧
    (∃ infos, parseInfos zapSaleRoutes = .ok infos ∧ payOut "uosmo" infos) ∧
    ∃ w', zapTx zapWorld2 zapEnv zapPools [246] ⟨"bob", [⟨"factory/core/ibcx", 1012⟩]⟩
      (.burnExactIn "core" "uosmo" 1717 zapSaleRoutes) = .ok w' := by
  refine ⟨Demo.s1_reachable, by decide, ⟨_, zapSaleRoutes_ok, zapSaleRoutes_pay⟩, ?_⟩
  obtain ⟨w', h, _⟩ := ok_of_map zapBurnIn_ok
  exact ⟨w', h⟩

/-- **C48 (promised proceeds).** When the minimum is the simulated total, every swap must return exactly what was
simulated for its route. -/
theorem C48_swaps_promise_simulation {rs : List SimOut} {contract : Addr} {ms : List Msg}
    (h : outMsgs rs contract (rs.map (·.simAmountOut)).sum = .ok ms) :
    ms = (rs.filter (·.routes.isSome)).map fun r =>
      .swapExactIn contract (r.routes.getD []) r.amountIn r.simAmountOut := by
  have hp := ONE_pos
  simp only [outMsgs, bind_eq_ok, require_eq_ok, ratio_eq_ok, Except.ok.injEq] at h
  obtain ⟨t, ht, _, _, amp, ⟨h0, _, hamp⟩, ms', hm, rfl⟩ := h
  rw [outMsgs_map hm]
  apply List.map_congr_left
  intro r _
  have : amp = ONE := by
    rw [hamp, ← sumOut_eq ht, Nat.mul_comm]
    exact Nat.mul_div_cancel _ (by omega)
  rw [this, Nat.mul_div_cancel_left _ hp]

/-- The messages of a sale simulated at 350 osmo. -/
example : ((tokenGivenIndexIn zapSim 100 "osmo").bind fun x => outMsgs x.2 "zap" (x.2.map (·.simAmountOut)).sum) =
    .ok [.swapExactIn "zap" [⟨1, "osmo"⟩] ⟨"atom", 100⟩ 100,
      .swapExactIn "zap" [⟨1, "atom"⟩, ⟨2, "osmo"⟩] ⟨"juno", 200⟩ 200] := by decide +kernel

/-- Undoing the fee, taking one off and deducting the fee again gives back `m`, up to three and a 10^-18 part. -/
theorem undo_then_deduct {N v m x r : Nat} (hv : v < N) (hr : r = N * N / (N - v)) (hx : x + 1 = r * m / N) :
    (N - v) * x / N ≤ m ∧ m ≤ (N - v) * x / N + 3 + m / N := by
  have hN : 0 < N := by omega
  obtain ⟨K, hK⟩ : ∃ K, K = N - v := ⟨_, rfl⟩
  rw [← hK] at hr ⊢
  have hK0 : 0 < K := by omega
  have hKN : K ≤ N := by omega
  have r1 : r * K ≤ N * N := by rw [hr]; exact Nat.div_mul_le_self _ _
  have r2 : N * N < (r + 1) * K := by
    rw [hr, Nat.mul_comm _ K]; exact Nat.lt_mul_div_succ _ hK0
  have x1 : (x + 1) * N ≤ r * m := by rw [hx]; exact Nat.div_mul_le_self _ _
  have x2 : r * m < (x + 2) * N := by
    have := Nat.lt_mul_div_succ (r * m) hN
    rw [← hx] at this
    calc r * m < N * (x + 1 + 1) := this
      _ = (x + 2) * N := Nat.mul_comm _ _
  obtain ⟨q, hq⟩ : ∃ q, q = K * x / N := ⟨_, rfl⟩
  have s1 : q * N ≤ K * x := by rw [hq]; exact Nat.div_mul_le_self _ _
  have s2 : K * x < N * (q + 1) := by rw [hq]; exact Nat.lt_mul_div_succ _ hN
  have m2 : m < N * (m / N + 1) := Nat.lt_mul_div_succ _ hN
  rw [← hq]
  constructor
  · have : N * N * q ≤ N * N * m := by
      calc N * N * q = q * N * N := by ring
        _ ≤ K * x * N := Nat.mul_le_mul_right _ s1
        _ = K * (x * N) := by ring
        _ ≤ K * (r * m) := Nat.mul_le_mul_left _ (by rw [Nat.add_mul] at x1; omega)
        _ = r * K * m := by ring
        _ ≤ N * N * m := Nat.mul_le_mul_right _ r1
    exact Nat.le_of_mul_le_mul_left this (Nat.mul_pos hN hN)
  · have h1 : N * (N * m) < N * (N * (q + 3 + m / N + 1)) := by
      calc N * (N * m) = N * N * m := by ring
        _ ≤ (r + 1) * K * m := Nat.mul_le_mul_right _ r2.le
        _ = K * (r * m) + K * m := by ring
        _ ≤ K * ((x + 2) * N) + N * m := Nat.add_le_add (Nat.mul_le_mul_left _ x2.le) (Nat.mul_le_mul_right _ hKN)
        _ = N * (K * x) + 2 * K * N + N * m := by ring
        _ < N * (N * (q + 1)) + 2 * N * N + N * (N * (m / N + 1)) := by
          have a1 : N * (K * x) < N * (N * (q + 1)) := Nat.mul_lt_mul_of_pos_left s2 hN
          have a2 : 2 * K * N ≤ 2 * N * N := Nat.mul_le_mul_right _ (Nat.mul_le_mul_left _ hKN)
          have a3 : N * m ≤ N * (N * (m / N + 1)) := Nat.mul_le_mul_left _ m2.le
          omega
        _ = N * (N * (q + 3 + m / N + 1)) := by ring
    have h2 := Nat.lt_of_mul_lt_mul_left (Nat.lt_of_mul_lt_mul_left h1)
    omega

/-- **C48, C63, C64 (exact proceeds).** A successful `BurnExactAmountOut` whose routes pay out the desired denom burns `x`
index tokens, at most the attached amount; the user gets back all other index tokens (and those the periphery held)
and receives at least the proceeds `t` simulated for the burn.  The tokens whose basket is sold are, up to three and a
10^-18 part, those whose simulated proceeds miss the desired amount by less than 5000. -/
theorem C48_burn_exact_out_settles {w w' : ZWorld} {env : Env} {pool : Nat → Res (Option Pool)} {market : List Nat}
    {info : Info} {addr : Addr} {desired : Coin} {si : List Compact} {infos : List SwapInfo}
    (hr : Reachable w.core) (hout : desired.denom ≠ w.core.config.indexDenom) (hsi : parseInfos si = .ok infos)
    (hp : payOut desired.denom infos)
    (h : zapTx w env pool market info (.burnExactOut addr desired si) = .ok w') :
    ∃ s1 paid x burnt fee sold got t rs sim, collectStreamingFee w.core env.now = .ok s1 ∧ addr = w.coreAddr ∧
      info.funds = [⟨w.core.config.indexDenom, paid⟩] ∧ x ≤ paid ∧ sold = simulatedBurn w.core x ∧
      SaleSettled w w' info.sender desired.denom s1.indexUnits x burnt fee sold got ∧
      w'.bank.bal info.sender w.core.config.indexDenom + x +
          total w.core.config.indexDenom (basket s1.indexUnits sold) =
        w.bank.bal info.sender w.core.config.indexDenom + w.bank.bal w.zap w.core.config.indexDenom +
          total w.core.config.indexDenom (basket s1.indexUnits burnt) +
          (if info.sender = w.core.fee.collector then fee else 0) + (if w.zap = w.core.fee.collector then fee else 0) ∧
      w'.bank.bal w.zap w.core.config.indexDenom = 0 ∧
      (sim.units = s1.indexUnits ∧ sim.swapInfo = infos ∧ tokenGivenIndexIn sim sold desired.denom = .ok (t, rs)) ∧
      (∃ found expected rs', tokenGivenIndexIn sim found desired.denom = .ok (expected, rs') ∧
        expected ≤ desired.amount ∧ desired.amount < expected + 5000 ∧
        sold ≤ found ∧ found ≤ sold + 3 + found / 1000000000000000000) ∧
      w.bank.bal info.sender desired.denom + t ≤ w'.bank.bal info.sender desired.denom := by
  simp only [zapTx, bind_eq_ok, require_eq_ok, Periphery.execute, hsi, Except.ok.injEq] at h
  obtain ⟨_, ⟨he, hz, huz, huc, _⟩, b0, hsend, ms, ⟨_, rfl, hm⟩, hrun⟩ := h
  obtain ⟨core, s1, paid, sim, mn, rev, rate, x, t, routes, swaps, hv, hcore, hs1, hf, hpaid, hsim, hmn, hrate, hburn,
    hxle, hle, hest, hsw, rfl⟩ := burnExactOut_spec hm
  have hfound : ∃ found expected rs', tokenGivenIndexIn sim found desired.denom = .ok (expected, rs') ∧
      expected ≤ desired.amount ∧ desired.amount < expected + 5000 ∧
      (ONE - core.fee.burnFee.getD 0) * x / ONE ≤ found ∧
      found ≤ (ONE - core.fee.burnFee.getD 0) * x / ONE + 3 + found / ONE := by
    simp only [estIndexForOutput, bind_eq_ok] at hmn
    obtain ⟨res, hres, hmn⟩ := hmn
    obtain ⟨_, _, _, _, _, _, _, _, _, _, e⟩ := hmn
    cases e
    obtain ⟨g1, g2, g3⟩ := searchForOutput_spec hres
    refine ⟨mn.index, mn.received, mn.routes, g3, g1, g2, ?_⟩
    have hpos := Math.one_pos
    rcases expandFee_eq_ok.1 hrate with ⟨e1, e2⟩ | ⟨v, e1, e2, _, e3⟩
    · rw [e1, Option.getD_none]
      refine undo_then_deduct hpos ?_ hburn
      rw [e2, Nat.sub_zero, Nat.mul_div_cancel _ hpos]
    · rw [e1, Option.getD_some]
      exact undo_then_deduct e2 e3 hburn
  obtain ⟨_, hsi', hu⟩ := makeSim_units hsim
  have ha : addr = w.coreAddr ∧ core = w.core := by
    simp only [ZWorld.penv] at hcore
    split at hcore
    · rename_i h; exact ⟨h, (Option.some.inj hcore).symm⟩
    · cases hcore
  obtain ⟨rfl, rfl⟩ := ha
  rw [hf] at hsend
  have hsw' : outMsgs routes w.zap t = .ok swaps := he ▸ hsw
  have hsb : (ONE - w.core.fee.burnFee.getD 0) * x / ONE = simulatedBurn w.core x := by
    rw [simulatedBurn, part_eq, ← ONE_eq]
  rw [hsb] at hest
  rw [hsb, ONE_eq] at hfound
  obtain ⟨b, mk, got, h2, hx, hsup, g1, g2, g3, g4⟩ := burn_then_sell (w := { w with bank := b0 }) hr hout hz hs1 hu
    (hsi' ▸ hp) hest hsw' hrun
  simp only [runPMsgs, bind_eq_ok] at h2
  obtain ⟨⟨w2, mk2⟩, h2, ⟨w3, mk3⟩, h2', h3⟩ := h2
  cases h3
  obtain ⟨_, _, b3, rfl, f1, f2, f3, f4, f5⟩ := runPMsg_finish (w := { w with core := _, bank := b }) huz h2
  obtain ⟨_, _, b4, rfl, k1, k2, k3, k4, k5⟩ := runPMsg_finish (w := { w with core := _, bank := b3 }) huz h2'
  obtain ⟨p1, p2⟩ := simulatedBurn_close hr.inv x
  have hfee := burnFeeOf_le hr.inv x
  have hs : ∀ a d, _ := send_move_one hsend
  have ht := (tokenGivenIndexIn_spec hest).2
  have hprom : (swaps.map leastProceeds).sum + total desired.denom (basket s1.indexUnits (simulatedBurn w.core x)) = t := by
    rw [ht] at hsw'
    rw [C48_swaps_promise_simulation hsw', List.map_map, ← hu, ← unrouted_total (tokenGivenIndexIn_spec hest).1, ht]
    have e1 : (routes.filter fun r => r.routes.isNone) = routes.filter fun r => !r.routes.isSome := by
      congr 1; funext r; cases r.routes <;> rfl
    rw [e1]
    exact sum_filter_add (fun r : SimOut => r.routes.isSome) (fun r => r.simAmountOut) routes
  have hmono := total_basket_mono (us := s1.indexUnits) p1 desired.denom
  have huz' : ¬ w.zap = info.sender := fun e => huz e.symm
  have hcz : ¬ w.coreAddr = w.zap := fun e => hz e.symm
  have hcu : ¬ w.coreAddr = info.sender := fun e => huc e.symm
  have hout' : ¬ w.core.config.indexDenom = desired.denom := fun e => hout e.symm
  simp only at *
  generalize hsd : simulatedBurn w.core x = sold at *
  generalize hfe : burnFeeOf w.core x = fee at *
  have hprc : b4.bal info.sender desired.denom = w.bank.bal info.sender desired.denom +
      w.bank.bal w.zap desired.denom + total desired.denom (basket s1.indexUnits (x - fee)) + got := by
    have e1 := g2 info.sender desired.denom huz
    have e2 := hs info.sender desired.denom
    have e3 := hs w.zap desired.denom
    have e4 := f4 info.sender _ hout
    have e5 := f4 w.zap _ hout
    simp only [huz, huz', huc, hout, if_false, and_false] at e1 e2 e3
    omega
  refine ⟨s1, paid, x, x - fee, fee, sold, got, t, routes, sim, hs1, trivial, hf, hxle, hsd.symm, ?_, ?_, ?_,
    ⟨hu, hsi', hest⟩, hfound, ?_⟩
  · constructor
    · exact ⟨hfe.symm, by omega, by omega⟩
    · exact ⟨p1, p2⟩
    · dsimp only; omega
    · exact hprc
    · intro d hd hdi
      have e0 := k4 info.sender d hd
      have e1 := f4 info.sender d hdi
      have e2 := g2 info.sender d huz
      have e3 := hs info.sender d
      simp only [huc, hdi, if_false, and_false] at e1 e2 e3
      dsimp only
      omega
    · intro d
      have e0 := k5 w.coreAddr d hcz hcu
      have e1 := f5 w.coreAddr d hcz hcu
      have e2 := g2 w.coreAddr d hcz
      have e3 := hs w.coreAddr d
      simp only [hcz, hcu, if_false, if_true, false_and] at e1 e2 e3
      dsimp only
      omega
    · intro a d h1 h2 h3
      have e0 := k5 a d h2 h1
      have e1 := f5 a d h2 h1
      have e2 := g2 a d h2
      have e3 := hs a d
      simp only [h1, h2, h3, if_false, false_and] at e1 e2 e3
      dsimp only
      omega
    · exact k2
    · intro d hd hdi
      have e0 := k4 w.zap d hd
      have e1 := f4 w.zap d hdi
      have e2 := g3 d hd
      have e3 := hs w.zap d
      simp only [hdi, if_false, and_false] at e1 e2 e3
      dsimp only
      omega
    · exact ⟨rfl, rfl⟩
  · have e0 := k4 info.sender _ hout'
    have e1 := f3
    have e2 := g2 info.sender w.core.config.indexDenom huz
    have e3 := hs info.sender w.core.config.indexDenom
    have e4 := hs w.zap w.core.config.indexDenom
    have e5 := g3 _ hout'
    simp only [huz, huz', huc, if_false, if_true, and_true, and_self, false_and] at e1 e2 e3 e4 e5
    omega
  · have e0 := k4 w.zap _ hout'
    omega
  · rw [hprc]
    omega

/-! ### Examples, C64 and C65 -/

/-- The hypotheses of the theorems on sales hold in the examples. -/
example : Reachable zapWorld2.core ∧ "uosmo" ≠ zapWorld2.core.config.indexDenom ∧
    (∃ infos, parseInfos zapSaleRoutes = .ok infos ∧ payOut "uosmo" infos) ∧
    (∃ w', zapTx zapWorld2 zapEnv zapPools [246] ⟨"bob", [⟨"factory/core/ibcx", 1012⟩]⟩
      (.burnExactIn "core" "uosmo" 1717 zapSaleRoutes) = .ok w') ∧
    ∃ w', zapTx zapWorld2 zapEnv zapPools [245] ⟨"bob", [⟨"factory/core/ibcx", 5000⟩]⟩
      (.burnExactOut "core" ⟨"uosmo", 1717⟩ zapSaleRoutes) = .ok w' := by
  refine ⟨Demo.s1_reachable, by decide, ⟨_, zapSaleRoutes_ok, zapSaleRoutes_pay⟩, ?_, ?_⟩
  · obtain ⟨w', h, _⟩ := ok_of_map zapBurnIn_ok; exact ⟨w', h⟩
  · obtain ⟨w', h, _⟩ := ok_of_map zapBurnOut_ok; exact ⟨w', h⟩

/-- The full claim C64: `BurnExactAmountOut` delivers the desired amount. -/
def C64_full : Prop :=
  ∀ (w w' : ZWorld) (env : Env) (pool : Nat → Res (Option Pool)) (market : List Nat) (info : Info) (addr : Addr)
    (desired : Coin) (si : List Compact) (infos : List SwapInfo),
    Reachable w.core → desired.denom ≠ w.core.config.indexDenom → parseInfos si = .ok infos →
    payOut desired.denom infos → zapTx w env pool market info (.burnExactOut addr desired si) = .ok w' →
    w.bank.bal info.sender desired.denom + desired.amount ≤ w'.bank.bal info.sender desired.denom

/-- C64 is false: Bob asked for 1717 uosmo and receives 1715. -/
theorem C64_full_false : ¬ C64_full := by
  intro hall
  obtain ⟨w', hz, h⟩ := ok_of_map zapBurnOut_ok
  have hle := hall _ _ _ _ _ _ _ _ _ _ Demo.s1_reachable (by decide) zapSaleRoutes_ok zapSaleRoutes_pay hz
  have e : w'.bank.bal "bob" "uosmo" = 1715 := (Prod.mk.inj h).1
  have e0 : zapWorld2.bank.bal "bob" "uosmo" = 0 := by decide
  have e1 : zapWorld2.bank.bal "bob" "uosmo" + 1717 ≤ w'.bank.bal "bob" "uosmo" := hle
  omega

/-- The full claim C65: a purchase never spends what the periphery held in other denoms. -/
def C65_full : Prop :=
  ∀ (w w' : ZWorld) (env : Env) (pool : Nat → Res (Option Pool)) (market : List Nat) (info : Info) (addr : Addr)
    (n : Nat) (input : Denom) (si : List Compact), Reachable w.core → input ≠ w.core.config.indexDenom →
    zapTx w env pool market info (.mintExactOut addr n input si) = .ok w' →
    ∀ d, d ≠ input → w.bank.bal w.zap d ≤ w'.bank.bal w.zap d

/-- The example world with 20000 ujuno left in the periphery. -/
def zapWorld3 : ZWorld :=
  { zapWorld with bank := { bal := fun a d => if a = "zap" ∧ d = "ujuno" then 20000 else
      if a = "bob" ∧ d = "uosmo" then 100000 else 0, supply := fun _ => 100000 } }

/-- Bob names a route "from uosmo to uatom" whose hop pays with ujuno: the periphery pays 10000 of its ujuno for
Bob's uatom. -/
theorem zapSteal_ok :
    (zapTx zapWorld3 zapEnv zapPools [10000] ⟨"bob", [⟨"uosmo", 70000⟩]⟩
      (.mintExactOut "core" 40000 "uosmo" [⟨"uosmo,uatom", ["1,ujuno"]⟩])).map
      (fun w => (w.bank.bal "zap" "ujuno", w.bank.bal "bob" "uosmo", w.bank.bal "bob" "factory/core/ibcx")) =
    .ok (10000, 40000, 39600) := by decide +kernel

/-- C65 is false: the first hop of a route is not compared with the input denom. -/
theorem C65_full_false : ¬ C65_full := by
  intro hall
  obtain ⟨w', hz, h⟩ := ok_of_map zapSteal_ok
  have hle := hall _ _ _ _ _ _ _ _ _ _ Demo.s0_reachable (by decide) hz "ujuno" (by decide)
  have e : w'.bank.bal "zap" "ujuno" = 10000 := (Prod.mk.inj h).1
  have e0 : zapWorld3.bank.bal "zap" "ujuno" = 20000 := by decide
  have e1 : zapWorld3.bank.bal "zap" "ujuno" ≤ w'.bank.bal "zap" "ujuno" := hle
  omega

/-- **C65 (what holds).** With routes that pay with the input denom a purchase leaves the periphery's other balances
alone. -/
theorem C65_other_balances_kept_partial {w w' : ZWorld} {env : Env} {pool : Nat → Res (Option Pool)}
    {market : List Nat} {info : Info} {addr : Addr} {n : Nat} {input : Denom} {si : List Compact}
    {infos : List SwapInfo} (hr : Reachable w.core) (hin : input ≠ w.core.config.indexDenom)
    (hsi : parseInfos si = .ok infos) (hp : payWith input infos)
    (h : zapTx w env pool market info (.mintExactOut addr n input si) = .ok w') (d : Denom) (hd : d ≠ input) :
    w.bank.bal w.zap d ≤ w'.bank.bal w.zap d ∧
      (w.zap ≠ w.core.fee.collector → w'.bank.bal w.zap d = w.bank.bal w.zap d) := by
  obtain ⟨s1, paid, spent, _, _, _, _, _, hs⟩ := C62_mint_exact_out_settles hr hin hsi hp h
  have := hs.kept d hd
  constructor
  · omega
  · intro hne
    simpa [hne] using this

/-- With a route that pays with uosmo the 20000 ujuno stay. -/
example : Reachable zapWorld3.core ∧ "uosmo" ≠ zapWorld3.core.config.indexDenom ∧
    (∃ infos, parseInfos zapRoutes = .ok infos ∧ payWith "uosmo" infos) ∧
    (zapTx zapWorld3 zapEnv zapPools [10000] ⟨"bob", [⟨"uosmo", 70000⟩]⟩
      (.mintExactOut "core" 40000 "uosmo" zapRoutes)).map (fun w => w.bank.bal "zap" "ujuno") = .ok 20000 :=
  ⟨Demo.s0_reachable, by decide, ⟨_, zapRoutes_ok, zapRoutes_pay⟩, by decide +kernel⟩

end Ibcx.Props
