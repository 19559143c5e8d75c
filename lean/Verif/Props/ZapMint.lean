import Verif.Chain.ZapLemmas
import Verif.Props.Zap
/-!
# Buying index tokens through the periphery, end to end (C45, C62)
-/

namespace Ibcx.Props
open Ibcx Ibcx.Core Ibcx.Chain Ibcx.Periphery Ibcx.Spec Ibcx.Pool

/-- Every supplied route from `input` is not empty and pays with `input` in its first hop.  (Nothing in the code
checks this.) -/
def payWith (input : Denom) (infos : List SwapInfo) : Prop :=
  ∀ i ∈ infos, i.src = input → ∃ r rs, i.routes = r :: rs ∧ r.tokenDenom = input

/-- How a purchase of `n` index tokens with `input` is settled when the swaps take `spent` in total: `units` is the
basket and `fee` the mint fee. -/
structure PurchaseSettled (w w' : ZWorld) (user : Addr) (input : Denom) (units : Units) (n fee spent : Nat) : Prop where
  /-- Index tokens: the user gets `n - fee`, the collector `fee`, nobody else gains or loses. -/
  index : ∀ a, a ≠ w.zap → a ≠ w.coreAddr →
    w'.bank.bal a w.core.config.indexDenom = w.bank.bal a w.core.config.indexDenom +
      (if a = user then n - fee else 0) + (if a = w.core.fee.collector then fee else 0)
  /-- The core contract gets exactly the basket (and the fee, should it be its own collector). -/
  reserve : ∀ d, w'.bank.bal w.coreAddr d = w.bank.bal w.coreAddr d + total d (basket units n) +
    (if w.coreAddr = w.core.fee.collector ∧ d = w.core.config.indexDenom then fee else 0)
  /-- The user pays what the swaps take and the basket's part of the input denom, less what the periphery held. -/
  paid : w'.bank.bal user input + spent + total input (basket units n) =
    w.bank.bal user input + w.bank.bal w.zap input
  /-- The user's other balances do not change. -/
  other : ∀ d, d ≠ input → d ≠ w.core.config.indexDenom → w'.bank.bal user d = w.bank.bal user d
  /-- Third parties only see the fee. -/
  third : ∀ a d, a ≠ user → a ≠ w.zap → a ≠ w.coreAddr → d ≠ w.core.config.indexDenom →
    w'.bank.bal a d = w.bank.bal a d
  /-- The periphery keeps none of the input denom. -/
  swept : w'.bank.bal w.zap input = 0
  /-- Its other balances do not change (except for the fee, should it be the collector). -/
  kept : ∀ d, d ≠ input → w'.bank.bal w.zap d = w.bank.bal w.zap d +
    (if w.zap = w.core.fee.collector ∧ d = w.core.config.indexDenom then fee else 0)
  /-- The core contract records the new supply. -/
  supply : w'.core.totalSupply = w.core.totalSupply + n
  same : w'.coreAddr = w.coreAddr ∧ w'.zap = w.zap

private theorem buys_of_order {s : Simulator} {input : Denom} {zap : Addr} {cs : List Coin} {ms : List Msg}
    (hp : payWith input s.swapInfo)
    (h : List.Forall₂ (fun c m => ∃ info limit, s.swapInfo.find? (fun i => decide (i.src = input ∧ i.dst = c.denom)) = some info ∧
        m = Msg.swapExactOut zap info.routes c limit) cs ms) (hne : ∀ c ∈ cs, c.denom ≠ input) :
    (∀ m ∈ ms, BuysWith zap input m) ∧ ms.map boughtCoin = cs := by
  induction h with
  | nil => simp
  | cons hcm _ ih =>
    obtain ⟨i1, i2⟩ := ih fun c hc => hne c (List.mem_cons_of_mem _ hc)
    obtain ⟨info, limit, hf, rfl⟩ := hcm
    have hm := List.find?_some hf
    simp only [decide_eq_true_eq] at hm
    obtain ⟨r, rs, hrs, hr⟩ := hp info (List.mem_of_find?_eq_some hf) hm.1
    refine ⟨?_, by rw [List.map_cons, i2]; rfl⟩
    intro m hm'
    rcases List.mem_cons.1 hm' with rfl | hm'
    · exact ⟨r, rs, _, limit, by rw [hrs], hr, hne _ List.mem_cons_self⟩
    · exact i1 m hm'

theorem total_filter_ne {d x : Denom} (h : d ≠ x) (cs : List Coin) :
    total d (cs.filter fun c => decide (c.denom ≠ x)) = total d cs := by
  induction cs with
  | nil => rfl
  | cons c cs ih =>
    by_cases hc : c.denom = x
    · rw [List.filter_cons_of_neg (by simp [hc]), total_cons, ih, if_neg (by rw [hc]; exact fun e => h e.symm)]
      omega
    · rw [List.filter_cons_of_pos (by simp [hc]), total_cons, total_cons, ih]

/-- The messages of a purchase, executed. -/
theorem purchase_settles {w w' : ZWorld} {env : Env} {pool : Nat → Res (Option Pool)} {market : List Nat}
    {user : Addr} {input : Denom} {paid n budget t : Nat} {sim : Simulator} {rs : List SimIn} {swaps : List Msg}
    {s1 : Core.State} {b0 : Bank}
    (hr : Reachable w.core) (hin : input ≠ w.core.config.indexDenom) (hz : w.zap ≠ w.coreAddr)
    (huz : user ≠ w.zap) (huc : user ≠ w.coreAddr) (hsend : w.bank.send user w.zap [⟨input, paid⟩] = .ok b0)
    (hc : collectStreamingFee w.core env.now = .ok s1) (hport : ∃ port, getPortfolio w.core env none = .ok port)
    (hu : sim.units = s1.indexUnits) (hp : payWith input sim.swapInfo)
    (ht : tokenGivenIndexOut sim n input = .ok (t, rs)) (hm : inMsgs rs w.zap budget = .ok swaps)
    (hlt : ∀ e ∈ s1.indexUnits, part e.2 n < 2 ^ 128)
    (h : runPMsgs pool env { w with bank := b0 } market (swaps.map PMsg.chain ++
      [.core w.coreAddr (.mint n (some user) (some user)) (sortCoins (basket s1.indexUnits n)), .finish user input]) = .ok w') :
    (∀ e ∈ s1.indexUnits, 1 ≤ part e.2 n) ∧ mintFeeOf w.core n ≤ n ∧
    ∃ spent ≤ budget, PurchaseSettled w w' user input s1.indexUnits n (mintFeeOf w.core n) spent := by
  have hord := C47_purchase_route_order ht hm
  rw [hu] at hord
  obtain ⟨hb, hbt⟩ := buys_of_order hp hord (by
    intro c hc; simpa using (List.mem_filter.1 hc).2)
  obtain ⟨b1, mk, spent, g1, g2, g3, g4, g5, h⟩ := runPMsgs_buys (w := { w with bank := b0 }) hb h
  simp only [runPMsgs, bind_eq_ok] at h
  obtain ⟨⟨w1, mk1⟩, h1, ⟨w2, mk2⟩, h2, h3⟩ := h
  cases h3
  simp only [runPMsg, bind_eq_ok, Except.ok.injEq] at h1
  obtain ⟨w1', h1, h1'⟩ := h1
  cases h1'
  obtain ⟨c1, c2, c3, b2, rfl, c4⟩ := callCore_mint (w := { w with bank := b1 }) hr hz hc hport hlt h1
  obtain ⟨_, _, b3, rfl, f1, f2, f3, f4, f5⟩ := runPMsg_finish (w := { w with core := _, bank := b2 }) huz h2
  simp only at *
  have hfilt : ∀ d, d ≠ input → total d (swaps.map boughtCoin) = total d (basket s1.indexUnits n) := by
    intro d hd
    rw [hbt, total_filter_ne hd]
  have hs : ∀ a d, _ := send_move_one hsend
  generalize mintFeeOf w.core n = fee at *
  have hzc : ¬ w.coreAddr = w.zap := fun e => hz e.symm
  have hbudget : spent ≤ budget := g3.trans ((Nat.le_add_right _ _).trans (C43_spending_limits hm).1)
  refine ⟨c1, c2, spent, hbudget, ?_⟩
  constructor
  · intro a ha1 ha2
    have e1 := f4 a _ (fun e => hin e.symm)
    have e2 := c4 a w.core.config.indexDenom
    have e3 := g2 a w.core.config.indexDenom ha1
    have e4 := hs a w.core.config.indexDenom
    have hin' : ¬ w.core.config.indexDenom = input := fun e => hin e.symm
    simp only [ha1, ha2, if_false, if_true, hin', and_false] at e2 e4
    dsimp only
    omega
  · intro d
    have e1 := f5 w.coreAddr d hzc (fun e => huc e.symm)
    have e2 := c4 w.coreAddr d
    have e3 := g2 w.coreAddr d hzc
    have e4 := hs w.coreAddr d
    have : ¬ w.coreAddr = user := fun e => huc e.symm
    simp only [hzc, this, if_false, if_true, false_and] at e2 e4
    by_cases hd : d = w.core.config.indexDenom <;> simp only [hd, and_true, and_false, if_true, if_false] at e1 e2 e3 e4 ⊢ <;> omega
  · have e1 := c4 user input
    have e2 := c4 w.zap input
    have e3 := g2 user input huz
    have e4 := hs user input
    have e5 := hs w.zap input
    have : ¬ w.zap = user := fun e => huz e.symm
    simp only [huz, huc, hin, hz, this, if_false, if_true, and_true, false_and, true_and] at e1 e2 e4 e5
    dsimp only
    omega
  · intro d hd hdi
    have e1 := f4 user d hd
    have e2 := c4 user d
    have e3 := g2 user d huz
    have e4 := hs user d
    simp only [huz, huc, hd, hdi, if_false, and_false] at e2 e4
    dsimp only
    omega
  · intro a d h1 h2 h3 h4
    have e1 := f5 a d h2 h1
    have e2 := c4 a d
    have e3 := g2 a d h2
    have e4 := hs a d
    simp only [h1, h2, h3, h4, if_false, false_and] at e2 e4
    dsimp only
    omega
  · exact f2
  · intro d hd
    have e1 := f4 w.zap d hd
    have e2 := c4 w.zap d
    have e3 := g5 d hd
    have e4 := hs w.zap d
    have e5 := hfilt d hd
    have : ¬ w.zap = user := fun e => huz e.symm
    simp only [hz, this, hd, if_false, if_true, and_false] at e2 e4
    by_cases hdi : d = w.core.config.indexDenom <;>
      simp only [hdi, and_true, and_false, if_true, if_false] at e1 e2 e3 e4 e5 ⊢ <;> omega
  · rfl
  · exact ⟨rfl, rfl⟩

/-- The example contract of `Verif/Props/Demo.lean` (1.5 uosmo and 0.25 uatom per index token, mint fee 1%) and a user
with 100000 uosmo. -/
def zapWorld : ZWorld :=
  { core := Demo.s0, coreAddr := "core", zap := "zap"
    bank := { bal := fun a d => if a = "bob" ∧ d = "uosmo" then 100000 else 0, supply := fun _ => 100000 } }

/-- Pools of the example: all trade one to one. -/
def zapPools : Nat → Res (Option Pool) := fun n => .ok (some (.queried n (.ok 0)))

/-- The route of the example. -/
def zapRoutes : List Compact := [⟨"uosmo,uatom", ["1,uosmo"]⟩]

theorem zapRoutes_ok : parseInfos zapRoutes = .ok [⟨"uosmo", "uatom", [⟨1, "uosmo"⟩]⟩] := by decide +kernel

theorem zapRoutes_pay : payWith "uosmo" [⟨"uosmo", "uatom", [⟨1, "uosmo"⟩]⟩] := by
  intro i hi _
  simp only [List.mem_singleton] at hi
  subst hi
  exact ⟨_, _, rfl, rfl⟩

/-- Bob pays 70000 uosmo for at least 40000 index tokens; the swap settles at 9990 uosmo. -/
theorem zapMintIn_ok :
    (zapTx zapWorld zapEnv zapPools [9990] ⟨"bob", [⟨"uosmo", 70000⟩]⟩ (.mintExactIn "core" "uosmo" 40000 zapRoutes)).map
      (fun w => (w.bank.bal "bob" "factory/core/ibcx", w.bank.bal "bob" "uosmo", w.bank.bal "zap" "uosmo",
        w.bank.bal "core" "uosmo", w.bank.bal "core" "uatom")) =
    .ok (39600, 30010, 0, 60000, 10000) := by decide +kernel

/-- Bob buys 40000 index tokens for at most 80000 uosmo; the swap settles at 10003 uosmo. -/
theorem zapMintOut_ok :
    (zapTx zapWorld zapEnv zapPools [10003] ⟨"bob", [⟨"uosmo", 80000⟩]⟩ (.mintExactOut "core" 40000 "uosmo" zapRoutes)).map
      (fun w => (w.bank.bal "bob" "factory/core/ibcx", w.bank.bal "bob" "uosmo", w.bank.bal "zap" "uosmo",
        w.bank.bal "core" "uosmo", w.bank.bal "core" "uatom")) =
    .ok (39600, 29997, 0, 60000, 10000) := by decide +kernel

/-- **C62 (exact amount of index tokens).** A successful `MintExactAmountOut` whose routes pay with the input denom is
settled exactly: the user receives the requested index tokens less the mint fee and pays what the swaps took (at most
the attached amount) and the basket's part of the input denom; everything left over returns to the user. -/
theorem C62_mint_exact_out_settles {w w' : ZWorld} {env : Env} {pool : Nat → Res (Option Pool)} {market : List Nat}
    {info : Info} {addr : Addr} {n : Nat} {input : Denom} {si : List Compact} {infos : List SwapInfo}
    (hr : Reachable w.core) (hin : input ≠ w.core.config.indexDenom) (hsi : parseInfos si = .ok infos)
    (hp : payWith input infos)
    (h : zapTx w env pool market info (.mintExactOut addr n input si) = .ok w') :
    ∃ s1 paid spent, collectStreamingFee w.core env.now = .ok s1 ∧ addr = w.coreAddr ∧
      info.funds = [⟨input, paid⟩] ∧ spent ≤ paid ∧ mintFeeOf w.core n ≤ n ∧
      PurchaseSettled w w' info.sender input s1.indexUnits n (mintFeeOf w.core n) spent := by
  simp only [zapTx, bind_eq_ok, require_eq_ok, Periphery.execute, hsi, Except.ok.injEq] at h
  obtain ⟨_, ⟨he, hz, huz, huc, _⟩, b0, hsend, ms, ⟨_, rfl, hm⟩, hrun⟩ := h
  obtain ⟨core, s1, paid, sim, total, routes, swaps, hv, hcore, hs1, hf, hpaid, hsim, hest, hle, hsw, hlt, hport, rfl⟩ :=
    mintExactOut_spec hm
  obtain ⟨_, hsi', hu⟩ := makeSim_units hsim
  have ha : addr = w.coreAddr ∧ core = w.core := by
    simp only [ZWorld.penv] at hcore
    split at hcore
    · rename_i h; exact ⟨h, (Option.some.inj hcore).symm⟩
    · cases hcore
  obtain ⟨rfl, rfl⟩ := ha
  rw [hf] at hsend
  have hsw' : inMsgs routes w.zap paid = .ok swaps := he ▸ hsw
  obtain ⟨_, h2, spent, h3, h4⟩ := purchase_settles hr hin hz huz huc hsend hs1 hport hu (hsi' ▸ hp) hest hsw' hlt hrun
  exact ⟨s1, paid, spent, hs1, rfl, hf, h3, h2, h4⟩

/-- Bob buys 40000 index tokens for 70003 uosmo. -/
example : Reachable zapWorld.core ∧ "uosmo" ≠ zapWorld.core.config.indexDenom ∧
    (∃ infos, parseInfos zapRoutes = .ok infos ∧ payWith "uosmo" infos) ∧
    (zapTx zapWorld zapEnv zapPools [10003] ⟨"bob", [⟨"uosmo", 80000⟩]⟩ (.mintExactOut "core" 40000 "uosmo" zapRoutes)).map
      (fun w => (w.bank.bal "bob" "factory/core/ibcx", w.bank.bal "bob" "uosmo")) = .ok (39600, 29997) :=
  ⟨Demo.s0_reachable, by decide, ⟨_, zapRoutes_ok, zapRoutes_pay⟩, by decide +kernel⟩

/-- **C62 (exact payment), C45 (what holds).** A successful `MintExactAmountIn` whose routes pay with the input denom is
settled exactly in the same way for an amount `n` of index tokens that is at least the requested minimum: the user
receives `n` less the mint fee. -/
theorem C45_mint_exact_in_settles_partial {w w' : ZWorld} {env : Env} {pool : Nat → Res (Option Pool)}
    {market : List Nat} {info : Info} {addr : Addr} {min : Nat} {input : Denom} {si : List Compact}
    {infos : List SwapInfo} (hr : Reachable w.core) (hin : input ≠ w.core.config.indexDenom)
    (hsi : parseInfos si = .ok infos) (hp : payWith input infos)
    (h : zapTx w env pool market info (.mintExactIn addr input min si) = .ok w') :
    ∃ s1 paid spent n, collectStreamingFee w.core env.now = .ok s1 ∧ addr = w.coreAddr ∧
      info.funds = [⟨input, paid⟩] ∧ min ≤ n ∧ mintFeeOf w.core n ≤ n ∧
      PurchaseSettled w w' info.sender input s1.indexUnits n (mintFeeOf w.core n) spent := by
  simp only [zapTx, bind_eq_ok, require_eq_ok, Periphery.execute, hsi, Except.ok.injEq] at h
  obtain ⟨_, ⟨he, hz, huz, huc, _⟩, b0, hsend, ms, ⟨_, rfl, hm⟩, hrun⟩ := h
  obtain ⟨core, s1, paid, sim, res, est, swaps, hv, hcore, hs1, hf, hpaid, hsim, hest, hsw, hlt, hport, rfl⟩ :=
    mintExactIn_spec hm
  obtain ⟨_, hsi', hu⟩ := makeSim_units hsim
  have ha : addr = w.coreAddr ∧ core = w.core := by
    simp only [ZWorld.penv] at hcore
    split at hcore
    · rename_i h; exact ⟨h, (Option.some.inj hcore).symm⟩
    · cases hcore
  obtain ⟨rfl, rfl⟩ := ha
  rw [hf] at hsend
  have hsw' : inMsgs est.routes w.zap (est.spent + 10000) = .ok swaps := he ▸ hsw
  obtain ⟨hmin, hest'⟩ := estIndexForInput_some hest
  obtain ⟨_, h2, spent, h3, h4⟩ := purchase_settles hr hin hz huz huc hsend hs1 hport hu (hsi' ▸ hp) hest' hsw' hlt hrun
  exact ⟨s1, paid, spent, est.index, hs1, rfl, hf, hmin, h2, h4⟩

/-- Bob pays 70000 uosmo for at least 40000 index tokens: 40000 are minted, 400 are the fee. -/
example : Reachable zapWorld.core ∧ "uosmo" ≠ zapWorld.core.config.indexDenom ∧
    (∃ infos, parseInfos zapRoutes = .ok infos ∧ payWith "uosmo" infos) ∧
    (zapTx zapWorld zapEnv zapPools [9990] ⟨"bob", [⟨"uosmo", 70000⟩]⟩ (.mintExactIn "core" "uosmo" 40000 zapRoutes)).map
      (fun w => (w.bank.bal "bob" "factory/core/ibcx", w.bank.bal "bob" "uosmo")) = .ok (39600, 30010) :=
  ⟨Demo.s0_reachable, by decide, ⟨_, zapRoutes_ok, zapRoutes_pay⟩, by decide +kernel⟩

/-- **C45 without a mint fee.** The user receives at least the requested minimum. -/
theorem C45_minimum_without_fee_partial {w w' : ZWorld} {env : Env} {pool : Nat → Res (Option Pool)}
    {market : List Nat} {info : Info} {addr : Addr} {min : Nat} {input : Denom} {si : List Compact}
    {infos : List SwapInfo} (hr : Reachable w.core) (hin : input ≠ w.core.config.indexDenom)
    (hsi : parseInfos si = .ok infos) (hp : payWith input infos) (hfee : w.core.fee.mintFee = none)
    (h : zapTx w env pool market info (.mintExactIn addr input min si) = .ok w') :
    w.bank.bal info.sender w.core.config.indexDenom + min ≤ w'.bank.bal info.sender w.core.config.indexDenom := by
  obtain ⟨s1, paid, spent, n, _, _, _, hmin, _, hs⟩ := C45_mint_exact_in_settles_partial hr hin hsi hp h
  have hz : info.sender ≠ w.zap ∧ info.sender ≠ w.coreAddr := by
    simp only [zapTx, bind_eq_ok, require_eq_ok] at h
    obtain ⟨_, ⟨_, _, h1, h2, _⟩, _⟩ := h
    exact ⟨h1, h2⟩
  have := hs.index info.sender hz.1 hz.2
  have h0 : mintFeeOf w.core n = 0 := by simp [mintFeeOf, hfee]
  rw [h0] at this
  simp only [if_true] at this
  omega

/-- The full claim C45. -/
def C45_full : Prop :=
  ∀ (w w' : ZWorld) (env : Env) (pool : Nat → Res (Option Pool)) (market : List Nat) (info : Info) (addr : Addr)
    (min : Nat) (input : Denom) (si : List Compact) (infos : List SwapInfo),
    Reachable w.core → input ≠ w.core.config.indexDenom → parseInfos si = .ok infos → payWith input infos →
    zapTx w env pool market info (.mintExactIn addr input min si) = .ok w' →
    w.bank.bal info.sender w.core.config.indexDenom + min ≤ w'.bank.bal info.sender w.core.config.indexDenom

/-- The hypotheses of the theorems above hold in the example. -/
example : Reachable zapWorld.core ∧ "uosmo" ≠ zapWorld.core.config.indexDenom ∧
    (∃ infos, parseInfos zapRoutes = .ok infos ∧ payWith "uosmo" infos) ∧
    ∃ w', zapTx zapWorld zapEnv zapPools [10003] ⟨"bob", [⟨"uosmo", 80000⟩]⟩
      (.mintExactOut "core" 40000 "uosmo" zapRoutes) = .ok w' := by
  refine ⟨Demo.s0_reachable, by decide, ⟨_, zapRoutes_ok, zapRoutes_pay⟩, ?_⟩
  have := zapMintOut_ok
  revert this
  cases zapTx zapWorld zapEnv zapPools [10003] ⟨"bob", [⟨"uosmo", 80000⟩]⟩
      (.mintExactOut "core" 40000 "uosmo" zapRoutes) with
  | error e => intro h; cases h
  | ok w' => intro _; exact ⟨w', rfl⟩

/-- C45 is false: the minimum is compared with the amount before the fee, so Bob, who asked for at least 40000 index
tokens, receives 39600. -/
theorem C45_full_false : ¬ C45_full := by
  intro hall
  have := zapMintIn_ok
  revert this
  cases hz : zapTx zapWorld zapEnv zapPools [9990] ⟨"bob", [⟨"uosmo", 70000⟩]⟩
      (.mintExactIn "core" "uosmo" 40000 zapRoutes) with
  | error e => intro h; cases h
  | ok w' =>
    intro h
    have hle := hall _ _ _ _ _ _ _ _ _ _ _ Demo.s0_reachable (by decide) zapRoutes_ok zapRoutes_pay hz
    have e : w'.bank.bal "bob" "factory/core/ibcx" = 39600 := by
      have := Except.ok.inj h
      exact (Prod.mk.inj this).1
    have e0 : zapWorld.bank.bal "bob" zapWorld.core.config.indexDenom = 0 := by decide
    rw [e0] at hle
    have e1 : 0 + 40000 ≤ w'.bank.bal "bob" "factory/core/ibcx" := hle
    omega

end Ibcx.Props
