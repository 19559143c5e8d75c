import Verif.Props.ZapBurn
/-!
# Purchases over arbitrary routes (C45, C62, C65)

`Verif/Props/ZapMint.lean` assumes that every route pays with the input denom, which nothing in the code checks.  Here
routes are arbitrary: `taken d` is what the swaps take of denom `d`.
-/

namespace Ibcx.Props
open Ibcx Ibcx.Core Ibcx.Chain Ibcx.Periphery Ibcx.Spec Ibcx.Pool

/-- The denom that the first hop of a purchase names as its payment. -/
def paysWith : Msg → Option Denom
  | .swapExactOut _ (r :: _) _ _ => some r.tokenDenom
  | _ => none

/-- The limits of the purchases paid with `d`. -/
def limitsIn (d : Denom) (ms : List Msg) : Nat :=
  (ms.map fun m => if paysWith m = some d then spendLimit m else 0).sum

/-- How a purchase of `n` index tokens with `input` is settled when the swaps take `taken d` of each denom `d`. -/
structure PurchaseSettledAny (w w' : ZWorld) (user : Addr) (input : Denom) (units : Units) (n fee : Nat)
    (taken : Denom → Nat) : Prop where
  /-- Index tokens: the user gets `n - fee`, the collector `fee`, nobody else gains or loses. -/
  index : ∀ a, a ≠ w.zap → a ≠ w.coreAddr →
    w'.bank.bal a w.core.config.indexDenom = w.bank.bal a w.core.config.indexDenom +
      (if a = user then n - fee else 0) + (if a = w.core.fee.collector then fee else 0)
  /-- The core contract gets exactly the basket (and the fee, should it be its own collector). -/
  reserve : ∀ d, w'.bank.bal w.coreAddr d = w.bank.bal w.coreAddr d + total d (basket units n) +
    (if w.coreAddr = w.core.fee.collector ∧ d = w.core.config.indexDenom then fee else 0)
  /-- The user pays what the swaps take of the input denom and the basket's part of it, less what the periphery
  held. -/
  paid : w'.bank.bal user input + taken input + total input (basket units n) =
    w.bank.bal user input + w.bank.bal w.zap input
  /-- The user's other balances do not change. -/
  other : ∀ d, d ≠ input → d ≠ w.core.config.indexDenom → w'.bank.bal user d = w.bank.bal user d
  /-- Third parties only see the fee. -/
  third : ∀ a d, a ≠ user → a ≠ w.zap → a ≠ w.coreAddr → d ≠ w.core.config.indexDenom →
    w'.bank.bal a d = w.bank.bal a d
  /-- The periphery keeps none of the input denom. -/
  swept : w'.bank.bal w.zap input = 0
  /-- Of every other denom it loses exactly what the swaps take. -/
  kept : ∀ d, d ≠ input → w'.bank.bal w.zap d + taken d = w.bank.bal w.zap d +
    (if w.zap = w.core.fee.collector ∧ d = w.core.config.indexDenom then fee else 0)
  /-- The core contract records the new supply. -/
  supply : w'.core.totalSupply = w.core.totalSupply + n
  same : w'.coreAddr = w.coreAddr ∧ w'.zap = w.zap

/-- Purchases with any denoms: others' balances are unchanged, the periphery loses at most the limits and gains the
bought coins. -/
theorem runPMsgs_buys_any {pool : Nat → Res (Option Pool.Pool)} {env : Env} :
    ∀ {ms : List Msg} {rest : List PMsg} {w w' : ZWorld} {market : List Nat},
    (∀ m ∈ ms, ∃ r o l, m = .swapExactOut w.zap r o l) →
    runPMsgs pool env w market (ms.map PMsg.chain ++ rest) = .ok w' →
    ∃ b mk, ∃ taken : Denom → Nat, (∀ a d, a ≠ w.zap → b.bal a d = w.bank.bal a d) ∧
      (∀ d, taken d ≤ limitsIn d ms) ∧
      (∀ d, b.bal w.zap d + taken d = w.bank.bal w.zap d + total d (ms.map boughtCoin)) ∧
      runPMsgs pool env { w with bank := b } mk rest = .ok w' := by
  intro ms
  induction ms with
  | nil =>
    intro rest w w' market _ h
    exact ⟨w.bank, market, fun _ => 0, fun _ _ _ => rfl, fun _ => Nat.zero_le _, fun d => by simp, h⟩
  | cons m ms ih =>
    intro rest w w' market hm h
    simp only [List.map_cons, List.cons_append, runPMsgs, bind_eq_ok, runPMsg, Except.ok.injEq] at h
    obtain ⟨⟨w1, mk1⟩, ⟨⟨b1, mk2⟩, h1, h2⟩, h3⟩ := h
    cases h2
    obtain ⟨b, mk, taken, i2, i3, i4, i6⟩ :=
      ih (w := { w with bank := b1 }) (fun m hm' => hm m (List.mem_cons_of_mem _ hm')) h3
    obtain ⟨r, out, limit, rfl⟩ := hm m List.mem_cons_self
    simp only [runMsg] at h1
    split at h1
    · rename_i x1 x2 sp market' first rs'
      simp only [bind_eq_ok, require_eq_ok, debit_eq_ok, Except.ok.injEq] at h1
      obtain ⟨_, _, _, hle, _, ⟨hb, rfl⟩, h1⟩ := h1
      cases h1
      refine ⟨b, mk, fun d => (if d = first.tokenDenom then sp else 0) + taken d, fun a d ha => ?_, ?_, ?_, i6⟩
      · rw [i2 a d ha]; simp [Bank.credit, ha]
      · intro d
        have := i3 d
        simp only [limitsIn, List.map_cons, List.sum_cons, paysWith, spendLimit] at this ⊢
        by_cases e : d = first.tokenDenom
        · subst e; simp only [if_true]; omega
        · have e' : ¬ (some first.tokenDenom = some d) := fun h => e (Option.some.inj h).symm
          simp only [e, e', if_false]; omega
      · intro d
        have := i4 d
        simp only [Bank.credit, true_and] at this
        rw [List.map_cons, boughtCoin, total_cons]
        have e' : (if out.denom = d then out.amount else 0) = (if d = out.denom then out.amount else 0) := by
          by_cases e : d = out.denom
          · rw [if_pos e, if_pos e.symm]
          · rw [if_neg e, if_neg (fun h => e h.symm)]
        rw [e']
        by_cases e : d = first.tokenDenom
        · subst e
          simp only [if_true] at this ⊢
          omega
        · simp only [e, if_false] at this ⊢
          omega
    · cases h1

private theorem bought_of_order {s : Simulator} {input : Denom} {zap : Addr} {cs : List Coin} {ms : List Msg}
    (h : List.Forall₂ (fun c m => ∃ info limit, s.swapInfo.find? (fun i => decide (i.src = input ∧ i.dst = c.denom)) = some info ∧
        m = Msg.swapExactOut zap info.routes c limit) cs ms) :
    (∀ m ∈ ms, ∃ i ∈ s.swapInfo, i.src = input ∧ ∃ o l, m = .swapExactOut zap i.routes o l) ∧
      ms.map boughtCoin = cs := by
  induction h with
  | nil => simp
  | cons hcm _ ih =>
    obtain ⟨i1, i2⟩ := ih
    obtain ⟨info, limit, hf, rfl⟩ := hcm
    have hm := List.find?_some hf
    simp only [decide_eq_true_eq] at hm
    refine ⟨?_, by rw [List.map_cons, i2]; rfl⟩
    intro m hm'
    rcases List.mem_cons.1 hm' with rfl | hm'
    · exact ⟨info, List.mem_of_find?_eq_some hf, hm.1, _, _, rfl⟩
    · exact i1 m hm'

/-- A number for each denom, nonzero only for denoms with which a route from `input` starts, and in total at most
`budget`. -/
def TakenBy (input : Denom) (infos : List SwapInfo) (budget : Nat) (taken : Denom → Nat) : Prop :=
  (∀ d, taken d ≠ 0 → ∃ i ∈ infos, i.src = input ∧ i.routes.head?.map (·.tokenDenom) = some d) ∧
  ∀ ds : List Denom, ds.Nodup → (ds.map taken).sum ≤ budget

private theorem limits_one (m : Msg) (ds : List Denom) (hd : ds.Nodup) :
    (ds.map fun d => if paysWith m = some d then spendLimit m else 0).sum ≤ spendLimit m := by
  induction ds with
  | nil => exact Nat.zero_le _
  | cons d ds ih =>
    obtain ⟨h1, h2⟩ := List.nodup_cons.1 hd
    simp only [List.map_cons, List.sum_cons]
    by_cases e : paysWith m = some d
    · rw [if_pos e]
      have : (ds.map fun d => if paysWith m = some d then spendLimit m else 0).sum = 0 := by
        rw [List.sum_eq_zero_iff]
        intro x hx
        obtain ⟨d', hd', rfl⟩ := List.mem_map.1 hx
        rw [if_neg]
        intro e'
        rw [e] at e'
        exact h1 (Option.some.inj e' ▸ hd')
      omega
    · rw [if_neg e]
      have := ih h2
      omega

private theorem limits_total (ms : List Msg) (ds : List Denom) (hd : ds.Nodup) :
    (ds.map fun d => limitsIn d ms).sum ≤ (ms.map spendLimit).sum := by
  induction ms with
  | nil => simp [limitsIn]
  | cons m ms ih =>
    have e : (ds.map fun d => limitsIn d (m :: ms)).sum =
        (ds.map fun d => if paysWith m = some d then spendLimit m else 0).sum + (ds.map fun d => limitsIn d ms).sum := by
      simp only [limitsIn, List.map_cons, List.sum_cons]
      exact List.sum_map_add
    rw [e, List.map_cons, List.sum_cons]
    exact Nat.add_le_add (limits_one m ds hd) ih

private theorem sum_le_sum (f g : Denom → Nat) (h : ∀ d, f d ≤ g d) (ds : List Denom) :
    (ds.map f).sum ≤ (ds.map g).sum := by
  induction ds with
  | nil => simp
  | cons d ds ih => simp only [List.map_cons, List.sum_cons]; exact Nat.add_le_add (h d) ih

private theorem taken_by {input : Denom} {zap : Addr} {infos : List SwapInfo} {ms : List Msg} {budget : Nat}
    {taken : Denom → Nat}
    (hm : ∀ m ∈ ms, ∃ i ∈ infos, i.src = input ∧ ∃ o l, m = .swapExactOut zap i.routes o l)
    (ht : ∀ d, taken d ≤ limitsIn d ms) (hb : (ms.map spendLimit).sum ≤ budget) : TakenBy input infos budget taken := by
  constructor
  · intro d hd
    by_contra hne
    have h0 : limitsIn d ms = 0 := by
      unfold limitsIn
      rw [List.sum_eq_zero_iff]
      intro x hx
      obtain ⟨m, hm', rfl⟩ := List.mem_map.1 hx
      rw [if_neg]
      intro e
      obtain ⟨i, hi, hs, o, l, rfl⟩ := hm m hm'
      refine hne ⟨i, hi, hs, ?_⟩
      cases hr : i.routes with
      | nil => rw [hr] at e; cases e
      | cons r rs => rw [hr] at e; exact e
    have := ht d
    omega
  · intro ds hds
    exact ((sum_le_sum _ _ ht ds).trans (limits_total ms ds hds)).trans hb

private theorem total_filter_eq (x : Denom) (cs : List Coin) :
    total x (cs.filter fun c => decide (c.denom ≠ x)) = 0 := by
  induction cs with
  | nil => rfl
  | cons c cs ih =>
    by_cases hc : c.denom = x
    · rw [List.filter_cons_of_neg (by simp [hc])]; exact ih
    · rw [List.filter_cons_of_pos (by simp [hc]), total_cons, ih, if_neg hc]

/-- The messages of a purchase, executed. -/
theorem purchase_settles_any {w w' : ZWorld} {env : Env} {pool : Nat → Res (Option Pool)} {market : List Nat}
    {user : Addr} {input : Denom} {paid n budget t : Nat} {sim : Simulator} {rs : List SimIn} {swaps : List Msg}
    {s1 : Core.State} {b0 : Bank}
    (hr : Reachable w.core) (hin : input ≠ w.core.config.indexDenom) (hz : w.zap ≠ w.coreAddr)
    (huz : user ≠ w.zap) (huc : user ≠ w.coreAddr) (hsend : w.bank.send user w.zap [⟨input, paid⟩] = .ok b0)
    (hc : collectStreamingFee w.core env.now = .ok s1) (hport : ∃ port, getPortfolio w.core env none = .ok port)
    (hu : sim.units = s1.indexUnits)
    (ht : tokenGivenIndexOut sim n input = .ok (t, rs)) (hm : inMsgs rs w.zap budget = .ok swaps)
    (hlt : ∀ e ∈ s1.indexUnits, part e.2 n < 2 ^ 128)
    (h : runPMsgs pool env { w with bank := b0 } market (swaps.map PMsg.chain ++
      [.core w.coreAddr (.mint n (some user) (some user)) (sortCoins (basket s1.indexUnits n)), .finish user input]) = .ok w') :
    mintFeeOf w.core n ≤ n ∧
    ∃ taken : Denom → Nat, TakenBy input sim.swapInfo budget taken ∧
      PurchaseSettledAny w w' user input s1.indexUnits n (mintFeeOf w.core n) taken := by
  have hord := C47_purchase_route_order ht hm
  rw [hu] at hord
  obtain ⟨hb, hbt⟩ := bought_of_order hord
  obtain ⟨b1, mk, taken, g2, g3, g5, h⟩ := runPMsgs_buys_any (w := { w with bank := b0 })
    (fun m hm => by obtain ⟨i, _, _, o, l, e⟩ := hb m hm; exact ⟨_, _, _, e⟩) h
  simp only [runPMsgs, bind_eq_ok] at h
  obtain ⟨⟨w1, mk1⟩, h1, ⟨w2, mk2⟩, h2, h3⟩ := h
  cases h3
  simp only [runPMsg, bind_eq_ok, Except.ok.injEq] at h1
  obtain ⟨w1', h1, h1'⟩ := h1
  cases h1'
  obtain ⟨c1, c2, c3, b2, rfl, c4⟩ := callCore_mint (w := { w with bank := b1 }) hr hz hc hport hlt h1
  obtain ⟨_, _, b3, rfl, f1, f2, f3, f4, f5⟩ := runPMsg_finish (w := { w with core := _, bank := b2 }) huz h2
  simp only at *
  have hfilt : ∀ d, d ≠ input → total d (swaps.map boughtCoin) = total d (basket s1.indexUnits n) := by
    intro d hd
    rw [hbt, total_filter_ne hd]
  have hfilt0 : total input (swaps.map boughtCoin) = 0 := by rw [hbt]; exact total_filter_eq _ _
  have hs : ∀ a d, _ := send_move_one hsend
  generalize mintFeeOf w.core n = fee at *
  have hzc : ¬ w.coreAddr = w.zap := fun e => hz e.symm
  have hbudget : (swaps.map spendLimit).sum ≤ budget := (Nat.le_add_right _ _).trans (C43_spending_limits hm).1
  refine ⟨c2, taken, taken_by hb g3 hbudget, ?_⟩
  constructor
  · intro a ha1 ha2
    have e1 := f4 a _ (fun e => hin e.symm)
    have e2 := c4 a w.core.config.indexDenom
    have e3 := g2 a w.core.config.indexDenom ha1
    have e4 := hs a w.core.config.indexDenom
    have hin' : ¬ w.core.config.indexDenom = input := fun e => hin e.symm
    simp only [ha1, ha2, if_false, if_true, hin', and_false] at e2 e4
    dsimp only
    omega
  · intro d
    have e1 := f5 w.coreAddr d hzc (fun e => huc e.symm)
    have e2 := c4 w.coreAddr d
    have e3 := g2 w.coreAddr d hzc
    have e4 := hs w.coreAddr d
    have : ¬ w.coreAddr = user := fun e => huc e.symm
    simp only [hzc, this, if_false, if_true, false_and] at e2 e4
    by_cases hd : d = w.core.config.indexDenom <;> simp only [hd, and_true, and_false, if_true, if_false] at e1 e2 e3 e4 ⊢ <;> omega
  · have e1 := c4 user input
    have e2 := c4 w.zap input
    have e3 := g2 user input huz
    have e4 := hs user input
    have e5 := hs w.zap input
    have e6 := g5 input
    have : ¬ w.zap = user := fun e => huz e.symm
    simp only [huz, huc, hin, hz, this, if_false, if_true, and_true, false_and, true_and] at e1 e2 e4 e5
    dsimp only
    omega
  · intro d hd hdi
    have e1 := f4 user d hd
    have e2 := c4 user d
    have e3 := g2 user d huz
    have e4 := hs user d
    simp only [huz, huc, hd, hdi, if_false, and_false] at e2 e4
    dsimp only
    omega
  · intro a d h1 h2 h3 h4
    have e1 := f5 a d h2 h1
    have e2 := c4 a d
    have e3 := g2 a d h2
    have e4 := hs a d
    simp only [h1, h2, h3, h4, if_false, false_and] at e2 e4
    dsimp only
    omega
  · exact f2
  · intro d hd
    have e1 := f4 w.zap d hd
    have e2 := c4 w.zap d
    have e3 := g5 d
    have e4 := hs w.zap d
    have e5 := hfilt d hd
    have : ¬ w.zap = user := fun e => huz e.symm
    simp only [hz, this, hd, if_false, if_true, and_false] at e2 e4
    by_cases hdi : d = w.core.config.indexDenom <;>
      simp only [hdi, and_true, and_false, if_true, if_false] at e1 e2 e3 e4 e5 ⊢ <;> omega
  · rfl
  · exact ⟨rfl, rfl⟩

/-- **C62 (exact amount of index tokens, any routes).** A successful `MintExactAmountOut` is settled exactly, whatever
the routes: the user receives the requested index tokens less the mint fee; the swaps take, in total, at most the
attached amount, each from the denom its route starts with. -/
theorem C62_mint_exact_out_any_routes {w w' : ZWorld} {env : Env} {pool : Nat → Res (Option Pool)} {market : List Nat}
    {info : Info} {addr : Addr} {n : Nat} {input : Denom} {si : List Compact} {infos : List SwapInfo}
    (hr : Reachable w.core) (hin : input ≠ w.core.config.indexDenom) (hsi : parseInfos si = .ok infos)
    (h : zapTx w env pool market info (.mintExactOut addr n input si) = .ok w') :
    ∃ s1 paid taken, collectStreamingFee w.core env.now = .ok s1 ∧ addr = w.coreAddr ∧
      info.funds = [⟨input, paid⟩] ∧ TakenBy input infos paid taken ∧ mintFeeOf w.core n ≤ n ∧
      PurchaseSettledAny w w' info.sender input s1.indexUnits n (mintFeeOf w.core n) taken := by
  simp only [zapTx, bind_eq_ok, require_eq_ok, Periphery.execute, hsi, Except.ok.injEq] at h
  obtain ⟨_, ⟨he, hz, huz, huc, _⟩, b0, hsend, ms, ⟨_, rfl, hm⟩, hrun⟩ := h
  obtain ⟨core, s1, paid, sim, total, routes, swaps, hv, hcore, hs1, hf, hpaid, hsim, hest, hle, hsw, hlt, hport, rfl⟩ :=
    mintExactOut_spec hm
  obtain ⟨_, hsi', hu⟩ := makeSim_units hsim
  have ha : addr = w.coreAddr ∧ core = w.core := by
    simp only [ZWorld.penv] at hcore
    split at hcore
    · rename_i h; exact ⟨h, (Option.some.inj hcore).symm⟩
    · cases hcore
  obtain ⟨rfl, rfl⟩ := ha
  rw [hf] at hsend
  have hsw' : inMsgs routes w.zap paid = .ok swaps := he ▸ hsw
  obtain ⟨h2, taken, h3, h4⟩ := purchase_settles_any hr hin hz huz huc hsend hs1 hport hu hest hsw' hlt hrun
  exact ⟨s1, paid, taken, hs1, rfl, hf, hsi' ▸ h3, h2, h4⟩

/-- Bob's route pays with ujuno of the periphery; Bob gets 39600 index tokens for 60000 uosmo. -/
example : Reachable zapWorld3.core ∧ "uosmo" ≠ zapWorld3.core.config.indexDenom ∧
    (zapTx zapWorld3 zapEnv zapPools [10000] ⟨"bob", [⟨"uosmo", 70000⟩]⟩
      (.mintExactOut "core" 40000 "uosmo" [⟨"uosmo,uatom", ["1,ujuno"]⟩])).map
      (fun w => (w.bank.bal "zap" "ujuno", w.bank.bal "bob" "uosmo", w.bank.bal "bob" "factory/core/ibcx")) =
    .ok (10000, 40000, 39600) :=
  ⟨Demo.s0_reachable, by decide, zapSteal_ok⟩

/-- **C62 (exact payment, any routes), C45.** A successful `MintExactAmountIn` is settled in the same way for an amount
`n` of index tokens that is at least the requested minimum. -/
theorem C45_mint_exact_in_any_routes_partial {w w' : ZWorld} {env : Env} {pool : Nat → Res (Option Pool)}
    {market : List Nat} {info : Info} {addr : Addr} {min : Nat} {input : Denom} {si : List Compact}
    {infos : List SwapInfo} (hr : Reachable w.core) (hin : input ≠ w.core.config.indexDenom)
    (hsi : parseInfos si = .ok infos)
    (h : zapTx w env pool market info (.mintExactIn addr input min si) = .ok w') :
    ∃ s1 paid budget taken n, collectStreamingFee w.core env.now = .ok s1 ∧ addr = w.coreAddr ∧
      info.funds = [⟨input, paid⟩] ∧ min ≤ n ∧ TakenBy input infos budget taken ∧ mintFeeOf w.core n ≤ n ∧
      PurchaseSettledAny w w' info.sender input s1.indexUnits n (mintFeeOf w.core n) taken := by
  simp only [zapTx, bind_eq_ok, require_eq_ok, Periphery.execute, hsi, Except.ok.injEq] at h
  obtain ⟨_, ⟨he, hz, huz, huc, _⟩, b0, hsend, ms, ⟨_, rfl, hm⟩, hrun⟩ := h
  obtain ⟨core, s1, paid, sim, res, est, swaps, hv, hcore, hs1, hf, hpaid, hsim, hest, hsw, hlt, hport, rfl⟩ :=
    mintExactIn_spec hm
  obtain ⟨_, hsi', hu⟩ := makeSim_units hsim
  have ha : addr = w.coreAddr ∧ core = w.core := by
    simp only [ZWorld.penv] at hcore
    split at hcore
    · rename_i h; exact ⟨h, (Option.some.inj hcore).symm⟩
    · cases hcore
  obtain ⟨rfl, rfl⟩ := ha
  rw [hf] at hsend
  have hsw' : inMsgs est.routes w.zap (est.spent + 10000) = .ok swaps := he ▸ hsw
  obtain ⟨hmin, hest'⟩ := estIndexForInput_some hest
  obtain ⟨h2, taken, h3, h4⟩ := purchase_settles_any hr hin hz huz huc hsend hs1 hport hu hest' hsw' hlt hrun
  exact ⟨s1, paid, est.spent + 10000, taken, est.index, hs1, rfl, hf, hmin, hsi' ▸ h3, h2, h4⟩

/-- The same route with a fixed payment of 70000 uosmo. -/
example : Reachable zapWorld3.core ∧ "uosmo" ≠ zapWorld3.core.config.indexDenom ∧
    (zapTx zapWorld3 zapEnv zapPools [10000] ⟨"bob", [⟨"uosmo", 70000⟩]⟩
      (.mintExactIn "core" "uosmo" 40000 [⟨"uosmo,uatom", ["1,ujuno"]⟩])).map
      (fun w => (w.bank.bal "zap" "ujuno", w.bank.bal "bob" "uosmo", w.bank.bal "bob" "factory/core/ibcx")) =
    .ok (10000, 40000, 39600) :=
  ⟨Demo.s0_reachable, by decide, by decide +kernel⟩

/-- **C45 without a mint fee, any routes.** The user receives at least the requested minimum. -/
theorem C45_minimum_any_routes_partial {w w' : ZWorld} {env : Env} {pool : Nat → Res (Option Pool)}
    {market : List Nat} {info : Info} {addr : Addr} {min : Nat} {input : Denom} {si : List Compact}
    (hr : Reachable w.core) (hin : input ≠ w.core.config.indexDenom) (hfee : w.core.fee.mintFee = none)
    (h : zapTx w env pool market info (.mintExactIn addr input min si) = .ok w') :
    w.bank.bal info.sender w.core.config.indexDenom + min ≤ w'.bank.bal info.sender w.core.config.indexDenom := by
  obtain ⟨infos, hsi⟩ : ∃ infos, parseInfos si = .ok infos := by
    simp only [zapTx, bind_eq_ok, Periphery.execute] at h
    obtain ⟨_, _, _, _, _, ⟨infos, hi, _⟩, _⟩ := h
    exact ⟨infos, hi⟩
  obtain ⟨s1, paid, _, taken, n, _, _, _, hmin, _, _, hs⟩ := C45_mint_exact_in_any_routes_partial hr hin hsi h
  have hz : info.sender ≠ w.zap ∧ info.sender ≠ w.coreAddr := by
    simp only [zapTx, bind_eq_ok, require_eq_ok] at h
    obtain ⟨_, ⟨_, _, h1, h2, _⟩, _⟩ := h
    exact ⟨h1, h2⟩
  have := hs.index info.sender hz.1 hz.2
  have h0 : mintFeeOf w.core n = 0 := by simp [mintFeeOf, hfee]
  rw [h0] at this
  simp only [if_true] at this
  omega

/-- Without a mint fee Bob receives the 40000 asked for. -/
example : let w : ZWorld := { zapWorld3 with core := { Demo.s0 with fee := { Demo.s0.fee with mintFee := none } } }
    w.core.fee.mintFee = none ∧ "uosmo" ≠ w.core.config.indexDenom ∧
    (zapTx w zapEnv zapPools [10000] ⟨"bob", [⟨"uosmo", 70000⟩]⟩
      (.mintExactIn "core" "uosmo" 40000 [⟨"uosmo,uatom", ["1,ujuno"]⟩])).map
      (fun w => w.bank.bal "bob" "factory/core/ibcx") = .ok 40000 := by
  refine ⟨rfl, by decide, by decide +kernel⟩

/-- **C65 (any routes).** A purchase takes of the periphery's balances in denoms other than the input denom at most the
attached amount in total, and only in denoms with which a supplied route from the input denom starts. -/
theorem C65_other_balances_any_routes_partial {w w' : ZWorld} {env : Env} {pool : Nat → Res (Option Pool)}
    {market : List Nat} {info : Info} {addr : Addr} {n : Nat} {input : Denom} {si : List Compact}
    {infos : List SwapInfo} (hr : Reachable w.core) (hin : input ≠ w.core.config.indexDenom)
    (hsi : parseInfos si = .ok infos)
    (h : zapTx w env pool market info (.mintExactOut addr n input si) = .ok w') :
    ∃ paid, info.funds = [⟨input, paid⟩] ∧
      (∀ d, d ≠ input → (∀ i ∈ infos, i.src = input → i.routes.head?.map (·.tokenDenom) ≠ some d) →
        w.bank.bal w.zap d ≤ w'.bank.bal w.zap d) ∧
      ∀ ds : List Denom, ds.Nodup → input ∉ ds →
        (ds.map fun d => w.bank.bal w.zap d - w'.bank.bal w.zap d).sum ≤ paid := by
  obtain ⟨s1, paid, taken, _, _, hf, ht, _, hs⟩ := C62_mint_exact_out_any_routes hr hin hsi h
  refine ⟨paid, hf, ?_, ?_⟩
  · intro d hd hi
    have h0 : taken d = 0 := by
      by_contra hne
      obtain ⟨i, h1, h2, h3⟩ := ht.1 d hne
      exact hi i h1 h2 h3
    have := hs.kept d hd
    omega
  · intro ds hds hne
    refine le_trans ?_ (ht.2 ds hds)
    have : ∀ ds : List Denom, input ∉ ds →
        (ds.map fun d => w.bank.bal w.zap d - w'.bank.bal w.zap d).sum ≤ (ds.map taken).sum := by
      intro ds
      induction ds with
      | nil => simp
      | cons d ds ih =>
        intro h
        simp only [List.mem_cons, not_or] at h
        have h1 := hs.kept d (fun e => h.1 e.symm)
        have h2 := ih h.2
        simp only [List.map_cons, List.sum_cons]
        omega
    exact this ds hne

/-- The purchase of `zapSteal_ok` is such a case: it takes 10000 ujuno of the periphery for a purchase with uosmo. -/
example : ∃ w', zapTx zapWorld3 zapEnv zapPools [10000] ⟨"bob", [⟨"uosmo", 70000⟩]⟩
      (.mintExactOut "core" 40000 "uosmo" [⟨"uosmo,uatom", ["1,ujuno"]⟩]) = .ok w' ∧
    Reachable zapWorld3.core ∧ "uosmo" ≠ zapWorld3.core.config.indexDenom ∧
    parseInfos [⟨"uosmo,uatom", ["1,ujuno"]⟩] = .ok [⟨"uosmo", "uatom", [⟨1, "ujuno"⟩]⟩] ∧
    zapWorld3.bank.bal "zap" "ujuno" - w'.bank.bal "zap" "ujuno" = 10000 := by
  obtain ⟨w', h1, h2⟩ := ok_of_map zapSteal_ok
  refine ⟨w', h1, Demo.s0_reachable, by decide, by decide +kernel, ?_⟩
  rw [show w'.bank.bal "zap" "ujuno" = 10000 from (Prod.mk.inj h2).1]
  decide

end Ibcx.Props
