import Verif.Spec.ReasonsSim
import Verif.Props.ReasonsZap
import Verif.Json.Answers
/-!
# C127: every refused question to the periphery names a true reason
-/

namespace Ibcx.Props
open Ibcx Ibcx.Core Ibcx.Pool Ibcx.Spec Ibcx.Periphery Ibcx.Spec.Zaps Ibcx.Json

private theorem answer_error {α : Type} {c : Codec α} {r : Res α} {e : Err} (h : answer c r = .error e) : r = .error e := by
  cases r with
  | ok a => cases h
  | error e' => cases h; rfl

private theorem refuses_query {p : PEnv} {q : ZapQuery} {e : Err} (h : PoolRefuses p (asZap q) e) :
    QueryReason p q e := by
  have no : ∀ {e : Err}, (∀ w c d, ¬ SaleRefused w c d e) → (∀ w c d, ¬ PurchaseRefused w c d e) →
      ¬ PoolRefuses p (asZap q) e := by
    rintro e h1 h2 ⟨_, _, _, w', c, d, _, _, _, _, ⟨_, h⟩ | ⟨_, h⟩⟩
    · exact h1 _ _ _ h
    · exact h2 _ _ _ h
  cases e
  case generic => exact h
  case divideByZero => exact .inl h
  case negativeBase => exact h
  case baseTooLarge => exact h
  case mathApprox => exact h
  case overflow => exact trivial
  all_goals exact absurd h (no (fun _ _ _ h => h) (fun _ _ _ h => h))

private theorem fails_query {p : PEnv} {q : ZapQuery} {infos : List SwapInfo} {c : Core.State}
    {us : Core.Units} {pools : List Pool} {d : Denom} {sell : Bool} {e : Err}
    (hin : parseInfos (textsOf (asZap q)) = .ok infos)
    (hp : PoolsRead p.pool infos pools) (hr : Reads p (addressOf (asZap q)) infos c us (byId pools))
    (hs : sell = true → getDenom (asZap q) = some d) (hb : sell = false → payDenom (asZap q) = some d)
    (h : SimFails sell p.env infos us (byId pools) d e) : ChainSays p (asZap q) e ∨ QueryReason p q e := by
  cases h with
  | big => exact .inr trivial
  | noSale h0 h h1 h2 => exact .inr ⟨infos, c, us, _, hin, hr, .inr ⟨_, h, .inr ⟨d, hs h0, h1, h2⟩⟩⟩
  | noPurchase h0 h h1 h2 => exact .inr ⟨infos, c, us, _, hin, hr, .inr ⟨_, h, .inl ⟨d, hb h0, h1, h2⟩⟩⟩
  | hop hu h =>
    cases h with
    | big => exact .inr trivial
    | none h => exact .inr ⟨infos, c, us, _, hin, hr, .inl ⟨_, hu, h⟩⟩
    | spread h =>
      obtain ⟨k, hk, h⟩ := pool_read hp h
      exact .inl (.spread hin hk h)
    | sale h0 h h1 =>
      obtain ⟨k, hk, h⟩ := pool_read hp h
      exact .inl (.sale hin hk h (by rw [hs h0]; simp) h1)
    | purchase h0 h h1 =>
      obtain ⟨k, hk, h⟩ := pool_read hp h
      exact .inl (.purchase hin hk h (by rw [hb h0]; simp) h1)
    | sell h0 h h1 h2 =>
      obtain ⟨k, hk, h⟩ := pool_read hp h
      exact .inr (refuses_query ⟨infos, k, _, _, _, _, hin, hk, h, h1, .inl ⟨by rw [hs h0]; simp, h2⟩⟩)
    | buy h0 h h1 h2 =>
      obtain ⟨k, hk, h⟩ := pool_read hp h
      exact .inr (refuses_query ⟨infos, k, _, _, _, _, hin, hk, h, h1, .inr ⟨by rw [hb h0]; simp, h2⟩⟩)

/-- What every question reads before it simulates. -/
private theorem ask_error {p : PEnv} {q : ZapQuery} {infos : List SwapInfo} {e : Err}
    {k : Fee → PortfolioResp → Simulator → Res SimResp}
    (hin : parseInfos (textsOf (asZap q)) = .ok infos)
    (hk : ∀ (c c1 : Core.State) (fee : Fee) (pools : List Pool),
      Reads p (addressOf (asZap q)) infos c c1.indexUnits (byId pools) →
      PoolsRead p.pool infos pools → fee.mintFee = c.fee.mintFee → fee.burnFee = c.fee.burnFee →
      k fee ⟨c.totalSupply, basket c1.indexUnits c.totalSupply, c1.indexUnits⟩
        { env := p.env, pools := pools, swapInfo := infos, units := c1.indexUnits } = .error e →
      ChainSays p (asZap q) e ∨ QueryReason p q e)
    (h : (findCore p (addressOf (asZap q)) >>= fun core => getFee core p.env none >>= fun fee =>
      getPortfolio core p.env none >>= fun pf => makeSim p infos pf.units >>= fun sim => k fee pf sim) = .error e) :
    ChainSays p (asZap q) e ∨ QueryReason p q e := by
  have big : e = .overflow → QueryReason p q e := by rintro rfl; exact trivial
  rw [bind_eq_error] at h
  rcases h with h | ⟨c, hc, h⟩
  · unfold findCore at h
    rw [bind_eq_error] at h
    rcases h with h | ⟨a, ha, h⟩
    · obtain ⟨rfl, h1⟩ := validate_error h
      exact .inr h1
    · unfold validate at ha
      split at ha
      · cases ha
        split at h
        · cases h
        · rename_i hn
          cases h
          exact .inr hn
      · cases ha
  obtain ⟨hv, hc⟩ := findCore_eq_ok.1 hc
  rw [bind_eq_error] at h
  rcases h with h | ⟨fee, hfee, h⟩
  · exact .inr (big (getFee_error h))
  rw [bind_eq_error] at h
  rcases h with h | ⟨pf, hpf, h⟩
  · exact .inr (big (getPortfolio_error h))
  obtain ⟨c1, hc1, hw, rfl⟩ := getPortfolio_iff.1 hpf
  rw [bind_eq_error] at h
  rcases h with h | ⟨sim, hsim, h⟩
  · obtain ⟨n, hn, h1⟩ := makeSim_error h
    exact .inl (.pool hin hn h1)
  obtain ⟨pools, hpools, rfl⟩ := makeSim_iff.1 hsim
  exact hk c c1 fee pools ⟨hv, hc, ⟨c1, hc1, rfl⟩, hw, pools, hpools, rfl⟩ hpools (getFee_frame hfee).1
    (getFee_frame hfee).2.1 h

private theorem simMintIn_reason {p : PEnv} {a : Addr} {input : Coin} {si : List Compact} {e : Err}
    {infos : List SwapInfo} (hrc : ∀ c, p.core a = some c → Reachable c) (hin : parseInfos si = .ok infos)
    (h : simMintExactIn p a input infos = .error e) :
    ChainSays p (asZap (.mintExactIn a input si)) e ∨ QueryReason p (.mintExactIn a input si) e := by
  refine ask_error (q := .mintExactIn a input si) hin ?_ h
  clear h
  intro c c1 fee pools hr hp hfee _ h
  have big : e = .overflow → QueryReason p (.mintExactIn a input si) e := by rintro rfl; exact trivial
  have fails : SimFails false p.env infos c1.indexUnits (byId pools) input.denom e →
      ChainSays p (asZap (.mintExactIn a input si)) e ∨ QueryReason p (.mintExactIn a input si) e :=
    fails_query hin hp hr (fun h => by cases h) (fun _ => rfl)
  rw [bind_eq_error] at h
  rcases h with h | ⟨⟨res, est⟩, hest, h⟩
  · simp only [estIndexForInput, bind_eq_error] at h
    rcases h with h | ⟨res, hres, h⟩
    · simp only [searchForInput, bind_eq_error] at h
      rcases h with h | ⟨⟨v0, rs⟩, hv0, h⟩
      · exact fails (tokenOut_fails h)
      · have hc0 : Costs { env := p.env, pools := pools, swapInfo := infos, units := c1.indexUnits } input.denom
          1000000 v0 := ⟨rs, hv0⟩
        rcases searchIn_fails (acc := ⟨v0, 1000000, rs⟩) hc0 h with h1 | ⟨rfl, i, h1⟩ | ⟨rfl, h1⟩
        · exact fails h1
        · rw [Costs_eq] at h1
          exact .inr (.inr ⟨trivial, infos, c, _, _, i, hin, hr, .inl ⟨_, rfl, h1⟩⟩)
        · rw [Costs_eq] at h1 hc0
          exact .inr ⟨infos, c, _, _, v0, hin, hr, .inl ⟨a, input, si, rfl, hc0, h1⟩⟩
    · cases h
  · have hrate := (hrc c hr.core).inv.mintRate
    rw [bind_eq_error] at h
    rcases h with h | ⟨rate, hx, h⟩
    · rw [hfee, (expand_ok hrate).2 rfl] at h
      cases h
    simp only [bind_eq_error] at h
    rcases h with h | ⟨_, _, h | ⟨_, _, h | ⟨_, _, h⟩⟩⟩
    · exact .inr (big (mulInt_error h))
    · exact .inr (big (sub_error h))
    · exact .inr (big (basketCoins_error h))
    · cases h

private theorem simMintOut_reason {p : PEnv} {a : Addr} {index : Nat} {d : Denom} {si : List Compact} {e : Err}
    {infos : List SwapInfo} (hin : parseInfos si = .ok infos)
    (h : simMintExactOut p a index d infos = .error e) :
    ChainSays p (asZap (.mintExactOut a index d si)) e ∨ QueryReason p (.mintExactOut a index d si) e := by
  refine ask_error (q := .mintExactOut a index d si) hin ?_ h
  clear h
  intro c c1 fee pools hr hp _ _ h
  have big : e = .overflow → QueryReason p (.mintExactOut a index d si) e := by rintro rfl; exact trivial
  simp only [bind_eq_error] at h
  rcases h with h | ⟨_, _, h | ⟨_, _, h | ⟨_, _, h | ⟨_, _, h⟩⟩⟩⟩
  · exact .inr (big (deductFee_error h))
  · exact .inr (big (mulInt_error h))
  · exact .inr (big (basketCoins_error h))
  · exact fails_query hin hp hr (fun h => by cases h) (fun _ => rfl) (tokenOut_fails h)
  · cases h

private theorem simBurnIn_reason {p : PEnv} {a : Addr} {index : Nat} {d : Denom} {si : List Compact} {e : Err}
    {infos : List SwapInfo} (hin : parseInfos si = .ok infos)
    (h : simBurnExactIn p a index d infos = .error e) :
    ChainSays p (asZap (.burnExactIn a index d si)) e ∨ QueryReason p (.burnExactIn a index d si) e := by
  refine ask_error (q := .burnExactIn a index d si) hin ?_ h
  clear h
  intro c c1 fee pools hr hp _ _ h
  have big : e = .overflow → QueryReason p (.burnExactIn a index d si) e := by rintro rfl; exact trivial
  simp only [bind_eq_error] at h
  rcases h with h | ⟨_, _, h | ⟨_, _, h | ⟨_, _, h | ⟨_, _, h⟩⟩⟩⟩
  · exact .inr (big (deductFee_error h))
  · exact .inr (big (mulInt_error h))
  · exact .inr (big (basketCoins_error h))
  · exact fails_query hin hp hr (fun _ => rfl) (fun h => by cases h) (tokenIn_fails h)
  · cases h

private theorem simBurnOut_reason {p : PEnv} {a : Addr} {output : Coin} {si : List Compact} {e : Err}
    {infos : List SwapInfo} (hrc : ∀ c, p.core a = some c → Reachable c) (hin : parseInfos si = .ok infos)
    (h : simBurnExactOut p a output infos = .error e) :
    ChainSays p (asZap (.burnExactOut a output si)) e ∨ QueryReason p (.burnExactOut a output si) e := by
  refine ask_error (q := .burnExactOut a output si) hin ?_ h
  clear h
  intro c c1 fee pools hr hp _ hfee h
  have big : e = .overflow → QueryReason p (.burnExactOut a output si) e := by rintro rfl; exact trivial
  have fails : SimFails true p.env infos c1.indexUnits (byId pools) output.denom e →
      ChainSays p (asZap (.burnExactOut a output si)) e ∨ QueryReason p (.burnExactOut a output si) e :=
    fails_query hin hp hr (fun _ => rfl) (fun h => by cases h)
  rw [bind_eq_error] at h
  rcases h with h | ⟨⟨res, est⟩, hest, h⟩
  · simp only [estIndexForOutput, bind_eq_error] at h
    rcases h with h | ⟨res, hres, h⟩
    · simp only [searchForOutput, bind_eq_error] at h
      rcases h with h | ⟨⟨v0, rs⟩, hv0, h⟩
      · exact fails (tokenIn_fails h)
      · have hc0 : Brings { env := p.env, pools := pools, swapInfo := infos, units := c1.indexUnits } output.denom
          1000000 v0 := ⟨rs, hv0⟩
        rcases searchOut_fails (acc := ⟨1000000, v0, rs⟩) hc0 h with h1 | ⟨rfl, i, h1⟩ | ⟨rfl, h1⟩
        · exact fails h1
        · rw [Brings_eq] at h1
          exact .inr (.inr ⟨trivial, infos, c, _, _, i, hin, hr, .inr ⟨_, rfl, h1⟩⟩)
        · rw [Brings_eq] at h1 hc0
          exact .inr ⟨infos, c, _, _, v0, hin, hr, .inr ⟨a, output, si, rfl, hc0, h1⟩⟩
    · cases h
  · have hrate := (hrc c hr.core).inv.burnRate
    rw [bind_eq_error] at h
    rcases h with h | ⟨rate, hx, h⟩
    · rw [hfee, (expand_ok hrate).2 rfl] at h
      cases h
    simp only [bind_eq_error] at h
    rcases h with h | ⟨_, _, h | ⟨_, _, h⟩⟩
    · exact .inr (big (mulInt_error h))
    · exact .inr (big (basketCoins_error h))
    · cases h

/-- **C127 (reasons).** When the periphery does not answer a question, the kind of the error is true of the question:
either the chain itself answered with this error, or the fact that the kind stands for holds — an unreadable hop, a wrong
address, no core contract, a missing route or pool, a search that does not end, a pool that refuses a swap, a basket
worth nothing when its amount has to be searched, or a number that does not fit. -/
theorem C127_query_reason {p : PEnv} {q : ZapQuery} {e : Err}
    (hr : ∀ c, p.core (addressOf (asZap q)) = some c → Reachable c) (h : zapAnswer p q = .error e) :
    ChainSays p (asZap q) e ∨ QueryReason p q e := by
  cases q with
  | mintExactIn a input si =>
    have h := answer_error h
    rw [bind_eq_error] at h
    rcases h with h | ⟨infos, hin, h⟩
    · obtain ⟨rfl, h1⟩ := parseInfos_error h
      exact .inr h1
    · exact simMintIn_reason hr hin h
  | mintExactOut a n d si =>
    have h := answer_error h
    rw [bind_eq_error] at h
    rcases h with h | ⟨infos, hin, h⟩
    · obtain ⟨rfl, h1⟩ := parseInfos_error h
      exact .inr h1
    · exact simMintOut_reason hin h
  | burnExactIn a n d si =>
    have h := answer_error h
    rw [bind_eq_error] at h
    rcases h with h | ⟨infos, hin, h⟩
    · obtain ⟨rfl, h1⟩ := parseInfos_error h
      exact .inr h1
    · exact simBurnIn_reason hin h
  | burnExactOut a output si =>
    have h := answer_error h
    rw [bind_eq_error] at h
    rcases h with h | ⟨infos, hin, h⟩
    · obtain ⟨rfl, h1⟩ := parseInfos_error h
      exact .inr h1
    · exact simBurnOut_reason hr hin h

/-- Five refusals and their kinds: no route, no core contract, an unreadable hop, nothing to buy with, so that the search
comes to a basket that costs nothing, and a payment that buys less than a hundred index tokens. -/
example :
    let p := zapWorld.penv zapEnv zapPools
    let kind : Res Storage.Bytes → Option Err := fun r => match r with | .ok _ => none | .error e => some e
    kind (zapAnswer p (.mintExactIn "core" ⟨"uosmo", 70000⟩ [])) = some .notFound ∧
      kind (zapAnswer p (.mintExactOut "nobody" 400 "uosmo" zapRoutes)) = some .querier ∧
      kind (zapAnswer p (.mintExactOut "core" 400 "uosmo" [⟨"uosmo,uatom", ["one,uosmo"]⟩])) = some .panic ∧
      kind (zapAnswer p (.mintExactIn "core" ⟨"uosmo", 0⟩ zapRoutes)) = some .divideByZero ∧
      kind (zapAnswer p (.mintExactIn "core" ⟨"uosmo", 100⟩ zapRoutes)) = some .overflow := by
  decide +kernel

/-- **C127 (obstacles are named).** A question with an unreadable hop aborts, whatever else is wrong with it.  With
readable routes it is told of a wrong address, and with a good address of the missing core contract. -/
theorem C127_query_named (p : PEnv) (q : ZapQuery) :
    ((∃ i ∈ textsOf (asZap q), ∃ t ∈ i.routes, BadHop t) → zapAnswer p q = .error .panic) ∧
    ((¬ ∃ i ∈ textsOf (asZap q), ∃ t ∈ i.routes, BadHop t) → p.env.validAddr (addressOf (asZap q)) = false →
      zapAnswer p q = .error .invalidAddr) ∧
    ((¬ ∃ i ∈ textsOf (asZap q), ∃ t ∈ i.routes, BadHop t) → p.env.validAddr (addressOf (asZap q)) = true →
      p.core (addressOf (asZap q)) = none → zapAnswer p q = .error .querier) := by
  have said : ∀ {α : Type} {c : Codec α} {r : Res α} {e : Err}, r = .error e → answer c r = .error e := by
    rintro α c _ e rfl; rfl
  have bad : ∀ {a : Addr}, p.env.validAddr a = false → findCore p a = .error .invalidAddr := by
    intro a h; simp [findCore, validate, h]
  have none : ∀ {a : Addr}, p.env.validAddr a = true → p.core a = none → findCore p a = .error .querier := by
    intro a h h1; simp [findCore, validate, h, h1, ok_bind]
  refine ⟨fun h => ?_, fun h hv => ?_, fun h hv hc => ?_⟩
  · cases q
    all_goals
      refine said ?_
      rw [bind_eq_error]
      exact .inl (badHops_fail h)
  · obtain ⟨infos, hi⟩ := goodHops_ok h
    cases q
    all_goals
      refine said ?_
      simp only [asZap, textsOf] at hi
      simp only [hi, ok_bind, simMintExactIn, simMintExactOut, simBurnExactIn, simBurnExactOut]
      rw [bind_eq_error]
      exact .inl (bad hv)
  · obtain ⟨infos, hi⟩ := goodHops_ok h
    cases q
    all_goals
      refine said ?_
      simp only [asZap, textsOf] at hi
      simp only [hi, ok_bind, simMintExactIn, simMintExactOut, simBurnExactIn, simBurnExactOut]
      rw [bind_eq_error]
      exact .inl (none hv hc)

/-- An unreadable hop and no core contract: the hop is told. -/
example : zapAnswer (zapWorld.penv zapEnv zapPools) (.mintExactOut "nobody" 400 "uosmo" [⟨"uosmo,uatom", ["one,uosmo"]⟩]) =
    .error .panic :=
  (C127_query_named _ (.mintExactOut "nobody" 400 "uosmo" [⟨"uosmo,uatom", ["one,uosmo"]⟩])).1
    ⟨_, List.mem_singleton_self _, _, List.mem_singleton_self _, (parseInfos_error (si := [⟨"uosmo,uatom", ["one,uosmo"]⟩])
      (e := .panic) (by decide +kernel)).2.elim fun i h => by
        obtain ⟨hi, t, ht, hb⟩ := h
        rw [List.mem_singleton] at hi
        subst hi
        rw [List.mem_singleton] at ht
        subst ht
        exact hb⟩

/-- **C127 (small purchases).** A hundred is taken off the amount that a coin is found to buy, with the mint fee undone.
When that amount is less than a hundred, the question is refused as a number that does not fit, though the core contract
and the pools answer and the search ends. -/
theorem C127_small_purchase {p : PEnv} {a : Addr} {input : Coin} {si : List Compact} {infos : List SwapInfo}
    {c : Core.State} {us : Core.Units} {ps : Pools} {v0 : Nat} {found : Trial}
    (hr : ∀ c, p.core a = some c → Reachable c)
    (hin : parseInfos si = .ok infos) (hread : Reads p a infos c us ps)
    (h0 : CostsInAll p.env infos ps us input.denom 1000000 v0)
    (hs : Search (CostsInAll p.env infos ps us input.denom) input.amount 256 ⟨1000000, v0⟩ found)
    (hsmall : part (undoRate c.fee.mintFee) found.index < 100) :
    zapAnswer p (.mintExactIn a input si) = .error .overflow := by
  have e2 : U128 = 2 ^ 128 := rfl
  obtain ⟨hv, hc, ⟨c1, hc1, rfl⟩, hw, pools, hpools, rfl⟩ := hread
  obtain ⟨fee, hfee, hmf, _⟩ := getFee_of_collect hc1
  obtain ⟨fi, fv⟩ := found
  obtain ⟨res, hsr, rfl, rfl⟩ := (C71_search_for_input
    { env := p.env, pools := pools, swapInfo := infos, units := c1.indexUnits } input none fi fv).2
    ⟨v0, by rw [Costs_eq]; exact h0, by rw [Costs_eq]; exact hs⟩
  have hf := findCore_eq_ok.2 ⟨hv, hc⟩
  have hp := getPortfolio_iff.2 ⟨c1, hc1, hw, rfl⟩
  have hm := makeSim_iff (us := c1.indexUnits) |>.2 ⟨pools, hpools, rfl⟩
  have hx : expandFee fee.mintFee = .ok (undoRate c.fee.mintFee) := by rw [hmf]; exact (expand_ok (hr c hc).inv.mintRate).2 rfl
  have key : simMintExactIn p a input infos = .error .overflow := by
    simp only [simMintExactIn, hf, hfee, hp, hm, ok_bind, estIndexForInput, hsr, hx]
    rw [bind_eq_error]
    refine .inr ⟨part (undoRate c.fee.mintFee) res.index, ?_, ?_⟩
    · rw [mulInt_eq_ok, part18]
      refine ⟨?_, rfl⟩
      rw [e2]
      exact Nat.lt_trans hsmall (by norm_num)
    · rw [bind_eq_error]
      exact .inl (if_neg (Nat.not_le.2 hsmall))
  show answer zapMintResp _ = _
  rw [hin, ok_bind, key]
  rfl

/-- The hypotheses in the example: 150 uosmo are found to buy 85 index tokens. -/
example : ∃ us ps v0 found, Reads (zapWorld.penv zapEnv zapPools) "core" [⟨"uosmo", "uatom", [⟨1, "uosmo"⟩]⟩] Demo.s0 us ps ∧
    CostsInAll zapEnv [⟨"uosmo", "uatom", [⟨1, "uosmo"⟩]⟩] ps us "uosmo" 1000000 v0 ∧
    Search (CostsInAll zapEnv [⟨"uosmo", "uatom", [⟨1, "uosmo"⟩]⟩] ps us "uosmo") 150 256 ⟨1000000, v0⟩ found ∧
    part (undoRate Demo.s0.fee.mintFee) found.index < 100 := by
  let pools : List Pool := [.queried 1 (.ok 0)]
  let s : Simulator :=
    { env := zapEnv, pools := pools, swapInfo := [⟨"uosmo", "uatom", [⟨1, "uosmo"⟩]⟩], units := Demo.s0.indexUnits }
  have hs : ∃ r, searchForInput s ⟨"uosmo", 150⟩ none = .ok r ∧ r.index = 85 ∧ r.spent = 148 := by
    have h : (searchForInput s ⟨"uosmo", 150⟩ none).toOption.map (fun r => (r.index, r.spent)) = some (85, 148) := by
      decide +kernel
    cases hr : searchForInput s ⟨"uosmo", 150⟩ none with
    | error e => rw [hr] at h; cases h
    | ok r =>
      rw [hr] at h
      have h' : (r.index, r.spent) = (85, 148) := Option.some.inj h
      exact ⟨r, rfl, congrArg Prod.fst h', congrArg Prod.snd h'⟩
  obtain ⟨v0, h0, h1⟩ := (C71_search_for_input s ⟨"uosmo", 150⟩ none 85 148).1 hs
  rw [Costs_eq] at h0 h1
  have hp : PoolsRead (zapWorld.penv zapEnv zapPools).pool [⟨"uosmo", "uatom", [⟨1, "uosmo"⟩]⟩] pools := by
    have hm : makeSim (zapWorld.penv zapEnv zapPools) [⟨"uosmo", "uatom", [⟨1, "uosmo"⟩]⟩] Demo.s0.indexUnits = .ok s := rfl
    obtain ⟨pools', hp, e⟩ := makeSim_iff.1 hm
    have e' : pools = pools' := congrArg Simulator.pools e
    rw [e']
    exact hp
  have hc : collectStreamingFee Demo.s0 zapEnv.now = .ok Demo.s0 := by decide +kernel
  exact ⟨Demo.s0.indexUnits, byId pools, v0, ⟨85, 148⟩,
    ⟨by decide +kernel, rfl, ⟨Demo.s0, hc, rfl⟩, by decide +kernel, pools, hp, rfl⟩, h0, h1, by decide +kernel⟩

/-- 150 uosmo buy less than a hundred index tokens of the example, and 200 uosmo buy more: the one question is refused and
the other is answered. -/
example :
    let p := zapWorld.penv zapEnv zapPools
    let kind : Res Storage.Bytes → Option Err := fun r => match r with | .ok _ => none | .error e => some e
    kind (zapAnswer p (.mintExactIn "core" ⟨"uosmo", 150⟩ zapRoutes)) = some .overflow ∧
      kind (zapAnswer p (.mintExactIn "core" ⟨"uosmo", 200⟩ zapRoutes)) = none := by
  decide +kernel

end Ibcx.Props
