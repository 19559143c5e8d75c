import Verif.Json.QueryTextSpec
import Verif.Props.TextHistory
import Verif.Props.Paging
/-!
# C102: queries and answers as texts

The texts are those of `Verif.Spec.QueryTexts`, written without the model of JSON.
-/

namespace Ibcx.Props
open Ibcx Ibcx.Json Ibcx.Spec
open Ibcx.Storage (textBytes)

theorem core_query_fits {q : CoreQuery} : Texts.CoreQueryFits q ↔ coreQuery.Fits q := by
  rcases q with (a | _ | t | t | t | _ | ⟨i, o⟩ | ⟨i, s, l, o⟩ | ⟨n, f, t⟩ | ⟨n, t⟩)
  case simulateMint =>
    exact and_congr Iff.rfl (and_congr Iff.rfl Iff.rfl)
  all_goals exact Iff.rfl

theorem drop_query_fits {q : DropQuery} : Texts.DropQueryFits q ↔ dropQuery.Fits q := by
  rcases q with (i | (⟨s, l, o⟩ | ⟨t, s, l, o⟩ | ⟨s, l, o⟩ | ⟨c, s, l, o⟩) | _ | ⟨i, k⟩ |
    (⟨i, n, a, p⟩ | ⟨i, n, a, x, y, p⟩) | ⟨i, s, l, o⟩ | l | ⟨s, l, o⟩)
  case verifyClaim.openDrop => exact and_congr id_fits Iff.rfl
  case verifyClaim.bearer => exact and_congr id_fits Iff.rfl
  case listClaims => exact and_congr id_fits Iff.rfl
  case getAirdrop => exact id_fits
  case getClaim => exact id_fits
  all_goals exact Iff.rfl

theorem zap_query_fits {q : ZapQuery} : Texts.ZapQueryFits q ↔ zapQuery.Fits q := by
  rcases q with (⟨c, i, s⟩ | ⟨c, o, i, s⟩ | ⟨c, i, o, s⟩ | ⟨c, o, s⟩) <;> exact Iff.rfl

theorem core_query_text (bank : Addr → Denom → Nat) (s : Core.State) (env : Env) {q : CoreQuery} (h : Texts.CoreQueryFits q) :
    coreQueryText bank s env (textBytes (Texts.coreQuery q)) = coreAnswer bank s env q := by
  rw [← shown_coreQuery, ← toText_shown, coreQueryText, readMsg_toText coreQuery_faithful (core_query_fits.1 h)]
  rfl

theorem drop_query_text (c : Airdrop.Crypto) (reason : Airdrop.ClaimPayload → String) (s : Airdrop.State) (env : Env)
    {q : DropQuery} (h : Texts.DropQueryFits q) :
    dropQueryText c reason s env (textBytes (Texts.dropQuery q)) = dropAnswer c reason s env q := by
  rw [← shown_dropQuery, ← toText_shown, dropQueryText, readMsg_toText dropQuery_faithful (drop_query_fits.1 h)]
  rfl

theorem zap_query_text (p : Periphery.PEnv) {q : ZapQuery} (h : Texts.ZapQueryFits q) :
    zapQueryText p (textBytes (Texts.zapQuery q)) = zapAnswer p q := by
  rw [← shown_zapQuery, ← toText_shown, zapQueryText, readMsg_toText zapQuery_faithful (zap_query_fits.1 h)]
  rfl

theorem answer_map {α : Type} {c : Codec α} {f : α → String} (hf : ∀ a, shown (c.enc a) = f a) (r : Res α) :
    answer c r = r.map fun a => textBytes (f a) := by
  cases r with
  | error e => rfl
  | ok a => simp only [answer, toText_shown, hf, Except.map]

/-- **C102** Every query of the core contract, written as a client writes it, is answered with the text of what the query
returns. -/
theorem C102_core : ∃ dec : Nat → String, (∀ n, Texts.IsDecimal n (dec n)) ∧
    ∀ (bank : Addr → Denom → Nat) (s : Core.State) (env : Env),
      let ask := fun q => coreQueryText bank s env (textBytes (Texts.coreQuery q))
      (∀ a, ask (.getBalance a) = .ok (textBytes (Texts.amount (bank a s.config.indexDenom)))) ∧
      ask .getTotalSupply = .ok (textBytes (Texts.amount s.totalSupply)) ∧
      (∀ t, Texts.CoreQueryFits (.getConfig t) →
        ask (.getConfig t) = (Core.getConfig s env t).map fun r => textBytes (Texts.config r)) ∧
      (∀ t, Texts.CoreQueryFits (.getFee t) →
        ask (.getFee t) = (Core.getFee s env t).map fun r => textBytes (Texts.fees dec r)) ∧
      (∀ t, Texts.CoreQueryFits (.getPortfolio t) →
        ask (.getPortfolio t) = (Core.getPortfolio s env t).map fun r => textBytes (Texts.portfolio dec r)) ∧
      ask .getRebalance = .ok (textBytes (Texts.obj [("rebalance", Texts.orNull (Texts.rebalanceState dec) s.rebalance)])) ∧
      (∀ i o, ask (.getTradeInfo i o) =
        .ok (textBytes (Texts.obj [("trade_info", Texts.orNull (Texts.trade i o) (s.tradeInfos.get (i, o)))]))) ∧
      (∀ i st l o, Texts.CoreQueryFits (.listTradeInfo i st l o) → ask (.listTradeInfo i st l o) =
        (Iface.listTradeInfo s i st l o).map fun es => textBytes (Texts.arr (es.map fun e => Texts.trade i e.1 e.2))) ∧
      (∀ n f t, Texts.CoreQueryFits (.simulateMint n f t) →
        ask (.simulateMint n f t) = (Core.simulateMint s env n f t).map fun r => textBytes (Texts.simMint r)) ∧
      ∀ n t, Texts.CoreQueryFits (.simulateBurn n t) →
        ask (.simulateBurn n t) = (Core.simulateBurn s env n t).map fun r => textBytes (Texts.simBurn r) := by
  refine ⟨decText, decText_spec, fun bank s env => ?_⟩
  dsimp only
  refine ⟨fun a => ?_, ?_, fun t h => ?_, fun t h => ?_, fun t h => ?_, ?_, fun i o => ?_, fun i st l o h => ?_,
    fun n f t h => ?_, fun n t h => ?_⟩
  · refine (core_query_text bank s env (by exact trivial)).trans ?_
    exact answer_map shown_amount (.ok _)
  · refine (core_query_text bank s env (by exact trivial)).trans ?_
    exact answer_map shown_amount (.ok _)
  · refine (core_query_text bank s env (by exact h)).trans ?_
    exact answer_map shown_config _
  · refine (core_query_text bank s env (by exact h)).trans ?_
    exact answer_map shown_fees _
  · refine (core_query_text bank s env (by exact h)).trans ?_
    exact answer_map shown_portfolio _
  · refine (core_query_text bank s env (by exact trivial)).trans ?_
    exact answer_map shown_rebalanceResp (.ok _)
  · refine (core_query_text bank s env (by exact trivial)).trans ?_
    refine (answer_map shown_tradeResp (.ok _)).trans ?_
    show Except.ok _ = Except.ok _
    unfold Core.getTradeInfo
    cases s.tradeInfos.get (i, o) <;> rfl
  · refine (core_query_text bank s env (by exact h)).trans ?_
    refine (answer_map (shown_list _ _ shown_trade) _).trans ?_
    cases Iface.listTradeInfo s i st l o with
    | error e => rfl
    | ok es =>
      simp only [Except.map, List.map_map]
      rfl
  · refine (core_query_text bank s env (by exact h)).trans ?_
    exact answer_map shown_simMint _
  · refine (core_query_text bank s env (by exact h)).trans ?_
    exact answer_map shown_simBurn _

/-- The question for the total supply and its answer, letter by letter; and a question of another contract is refused. -/
example : coreQueryText (fun _ _ => 0) Demo.s1 (Demo.env 1000) (textBytes "{\"get_total_supply\":{}}") =
      .ok (textBytes "\"10000\"") ∧
    coreQueryText (fun _ _ => 0) Demo.s1 (Demo.env 1000) (textBytes "{\"get_rebalance\":{}}") =
      .ok (textBytes "{\"rebalance\":null}") ∧
    readMsg coreQuery (textBytes "{\"latest_airdrop_id\":{}}") = .error .generic ∧
    Texts.coreQuery (.getConfig (some 5)) = "{\"get_config\":{\"time\":5}}" ∧
    Texts.coreQuery (.simulateMint 7 (some [⟨"uosmo", 3⟩]) none) =
      "{\"simulate_mint\":{\"amount\":\"7\",\"funds\":[{\"denom\":\"uosmo\",\"amount\":\"3\"}],\"time\":null}}" := by
  have e : Texts.amount Demo.s1.totalSupply = "\"10000\"" := by decide +kernel
  have e2 : Texts.obj [("rebalance", "null")] = "{\"rebalance\":null}" := by decide +kernel
  obtain ⟨dec, _, h⟩ := C102_core
  obtain ⟨_, h1, _, _, _, h2, _⟩ := h (fun _ _ => 0) Demo.s1 (Demo.env 1000)
  rw [e] at h1
  have e3 : Demo.s1.rebalance = none := rfl
  simp only [e3, Texts.orNull, e2] at h2
  exact ⟨h1, h2, by decide +kernel, by decide +kernel, by decide +kernel⟩

/-- **C102** Every query of the airdrop contract, written as a client writes it, is answered with the text of what the query
returns. -/
theorem C102_airdrop (c : Airdrop.Crypto) (reason : Airdrop.ClaimPayload → String) (s : Airdrop.State) (env : Env) :
    let ask := fun q => dropQueryText c reason s env (textBytes (Texts.dropQuery q))
    let drops := fun es : List (Nat × Airdrop.Drop) => textBytes (Texts.arr (es.map fun e => Texts.airdropState e.1 e.2))
    (∀ id, Texts.IdFits id → ask (.getAirdrop id) =
      (Airdrop.getAirdrop s id).map fun r => textBytes (Texts.airdropState r.1 r.2)) ∧
    (∀ st l o, Texts.OptionFits (.byId st l o) →
      ask (.listAirdrops (.byId st l o)) = (Airdrop.listById s st l o).map drops) ∧
    (∀ t st l o, Texts.OptionFits (.byType t st l o) →
      ask (.listAirdrops (.byType t st l o)) = (Airdrop.listByType s t st l o).map drops) ∧
    (∀ st l o, Texts.OptionFits (.byLabel st l o) →
      ask (.listAirdrops (.byLabel st l o)) = (Airdrop.listByLabel s st l o).map drops) ∧
    (∀ a st l o, Texts.OptionFits (.byCreator a st l o) →
      ask (.listAirdrops (.byCreator a st l o)) = (Airdrop.listByCreator s env a st l o).map drops) ∧
    ask .latestAirdropId = .ok (textBytes (toString s.latest)) ∧
    (∀ id key, Texts.IdFits id → ask (.getClaim id key) =
      (Airdrop.loadAirdrop s id).bind fun a => (Airdrop.getClaim s id key).map fun n => textBytes (Texts.claimState a.1 key n)) ∧
    (∀ p, Texts.DropQueryFits (.verifyClaim p) →
      ask (.verifyClaim p) = (Airdrop.verifyClaim c s p).map fun b => textBytes (Texts.verdict (reason p) b)) ∧
    (∀ id st l o, Texts.DropQueryFits (.listClaims id st l o) → ask (.listClaims id st l o) =
      (Airdrop.loadAirdrop s id).bind fun a => (Airdrop.listClaims s id st l o).map fun es =>
        textBytes (Texts.arr (es.map fun e => Texts.claimState a.1 e.1 e.2))) ∧
    (∀ l, ask (.getLabel l) = (Airdrop.getLabel s l).map fun r => textBytes (Texts.label r)) ∧
    ∀ st l o, Texts.DropQueryFits (.listLabels st l o) → ask (.listLabels st l o) =
      (Airdrop.listLabels s st l o).map fun es => textBytes (Texts.arr (es.map Texts.label)) := by
  dsimp only
  refine ⟨fun id h => ?_, fun st l o h => ?_, fun t st l o h => ?_, fun st l o h => ?_, fun a st l o h => ?_, ?_,
    fun id key h => ?_, fun p h => ?_, fun id st l o h => ?_, fun l => ?_, fun st l o h => ?_⟩
  · refine (drop_query_text c reason s env (by exact h)).trans ?_
    exact answer_map shown_airdropState _
  · refine (drop_query_text c reason s env (by exact h)).trans ?_
    exact answer_map (shown_list _ _ shown_airdropState) _
  · refine (drop_query_text c reason s env (by exact h)).trans ?_
    exact answer_map (shown_list _ _ shown_airdropState) _
  · refine (drop_query_text c reason s env (by exact h)).trans ?_
    exact answer_map (shown_list _ _ shown_airdropState) _
  · refine (drop_query_text c reason s env (by exact h)).trans ?_
    exact answer_map (shown_list _ _ shown_airdropState) _
  · refine (drop_query_text c reason s env (by exact trivial)).trans ?_
    exact answer_map (shown_uint 64) (.ok _)
  · refine (drop_query_text c reason s env (by exact h)).trans ?_
    refine (answer_map shown_claimState _).trans ?_
    unfold claimAnswer
    cases Airdrop.loadAirdrop s id with
    | error e => rfl
    | ok a => simp only [bind, Except.bind]; cases Airdrop.getClaim s id key <;> rfl
  · refine (drop_query_text c reason s env (by exact h)).trans ?_
    show answer verifyResp (verifyAnswer c reason s p) = _
    unfold verifyAnswer
    cases Airdrop.verifyClaim c s p with
    | error e => rfl
    | ok b =>
      simp only [bind, Except.bind, answer, toText_shown, shown_verdict, Except.map]
  · refine (drop_query_text c reason s env (by exact h)).trans ?_
    refine (answer_map (shown_list _ _ shown_claimState) _).trans ?_
    unfold claimAnswers
    cases Airdrop.loadAirdrop s id with
    | error e => rfl
    | ok a =>
      simp only [bind, Except.bind]
      cases Airdrop.listClaims s id st l o with
      | error e => rfl
      | ok es =>
        simp only [Except.map, List.map_map]
        rfl
  · refine (drop_query_text c reason s env (by exact trivial)).trans ?_
    exact answer_map shown_label _
  · refine (drop_query_text c reason s env (by exact h)).trans ?_
    exact answer_map (shown_list _ _ shown_label) _

/-- The question for the number of airdrops and its answer, letter by letter; the odd name of the listing by number. -/
example : dropQueryText Airdrop.Demo.crypto (fun _ => "") Airdrop.initial (Airdrop.Demo.env 1)
      (textBytes "{\"latest_airdrop_id\":{}}") = .ok (textBytes "0") ∧
    Texts.dropQuery (.listAirdrops (.byId none (some 5) (some .desc))) =
      "{\"list_airdrops\":{\"option\":{\"by_i_d\":{\"start_after\":null,\"limit\":5,\"order\":\"desc\"}}}}" ∧
    Texts.hex [0, 255, 26] = "00ff1a" := by
  have e : toString Airdrop.initial.latest = "0" := by decide +kernel
  obtain ⟨_, _, _, _, _, h, _⟩ := C102_airdrop Airdrop.Demo.crypto (fun _ => "") Airdrop.initial (Airdrop.Demo.env 1)
  rw [e] at h
  exact ⟨h, by decide +kernel, by decide +kernel⟩

/-- **C102** Every query of the periphery contract, written as a client writes it, is answered with the text of the simulation
of the routes it names. -/
theorem C102_periphery (p : Periphery.PEnv) :
    let ask := fun q => zapQueryText p (textBytes (Texts.zapQuery q))
    (∀ core input si, Texts.Amount input.amount → ask (.mintExactIn core input si) =
      (Periphery.parseInfos si).bind fun infos => (Periphery.simMintExactIn p core input infos).map fun r =>
        textBytes (Texts.zap "mint_amount" "mint_spend_amount" r)) ∧
    (∀ core output input si, Texts.Amount output → ask (.mintExactOut core output input si) =
      (Periphery.parseInfos si).bind fun infos => (Periphery.simMintExactOut p core output input infos).map fun r =>
        textBytes (Texts.zap "mint_amount" "mint_spend_amount" r)) ∧
    (∀ core input output si, Texts.Amount input → ask (.burnExactIn core input output si) =
      (Periphery.parseInfos si).bind fun infos => (Periphery.simBurnExactIn p core input output infos).map fun r =>
        textBytes (Texts.zap "burn_amount" "burn_redeem_amount" r)) ∧
    ∀ core output si, Texts.Amount output.amount → ask (.burnExactOut core output si) =
      (Periphery.parseInfos si).bind fun infos => (Periphery.simBurnExactOut p core output infos).map fun r =>
        textBytes (Texts.zap "burn_amount" "burn_redeem_amount" r) := by
  dsimp only
  refine ⟨fun core input si h => ?_, fun core output input si h => ?_, fun core input output si h => ?_,
    fun core output si h => ?_⟩
  · refine (zap_query_text p (by exact h)).trans ?_
    refine (answer_map shown_zapMint _).trans ?_
    cases Periphery.parseInfos si <;> rfl
  · refine (zap_query_text p (by exact h)).trans ?_
    refine (answer_map shown_zapMint _).trans ?_
    cases Periphery.parseInfos si <;> rfl
  · refine (zap_query_text p (by exact h)).trans ?_
    refine (answer_map shown_zapBurn _).trans ?_
    cases Periphery.parseInfos si <;> rfl
  · refine (zap_query_text p (by exact h)).trans ?_
    refine (answer_map shown_zapBurn _).trans ?_
    cases Periphery.parseInfos si <;> rfl

/-- The question for a burn, letter by letter. -/
example : Texts.zapQuery (.burnExactIn "core" 9 "uosmo" [⟨"uatom,uosmo", ["1,uosmo"]⟩]) =
    "{\"simulate_burn_exact_amount_in\":{\"core_addr\":\"core\",\"input_amount\":\"9\",\"output_asset\":\"uosmo\"," ++
      "\"swap_info\":[{\"key\":\"uatom,uosmo\",\"routes\":[\"1,uosmo\"]}]}}" := by decide +kernel

/-! ## Answers are read back -/

theorem read_back {α : Type} {c : Codec α} {f : α → String} (hf : ∀ a, shown (c.enc a) = f a) (hc : c.Faithful) {a : α}
    (h : c.Fits a) : c.ofText (textBytes (f a)) = some a := by
  rw [← hf, ← toText_shown]
  exact ofText_toText hc h

theorem basket_units {us : Core.Units} (h : Texts.BasketFits us) : units.Fits us := fun e he => ⟨trivial, h e he⟩

theorem unitsAt_fits {s : Core.State} {t : Nat} {us : Core.Units} (hs : Texts.CoreStateFits s) (ht : Texts.Number t)
    (h : Core.unitsAt s t = .ok us) : Texts.BasketFits us := by
  unfold Core.unitsAt at h
  cases hf : s.fee.streamingFee with
  | none =>
    rw [hf] at h
    cases h
    exact hs.index
  | some sf =>
    rw [hf] at h
    obtain ⟨⟨sf', us'⟩, h1, h2⟩ := bind_eq_ok.1 h
    cases h2
    exact (Core.collect_fits (hs.stream sf hf) hs.index ht h1).2

theorem require_fits {us : Core.Units} {n : Nat} {cs : List Coin} (h : us.calcRequire n = .ok cs) :
    ∀ c ∈ cs, Texts.Amount c.amount := by
  obtain ⟨h1, rfl⟩ := Core.Units.calcRequire_eq_ok.1 h
  intro c hc
  obtain ⟨e, he, rfl⟩ := List.mem_map.1 hc
  exact h1 e he

theorem take_fits {L L' : List (Coin × Bool)} {c : Coin} (hL : ∀ p ∈ L, Texts.Amount p.1.amount)
    (h : Core.Units.takeRequired L c = .ok L') : ∀ p ∈ L', Texts.Amount p.1.amount := by
  induction L generalizing L' with
  | nil => cases h
  | cons p L ih =>
    obtain ⟨f, m⟩ := p
    unfold Core.Units.takeRequired at h
    have h0 := hL (f, m) List.mem_cons_self
    have hr := fun p hp => hL p (List.mem_cons_of_mem _ hp)
    split at h
    · obtain ⟨a, ha, h⟩ := bind_eq_ok.1 h
      cases h
      intro p hp
      rcases List.mem_cons.1 hp with rfl | hp
      · obtain ⟨_, rfl⟩ := sub_eq_ok.1 ha
        exact Nat.lt_of_le_of_lt (Nat.sub_le _ _) h0
      · exact hr p hp
    · obtain ⟨r, h1, h⟩ := bind_eq_ok.1 h
      cases h
      intro p hp
      rcases List.mem_cons.1 hp with rfl | hp
      · exact h0
      · exact ih hr h1 p hp

theorem takes_fits {cs : List Coin} {L L' : List (Coin × Bool)} (hL : ∀ p ∈ L, Texts.Amount p.1.amount)
    (h : cs.foldlM Core.Units.takeRequired L = .ok L') : ∀ p ∈ L', Texts.Amount p.1.amount := by
  induction cs generalizing L with
  | nil =>
    simp [pure, Except.pure] at h
    subst h
    exact hL
  | cons c cs ih =>
    rw [List.foldlM_cons] at h
    obtain ⟨L1, h1, h⟩ := bind_eq_ok.1 h
    exact ih (take_fits hL h1) h

theorem refund_fits {us : Core.Units} {funds cs : List Coin} {n : Nat} (hf : ∀ c ∈ funds, Texts.Amount c.amount)
    (h : us.calcRefund funds n = .ok cs) : ∀ c ∈ cs, Texts.Amount c.amount := by
  unfold Core.Units.calcRefund at h
  obtain ⟨req, _, h⟩ := bind_eq_ok.1 h
  obtain ⟨left, h1, h⟩ := bind_eq_ok.1 h
  obtain ⟨_, _, h⟩ := bind_eq_ok.1 h
  cases h
  intro c hc
  obtain ⟨p, hp, rfl⟩ := List.mem_map.1 (List.mem_filter.1 hc).1
  refine takes_fits ?_ h1 p hp
  intro p hp
  obtain ⟨f, hf', rfl⟩ := List.mem_map.1 hp
  exact hf f hf'

theorem coins_fits {cs : List Coin} (h : ∀ c ∈ cs, Texts.Amount c.amount) : coin.list.Fits cs := h

theorem stream_fits {f : Core.StreamingFee} (h : Texts.StreamFits f) : streamingFee.Fits f := h

theorem info_fits {t : Core.TradeInfo} (h : Texts.InfoFits t) : tradeInfo.Fits t := h

/-- **C102** A client that reads the answer to a query about the core contract with the types of the interface gets what the
query returned: for every state whose numbers fit (all states are such, C101), and every time, now or asked for, that fits. -/
theorem C102_core_read {s : Core.State} (hs : Texts.CoreStateFits s) : ∃ dec : Nat → String, (∀ n, Texts.IsDecimal n (dec n)) ∧
    (u128.ofText (textBytes (Texts.amount s.totalSupply)) = some s.totalSupply) ∧
    (rebalanceResp.ofText (textBytes (Texts.obj [("rebalance", Texts.orNull (Texts.rebalanceState dec) s.rebalance)])) =
      some s.rebalance) ∧
    (∀ i o t, s.tradeInfos.get (i, o) = some t →
      tradeInfoResp.ofText (textBytes (Texts.obj [("trade_info", Texts.trade i o t)])) = some (some ⟨i, o, t⟩)) ∧
    (∀ i st l o es, Iface.listTradeInfo s i st l o = .ok es →
      tradePayload.list.ofText (textBytes (Texts.arr (es.map fun e => Texts.trade i e.1 e.2))) =
        some (es.map fun e => ⟨i, e.1, e.2⟩)) ∧
    ∀ (env : Env) (t : Option Nat), Texts.Number env.now → (∀ n ∈ t, Texts.Number n) →
      (∀ r, Core.getConfig s env t = .ok r → configResp.ofText (textBytes (Texts.config r)) = some r) ∧
      (∀ r, Core.getFee s env t = .ok r → fee.ofText (textBytes (Texts.fees dec r)) = some r) ∧
      (∀ r, Core.getPortfolio s env t = .ok r → portfolioResp.ofText (textBytes (Texts.portfolio dec r)) = some r) ∧
      (∀ n f r, Texts.Amount n → (∀ cs ∈ f, ∀ c ∈ cs, Texts.Amount c.amount) → Core.simulateMint s env n f t = .ok r →
        simMintResp.ofText (textBytes (Texts.simMint r)) = some r) ∧
      ∀ n r, Texts.Amount n → Core.simulateBurn s env n t = .ok r → simBurnResp.ofText (textBytes (Texts.simBurn r)) = some r := by
  have hsupply : u128.Fits s.totalSupply := hs.supply
  refine ⟨decText, decText_spec, read_back shown_amount u128_faithful hsupply, ?_, ?_, ?_, ?_⟩
  · exact read_back shown_rebalanceResp rebalanceResp_faithful
      (fun r hr => ⟨basket_units (hs.targets r hr).1, basket_units (hs.targets r hr).2⟩)
  · intro i o t ht
    exact read_back (a := some ⟨i, o, t⟩) shown_tradeResp tradeInfoResp_faithful
      (fun r hr => by cases hr; exact info_fits (hs.infos _ (KV.mem_of_get ht)))
  · intro i st l o es h
    have := read_back (a := es.map fun e => (⟨i, e.1, e.2⟩ : TradePayload)) (shown_list _ _ shown_trade)
      (list_faithful tradePayload_faithful) (by
        intro p hp
        obtain ⟨e, he, rfl⟩ := List.mem_map.1 hp
        obtain ⟨x, hx, rfl⟩ := List.mem_map.1 (page_sub h e he)
        exact info_fits (hs.infos x (List.mem_filter.1 hx).1))
    rw [List.map_map] at this
    exact this
  · intro env t hn ht
    have hnow : Texts.Number (t.getD env.now) := by
      cases t with
      | none => exact hn
      | some x => exact ht x rfl
    refine ⟨fun r h => ?_, fun r h => ?_, fun r h => ?_, fun n f r hnum hfun h => ?_, fun n r hnum h => ?_⟩
    · unfold Core.getConfig at h
      obtain ⟨_, _, h⟩ := bind_eq_ok.1 h
      cases h
      refine read_back shown_config configResp_faithful ?_
      show ∀ x ∈ (s.config.paused.refresh (t.getD env.now)).expiresAt, Texts.Number x
      intro x hx
      unfold Core.PauseInfo.refresh at hx
      split at hx
      · split at hx
        · split at hx
          · simp at hx
          · exact hs.pause x hx
        · exact hs.pause x hx
      · exact hs.pause x hx
    · refine read_back shown_fees fee_faithful ?_
      unfold Core.getFee at h
      cases hf : s.fee.streamingFee with
      | none =>
        rw [hf] at h
        cases h
        exact ⟨hs.mintFee, hs.burnFee, hs.stream⟩
      | some sf =>
        rw [hf] at h
        obtain ⟨⟨sf', us'⟩, h1, h2⟩ := bind_eq_ok.1 h
        cases h2
        refine ⟨hs.mintFee, hs.burnFee, fun x hx => ?_⟩
        cases hx
        exact stream_fits (Core.collect_fits (hs.stream sf hf) hs.index hnow h1).1
    · unfold Core.getPortfolio at h
      obtain ⟨us, h1, h⟩ := bind_eq_ok.1 h
      obtain ⟨cs, h2, h⟩ := bind_eq_ok.1 h
      cases h
      exact read_back shown_portfolio portfolioResp_faithful
        ⟨hsupply, coins_fits (require_fits h2), basket_units (unitsAt_fits hs hnow h1)⟩
    · unfold Core.simulateMint at h
      obtain ⟨us, h1, h⟩ := bind_eq_ok.1 h
      obtain ⟨spent, h2, h⟩ := bind_eq_ok.1 h
      obtain ⟨refund, h3, h⟩ := bind_eq_ok.1 h
      obtain ⟨mf, _, h⟩ := bind_eq_ok.1 h
      obtain ⟨x, h4, h⟩ := bind_eq_ok.1 h
      cases h
      obtain ⟨_, rfl⟩ := sub_eq_ok.1 h4
      refine read_back shown_simMint simMintResp_faithful
        ⟨Nat.lt_of_le_of_lt (Nat.sub_le _ _) hnum, coins_fits (refund_fits ?_ h3), coins_fits (require_fits h2)⟩
      cases f with
      | none => exact require_fits h2
      | some cs => exact hfun cs rfl
    · unfold Core.simulateBurn at h
      obtain ⟨us, h1, h⟩ := bind_eq_ok.1 h
      obtain ⟨bf, _, h⟩ := bind_eq_ok.1 h
      obtain ⟨x, h4, h⟩ := bind_eq_ok.1 h
      obtain ⟨cs, h5, h⟩ := bind_eq_ok.1 h
      cases h
      obtain ⟨_, rfl⟩ := sub_eq_ok.1 h4
      exact read_back shown_simBurn simBurnResp_faithful
        ⟨Nat.lt_of_le_of_lt (Nat.sub_le _ _) hnum, coins_fits (require_fits h5)⟩

/-- The fees of the demo contract after a hundred seconds, as read by a client. -/
example : ∃ dec : Nat → String, ∀ r, Core.getFee Demo.s1 (Demo.env 1100) none = .ok r →
    fee.ofText (textBytes (Texts.fees dec r)) = some r := by
  have hs : Texts.CoreStateFits Demo.s1 :=
    { pause := by decide, mintFee := by decide, burnFee := by decide
      stream := fun f hf => by
        cases hf
        exact ⟨by decide, by simp, by decide⟩
      supply := by decide, index := by unfold Texts.BasketFits; decide, reserve := by simp [Demo.s1, Demo.s0]
      targets := by simp [Demo.s1, Demo.s0], infos := by simp [Demo.s1, Demo.s0] }
  obtain ⟨dec, _, _, _, _, _, h⟩ := C102_core_read hs
  exact ⟨dec, (h (Demo.env 1100) none (by decide) (by simp)).2.1⟩

theorem drop_record_fits {a : Airdrop.Drop} (h : Texts.OneDropFits a) : drop.Fits a := h

theorem load_mem {s : Airdrop.State} {id : Airdrop.DropId} {p : Nat × Airdrop.Drop}
    (h : Airdrop.loadAirdrop s id = .ok p) : p ∈ s.drops := by
  obtain ⟨n, a⟩ := p
  exact KV.mem_of_get (Airdrop.loadAirdrop_eq_ok.1 h).2

theorem labelled_sub {s : Airdrop.State} {es : List (String × Nat)} {ds : List (Nat × Airdrop.Drop)}
    (h : Airdrop.loadLabelled s es = .ok ds) : ∀ p ∈ ds, p ∈ s.drops := by
  induction es generalizing ds with
  | nil =>
    cases h
    simp
  | cons e es ih =>
    unfold Airdrop.loadLabelled at h
    obtain ⟨a, h1, h⟩ := bind_eq_ok.1 h
    obtain ⟨rest, h2, h⟩ := bind_eq_ok.1 h
    cases h
    intro p hp
    rcases List.mem_cons.1 hp with rfl | hp
    · exact KV.mem_of_get (KV.load_eq_ok.1 h1)
    · exact ih h2 p hp

/-- **C102** A client that reads the answer to a query about the airdrop contract with the types of the interface gets what the
query returned: for every state whose numbers fit (all states are such, C101). -/
theorem C102_airdrop_read {s : Airdrop.State} (hs : Texts.DropStateFits s) :
    (∀ id r, Airdrop.getAirdrop s id = .ok r → dropResp.ofText (textBytes (Texts.airdropState r.1 r.2)) = some r) ∧
    (∀ es, (∃ st l o, Airdrop.listById s st l o = .ok es) ∨ (∃ t st l o, Airdrop.listByType s t st l o = .ok es) ∨
        (∃ st l o, Airdrop.listByLabel s st l o = .ok es) ∨ (∃ env a st l o, Airdrop.listByCreator s env a st l o = .ok es) →
      dropResp.list.ofText (textBytes (Texts.arr (es.map fun e => Texts.airdropState e.1 e.2))) = some es) ∧
    ((uint 64).ofText (textBytes (toString s.latest)) = some s.latest) ∧
    (∀ id a key n, Airdrop.loadAirdrop s id = .ok a → Airdrop.getClaim s id key = .ok n →
      claimResp.ofText (textBytes (Texts.claimState a.1 key n)) = some ⟨a.1, n, key⟩) ∧
    (∀ reason b, verifyResp.ofText (textBytes (Texts.verdict reason b)) = some ⟨b, if b then none else some reason⟩) ∧
    (∀ id a st l o es, Airdrop.loadAirdrop s id = .ok a → Airdrop.listClaims s id st l o = .ok es →
      claimResp.list.ofText (textBytes (Texts.arr (es.map fun e => Texts.claimState a.1 e.1 e.2))) =
        some (es.map fun e => ⟨a.1, e.2, e.1⟩)) ∧
    (∀ l r, Airdrop.getLabel s l = .ok r → labelResp.ofText (textBytes (Texts.label r)) = some r) ∧
    ∀ st l o es, Airdrop.listLabels s st l o = .ok es →
      labelResp.list.ofText (textBytes (Texts.arr (es.map Texts.label))) = some es := by
  have hd : ∀ p ∈ s.drops, dropResp.Fits p := fun p hp => ⟨(hs.drops p hp).1, drop_record_fits (hs.drops p hp).2⟩
  refine ⟨fun id r h => ?_, fun es h => ?_, ?_, fun id a key n h h' => ?_, fun reason b => ?_, fun id a st l o es h h' => ?_,
    fun l r h => ?_, fun st l o es h => ?_⟩
  · exact read_back shown_airdropState dropResp_faithful (hd r (load_mem h))
  · refine read_back (shown_list _ _ shown_airdropState) (list_faithful dropResp_faithful) fun p hp => hd p ?_
    rcases h with ⟨st, l, o, h⟩ | ⟨t, st, l, o, h⟩ | ⟨st, l, o, h⟩ | ⟨env, a, st, l, o, h⟩
    · exact page_sub h p hp
    · exact (List.mem_filter.1 (page_sub h p hp)).1
    · obtain ⟨ls, _, h⟩ := bind_eq_ok.1 h
      exact labelled_sub h p hp
    · obtain ⟨_, _, h⟩ := bind_eq_ok.1 h
      obtain ⟨_, _, h⟩ := bind_eq_ok.1 h
      exact (List.mem_filter.1 (page_sub h p hp)).1
  · exact read_back (shown_uint 64) (uint_faithful 64) hs.latest
  · unfold Airdrop.getClaim at h'
    obtain ⟨x, h1, h2⟩ := bind_eq_ok.1 h'
    rw [h] at h1
    cases h1
    have := hs.claims _ (KV.mem_of_get (KV.load_eq_ok.1 h2))
    exact read_back (a := (⟨a.1, n, key⟩ : ClaimResp)) shown_claimState claimResp_faithful this
  · have := ofText_toText verifyResp_faithful (a := ⟨b, if b then none else some reason⟩) trivial
    rw [toText_shown, shown_verdict] at this
    exact this
  · unfold Airdrop.listClaims at h'
    obtain ⟨x, h1, h2⟩ := bind_eq_ok.1 h'
    rw [h] at h1
    cases h1
    have := read_back (a := es.map fun e => (⟨a.1, e.2, e.1⟩ : ClaimResp)) (shown_list _ _ shown_claimState)
      (list_faithful claimResp_faithful) (by
        intro p hp
        obtain ⟨e, he, rfl⟩ := List.mem_map.1 hp
        obtain ⟨y, hy, rfl⟩ := List.mem_map.1 (page_sub h2 e he)
        obtain ⟨hy1, hy2⟩ := List.mem_filter.1 hy
        have hc := hs.claims y hy1
        rw [of_decide_eq_true hy2] at hc
        exact hc)
    rw [List.map_map] at this
    exact this
  · unfold Airdrop.getLabel at h
    obtain ⟨n, h1, h⟩ := bind_eq_ok.1 h
    cases h
    exact read_back shown_label labelResp_faithful (hs.labels _ (KV.mem_of_get (KV.load_eq_ok.1 h1)))
  · unfold Airdrop.listLabels at h
    obtain ⟨ls, h1, h⟩ := bind_eq_ok.1 h
    cases h
    refine read_back (shown_list _ _ shown_label) (list_faithful labelResp_faithful) fun p hp => ?_
    obtain ⟨e, he, rfl⟩ := List.mem_map.1 hp
    exact hs.labels e (page_sub h1 e he)

/-- The listing of the labels of a state with one airdrop. -/
example : ∀ es, Airdrop.listLabels (Airdrop.run Airdrop.Demo.crypto Airdrop.initial [Airdrop.Demo.reg]).1 none none none = .ok es →
    labelResp.list.ofText (textBytes (Texts.arr (es.map Texts.label))) = some es := by
  have hs : Texts.DropStateFits (Airdrop.run Airdrop.Demo.crypto Airdrop.initial [Airdrop.Demo.reg]).1 :=
    dropRun_fits Airdrop.initial_fits (by
      intro x hx
      rw [List.mem_singleton.1 hx]
      exact ⟨by decide, by decide, trivial⟩)
  exact (C102_airdrop_read hs).2.2.2.2.2.2.2 none none none

end Ibcx.Props
