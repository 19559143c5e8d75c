import Verif.Json.TextSpec
import Verif.Spec.QueryTexts
/-! # The written JSON of queries and answers agrees with the texts of `Verif.Spec.QueryTexts`

Not part of the model. -/

namespace Ibcx.Json
open Ibcx Ibcx.Spec

theorem shown_order (o : Iface.RangeOrder) : shown (rangeOrder.enc o) = Texts.order o := by
  cases o <;> exact shown_str _

theorem shown_optOrder (o : Option Iface.RangeOrder) : shown (rangeOrder.opt.enc o) = Texts.orNull Texts.order o :=
  shown_opt _ _ shown_order o

theorem shown_dropType (o : Airdrop.DropType) : shown (dropType.enc o) = Texts.dropType o := by
  cases o <;> exact shown_str _

theorem shown_coins (cs : List Coin) : shown (coin.list.enc cs) = Texts.coins cs := shown_list _ _ shown_coin cs

theorem shown_optCoins (o : Option (List Coin)) :
    shown (coin.list.opt.enc o) = Texts.orNull (fun cs : List Coin => Texts.arr (cs.map Texts.coin)) o :=
  shown_opt _ _ shown_coins o

/-- Compares a written query or answer with its text. -/
macro "show_more" : tactic => `(tactic| (
  try simp only [shown_variant, shown_obj, List.map_cons, List.map_nil, shown_text, shown_amount, shown_uint, shown_flag,
    shown_optText, shown_optNum, shown_hops, shown_units, shown_coin, shown_textList, shown_order, shown_optOrder,
    shown_dropType, shown_coins, shown_optCoins, shown_dropId, shown_swapInfo, shown_dec, shown_optDec]
  try first | rfl | decide +kernel))

theorem shown_coreQuery (q : CoreQuery) : shown (coreQuery.enc q) = Texts.coreQuery q := by
  cases q <;> simp only [coreQuery, Texts.coreQuery] <;> show_more

theorem shown_claim (p : Airdrop.ClaimPayload) : shown (claimPayload.enc p) = Texts.claim p := by
  cases p <;> simp only [claimPayload, Texts.claim] <;> show_more

theorem shown_listOption (o : ListOption) : shown (listOption.enc o) = Texts.listOption o := by
  cases o <;> simp only [listOption, Texts.listOption] <;> show_more

theorem shown_dropQuery (q : DropQuery) : shown (dropQuery.enc q) = Texts.dropQuery q := by
  cases q <;> simp only [dropQuery, Texts.dropQuery, shown_variant, shown_obj, List.map_cons, List.map_nil, shown_claim,
    shown_listOption] <;> show_more

theorem shown_zapQuery (q : ZapQuery) : shown (zapQuery.enc q) = Texts.zapQuery q := by
  cases q <;> simp only [zapQuery, Texts.zapQuery] <;> show_more

theorem shown_pause (p : Core.PauseInfo) : shown (pauseInfo.enc p) = Texts.paused p := by
  simp only [pauseInfo, Texts.paused]
  show_more

theorem shown_config (c : Core.ConfigResp) : shown (configResp.enc c) = Texts.config c := by
  simp only [configResp, Texts.config, shown_obj, List.map_cons, List.map_nil, shown_pause]
  show_more

theorem shown_stream (f : Core.StreamingFee) : shown (streamingFee.enc f) = Texts.stream decText f := by
  simp only [streamingFee, Texts.stream]
  show_more

theorem shown_fees (f : Core.Fee) : shown (fee.enc f) = Texts.fees decText f := by
  simp only [fee, Texts.fees, shown_obj, List.map_cons, List.map_nil, shown_opt _ _ shown_stream]
  show_more

theorem shown_portfolio (p : Core.PortfolioResp) : shown (portfolioResp.enc p) = Texts.portfolio decText p := by
  simp only [portfolioResp, Texts.portfolio]
  show_more

theorem shown_rebalanceState (r : Core.Rebalance) : shown (rebalance.enc r) = Texts.rebalanceState decText r := by
  simp only [rebalance, Texts.rebalanceState]
  show_more

theorem shown_rebalanceResp (r : Option Core.Rebalance) :
    shown (rebalanceResp.enc r) = Texts.obj [("rebalance", Texts.orNull (Texts.rebalanceState decText) r)] := by
  simp only [rebalanceResp, shown_obj, List.map_cons, List.map_nil, shown_opt _ _ shown_rebalanceState]

theorem shown_trade (t : TradePayload) : shown (tradePayload.enc t) = Texts.trade t.denomIn t.denomOut t.info := by
  simp only [tradePayload, Texts.trade]
  show_more

theorem shown_tradeResp (t : Option TradePayload) : shown (tradeInfoResp.enc t) =
    Texts.obj [("trade_info", Texts.orNull (fun t : TradePayload => Texts.trade t.denomIn t.denomOut t.info) t)] := by
  simp only [tradeInfoResp, shown_obj, List.map_cons, List.map_nil, shown_opt _ _ shown_trade]

theorem shown_simMint (r : Core.SimMintResp) : shown (simMintResp.enc r) = Texts.simMint r := by
  simp only [simMintResp, Texts.simMint]
  show_more

theorem shown_simBurn (r : Core.SimBurnResp) : shown (simBurnResp.enc r) = Texts.simBurn r := by
  simp only [simBurnResp, Texts.simBurn]
  show_more

theorem hex_char : ∀ n < 16, hexChar n = "0123456789abcdef".toList.getD n '0' := by decide +kernel

theorem hex_eq (bs : Airdrop.Bytes) : hexEncode bs = Texts.hex bs := by
  unfold hexEncode Texts.hex
  congr 1
  refine congrArg (bs.flatMap ·) (funext fun b => ?_)
  have := b.toNat_lt
  rw [hex_char _ (by omega), hex_char _ (by omega)]

theorem shown_airdropState (p : Nat × Airdrop.Drop) : shown (dropResp.enc p) = Texts.airdropState p.1 p.2 := by
  obtain ⟨n, a⟩ := p
  have hx : ∀ b, shown (hexBytes.enc b) = Texts.quoted (Texts.hex b) := fun b => by rw [← hex_eq]; exact shown_str _
  simp only [dropResp, Texts.airdropState]
  cases a.kind <;>
    simp only [shown_variant, shown_obj, List.map_cons, List.map_nil, hx] <;> show_more

theorem shown_claimState (c : ClaimResp) : shown (claimResp.enc c) = Texts.claimState c.id c.claimKey c.amount := by
  simp only [claimResp, Texts.claimState]
  show_more

theorem shown_verdict (reason : String) (b : Bool) :
    shown (verifyResp.enc { valid := b, reason := if b then none else some reason }) = Texts.verdict reason b := by
  simp only [verifyResp, Texts.verdict, shown_obj, List.map_cons, List.map_nil, shown_flag, shown_optText]
  cases b <;> rfl

theorem shown_label (l : Airdrop.LabelResp) : shown (labelResp.enc l) = Texts.label l := by
  simp only [labelResp, Texts.label]
  show_more

theorem shown_zapMint (r : Periphery.SimResp) : shown (zapMintResp.enc r) = Texts.zap "mint_amount" "mint_spend_amount" r := by
  simp only [zapMintResp, Texts.zap]
  show_more

theorem shown_zapBurn (r : Periphery.SimResp) : shown (zapBurnResp.enc r) = Texts.zap "burn_amount" "burn_redeem_amount" r := by
  simp only [zapBurnResp, Texts.zap]
  show_more

end Ibcx.Json
