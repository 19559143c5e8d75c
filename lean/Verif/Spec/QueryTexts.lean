import Verif.Spec.Texts
import Verif.Json.Messages
/-!
# The texts of queries and of their answers

The queries as a client writes them and the answers as a client expects them, written with texts only.
-/

namespace Ibcx.Spec.Texts
open Ibcx

/-- The order of a listing. -/
def order : Iface.RangeOrder → String
  | .asc => quoted "asc"
  | .desc => quoted "desc"

/-- The queries of the core contract. -/
def coreQuery : Json.CoreQuery → String
  | .getBalance a => obj [("get_balance", obj [("account", quoted a)])]
  | .getTotalSupply => "{\"get_total_supply\":{}}"
  | .getConfig t => obj [("get_config", obj [("time", orNull toString t)])]
  | .getFee t => obj [("get_fee", obj [("time", orNull toString t)])]
  | .getPortfolio t => obj [("get_portfolio", obj [("time", orNull toString t)])]
  | .getRebalance => "{\"get_rebalance\":{}}"
  | .getTradeInfo i o => obj [("get_trade_info", obj [("denom_in", quoted i), ("denom_out", quoted o)])]
  | .listTradeInfo i start limit ord => obj [("list_trade_info", obj [("denom_in", quoted i), ("start_after", orNull quoted start),
      ("limit", orNull toString limit), ("order", orNull order ord)])]
  | .simulateMint n funds t => obj [("simulate_mint", obj [("amount", amount n),
      ("funds", orNull (fun cs : List Coin => arr (cs.map coin)) funds), ("time", orNull toString t)])]
  | .simulateBurn n t => obj [("simulate_burn", obj [("amount", amount n), ("time", orNull toString t)])]

/-- The text of a claim. -/
def claim : Airdrop.ClaimPayload → String
  | .openDrop id n account proof => obj [("open", obj [("airdrop", dropId id), ("amount", amount n),
      ("account", orNull quoted account), ("merkle_proof", arr (proof.map quoted))])]
  | .bearer id n account hash sign proof => obj [("bearer", obj [("airdrop", dropId id), ("amount", amount n),
      ("account", orNull quoted account), ("claim_hash", quoted hash), ("claim_sign", quoted sign),
      ("merkle_proof", arr (proof.map quoted))])]

/-- The kind of an airdrop. -/
def dropType : Airdrop.DropType → String
  | .openDrop => quoted "open"
  | .bearer => quoted "bearer"

/-- Which airdrops to list.  The name of the first is what the rules for names make of `ByID`. -/
def listOption : Json.ListOption → String
  | .byId start limit ord => obj [("by_i_d", obj [("start_after", orNull toString start), ("limit", orNull toString limit),
      ("order", orNull order ord)])]
  | .byType typ start limit ord => obj [("by_type", obj [("type", dropType typ), ("start_after", orNull toString start),
      ("limit", orNull toString limit), ("order", orNull order ord)])]
  | .byLabel start limit ord => obj [("by_label", obj [("start_after", orNull quoted start), ("limit", orNull toString limit),
      ("order", orNull order ord)])]
  | .byCreator creator start limit ord => obj [("by_creator", obj [("creator", quoted creator),
      ("start_after", orNull toString start), ("limit", orNull toString limit), ("order", orNull order ord)])]

/-- The queries of the airdrop contract. -/
def dropQuery : Json.DropQuery → String
  | .getAirdrop id => obj [("get_airdrop", obj [("id", dropId id)])]
  | .listAirdrops o => obj [("list_airdrops", obj [("option", listOption o)])]
  | .latestAirdropId => "{\"latest_airdrop_id\":{}}"
  | .getClaim id key => obj [("get_claim", obj [("airdrop", dropId id), ("claim_key", quoted key)])]
  | .verifyClaim p => obj [("verify_claim", obj [("claim", claim p)])]
  | .listClaims id start limit ord => obj [("list_claims", obj [("airdrop", dropId id), ("start_after", orNull quoted start),
      ("limit", orNull toString limit), ("order", orNull order ord)])]
  | .getLabel l => obj [("get_label", obj [("label", quoted l)])]
  | .listLabels start limit ord => obj [("list_labels", obj [("start_after", orNull quoted start),
      ("limit", orNull toString limit), ("order", orNull order ord)])]

/-- The queries of the periphery contract. -/
def zapQuery : Json.ZapQuery → String
  | .mintExactIn core input si => obj [("simulate_mint_exact_amount_in", obj [("core_addr", quoted core),
      ("input_asset", coin input), ("swap_info", swapInfo si)])]
  | .mintExactOut core output input si => obj [("simulate_mint_exact_amount_out", obj [("core_addr", quoted core),
      ("output_amount", amount output), ("input_asset", quoted input), ("swap_info", swapInfo si)])]
  | .burnExactIn core input output si => obj [("simulate_burn_exact_amount_in", obj [("core_addr", quoted core),
      ("input_amount", amount input), ("output_asset", quoted output), ("swap_info", swapInfo si)])]
  | .burnExactOut core output si => obj [("simulate_burn_exact_amount_out", obj [("core_addr", quoted core),
      ("output_asset", coin output), ("swap_info", swapInfo si)])]

/-! ## Answers -/

/-- The pause state. -/
def paused (p : Core.PauseInfo) : String := obj [("paused", flag p.paused), ("expires_at", orNull toString p.expiresAt)]

/-- The configuration. -/
def config (c : Core.ConfigResp) : String :=
  obj [("gov", quoted c.gov), ("pending_gov", orNull quoted c.pendingGov), ("paused", paused c.paused),
    ("index_denom", quoted c.indexDenom), ("reserve_denom", quoted c.reserveDenom)]

/-- A list of coins. -/
def coins (cs : List Coin) : String := arr (cs.map coin)

/-- A trade route between two denoms. -/
def trade (denomIn denomOut : Denom) (t : Core.TradeInfo) : String :=
  obj [("denom_in", quoted denomIn), ("denom_out", quoted denomOut), ("routes", arr (t.routes.map hop)),
    ("cooldown", toString t.cooldown), ("max_trade_amount", amount t.maxTradeAmount),
    ("last_traded_at", orNull toString t.lastTradedAt)]

/-- A simulated mint. -/
def simMint (r : Core.SimMintResp) : String :=
  obj [("mint_amount", amount r.mintAmount), ("refund_amount", coins r.refundAmount), ("fund_spent", coins r.fundSpent)]

/-- A simulated burn. -/
def simBurn (r : Core.SimBurnResp) : String :=
  obj [("burn_amount", amount r.burnAmount), ("redeem_amount", coins r.redeemAmount)]

section
variable (dec : Nat → String)

/-- The streaming fee. -/
def stream (f : Core.StreamingFee) : String :=
  obj [("rate", quoted (dec f.rate)), ("collected", coins f.collected), ("freeze", flag f.freeze),
    ("last_collected_at", toString f.lastCollectedAt)]

/-- The fees. -/
def fees (f : Core.Fee) : String :=
  obj [("collector", quoted f.collector), ("mint_fee", orNull (fun n => quoted (dec n)) f.mintFee),
    ("burn_fee", orNull (fun n => quoted (dec n)) f.burnFee), ("streaming_fee", orNull (stream dec) f.streamingFee)]

/-- The portfolio. -/
def portfolio (p : Core.PortfolioResp) : String :=
  obj [("total_supply", amount p.totalSupply), ("assets", coins p.assets), ("units", units dec p.units)]

/-- A rebalance. -/
def rebalanceState (r : Core.Rebalance) : String :=
  obj [("manager", orNull quoted r.manager), ("deflation", units dec r.deflation), ("inflation", units dec r.inflation)]

end

/-- Two hex digits for every byte, in lower case. -/
def hex (bs : Airdrop.Bytes) : String :=
  String.ofList (bs.flatMap fun b => ["0123456789abcdef".toList.getD (b.toNat / 16) '0', "0123456789abcdef".toList.getD (b.toNat % 16) '0'])

/-- An airdrop and its number. -/
def airdropState (n : Nat) (a : Airdrop.Drop) : String :=
  match a.kind with
  | .openAirdrop => obj [("open", obj [("id", toString n), ("creator", quoted a.creator), ("denom", quoted a.denom),
      ("total_amount", amount a.totalAmount), ("total_claimed", amount a.totalClaimed), ("merkle_root", quoted a.merkleRoot),
      ("label", orNull quoted a.label), ("created_at", toString a.createdAt), ("closed_at", orNull toString a.closedAt)])]
  | .bearer signer pub => obj [("bearer", obj [("id", toString n), ("creator", quoted a.creator), ("signer", quoted signer),
      ("signer_pub", quoted (hex pub)), ("denom", quoted a.denom),
      ("total_amount", amount a.totalAmount), ("total_claimed", amount a.totalClaimed), ("merkle_root", quoted a.merkleRoot),
      ("label", orNull quoted a.label), ("created_at", toString a.createdAt), ("closed_at", orNull toString a.closedAt)])]

/-- A logged claim. -/
def claimState (n : Nat) (key : String) (a : Nat) : String :=
  obj [("id", toString n), ("amount", amount a), ("claim_key", quoted key)]

/-- The result of a check of a claim. -/
def verdict (reason : String) (valid : Bool) : String :=
  obj [("valid", flag valid), ("reason", if valid then "null" else quoted reason)]

/-- A label. -/
def label (l : Airdrop.LabelResp) : String :=
  obj [("creator", quoted l.creator), ("label", quoted l.label), ("airdrop_id", toString l.airdropId)]

/-- A simulated zap. -/
def zap (amountName coinsName : String) (r : Periphery.SimResp) : String :=
  obj [(amountName, amount r.amount), (coinsName, coins r.coins), ("swap_result_amount", coin r.swapResult)]

/-! ## Which queries a client can write -/

/-- Four bytes. -/
def Small (n : Nat) : Prop := n < 2 ^ 32

/-- The numbers of a query of the core contract fit. -/
def CoreQueryFits : Json.CoreQuery → Prop
  | .getConfig t | .getFee t | .getPortfolio t => ∀ n ∈ t, Number n
  | .listTradeInfo _ _ limit _ => ∀ n ∈ limit, Small n
  | .simulateMint n funds t => Amount n ∧ (∀ cs ∈ funds, ∀ c ∈ cs, Amount c.amount) ∧ ∀ n ∈ t, Number n
  | .simulateBurn n t => Amount n ∧ ∀ n ∈ t, Number n
  | _ => True

/-- The numbers of a choice of airdrops fit. -/
def OptionFits : Json.ListOption → Prop
  | .byId start limit _ => (∀ n ∈ start, Number n) ∧ ∀ n ∈ limit, Small n
  | .byType _ start limit _ => (∀ n ∈ start, Number n) ∧ ∀ n ∈ limit, Small n
  | .byLabel _ limit _ => ∀ n ∈ limit, Small n
  | .byCreator _ start limit _ => (∀ n ∈ start, Number n) ∧ ∀ n ∈ limit, Small n

/-- The numbers of a query of the airdrop contract fit. -/
def DropQueryFits : Json.DropQuery → Prop
  | .getAirdrop id => IdFits id
  | .listAirdrops o => OptionFits o
  | .getClaim id _ => IdFits id
  | .verifyClaim (.openDrop id n _ _) => IdFits id ∧ Amount n
  | .verifyClaim (.bearer id n _ _ _ _) => IdFits id ∧ Amount n
  | .listClaims id _ limit _ => IdFits id ∧ ∀ n ∈ limit, Small n
  | .listLabels _ limit _ => ∀ n ∈ limit, Small n
  | _ => True

/-- The numbers of a query of the periphery contract fit. -/
def ZapQueryFits : Json.ZapQuery → Prop
  | .mintExactIn _ input _ => Amount input.amount
  | .mintExactOut _ n _ _ => Amount n
  | .burnExactIn _ n _ _ => Amount n
  | .burnExactOut _ output _ => Amount output.amount

end Ibcx.Spec.Texts
