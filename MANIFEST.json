{
 "claims": [
  {
   "property": "C01",
   "status": "proved",
   "theorems": [
    "Ibcx.Props.C01_supply_is_minted_minus_burned",
    "Ibcx.Props.C01_supply_is_bank_supply"
   ],
   "note": "Over every history from instantiation: recorded supply + burned by messages = minted by messages; on the chain model the recorded supply equals the bank's supply of the index denom after every history."
  },
  {
   "property": "C02",
   "status": "proved",
   "theorems": [
    "Ibcx.Props.C02_mint_takes_exact_basket"
   ],
   "note": ""
  },
  {
   "property": "C03",
   "status": "proved",
   "theorems": [
    "Ibcx.Props.C03_mint_accepted_iff"
   ],
   "note": ""
  },
  {
   "property": "C04",
   "status": "proved",
   "theorems": [
    "Ibcx.Props.C04_burn_pays_exact_basket",
    "Ibcx.Props.burn_accepted_iff"
   ],
   "note": ""
  },
  {
   "property": "C05",
   "status": "proved",
   "theorems": [
    "Ibcx.Props.C05_mint_then_burn_no_profit"
   ],
   "note": ""
  },
  {
   "property": "C06",
   "status": "partial",
   "theorems": [
    "Ibcx.Props.C06_collateral_partial",
    "Ibcx.Props.C06_collateral_coins_partial",
    "Ibcx.Props.C06_collateral_all_routes_partial",
    "Ibcx.Props.C06_longer_routes_lose",
    "Ibcx.Props.C06_full_false"
   ],
   "note": "The full claim is false for the code (reachable witness: two mints of 3 tokens of half a unit). Proved over all chain histories with one-hop routes: the balance covers all obligations up to less than one base unit per accepted mint and a rounding of less than the supply (in 10^-18) per purchase with a swap. With longer routes the same holds up to what the trades moved in the wrong denom (C25/C26), and a history shows that this loss is real."
  },
  {
   "property": "C07",
   "status": "partial",
   "theorems": [
    "Ibcx.Props.C07_splitting_partial",
    "Ibcx.Props.C07_burn_full_false",
    "Ibcx.Props.C07_mint_full_false"
   ],
   "note": "Both halves of the full claim are false for the code and refuted by reachable witnesses; the partial theorem bounds what splitting can gain by one base unit per denom."
  },
  {
   "property": "C08",
   "status": "partial",
   "theorems": [
    "Ibcx.Props.C08_simulate_mint_exact_partial",
    "Ibcx.Props.C08_simulate_mint_deviation_partial",
    "Ibcx.Props.C08_full_false"
   ],
   "note": "Exact whenever no requirement and no fee rounds to zero; in general the receiver gets exactly one token less if a fee rounds to zero, and exactly one base unit more is kept of each asset whose requirement rounds to zero; the full claim is refuted by a reachable witness."
  },
  {
   "property": "C09",
   "status": "proved",
   "theorems": [
    "Ibcx.Props.C09_simulate_burn_exact"
   ],
   "note": ""
  },
  {
   "property": "C10",
   "status": "proved",
   "theorems": [
    "Ibcx.Props.C10_accrual_conserves"
   ],
   "note": ""
  },
  {
   "property": "C100",
   "status": "proved",
   "theorems": [
    "Ibcx.Props.C100_names",
    "Ibcx.Props.C100_separate",
    "Ibcx.Props.C100_helper_unusable"
   ],
   "note": ""
  },
  {
   "property": "C101",
   "status": "proved",
   "theorems": [
    "Ibcx.Props.C101_core_reachable",
    "Ibcx.Props.C101_airdrop_reachable",
    "Ibcx.Props.C101_core_fits",
    "Ibcx.Props.C101_airdrop_fits",
    "Ibcx.Props.C101_noise"
   ],
   "note": ""
  },
  {
   "property": "C102",
   "status": "proved",
   "theorems": [
    "Ibcx.Props.C102_core",
    "Ibcx.Props.C102_airdrop",
    "Ibcx.Props.C102_periphery",
    "Ibcx.Props.C102_core_read",
    "Ibcx.Props.C102_airdrop_read"
   ],
   "note": "The text of the reason of a refused claim is a parameter, as is the bank balance behind GetBalance."
  },
  {
   "property": "C103",
   "status": "proved",
   "theorems": [
    "Ibcx.Props.C103_core_history",
    "Ibcx.Props.C103_core_message",
    "Ibcx.Props.C103_airdrop_history",
    "Ibcx.Props.C103_airdrop_message",
    "Ibcx.Props.C103_state_determined"
   ],
   "note": ""
  },
  {
   "property": "C104",
   "status": "proved",
   "theorems": [
    "Ibcx.Props.C104_core_query",
    "Ibcx.Props.C104_core_history",
    "Ibcx.Props.C104_airdrop_query",
    "Ibcx.Props.C104_airdrop_history",
    "Ibcx.Props.C104_long_names",
    "Ibcx.Props.C104_migration"
   ],
   "note": ""
  },
  {
   "property": "C105",
   "status": "proved",
   "theorems": [
    "Ibcx.Props.C105_json",
    "Ibcx.Props.C105_one_meaning",
    "Ibcx.Props.C105_bytes",
    "Ibcx.Props.C105_decimal",
    "Ibcx.Props.C105_base64"
   ],
   "note": "The grammar is that of serde-json-wasm restricted to numbers that occur in the types of the contracts; the library itself is modelled from its documented behaviour, its source is not in the repository."
  },
  {
   "property": "C106",
   "status": "proved",
   "theorems": [
    "Ibcx.Props.C106_accepted",
    "Ibcx.Props.C106_entry"
   ],
   "note": "The tables (Spec/Schema.lean) are written from the interface package independently of the codecs of the model."
  },
  {
   "property": "C107",
   "status": "proved",
   "theorems": [
    "Ibcx.Props.C107_read",
    "Ibcx.Props.C107_unknown",
    "Ibcx.Props.C107_quoted_factors",
    "Ibcx.Props.C107_order",
    "Ibcx.Props.C107_zap_answers",
    "Ibcx.Props.C107_stable_zap_fails"
   ],
   "note": "The tables of the answers (Spec/Pools.lean) are written from the structures of the pool package independently of the codecs."
  },
  {
   "property": "C108",
   "status": "proved",
   "theorems": [
    "Ibcx.Props.C108_zap",
    "Ibcx.Props.C108_messages",
    "Ibcx.Props.C108_query",
    "Ibcx.Props.C108_version"
   ],
   "note": "Answers agree up to the kind of the failure. The balance of the contract and the estimates of concentrated pools are numbers and not read from texts."
  },
  {
   "property": "C109",
   "status": "proved",
   "theorems": [
    "Ibcx.Props.C109_messages",
    "Ibcx.Props.C109_questions",
    "Ibcx.Props.C109_reply",
    "Ibcx.Props.C109_created_unique"
   ],
   "note": "Groups, a form of field no longer in use, are refused by the model's reader, while prost skips them; recursion limits do not matter without them."
  },
  {
   "property": "C11",
   "status": "proved",
   "theorems": [
    "Ibcx.Props.C11_queries_predict"
   ],
   "note": ""
  },
  {
   "property": "C110",
   "status": "proved",
   "theorems": [
    "Ibcx.Props.C110_sha256",
    "Ibcx.Props.C110_ripemd160",
    "Ibcx.Props.C110_address"
   ],
   "note": "The crates sha2, ripemd and bech32 are not part of the repository; the model follows the standards they implement."
  },
  {
   "property": "C111",
   "status": "proved",
   "theorems": [
    "Ibcx.Props.C111_one_meaning",
    "Ibcx.Props.C111_response",
    "Ibcx.Props.C111_core",
    "Ibcx.Props.C111_airdrop",
    "Ibcx.Props.C111_periphery",
    "Ibcx.Props.C111_creation",
    "Ibcx.Props.C111_reply"
   ],
   "note": "The texts of errors are not modelled: a failure has no text. That the storage under the entry points is bytes is C103; here it is the state."
  },
  {
   "property": "C112",
   "status": "proved",
   "theorems": [
    "Ibcx.Props.C112_deflate_settles_iff",
    "Ibcx.Props.C112_inflate_settles_iff",
    "Ibcx.Props.C112_bookkeeping_settles",
    "Ibcx.Props.C112_trades_sell_only_reserve"
   ],
   "note": "Stated for the chain model of Chain/World.lean: the pools may settle a swap at any amount within its limit."
  },
  {
   "property": "C113",
   "status": "proved",
   "theorems": [
    "Ibcx.Props.C113_core_reason",
    "Ibcx.Props.C113_core_named",
    "Ibcx.Props.C113_airdrop_reason",
    "Ibcx.Props.C113_airdrop_named"
   ],
   "note": "Err keeps one kind for several causes where the Rust text differs only in its message; a coin that is attached but too small is an overflow, as in the code."
  },
  {
   "property": "C114",
   "status": "proved",
   "theorems": [
    "Ibcx.Props.C114_zap_reason",
    "Ibcx.Props.C114_zap_named",
    "Ibcx.Props.C114_sale_reason",
    "Ibcx.Props.C114_purchase_reason"
   ],
   "note": "Overflow stands for any number that does not fit and is claimed only of zaps; a payment too small in MintExactAmountOut is such an underflow in the code."
  },
  {
   "property": "C115",
   "status": "proved",
   "theorems": [
    "Ibcx.Props.C115_mint",
    "Ibcx.Props.C115_burn",
    "Ibcx.Props.C115_claim"
   ],
   "note": "An example shows that the governance account can change a price within a block."
  },
  {
   "property": "C116",
   "status": "proved",
   "theorems": [
    "Ibcx.Props.C116_worst_fee",
    "Ibcx.Props.C116_thirty_days"
   ],
   "note": ""
  },
  {
   "property": "C117",
   "status": "proved",
   "theorems": [
    "Ibcx.Props.C117_airdrops_are_isolated",
    "Ibcx.Props.C117_questions_are_isolated"
   ],
   "note": ""
  },
  {
   "property": "C118",
   "status": "proved",
   "theorems": [
    "Ibcx.Props.C118_nothing_gets_stuck",
    "Ibcx.Props.C118_all_paid_out",
    "Ibcx.Props.C118_thrown_fees_are_stuck"
   ],
   "note": "The statement is about histories without a rebalance. During a rebalance the swaps of pools decide how much comes back, and C06, C07 bound the other side."
  },
  {
   "property": "C119",
   "status": "proved",
   "theorems": [
    "Ibcx.Props.C119_holds_exactly_what_is_left",
    "Ibcx.Props.C119_all_paid_out"
   ],
   "note": ""
  },
  {
   "property": "C12",
   "status": "partial",
   "theorems": [
    "Ibcx.Props.C12_accrual_succeeds_partial",
    "Ibcx.Props.C12_idle_fee_blocks_forever_partial",
    "Ibcx.Props.C12_blocked_past_doubling_partial",
    "Ibcx.Props.C12_a_year_is_safe_partial",
    "Ibcx.Props.C12_full_false"
   ],
   "note": "Full claim refuted: after a long idle period every fee-accruing message fails in every continuation. Partial: the accrual succeeds as long as the exact compound factor is at most two and the numbers fit; as soon as the factor, less its truncation, is past two by one atomic unit, it fails for good. The limit is therefore known up to the truncation (two seconds in the example). Whatever rate is set, an accrual at most 365 days after the last one succeeds."
  },
  {
   "property": "C120",
   "status": "proved",
   "theorems": [
    "Ibcx.Props.C120_fee",
    "Ibcx.Props.C120_portfolio",
    "Ibcx.Props.C120_simulate_burn",
    "Ibcx.Props.C120_simulate_mint",
    "Ibcx.Props.C120_simulate_mint_without_funds",
    "Ibcx.Props.C120_refused_though_possible",
    "Ibcx.Props.C120_creation"
   ],
   "note": ""
  },
  {
   "property": "C121",
   "status": "proved",
   "theorems": [
    "Ibcx.Props.C121_stranded",
    "Ibcx.Props.C121_stranded_coins",
    "Ibcx.Props.C121_one_hop",
    "Ibcx.Props.C121_orphans_are_stuck"
   ],
   "note": ""
  },
  {
   "property": "C122",
   "status": "proved",
   "theorems": [
    "Ibcx.Props.C122_all_but_one",
    "Ibcx.Props.C122_round_supply",
    "Ibcx.Props.C122_anyone_can_block",
    "Ibcx.Props.C122_sale_blocks"
   ],
   "note": ""
  },
  {
   "property": "C123",
   "status": "proved",
   "theorems": [
    "Ibcx.Props.C123_get_airdrop",
    "Ibcx.Props.C123_get_airdrop_by_label",
    "Ibcx.Props.C123_get_claim"
   ],
   "note": ""
  },
  {
   "property": "C124",
   "status": "proved",
   "theorems": [
    "Ibcx.Props.C124_smallest_closable",
    "Ibcx.Props.C124_doomed_at_start",
    "Ibcx.Props.C124_anyone_can_doom",
    "Ibcx.Props.C124_small_reserve"
   ],
   "note": ""
  },
  {
   "property": "C125",
   "status": "proved",
   "theorems": [
    "Ibcx.Props.C125_claims",
    "Ibcx.Props.C125_airdrops",
    "Ibcx.Props.C125_airdrops_of"
   ],
   "note": ""
  },
  {
   "property": "C126",
   "status": "proved",
   "theorems": [
    "Ibcx.Props.C126_stays_backed",
    "Ibcx.Props.C126_one_coin_per_mint",
    "Ibcx.Props.C126_burn_paid",
    "Ibcx.Props.C126_everyone_can_leave"
   ],
   "note": ""
  },
  {
   "property": "C127",
   "status": "proved",
   "theorems": [
    "Ibcx.Props.C127_query_reason",
    "Ibcx.Props.C127_query_named",
    "Ibcx.Props.C127_small_purchase"
   ],
   "note": ""
  },
  {
   "property": "C128",
   "status": "proved",
   "theorems": [
    "Ibcx.Props.C128_sale",
    "Ibcx.Props.C128_more_for_more",
    "Ibcx.Props.C128_product",
    "Ibcx.Props.C128_there_and_back",
    "Ibcx.Props.C128_buy_and_sell",
    "Ibcx.Props.C128_in_parts"
   ],
   "note": ""
  },
  {
   "property": "C129",
   "status": "proved",
   "theorems": [
    "Ibcx.Props.C129_never_ends",
    "Ibcx.Props.C129_ended_sold_nothing"
   ],
   "note": ""
  },
  {
   "property": "C13",
   "status": "proved",
   "theorems": [
    "Ibcx.Props.C13_fee_rates_in_range"
   ],
   "note": ""
  },
  {
   "property": "C130",
   "status": "proved",
   "theorems": [
    "Ibcx.Props.C130_relay",
    "Ibcx.Props.C130_one_question",
    "Ibcx.Props.C130_nothing_else",
    "Ibcx.Props.C130_as_asked_directly",
    "Ibcx.Props.C130_through_itself",
    "Ibcx.Props.C130_creation"
   ],
   "note": ""
  },
  {
   "property": "C131",
   "status": "proved",
   "theorems": [
    "Ibcx.Props.C131_sale",
    "Ibcx.Props.C131_there_and_back",
    "Ibcx.Props.C131_purchases_win"
   ],
   "note": ""
  },
  {
   "property": "C132",
   "status": "proved",
   "theorems": [
    "Ibcx.Props.C132_many_sales",
    "Ibcx.Props.C132_nothing_won"
   ],
   "note": ""
  },
  {
   "property": "C14",
   "status": "partial",
   "theorems": [
    "Ibcx.Props.C14_fee_ledger_partial",
    "Ibcx.Props.C14_no_update_no_loss_partial",
    "Ibcx.Props.C14_realize_pays_recorded",
    "Ibcx.Props.C14_full_false"
   ],
   "note": "The ledger identity holds for every history with the amounts discarded by fee updates added; without fee updates exactly as stated; the full claim is refuted by a reachable witness."
  },
  {
   "property": "C15",
   "status": "proved",
   "theorems": [
    "Ibcx.Props.C15_pause_blocks",
    "Ibcx.Props.C15_expiry_ends",
    "Ibcx.Props.C15_not_paused_no_effect",
    "Ibcx.Props.C15_release"
   ],
   "note": ""
  },
  {
   "property": "C16",
   "status": "proved",
   "theorems": [
    "Ibcx.Props.C16_governance_handover",
    "Ibcx.Props.C16_nomination_rules"
   ],
   "note": ""
  },
  {
   "property": "C17",
   "status": "proved",
   "theorems": [
    "Ibcx.Props.C17_only_governance_changes_settings",
    "Ibcx.Props.C17_history"
   ],
   "note": ""
  },
  {
   "property": "C18",
   "status": "proved",
   "theorems": [
    "Ibcx.Props.C18_no_token_changes_during_rebalance"
   ],
   "note": ""
  },
  {
   "property": "C19",
   "status": "proved",
   "theorems": [
    "Ibcx.Props.C19_rebalance_bounds"
   ],
   "note": ""
  },
  {
   "property": "C20",
   "status": "proved",
   "theorems": [
    "Ibcx.Props.C20_finalize_meets_targets"
   ],
   "note": ""
  },
  {
   "property": "C21",
   "status": "partial",
   "theorems": [
    "Ibcx.Props.C21_dust_blocks_forever_partial",
    "Ibcx.Props.C21_closing_trade_is_exact_partial",
    "Ibcx.Props.C21_finalize_when_met_partial",
    "Ibcx.Props.C21_full_false"
   ],
   "note": "The claim is false for the code. C21_full states it, C21_full_false refutes it with a reachable state. Proved: the dust condition blocks the contract in every continuation; when a trade can close a gap; Finalize is accepted once targets are met. C98 tells exactly which gaps and leftovers can be closed."
  },
  {
   "property": "C22",
   "status": "partial",
   "theorems": [
    "Ibcx.Props.C22_positive_last_weight_partial",
    "Ibcx.Props.C22_zero_last_weight_blocks_partial",
    "Ibcx.Props.C22_full_false"
   ],
   "note": "The claim is false for the code. C22_full states it, C22_full_false refutes it. Proved: it holds when the last weight is positive; with a zero last weight every deflation is rejected in every continuation."
  },
  {
   "property": "C23",
   "status": "proved",
   "theorems": [
    "Ibcx.Props.C23_proceeds_split"
   ],
   "note": ""
  },
  {
   "property": "C24",
   "status": "proved",
   "theorems": [
    "Ibcx.Props.C24_deflate_limits",
    "Ibcx.Props.C24_inflate_limits",
    "Ibcx.Props.C24_cooldown"
   ],
   "note": ""
  },
  {
   "property": "C25",
   "status": "partial",
   "theorems": [
    "Ibcx.Props.C25_deflate_sells_reserve_partial",
    "Ibcx.Props.C25_full_false"
   ],
   "note": "The claim is false for the code. C25_full states it, C25_full_false refutes it; proved instead that the first hop of every deflation swap is the reserve denom."
  },
  {
   "property": "C26",
   "status": "partial",
   "theorems": [
    "Ibcx.Props.C26_inflate_first_hop_partial",
    "Ibcx.Props.C26_full_false"
   ],
   "note": "True for one-hop routes (proved), false for longer ones (C26_full_false)."
  },
  {
   "property": "C27",
   "status": "proved",
   "theorems": [
    "Ibcx.Props.C27_basket_well_formed",
    "Ibcx.Props.C27_finalize_error"
   ],
   "note": ""
  },
  {
   "property": "C28",
   "status": "proved",
   "theorems": [
    "Ibcx.Props.C28_fee_stands_still"
   ],
   "note": ""
  },
  {
   "property": "C29",
   "status": "partial",
   "theorems": [
    "Ibcx.Props.C29_freeze_persists_partial",
    "Ibcx.Props.C29_full_false"
   ],
   "note": "Full claim refuted: Finalize of a rebalance unfreezes a fee frozen by governance. Partial: the freeze lasts over every history without fee update and Finalize."
  },
  {
   "property": "C30",
   "status": "proved",
   "theorems": [
    "Ibcx.Props.C30_fee_update_never_retroactive"
   ],
   "note": ""
  },
  {
   "property": "C31",
   "status": "proved",
   "theorems": [
    "Ibcx.Props.C31_never_pays_more_than_funded"
   ],
   "note": ""
  },
  {
   "property": "C32",
   "status": "proved",
   "theorems": [
    "Ibcx.Props.C32_paid_at_most_once",
    "Ibcx.Props.C32_answer_is_permanent",
    "Ibcx.Props.C32_answer_is_amount",
    "Ibcx.Props.C32_records_sum_to_total"
   ],
   "note": ""
  },
  {
   "property": "C33",
   "status": "proved",
   "theorems": [
    "Ibcx.Props.C33_balance_covers_airdrops",
    "Ibcx.Props.C33_accepted_messages_are_paid"
   ],
   "note": "Chain model of Verif/Chain/AirdropWorld.lean."
  },
  {
   "property": "C34",
   "status": "proved",
   "theorems": [
    "Ibcx.Props.C34_close_returns_remainder",
    "Ibcx.Props.C34_close_is_final",
    "Ibcx.Props.C34_claims_plus_refund"
   ],
   "note": ""
  },
  {
   "property": "C35",
   "status": "proved",
   "theorems": [
    "Ibcx.Props.C35_ids_are_consecutive",
    "Ibcx.Props.C35_identity_never_changes",
    "Ibcx.Props.C35_registration_records_message",
    "Ibcx.Props.C35_bearer_registration_records_message"
   ],
   "note": ""
  },
  {
   "property": "C36",
   "status": "proved",
   "theorems": [
    "Ibcx.Props.C36_label_is_permanent",
    "Ibcx.Props.C36_label_is_unique",
    "Ibcx.Props.C36_label_resolves_to_its_airdrop",
    "Ibcx.Props.C36_label_is_owned",
    "Ibcx.Props.C36_taken_label_is_rejected",
    "Ibcx.Props.C36_label_or_id_same_effect",
    "Ibcx.Props.C36_get_label_splits_back"
   ],
   "note": ""
  },
  {
   "property": "C37",
   "status": "proved",
   "theorems": [
    "Ibcx.Props.C37_leaf_proofs_are_accepted",
    "Ibcx.Props.C37_every_leaf_has_a_path",
    "Ibcx.Props.C37_accepted_proofs_are_leaves",
    "Ibcx.Props.C37_only_leaves_are_paid",
    "Ibcx.Props.C37_every_leaf_can_be_claimed"
   ],
   "note": "The hash function is arbitrary; collisions are only excluded among the strings hashed in the tree and in the check."
  },
  {
   "property": "C38",
   "status": "proved",
   "theorems": [
    "Ibcx.Props.C38_leaf_text_is_unambiguous",
    "Ibcx.Props.C38_signed_text_is_unambiguous"
   ],
   "note": ""
  },
  {
   "property": "C39",
   "status": "proved",
   "theorems": [
    "Ibcx.Props.C39_open_claim",
    "Ibcx.Props.C39_bearer_claim"
   ],
   "note": ""
  },
  {
   "property": "C40",
   "status": "proved",
   "theorems": [
    "Ibcx.Props.C40_only_creator",
    "Ibcx.Props.C40_fund_adds_attached_coin"
   ],
   "note": ""
  },
  {
   "property": "C41",
   "status": "partial",
   "theorems": [
    "Ibcx.Props.C41_open_partial",
    "Ibcx.Props.C41_bearer_partial",
    "Ibcx.Props.C41_omitted_account_never_valid_partial",
    "Ibcx.Props.C41_valid_bearer_claim_answered_invalid",
    "Ibcx.Props.C41_invalid_bearer_claim_answered_valid",
    "Ibcx.Props.C41_full_false"
   ],
   "note": "The full claim C41_full is false for the code (refuted by reachable witnesses in both directions). Proved: it holds for open airdrops with explicit account; for bearer airdrops only when claim hash and account are the same text; with the account omitted the query never answers valid."
  },
  {
   "property": "C42",
   "status": "proved",
   "theorems": [
    "Ibcx.Props.C42_search_for_input",
    "Ibcx.Props.C42_search_for_output"
   ],
   "note": "Pools answer arbitrarily (weighted pools by the modelled formula, others by an arbitrary chain answer)."
  },
  {
   "property": "C43",
   "status": "proved",
   "theorems": [
    "Ibcx.Props.C43_spending_limits"
   ],
   "note": ""
  },
  {
   "property": "C44",
   "status": "partial",
   "theorems": [
    "Ibcx.Props.C44_least_proceeds_partial",
    "Ibcx.Props.C44_full_false"
   ],
   "note": "The full claim C44_full is false for the code (three routes of one unit each guarantee nothing). Proved: the guarantee falls short by at most one unit per message and a 10^-18 part of the simulated total."
  },
  {
   "property": "C45",
   "status": "partial",
   "theorems": [
    "Ibcx.Props.C45_mint_exact_in_any_routes_partial",
    "Ibcx.Props.C45_minimum_any_routes_partial",
    "Ibcx.Props.C45_mint_exact_in_settles_partial",
    "Ibcx.Props.C45_minimum_without_fee_partial",
    "Ibcx.Props.C45_full_false"
   ],
   "note": "The full claim C45_full is false for the code (the minimum is compared before the mint fee). Proved: the whole settlement with the minimum before the fee, and the claim itself without a mint fee, for every route."
  },
  {
   "property": "C46",
   "status": "proved",
   "theorems": [
    "Ibcx.Props.C46_basket_accepted_iff"
   ],
   "note": "Proved as stated in the parenthesis: accepted exactly when no requirement rounds down to zero (and the amounts fit)."
  },
  {
   "property": "C47",
   "status": "proved",
   "theorems": [
    "Ibcx.Props.C47_purchase_route_order",
    "Ibcx.Props.C47_sale_route_order"
   ],
   "note": ""
  },
  {
   "property": "C48",
   "status": "proved",
   "theorems": [
    "Ibcx.Props.C48_burn_exact_out_settles",
    "Ibcx.Props.C48_swaps_promise_simulation"
   ],
   "note": "For routes that pay out the desired denom."
  },
  {
   "property": "C49",
   "status": "proved",
   "theorems": [
    "Ibcx.Props.C49_finish_only_self",
    "Ibcx.Props.C49_operations_end_with_sweep"
   ],
   "note": ""
  },
  {
   "property": "C50",
   "status": "partial",
   "theorems": [
    "Ibcx.Props.C50_mint_out_full_false",
    "Ibcx.Props.C50_mint_in_full_false",
    "Ibcx.Props.C50_mint_out_without_fee_partial",
    "Ibcx.Props.C50_mint_out_of_named_amount_partial",
    "Ibcx.Props.C50_burn_in_agrees",
    "Ibcx.Props.C50_mint_in_deviation_partial",
    "Ibcx.Props.C50_mint_in_amounts_partial",
    "Ibcx.Props.C50_burn_out_deviation_partial"
   ],
   "note": "Both full claims are false for the code with a mint fee. Proved: agreement of MintExactAmountOut without fee; with a fee, agreement with the purchase of the amount that the answer names (the asked amount less the fee); and agreement of BurnExactAmountIn with any fee. The searches of query and execution start from different amounts; proved: the simulated costs (proceeds) of the two amounts found differ by less than 5000, and if the cost grows by at least g per index token, the amounts differ by less than 5000/g."
  },
  {
   "property": "C51",
   "status": "proved",
   "theorems": [
    "Ibcx.Props.C51_swap_exact_in",
    "Ibcx.Props.C51_swap_exact_out",
    "Ibcx.Props.C51_formula_within_balance",
    "Ibcx.Props.C51_sequences_conserve",
    "Ibcx.Props.C51_same_denom_not_deducted"
   ],
   "note": "Pools list each denom once; C51_same_denom_not_deducted shows that the condition on different denoms is needed."
  },
  {
   "property": "C52",
   "status": "proved",
   "theorems": [
    "Ibcx.Props.C52_integer_power_below_one",
    "Ibcx.Props.C52_integer_power_above_one",
    "Ibcx.Props.C52_exponent_between_one_and_two",
    "Ibcx.Props.C52_power_lower_bound",
    "Ibcx.Props.C52_full_false"
   ],
   "note": "Includes the negative part of the statement: for exponents strictly between one and two the factor base is dropped, so accuracy for all exponents (C52_full) is refuted."
  },
  {
   "property": "C53",
   "status": "proved",
   "theorems": [
    "Ibcx.Props.C53_series_stops_in_range",
    "Ibcx.Props.C53_zero_exponent",
    "Ibcx.Props.C53_exact_sum"
   ],
   "note": "Stronger than the statement: also a lower bound by the exact real power for bases up to one and an upper bound for bases above one, and the exact sum that is computed."
  },
  {
   "property": "C54",
   "status": "proved",
   "theorems": [
    "Ibcx.Props.C54_page_size",
    "Ibcx.Props.C54_page_content",
    "Ibcx.Props.C54_following_pages_lists_everything",
    "Ibcx.Props.C54_trade_infos",
    "Ibcx.Props.C54_airdrops",
    "Ibcx.Props.C54_claims",
    "Ibcx.Props.C54_labels",
    "Ibcx.Props.C54_airdrops_by_label"
   ],
   "note": ""
  },
  {
   "property": "C55",
   "status": "proved",
   "theorems": [
    "Ibcx.Props.C55_versions_are_totally_ordered",
    "Ibcx.Props.C55_precedence",
    "Ibcx.Props.C55_numbers_decide",
    "Ibcx.Props.C55_unforced_migration",
    "Ibcx.Props.C55_versions_only_move_forward",
    "Ibcx.Props.C55_no_return",
    "Ibcx.Props.C55_force_accepts_anything"
   ],
   "note": ""
  },
  {
   "property": "C56",
   "status": "proved",
   "theorems": [
    "Ibcx.Props.C56_pool_ids",
    "Ibcx.Props.C56_every_hop_finds_its_pool"
   ],
   "note": "Assumes that the chain answers an id with the pool of that id."
  },
  {
   "property": "C57",
   "status": "proved",
   "theorems": [
    "Ibcx.Props.C57_one_hop_deflation_always_fails"
   ],
   "note": "Chain model: pools reject swaps of a denom for itself."
  },
  {
   "property": "C58",
   "status": "proved",
   "theorems": [
    "Ibcx.Props.C58_bearer_signature_replays"
   ],
   "note": ""
  },
  {
   "property": "C59",
   "status": "proved",
   "theorems": [
    "Ibcx.Props.C59_paid_at_most_tree_total"
   ],
   "note": ""
  },
  {
   "property": "C60",
   "status": "proved",
   "theorems": [
    "Ibcx.Props.C60_equal_weights_out",
    "Ibcx.Props.C60_equal_weights_in"
   ],
   "note": ""
  },
  {
   "property": "C61",
   "status": "proved",
   "theorems": [
    "Ibcx.Props.C61_output_at_most_exact"
   ],
   "note": ""
  },
  {
   "property": "C62",
   "status": "proved",
   "theorems": [
    "Ibcx.Props.C62_mint_exact_out_settles",
    "Ibcx.Props.C62_mint_exact_out_any_routes"
   ],
   "note": ""
  },
  {
   "property": "C63",
   "status": "proved",
   "theorems": [
    "Ibcx.Props.C63_burn_exact_in_settles",
    "Ibcx.Props.C48_burn_exact_out_settles"
   ],
   "note": ""
  },
  {
   "property": "C64",
   "status": "partial",
   "theorems": [
    "Ibcx.Props.C64_full_false",
    "Ibcx.Props.C48_burn_exact_out_settles"
   ],
   "note": "The full claim C64_full is false for the code (1717 asked, 1715 received). Proved: the proceeds are at least those simulated for the sold amount, which is, up to three tokens and a 10^-18 part, one whose simulated proceeds miss the desired amount by less than 5000."
  },
  {
   "property": "C65",
   "status": "partial",
   "theorems": [
    "Ibcx.Props.C65_full_false",
    "Ibcx.Props.C65_other_balances_kept_partial",
    "Ibcx.Props.C65_other_balances_any_routes_partial"
   ],
   "note": "The full claim C65_full is false for the code. Proved for routes that pay with the input denom; for every route, only denoms with which a supplied route starts can fall, in total by at most the attached amount."
  },
  {
   "property": "C66",
   "status": "proved",
   "theorems": [
    "Ibcx.Props.C66_config_query"
   ],
   "note": ""
  },
  {
   "property": "C67",
   "status": "proved",
   "theorems": [
    "Ibcx.Props.C67_pool_kind",
    "Ibcx.Props.C67_unknown_pools_are_dropped"
   ],
   "note": ""
  },
  {
   "property": "C68",
   "status": "partial",
   "theorems": [
    "Ibcx.Props.C68_full_false",
    "Ibcx.Props.C68_collecting_more_often_partial"
   ],
   "note": "The full claim C68_full is false for the code. Proved: collecting more often never leaves the holders less, up to rounding."
  },
  {
   "property": "C69",
   "status": "partial",
   "theorems": [
    "Ibcx.Props.C69_full_false",
    "Ibcx.Props.C69_core_ignores_stray_coins_partial",
    "Ibcx.Props.C69_airdrop_ignores_stray_coins_partial",
    "Ibcx.Props.C69_gov_coins_stay_partial"
   ],
   "note": "The full claim C69_full is false for the code. Proved: exactly which messages ignore coins, that the coins stay, and what Burn and Mint accept."
  },
  {
   "property": "C70",
   "status": "proved",
   "theorems": [
    "Ibcx.Props.C70_sale_simulation",
    "Ibcx.Props.C70_purchase_simulation"
   ],
   "note": ""
  },
  {
   "property": "C71",
   "status": "proved",
   "theorems": [
    "Ibcx.Props.C71_search_for_input",
    "Ibcx.Props.C71_search_for_output",
    "Ibcx.Props.C71_revised_purchase",
    "Ibcx.Props.C71_revised_sale"
   ],
   "note": ""
  },
  {
   "property": "C72",
   "status": "proved",
   "theorems": [
    "Ibcx.Props.C72_hop_text",
    "Ibcx.Props.C72_round_trip"
   ],
   "note": ""
  },
  {
   "property": "C73",
   "status": "partial",
   "theorems": [
    "Ibcx.Props.C73_series_accuracy_half_partial",
    "Ibcx.Props.C73_series_accuracy_above",
    "Ibcx.Props.C73_series_accuracy_below",
    "Ibcx.Props.C73_full_false",
    "Ibcx.Props.C52_power_accuracy_below",
    "Ibcx.Props.C52_power_accuracy_above"
   ],
   "note": "The full claim C73_full is false for the code: near base zero the series is cut off too early (the computed square root of 0.01 is off by 8 units of the seventh place). Proved: the claim for bases from 1/2 on, and for smaller bases the same error divided by the base; both carried over to the whole power function outside exponents strictly between one and two."
  },
  {
   "property": "C74",
   "status": "partial",
   "theorems": [
    "Ibcx.Props.C74_sale_accuracy_partial",
    "Ibcx.Props.C74_purchase_accuracy_partial",
    "Ibcx.Props.C74_sale_between_one_and_two",
    "Ibcx.Props.C74_purchase_between_one_and_two",
    "Ibcx.Props.C74_full_false"
   ],
   "note": "The full claim C74_full is false for the code when the ratio of the weights is strictly between one and two (the power function then drops a factor). Proved for all other ratios; for ratios between one and two (by at least 10^-18) the price is shown to follow, as closely, the formula with the ratio less one."
  },
  {
   "property": "C75",
   "status": "partial",
   "theorems": [
    "Ibcx.Props.C75_square_root",
    "Ibcx.Props.C75_decimal_square_root",
    "Ibcx.Props.C75_any_square_root",
    "Ibcx.Props.C75_reserves",
    "Ibcx.Props.C75_other_balances",
    "Ibcx.Props.C75_all_balances",
    "Ibcx.Props.C75_sale_solved",
    "Ibcx.Props.C75_purchase_solved",
    "Ibcx.Props.C75_powers",
    "Ibcx.Props.C75_constant",
    "Ibcx.Props.C75_solver_bounds_partial",
    "Ibcx.Props.C75_within_balance_partial",
    "Ibcx.Props.C75_purchase_within_balance_partial",
    "Ibcx.Props.C75_purchase_answer_loses",
    "Ibcx.Props.C75_third_root_of_two",
    "Ibcx.Props.C75_full_false"
   ],
   "note": "The last part of the claim (C75_full) is false for the code: the solver takes fourth roots where the formula needs third roots and pays 0.6 for 0.1 from a balanced pool; for purchases no answer can be a price (C75_purchase_answer_loses). The code is not reachable from the contracts. Proved: the other parts."
  },
  {
   "property": "C76",
   "status": "proved",
   "theorems": [
    "Ibcx.Props.C76_init_accepted_iff",
    "Ibcx.Props.C76_finalize_accepted_iff"
   ],
   "note": "Added to pin acceptance conditions that a changed validation could drop unnoticed."
  },
  {
   "property": "C77",
   "status": "proved",
   "theorems": [
    "Ibcx.Props.C77_deflate_reserve_accepted_iff",
    "Ibcx.Props.C77_deflate_accepted_iff",
    "Ibcx.Props.C77_inflate_reserve_accepted_iff",
    "Ibcx.Props.C77_inflate_accepted_iff"
   ],
   "note": ""
  },
  {
   "property": "C78",
   "status": "proved",
   "theorems": [
    "Ibcx.Props.C78_governance_accepted_iff"
   ],
   "note": "The conditions and effects per message are listed in govEffect, beside the theorem."
  },
  {
   "property": "C79",
   "status": "proved",
   "theorems": [
    "Ibcx.Props.C79_burn_accepted_iff",
    "Ibcx.Props.C79_realize_accepted_iff",
    "Ibcx.Props.C79_instantiate_accepted_iff",
    "Ibcx.Props.C79_reply_accepted_iff"
   ],
   "note": "Mint is C03."
  },
  {
   "property": "C80",
   "status": "proved",
   "theorems": [
    "Ibcx.Props.C80_register_open_accepted_iff",
    "Ibcx.Props.C80_register_bearer_accepted_iff",
    "Ibcx.Props.C80_fund_accepted_iff",
    "Ibcx.Props.C80_open_claim_accepted_iff",
    "Ibcx.Props.C80_bearer_claim_accepted_iff",
    "Ibcx.Props.C80_close_accepted_iff"
   ],
   "note": "Hash, signature check and address derivation are arbitrary functions."
  },
  {
   "property": "C81",
   "status": "proved",
   "theorems": [
    "Ibcx.Props.C81_every_accepted_message_has_an_event",
    "Ibcx.Props.C81_event_names_message_and_sender",
    "Ibcx.Props.C81_mint_event",
    "Ibcx.Props.C81_burn_event",
    "Ibcx.Props.C81_trade_event",
    "Ibcx.Props.C81_other_events",
    "Ibcx.Props.C81_events_rebuild_supply_and_settings",
    "Ibcx.Props.C81_supply_is_mints_less_burns",
    "Ibcx.Props.C81_fees_are_not_reported",
    "Ibcx.Props.C81_creation_event"
   ],
   "note": ""
  },
  {
   "property": "C82",
   "status": "partial",
   "theorems": [
    "Ibcx.Props.C82_every_accepted_message_has_an_event",
    "Ibcx.Props.C82_register_event",
    "Ibcx.Props.C82_fund_event",
    "Ibcx.Props.C82_claim_event",
    "Ibcx.Props.C82_close_event",
    "Ibcx.Props.C82_events_rebuild_the_airdrops",
    "Ibcx.Props.C82_full_false",
    "Ibcx.Props.C82_action_partial",
    "Ibcx.Props.C82_denom_is_not_reported"
   ],
   "note": "All but the last sentence proved; that every event is found under the key action is false for Close."
  },
  {
   "property": "C83",
   "status": "partial",
   "theorems": [
    "Ibcx.Props.C83_every_accepted_operation_has_an_event",
    "Ibcx.Props.C83_mint_exact_in_event",
    "Ibcx.Props.C83_mint_exact_out_event",
    "Ibcx.Props.C83_burn_exact_in_event",
    "Ibcx.Props.C83_burn_exact_out_event",
    "Ibcx.Props.C83_finish_event",
    "Ibcx.Props.C83_coin_text_determines_coin",
    "Ibcx.Props.C83_reported_output_partial",
    "Ibcx.Props.C83_full_false"
   ],
   "note": "False for MintExactAmountOut with a fee: the reported output is up to one token below what the caller receives. Proved for arbitrary routes: the two differ by at most one, and not at all when the fee comes to less than one token."
  },
  {
   "property": "C84",
   "status": "proved",
   "theorems": [
    "Ibcx.Props.C84_mint_exact_out_accepted_iff",
    "Ibcx.Props.C84_mint_exact_in_accepted_iff",
    "Ibcx.Props.C84_burn_exact_in_accepted_iff",
    "Ibcx.Props.C84_burn_exact_out_accepted_iff"
   ],
   "note": "Attached amounts and amounts in messages fit 128 bits. FinishOperation is C49."
  },
  {
   "property": "C85",
   "status": "proved",
   "theorems": [
    "Ibcx.Props.C85_simulate_mint_exact_in_iff",
    "Ibcx.Props.C85_simulate_mint_exact_out_iff",
    "Ibcx.Props.C85_simulate_burn_exact_in_iff",
    "Ibcx.Props.C85_simulate_burn_exact_out_iff"
   ],
   "note": ""
  },
  {
   "property": "C86",
   "status": "partial",
   "theorems": [
    "Ibcx.Props.C86_exact_output",
    "Ibcx.Props.C86_exact_input_partial",
    "Ibcx.Props.C86_full_false"
   ],
   "note": "False for MintExactAmountIn; proved there: at most 10000 above the simulated cost."
  },
  {
   "property": "C87",
   "status": "proved",
   "theorems": [
    "Ibcx.Props.C87_address_decodes",
    "Ibcx.Props.C87_same_address_iff",
    "Ibcx.Props.C87_address_shape",
    "Ibcx.Props.C87_signer_is_key_address"
   ],
   "note": "SHA-256, RIPEMD-160 and Bech32 are modelled in full; the signature check stays arbitrary. The decoder is a separate specification of Bech32."
  },
  {
   "property": "C88",
   "status": "proved",
   "theorems": [
    "Ibcx.Props.C88_registration_signature_replays"
   ],
   "note": "Describes what the code allows."
  },
  {
   "property": "C89",
   "status": "proved",
   "theorems": [
    "Ibcx.Props.C89_no_fee_no_change",
    "Ibcx.Props.C89_dilution_is_the_fee"
   ],
   "note": "The spread between the bounds is real: the charge depends on how often the fee is collected (C68)."
  },
  {
   "property": "C90",
   "status": "proved",
   "theorems": [
    "Ibcx.Props.C90_everyone_can_claim",
    "Ibcx.Props.C90_every_bearer_can_claim",
    "Ibcx.Props.C90_everyone_is_paid"
   ],
   "note": "The creator may close the airdrop at any time (C34), which ends all claims. An account listed twice is paid once (C32)."
  },
  {
   "property": "C91",
   "status": "proved",
   "theorems": [
    "Ibcx.Props.C91_mint_settles",
    "Ibcx.Props.C91_mint_exchange",
    "Ibcx.Props.C91_burn_settles_iff",
    "Ibcx.Props.C91_burn_exchange",
    "Ibcx.Props.C91_burn_always_paid",
    "Ibcx.Props.C91_realize_settles_iff"
   ],
   "note": "The condition of C91_burn_always_paid is not met by burns of the very last tokens: these can fail (C06)."
  },
  {
   "property": "C92",
   "status": "proved",
   "theorems": [
    "Ibcx.Props.C92_parse_iff",
    "Ibcx.Props.C92_parse_injective",
    "Ibcx.Props.C92_unforced_migration",
    "Ibcx.Props.C92_one_way"
   ],
   "note": "The parser is that of the crate semver 1.0.21, which is not part of the repository; it is modelled from its published source."
  },
  {
   "property": "C93",
   "status": "proved",
   "theorems": [
    "Ibcx.Props.C93_places",
    "Ibcx.Props.C93_core_reads",
    "Ibcx.Props.C93_core_listing",
    "Ibcx.Props.C93_airdrop_reads",
    "Ibcx.Props.C93_airdrop_listings"
   ],
   "note": "The key layout is that of the crate cw-storage-plus 1.2.0, which is not part of the repository; it is modelled from its source. Values are not serialized."
  },
  {
   "property": "C94",
   "status": "proved",
   "theorems": [
    "Ibcx.Props.C94_message",
    "Ibcx.Props.C94_history"
   ],
   "note": "IndexedMap is that of the crate cw-storage-plus 1.2.0, modelled from its source."
  },
  {
   "property": "C95",
   "status": "proved",
   "theorems": [
    "Ibcx.Props.C95_volume",
    "Ibcx.Props.C95_rewrite_forgets"
   ],
   "note": "The volume counts the amount of the reserve denom in the trade message (amount_out of a sale, amount_in of a purchase), the side to which max_trade_amount applies. C95_rewrite_forgets shows that the hypothesis on rewrites is needed."
  },
  {
   "property": "C96",
   "status": "proved",
   "theorems": [
    "Ibcx.Props.C96_config_tells_the_last",
    "Ibcx.Props.C96_fee_tells_the_last",
    "Ibcx.Props.C96_rebalance_tells_the_last",
    "Ibcx.Props.C96_routes_tell_the_last",
    "Ibcx.Props.C96_at_creation",
    "Ibcx.Props.C96_latest_id"
   ],
   "note": ""
  },
  {
   "property": "C97",
   "status": "proved",
   "theorems": [
    "Ibcx.Props.C97_creation",
    "Ibcx.Props.C97_message",
    "Ibcx.Props.C97_history",
    "Ibcx.Props.C97_queries",
    "Ibcx.Props.C97_migration",
    "Ibcx.Props.C97_long_denoms"
   ],
   "note": "Values lie under the byte keys as records, their JSON encoding is not modelled. The denoms of messages are taken to be at most 65535 bytes long (the chain allows 128); C97_long_denoms tells what happens beyond."
  },
  {
   "property": "C98",
   "status": "proved",
   "theorems": [
    "Ibcx.Props.C98_closable_iff",
    "Ibcx.Props.C98_closable_of_divisor",
    "Ibcx.Props.C98_open_gap_blocks",
    "Ibcx.Props.C98_leftover_blocks",
    "Ibcx.Props.C98_last_phase",
    "Ibcx.Props.C98_one_purchase"
   ],
   "note": "C98_last_phase and C98_one_purchase take the numbers of the basket and of the reserve over the supply to be below 2^128; the completing run is made on a market at par."
  },
  {
   "property": "C99",
   "status": "proved",
   "theorems": [
    "Ibcx.Props.C99_understood",
    "Ibcx.Props.C99_written",
    "Ibcx.Props.C99_distinct",
    "Ibcx.Props.C99_in_range",
    "Ibcx.Props.C99_mint_read",
    "Ibcx.Props.C99_amount_read"
   ],
   "note": "The reader is serde-json-wasm 0.5.1 as the derived readers use it; negative and fractional plain numbers, which no field takes, are refused while reading."
  }
 ]
}