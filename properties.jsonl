{"id": "C01", "title": "Recorded supply equals minted minus burned", "statement": "After any sequence of accepted and rejected messages, the amount answered by GetTotalSupply equals the total amount of index tokens the contract has asked the token factory to mint minus the total it has asked to burn, and therefore equals the index denom's circulating supply in the bank.", "quantifier": "every finite history of core messages from any senders with any funds, at any block times, starting at instantiation", "why_tests_cant": "A test fixes one short sequence of calls; the claim is an invariant of unbounded histories including failed messages and interleavings with governance and rebalance messages.", "anchors": ["contracts/core/src/execute/token.rs: mint, burn", "contracts/core/src/contract.rs: instantiate, execute", "contracts/core/src/query.rs: get_total_supply"]}
{"id": "C02", "title": "Mint takes exactly the required basket and refunds the rest", "statement": "When Mint{amount} succeeds, for every denom the contract keeps exactly max(1, floor(unit*amount)) of each index denom and nothing of any other denom: funds attached = kept + refunded, coin by coin. The minted amount equals the fee sent to the collector plus the amount sent to the receiver, and the fee is max(1, floor(rate*amount)) when a mint fee is set and 0 otherwise.", "quantifier": "every reachable state, every sender, amount, receiver, refund address and attached funds", "why_tests_cant": "Rounding and refund behaviour depends on every combination of units, amounts and funds; tests sample a handful of them.", "anchors": ["contracts/core/src/execute/token.rs: mint", "contracts/core/src/state/units.rs: calc_require_amount, calc_refund_amount"]}
{"id": "C03", "title": "Mint is accepted exactly when its published conditions hold", "statement": "Mint{amount} succeeds if and only if the contract is not paused at the block time, no rebalance is active, the optional addresses are valid, every index denom is attached with at least max(1, floor(unit*amount)), no non-index denom is attached, the mint fee does not exceed amount, the pending streaming fee can be collected, and no 128-bit overflow occurs. On success the state changes only in the streaming-fee accrual and the supply.", "quantifier": "every state and every Mint message with its environment", "why_tests_cant": "An if-and-only-if over all states and inputs needs both directions; tests check selected accept and reject cases only.", "anchors": ["contracts/core/src/execute/token.rs: mint", "contracts/core/src/state/units.rs: calc_refund_amount", "contracts/core/src/state/pause.rs: refresh"]}
{"id": "C04", "title": "Burn pays exactly the redeemable basket", "statement": "When Burn succeeds, the index tokens received split exactly into the burned amount and the fee sent to the collector (fee = floor(rate*received)), the redeemer receives exactly floor(unit*burned) of each index denom, in denom order, and the recorded supply drops by exactly the burned amount.", "quantifier": "every reachable state, every sender, redeem address and attached funds", "why_tests_cant": "The exact split and rounding must hold for all amounts, rates and units; tests check a few numbers.", "anchors": ["contracts/core/src/execute/token.rs: burn", "contracts/core/src/state/units.rs: calc_require_amount"]}
{"id": "C05", "title": "A mint followed by a burn never returns more than was paid", "statement": "If a user mints and then burns any amount not larger than the amount received, before any unit changes, then for every denom the redeemed amount is at most the amount kept by the contract at mint time.", "quantifier": "every state, mint amount, fee setting and later burn of at most the minted amount", "why_tests_cant": "This is an inequality over all amounts and units with two rounding steps; examples cannot exclude a profitable rounding pattern.", "anchors": ["contracts/core/src/execute/token.rs: mint, burn"]}
{"id": "C06", "title": "Full collateralisation", "statement": "README: the index token is fully collateralised. At every point of every history, for each index denom the contract's bank balance is at least floor(unit*supply) plus the uncollected streaming fee recorded for that denom. (The code rounds mint requirements down, so the strongest true form allows a shortfall of less than one base unit per mint performed so far.)", "quantifier": "every history of mint, burn, realize, governance, pause and rebalance bookkeeping messages, with arbitrary third-party transfers into the contract", "why_tests_cant": "Rounding losses accumulate over histories of arbitrary length; a test with a handful of mints cannot show or exclude the drift.", "anchors": ["README.md", "contracts/core/src/execute/token.rs: mint, burn", "contracts/core/src/state/units.rs: calc_require_amount, calc_refund_amount", "contracts/core/src/state/fee.rs: StreamingFee::collect"]}
{"id": "C07", "title": "Splitting a burn is never profitable; splitting a mint is never cheaper", "statement": "Burning x and y separately pays at most what burning x+y at once pays, per denom. Minting x and y separately costs at least what minting x+y at once costs, per denom. (Both halves are false for the code: rounding of the fee makes split burns pay more, rounding of the requirement makes split mints cheaper; by how much they can fail is bounded by one base unit per denom per split.)", "quantifier": "all units, all amounts, all fee settings", "why_tests_cant": "Superadditivity of rounding over all amounts cannot be sampled.", "anchors": ["contracts/core/src/execute/token.rs: mint, burn", "contracts/core/src/state/units.rs: calc_require_amount"]}
{"id": "C08", "title": "SimulateMint predicts Mint", "statement": "If SimulateMint(amount, funds, now) answers, then executing Mint(amount) with these funds in the same block sends the receiver exactly mint_amount, refunds exactly refund_amount and keeps exactly fund_spent. (False for the code when a fee or a requirement rounds to zero; true whenever no rounding reaches zero.)", "quantifier": "every state, amount and funds", "why_tests_cant": "Agreement between two separately written code paths on all inputs.", "anchors": ["contracts/core/src/query.rs: simulate_mint", "contracts/core/src/execute/token.rs: mint"]}
{"id": "C09", "title": "SimulateBurn predicts Burn", "statement": "If the contract is neither paused nor rebalancing, SimulateBurn(amount, now) answers exactly when Burn with that amount of index tokens would compute its payout, and its burn_amount and redeem_amount are exactly the burned amount and (up to order) the coins sent by Burn in the same block.", "quantifier": "every state and amount", "why_tests_cant": "Agreement between two separately written code paths on all inputs.", "anchors": ["contracts/core/src/query.rs: simulate_burn", "contracts/core/src/execute/token.rs: burn"]}
{"id": "C10", "title": "Streaming fee accrual conserves units and never touches frozen or same-second states", "statement": "Each accrual moves, for every index denom, exactly the fee part out of the unit: new unit + fee unit = old unit; the recorded collectable amount of the denom grows by exactly floor(fee unit * supply); denoms, their order and the supply are unchanged. If the fee is frozen or no time passed nothing changes at all. A second accrual in the same second changes nothing.", "quantifier": "all units, rates, supplies, times and previously collected amounts", "why_tests_cant": "Quantifies over all numeric inputs and over repeated accrual.", "anchors": ["contracts/core/src/state/fee.rs: StreamingFee::collect", "contracts/core/src/execute/fee.rs: collect_streaming_fee"]}
{"id": "C11", "title": "Queries at time t answer what execution at time t would see", "statement": "GetPortfolio(t) and GetFee(t) answer exactly the units and fee record that any fee-accruing message executed at block time t works with, for every t not before the last accrual.", "quantifier": "every state and every query time", "why_tests_cant": "Agreement of query and execute paths for all states and times.", "anchors": ["contracts/core/src/query.rs: get_fee, get_portfolio", "contracts/core/src/execute/fee.rs: collect_streaming_fee"]}
{"id": "C12", "title": "Fee accrual never blocks users", "statement": "Mint, Burn, Realize, rebalance Init and fee updates are never made impossible by the pending streaming fee. (False for the code: after a long enough idle period the accrued rate exceeds one, accrual fails, and every later Mint, Burn, Realize, Init and UpdateFeeStrategy fails; no message can repair it. The true part: accrual succeeds whenever elapsed*rate is at most one half.)", "quantifier": "all rates within the permitted maximum, all idle periods, all histories of later messages", "why_tests_cant": "The failure needs an idle period of a year or more and a statement about all continuations of the history.", "anchors": ["contracts/core/src/state/fee.rs: StreamingFee::collect, check_rates", "contracts/core/src/contract.rs: execute"]}
{"id": "C13", "title": "Fee rates stay in range", "statement": "In every reachable state the mint and burn fee, when set, are strictly between 0 and 1, and the streaming fee rate, when set, is positive and at most 0.000000021979553 per second.", "quantifier": "every history from instantiation", "why_tests_cant": "Invariant over unbounded histories of fee updates.", "anchors": ["contracts/core/src/state/fee.rs: rate_checker, check_rates", "contracts/core/src/execute/gov/update.rs: update_fee", "contracts/core/src/contract.rs: instantiate"]}
{"id": "C14", "title": "Accrued streaming fees are paid out exactly once and never lost", "statement": "Only the collector can realize fees; a realize pays exactly the recorded collectable amounts and resets them. Over every history, for each denom, total accrued = total paid to collectors + currently recorded. (False for the code: a fee update silently discards the recorded amounts; true for histories in which nothing is recorded at the moments of fee update, and in general with the discarded amounts added.)", "quantifier": "every history and every denom", "why_tests_cant": "A ledger identity over unbounded histories.", "anchors": ["contracts/core/src/execute/fee.rs: realize_streaming_fee", "contracts/core/src/execute/gov/update.rs: update_fee", "contracts/core/src/state/fee.rs: StreamingFee::collect"]}
{"id": "C15", "title": "Pause blocks minting and burning exactly until expiry", "statement": "From a successful Pause until Release or until the block time reaches the expiry, no Mint or Burn succeeds whatever other messages are processed; from the expiry time on, pause no longer blocks them. Only the governance account can pause or release, and a pause cannot be set to expire at or before the current time.", "quantifier": "every history after the pause, every block time before/after expiry", "why_tests_cant": "Statement about all continuations and the exact boundary second.", "anchors": ["contracts/core/src/execute/gov/pause.rs: pause, release", "contracts/core/src/state/pause.rs: refresh, assert_not_paused", "contracts/core/src/execute/token.rs: mint, burn"]}
{"id": "C16", "title": "Governance changes hands only by nomination and acceptance", "statement": "In every history, if the governance account changes from g to h then some earlier message UpdateGov(h) was sent by the governance account of that time, it was not revoked or consumed in between, and h itself sent AcceptGov. At most one nomination is pending.", "quantifier": "every history and every pair of consecutive governance accounts", "why_tests_cant": "Temporal statement about unbounded histories and all senders.", "anchors": ["contracts/core/src/execute/gov/update.rs: update_gov, accept_gov, revoke_gov"]}
{"id": "C17", "title": "Nobody but governance changes settings", "statement": "A message from an account that is neither the governance account nor the pending governance account never changes the governance account, the nomination, pause state, fee settings (collector, rates), reserve denom, the set of trade routes with their limits, nor starts a rebalance or changes its manager.", "quantifier": "every state, every sender other than governance, every message", "why_tests_cant": "Must hold for every message and sender in every state.", "anchors": ["contracts/core/src/contract.rs: execute", "contracts/core/src/execute/gov/update.rs", "contracts/core/src/execute/gov/pause.rs", "contracts/core/src/execute/rebalance/init.rs: init"]}
{"id": "C18", "title": "No minting or burning during a rebalance; supply constant", "statement": "From a successful rebalance Init until the Finalize, no Mint or Burn succeeds and the recorded supply does not change, whatever messages are processed.", "quantifier": "every history between Init and Finalize", "why_tests_cant": "Statement over all interleavings.", "anchors": ["contracts/core/src/execute/token.rs: mint, burn", "contracts/core/src/execute/rebalance/init.rs: init", "contracts/core/src/execute/rebalance/finalize.rs: finalize"]}
{"id": "C19", "title": "A rebalance only moves the listed denoms, within their bounds", "statement": "During a rebalance the unit of each deflation denom never rises above its starting value and never falls below its target; denoms in neither list keep their unit; denoms of the inflation list never lose units; no new denom other than inflation denoms enters the basket.", "quantifier": "every sequence of messages between Init and Finalize, with arbitrary answers of the swap estimator", "why_tests_cant": "Invariant of unbounded trade sequences under arbitrary market answers.", "anchors": ["contracts/core/src/execute/rebalance/trade/deflate.rs: deflate, deflate_reserve", "contracts/core/src/execute/rebalance/trade/inflate.rs: inflate, inflate_reserve", "contracts/core/src/state/rebalance.rs: Rebalance::validate"]}
{"id": "C20", "title": "Finalize means the targets are met exactly", "statement": "If Finalize succeeds, every deflation denom's unit equals its target exactly (and the denom is gone from the basket if the target is zero), no amount is left in the rebalance reserve, all other units are as before, and no zero unit remains.", "quantifier": "every history Init ... Finalize", "why_tests_cant": "Needs the invariant that units never fall below the target along any trade sequence.", "anchors": ["contracts/core/src/execute/rebalance/finalize.rs: finalize", "contracts/core/src/execute/rebalance/trade/deflate.rs", "contracts/core/src/execute/rebalance/trade/inflate.rs"]}
{"id": "C21", "title": "A started rebalance can always be completed", "statement": "From every state with an active rebalance there is a sequence of messages and market answers that completes it, so holders are never locked out of burning. (False for the code: if a deflation gap times supply is less than one base unit, no further trade can close it, Finalize fails forever, there is no cancel message, and no Mint or Burn succeeds in any continuation.)", "quantifier": "every continuation of every reachable state satisfying the dust condition", "why_tests_cant": "A claim about all infinite futures; tests see one trace.", "anchors": ["contracts/core/src/execute/rebalance/trade/deflate.rs: deflate", "contracts/core/src/execute/rebalance/finalize.rs: finalize", "contracts/core/src/execute/token.rs: burn"]}
{"id": "C22", "title": "Accepted rebalances have usable weights", "statement": "If Init accepts the inflation weights then distributing proceeds over them does not fail. (False for the code: if the weights sum to zero, or the last weight is zero, every deflation fails with a division by zero, so the rebalance can never complete unless no deflation is needed.)", "quantifier": "all weight lists accepted by Init, all trades", "why_tests_cant": "Needs reasoning about every trade in every continuation.", "anchors": ["contracts/core/src/state/rebalance.rs: Rebalance::validate", "contracts/core/src/execute/rebalance/trade/deflate.rs: inflate_reserve_unit"]}
{"id": "C23", "title": "Proceeds are split over inflation weights without creating value", "statement": "Splitting the proceeds of a deflation over the inflation denoms never credits more in total than the proceeds, credits only the listed denoms, and loses at most a bounded number of smallest decimal steps.", "quantifier": "all proceeds and weight lists", "why_tests_cant": "Repeated rounding division over lists of arbitrary length.", "anchors": ["contracts/core/src/execute/rebalance/trade/deflate.rs: inflate_reserve_unit"]}
{"id": "C24", "title": "Trades respect size limit, slippage limit and cooldown", "statement": "Every successful Deflate/Inflate swap trades at most the configured maximum, spends at most max_amount_in (resp. is required to return at least min_amount_out), and any two successful swaps over the same stored pair are at least the cooldown apart unless governance rewrote the pair in between.", "quantifier": "every history, every pair, arbitrary estimator answers", "why_tests_cant": "Temporal statement about unbounded histories.", "anchors": ["contracts/core/src/execute/rebalance/trade/deflate.rs: deflate", "contracts/core/src/execute/rebalance/trade/inflate.rs: inflate", "contracts/core/src/state/rebalance.rs: TradeInfo"]}
{"id": "C25", "title": "Deflating a denom sells that denom", "statement": "The swap sent by Deflate{target_denom} sells target_denom (its first hop's input is target_denom). (False for the code in every reachable state: routes are stored under their first hop's denom, so the route found for (target, reserve) always starts with the reserve denom.)", "quantifier": "every history of governance route updates and trades", "why_tests_cant": "Relates the key under which routes are stored with the contents of the message, for all histories.", "anchors": ["contracts/core/src/execute/gov/update.rs: update_trade_info", "contracts/core/src/execute/rebalance/trade/deflate.rs: deflate", "packages/interface/src/types.rs: SwapRoutes::denom_last, msg_swap_exact_out"]}
{"id": "C26", "title": "Inflating a denom buys that denom", "statement": "The swap sent by Inflate{target_denom} ends in target_denom. (For the code only the first hop's output is guaranteed to be target_denom; it is true for one-hop routes and false for routes with more hops.)", "quantifier": "every history of governance route updates and trades", "why_tests_cant": "Relates storage keys and message contents for all histories.", "anchors": ["contracts/core/src/execute/gov/update.rs: update_trade_info", "contracts/core/src/execute/rebalance/trade/inflate.rs: inflate", "packages/interface/src/types.rs: SwapRoutes::denom_last, msg_swap_exact_in"]}
{"id": "C27", "title": "The basket never contains a denom twice", "statement": "In every reachable state the index units list every denom at most once, the same holds for the rebalance reserve, and during a rebalance every deflation denom is present in the basket, so Finalize never aborts on a missing denom.", "quantifier": "every history", "why_tests_cant": "State invariant over unbounded histories.", "anchors": ["contracts/core/src/state/units.rs: add_key, sub_key, check_duplicate", "contracts/core/src/execute/rebalance/finalize.rs: finalize"]}
{"id": "C28", "title": "Streaming fee stands still during a rebalance", "statement": "While a rebalance is active the streaming fee is frozen: no unit moves because of fees at any time, and after Finalize fees are charged only for time after the Finalize.", "quantifier": "every history Init ... Finalize, all block times", "why_tests_cant": "Temporal statement about all interleavings.", "anchors": ["contracts/core/src/execute/rebalance/init.rs: freeze_streaming_fee", "contracts/core/src/execute/rebalance/finalize.rs: unfreeze_streaming_fee", "contracts/core/src/state/fee.rs: StreamingFee::collect"]}
{"id": "C29", "title": "A governance-configured fee freeze persists", "statement": "If governance configured the streaming fee as frozen, it stays frozen until governance changes the fee. (False for the code: Finalize, callable by anyone when the rebalance has no manager, unfreezes it.)", "quantifier": "every history after the fee configuration", "why_tests_cant": "Statement about all continuations.", "anchors": ["contracts/core/src/execute/rebalance/finalize.rs: unfreeze_streaming_fee", "contracts/core/src/execute/gov/update.rs: update_fee"]}
{"id": "C30", "title": "Changing the fee never charges the past at the new rate", "statement": "UpdateFeeStrategy first accrues the old rate up to now; after it, accrual starts at now with the new rate, so any later accrual covers only time after the update.", "quantifier": "every state, every new fee and every later time", "why_tests_cant": "Relation of consecutive states for all inputs.", "anchors": ["contracts/core/src/contract.rs: execute", "contracts/core/src/execute/gov/update.rs: update_fee"]}
{"id": "C31", "title": "An airdrop never pays more than it was funded", "statement": "In every history and for every airdrop, the total claimed is at most the total funded.", "quantifier": "every history of airdrop messages", "why_tests_cant": "State invariant over unbounded histories.", "anchors": ["contracts/airdrop/src/execute/claim.rs: claim_open, claim_bearer", "contracts/airdrop/src/execute/fund.rs"]}
{"id": "C32", "title": "Each claim key is paid at most once per airdrop", "statement": "In every history, for each airdrop and each claimer (open) or claim hash (bearer) at most one claim succeeds, the amount answered by GetClaim never changes afterwards, and the recorded claims of an airdrop sum to its total claimed.", "quantifier": "every history, airdrop and key", "why_tests_cant": "Double-spend freedom over unbounded histories and all senders.", "anchors": ["contracts/airdrop/src/state.rs: assert_not_claimed, CLAIM_LOGS", "contracts/airdrop/src/execute/claim.rs"]}
{"id": "C33", "title": "The airdrop contract can always pay", "statement": "In every history, for each denom, the contract's balance is at least the sum over open airdrops of (funded - claimed), so no claim or close fails for lack of funds and airdrops sharing a denom never eat each other's money.", "quantifier": "every history with any number of airdrops sharing denoms", "why_tests_cant": "Global conservation invariant over unbounded histories.", "anchors": ["contracts/airdrop/src/execute/register.rs", "contracts/airdrop/src/execute/fund.rs", "contracts/airdrop/src/execute/claim.rs", "contracts/airdrop/src/execute/close.rs"]}
{"id": "C34", "title": "Closing is final and returns exactly the remainder", "statement": "Only the creator can close; closing pays exactly funded - claimed to the creator; after it no claim, fund or close on the airdrop ever succeeds, its record never changes, and claims paid plus the refund equal the amount funded.", "quantifier": "every history after the close", "why_tests_cant": "Statement about all continuations.", "anchors": ["contracts/airdrop/src/execute/close.rs", "contracts/airdrop/src/execute/claim.rs", "contracts/airdrop/src/execute/fund.rs"]}
{"id": "C35", "title": "Airdrop identity is stable", "statement": "Ids are handed out 0,1,2,... without reuse, airdrops are never removed, and creator, denom, merkle root, label, creation height, type and signer of an airdrop never change; funded and claimed totals never decrease.", "quantifier": "every history", "why_tests_cant": "Monotonicity over unbounded histories.", "anchors": ["contracts/airdrop/src/execute/register.rs", "contracts/airdrop/src/state.rs"]}
{"id": "C36", "title": "Labels are unique, permanent and owned", "statement": "A label, once registered, resolves to the same airdrop forever; two airdrops never share a label; a label always starts with the registering account followed by '/'; addressing an airdrop by its label or by its id has the same effect; GetLabel splits it back into creator and name when the creator contains no '/'.", "quantifier": "every history, all label strings including ones containing '/'", "why_tests_cant": "Uniqueness over all histories and all strings.", "anchors": ["contracts/airdrop/src/state.rs: save_label, load_airdrop", "contracts/airdrop/src/query/label.rs: get_label", "contracts/airdrop/src/execute/register.rs"]}
{"id": "C37", "title": "Merkle proofs: completeness and soundness", "statement": "For every tree built by pairwise sorted hashing, the proof of each leaf is accepted against the root; and an accepted proof against the root of a tree means that account and amount are a leaf of that tree, unless the strings hashed in building the tree and in checking the proof contain a hash collision or a leaf text of exactly 64 bytes equals a pair of hashes (leaves and inner nodes are hashed without domain separation). On the contract, every unclaimed funded leaf can be claimed.", "quantifier": "all trees, all leaves, all proofs, abstract hash function", "why_tests_cant": "Induction over tree shape and proof length.", "anchors": ["contracts/airdrop/src/verify.rs: verify_merkle_proof"]}
{"id": "C38", "title": "Leaf and signature payloads are unambiguous", "statement": "The leaf text of (account, amount) determines both, and the signed text of (claim hash, claimer, amount) determines all three when the claimer contains no '/' ; so one leaf or signature cannot be reused for another amount or claimer.", "quantifier": "all strings and amounts", "why_tests_cant": "Injectivity over all strings.", "anchors": ["contracts/airdrop/src/verify.rs: verify_merkle_proof", "contracts/airdrop/src/execute/claim.rs: claim_bearer"]}
{"id": "C39", "title": "A claim pays exactly the proven amount to the proven claimer", "statement": "A successful open claim pays exactly `amount` of the airdrop's denom to `account` (or the sender), whose leaf verified against the root; a successful bearer claim additionally carries a valid signature of the registered signer over hash, claimer and amount; nothing else is paid and no other airdrop changes.", "quantifier": "every state and every claim message from any sender", "why_tests_cant": "All inputs and abstract cryptography.", "anchors": ["contracts/airdrop/src/execute/claim.rs: claim_open, claim_bearer"]}
{"id": "C40", "title": "Only the creator can fund or close", "statement": "In every state a Fund or Close from an account other than the airdrop's creator fails and changes nothing; Fund increases the funded amount by exactly the attached coin of the right denom.", "quantifier": "every state, sender and airdrop", "why_tests_cant": "All senders and states.", "anchors": ["contracts/airdrop/src/execute/fund.rs", "contracts/airdrop/src/execute/close.rs"]}
{"id": "C41", "title": "VerifyClaim predicts Claim", "statement": "VerifyClaim answers valid for a payload exactly when Claim with that payload succeeds, up to the airdrop being already claimed or out of funds. (True for open airdrops with an explicit valid account; false for bearer airdrops, where the query checks the proof for the account instead of the claim hash; the query aborts when account is omitted.)", "quantifier": "every state and claim payload", "why_tests_cant": "Agreement of two code paths for all inputs.", "anchors": ["contracts/airdrop/src/query/claim.rs: verify_claim", "contracts/airdrop/src/execute/claim.rs"]}
{"id": "C42", "title": "Zap search stays within the budget", "statement": "Whenever the search for the index amount affordable with a given input returns, the basket it proposes costs at most the input and more than input - 5000; the reverse search (index amount for a desired output) returns a basket worth at most the desired output and more than it minus 5000.", "quantifier": "all pools (abstract estimator answers), inputs, starting guesses", "why_tests_cant": "Loop postcondition for arbitrary estimator behaviour.", "anchors": ["packages/pool/src/sim/index_out.rs: search_efficient_amount_for_input", "packages/pool/src/sim/index_in.rs: search_efficient_amount_for_output"]}
{"id": "C43", "title": "Swap messages never spend more than the budget", "statement": "The per-route spending limits of the swap messages created for a basket purchase sum to at most the given maximum input, each is at least the simulated need of the route, and the messages buy exactly the basket amounts.", "quantifier": "all route lists and budgets", "why_tests_cant": "Sum of rounded shares over lists of arbitrary length.", "anchors": ["packages/pool/src/sim/route.rs: SimAmountInRoutes::to_msgs"]}
{"id": "C44", "title": "Swap messages enforce the minimum output", "statement": "The per-route minimum outputs of the swap messages created for selling a basket, together with the part that needs no swap, sum to at least the requested minimum output. (False for the code: rounding down loses up to one unit per route plus a proportional amount; the loss is bounded.)", "quantifier": "all route lists and minimum outputs", "why_tests_cant": "Sum of rounded shares over lists of arbitrary length.", "anchors": ["packages/pool/src/sim/route.rs: SimAmountOutRoutes::to_msgs", "contracts/periphery/src/execute.rs: burn_exact_amount_in"]}
{"id": "C45", "title": "MintExactAmountIn delivers the requested minimum", "statement": "If MintExactAmountIn(min_output_amount) is accepted and all its messages succeed then the sender receives at least min_output_amount index tokens. (False for the code when a mint fee is set: the minimum is checked before the fee. True without fee.)", "quantifier": "all states, pools, inputs, fees", "why_tests_cant": "Relation across two contracts for all inputs.", "anchors": ["contracts/periphery/src/execute.rs: mint_exact_amount_in", "packages/pool/src/sim/mod.rs: estimate_index_for_input", "contracts/core/src/execute/token.rs: mint"]}
{"id": "C46", "title": "Zap sends a basket core accepts", "statement": "The coins the periphery attaches to Mint are accepted by the core contract without refund for that amount. (True exactly when no requirement rounds down to zero; otherwise core demands one base unit that is not attached.)", "quantifier": "all units and amounts", "why_tests_cant": "Agreement of two contracts for all inputs.", "anchors": ["contracts/periphery/src/execute.rs: mint_exact_amount_in, mint_exact_amount_out", "contracts/core/src/state/units.rs: calc_refund_amount"]}
{"id": "C47", "title": "Route order is preserved", "statement": "The hops in the exact-output swap messages of a zap are in the order the user supplied, with the user's pools and denoms.", "quantifier": "all routes", "why_tests_cant": "Lists of arbitrary length through two reversals.", "anchors": ["packages/pool/src/sim/index_out.rs: estimate_in_given_out", "packages/pool/src/sim/route.rs: SimAmountInRoutes::to_msgs"]}
{"id": "C48", "title": "BurnExactAmountOut never burns more than attached", "statement": "When BurnExactAmountOut succeeds, the index tokens it burns are at most the attached amount, the burn plus the refund never exceed it, and the swaps it sends must return what the estimator promised.", "quantifier": "all states, pools, desired outputs, fees", "why_tests_cant": "All numeric inputs with rounding of the fee expansion.", "anchors": ["contracts/periphery/src/execute.rs: burn_exact_amount_out", "contracts/periphery/src/lib.rs: expand_fee, deduct_fee"]}
{"id": "C49", "title": "Leftovers can only be swept by the contract itself to the caller", "statement": "FinishOperation aborts for every sender other than the periphery contract itself; each user-facing operation schedules it as the last message(s) with the operation's sender as recipient and for the right denoms, and it sends the contract's whole balance of the denom.", "quantifier": "every sender and every operation", "why_tests_cant": "All senders and messages.", "anchors": ["contracts/periphery/src/execute.rs: finish_operation and callers"]}
{"id": "C50", "title": "Zap simulations agree with execution", "statement": "SimulateMintExactAmountOut / SimulateMintExactAmountIn predict the cost and the tokens received of the corresponding execution. (False for the code when a mint fee is set: one prices only the after-fee amount, the other divides by (1-fee) and so promises more than is minted.)", "quantifier": "all states, pools, inputs, fees", "why_tests_cant": "Agreement of two code paths for all inputs.", "anchors": ["contracts/periphery/src/query.rs: simulate_mint_exact_amount_in, simulate_mint_exact_amount_out", "contracts/periphery/src/execute.rs"]}
{"id": "C51", "title": "Weighted pool bookkeeping conserves tokens and never overdraws", "statement": "A simulated swap between two different assets of a weighted pool adds exactly the input amount to the input asset, removes exactly the output from the output asset, leaves all other assets and all weights unchanged, and the computed output never exceeds the pool's balance of the output asset.", "quantifier": "all pools, swaps and sequences of swaps", "why_tests_cant": "All asset lists and amounts, sequences of simulated swaps.", "anchors": ["packages/pool/src/weighted.rs: apply_new_pool_assets, calc_out_amount_given_in, swap_exact_amount_in, swap_exact_amount_out"]}
{"id": "C52", "title": "Power function: integer exponents", "statement": "For an integer exponent n the fixed-point power never exceeds the exact power and equals it up to truncation. (For the code exponents n >= 2 and n = 1 via the shortcut are handled; for exponents strictly between 1 and 2 the integer factor is dropped and the result is base^(fraction) instead of base^(1+fraction).)", "quantifier": "all bases and exponents", "why_tests_cant": "Numeric statement over all inputs of an iterative algorithm.", "anchors": ["packages/math/src/pow.rs: pow, pow_int"]}
{"id": "C53", "title": "Power series evaluation terminates and stays in range", "statement": "For every base in (0,2) and fractional exponent the series evaluation stops after finitely many terms and never underflows; for base below one the result is at most one.", "quantifier": "all bases and exponents", "why_tests_cant": "Termination and absence of aborts for all inputs.", "anchors": ["packages/math/src/pow.rs: pow_approx"]}
{"id": "C54", "title": "Paged listings are complete and bounded", "statement": "A page never holds more than the requested (default 10, maximum 30) entries, requests above 30 are rejected, entries come in key order strictly after the cursor, and following pages with the last key as cursor enumerates every entry exactly once in both orders.", "quantifier": "all stores, limits, cursors and orders", "why_tests_cant": "Enumeration completeness over stores of arbitrary size.", "anchors": ["packages/interface/src/lib.rs: get_and_check_limit, range_option", "contracts/core/src/query.rs: list_trade_info", "contracts/airdrop/src/query/airdrop.rs: list_airdrops", "contracts/airdrop/src/query/claim.rs: list_claims", "contracts/airdrop/src/query/label.rs: list_labels"]}
{"id": "C55", "title": "Versions only move forward without force", "statement": "A migration without force succeeds only for the same contract name and a strictly greater version; along any sequence of unforced migrations the stored version strictly increases.", "quantifier": "all stored versions and sequences of migrations", "why_tests_cant": "Order statement over unbounded sequences.", "anchors": ["packages/utils/src/lib.rs: store_version", "contracts/core/src/contract.rs: migrate"]}
{"id": "C56", "title": "Pool ids are collected completely and once", "statement": "The pool ids queried for a zap are exactly the pools mentioned in the supplied routes, each once, in increasing order; every route hop's pool is found unless its type is unknown.", "quantifier": "all route tables", "why_tests_cant": "Lists of arbitrary length.", "anchors": ["packages/interface/src/periphery.rs: extract_pool_ids", "packages/pool/src/query.rs: query_pools"]}
{"id": "C57", "title": "With one-hop routes no asset can ever be sold for the reserve", "statement": "As long as governance stores only trade routes with one hop, a Deflate trade of any denom other than the reserve denom never succeeds on the chain, at any point of any history, because the exact-amount-out swap it sends names the reserve denom both as input and as output. (The README describes deflation trades as the way to sell assets for the reserve denom.)", "quantifier": "every history of transactions on the chain, every trade amount and every market", "why_tests_cant": "A unit test inspects the emitted message only; the failure is a statement about all later histories and all market conditions.", "anchors": ["contracts/core/src/execute/rebalance/trade/deflate.rs: deflate", "packages/interface/src/types.rs: SwapRoutes::msg_swap_exact_out", "contracts/core/src/execute/gov/update.rs: update_trade_info"]}
{"id": "C58", "title": "A bearer signature is not bound to one airdrop", "statement": "Whenever a bearer claim is accepted on one airdrop, the same claim hash, signature, claimer and amount are accepted on every other open bearer airdrop with the same signer key whose Merkle root proves the same claim hash and amount, once each while funds last: the signed text contains no airdrop id, so a signer who reuses claim hashes pays one signature several times.", "quantifier": "all states, all pairs of airdrops, all payloads, abstract signature scheme", "why_tests_cant": "Concerns the absence of a field in the signed text; a test with one airdrop never sees it.", "anchors": ["contracts/airdrop/src/execute/claim.rs: claim_bearer"]}
{"id": "C59", "title": "An airdrop never pays more than its tree holds", "statement": "For an airdrop registered with the root of a tree, in every history whose claim checks cause no hash collision (and no 64-byte leaf text), every recorded claim is a leaf of the tree and the claims together pay at most the sum of the amounts in the tree.", "quantifier": "all trees, all histories", "why_tests_cant": "Sum over an unbounded number of claims and leaves.", "anchors": ["contracts/airdrop/src/verify.rs: verify_merkle_proof", "contracts/airdrop/src/execute/claim.rs: claim_open, claim_bearer", "contracts/airdrop/src/state.rs: assert_not_claimed"]}
{"id": "C60", "title": "Equal-weight pools are priced by the constant-product formula", "statement": "For two assets of equal weight the simulated output of a sale is at least U*a/(R+a) rounded down and exceeds the exact value by at most a 10^-18 part of U (R, U the balances, a the input after the fee); the simulated price of a purchase of b is, after the fee, at least R*b/(U-b) up to a 10^-18 part of R and one 10^-18 unit, and at most one unit above it.", "quantifier": "all balances, weights, fees and amounts", "why_tests_cant": "Rounding of chained fixed-point operations for all numbers.", "anchors": ["packages/pool/src/weighted.rs: calc_out_amount_given_in, calc_in_amount_given_out, solve_constant_function_invariants", "packages/math/src/pow.rs: pow"]}
{"id": "C61", "title": "Simulated sales never promise more than the exact weighted formula", "statement": "Whatever the balances, weights, fee and amount, the simulated output of a sale on a weighted pool is at most U*(1-(R/(R+a)-10^-18)^(w_in/w_out)) plus U*(w_in/w_out+1)*10^-18, with real-number powers.", "quantifier": "all balances, weights, fees and amounts", "why_tests_cant": "Compares a truncated fixed-point series with a real power for all inputs.", "anchors": ["packages/pool/src/weighted.rs: calc_out_amount_given_in, solve_constant_function_invariants", "packages/math/src/pow.rs: pow, pow_int, pow_approx"]}
{"id": "C62", "title": "A purchase through the periphery is settled exactly", "statement": "When MintExactAmountOut succeeds together with all its messages, the user receives the minted amount less the mint fee and the collector the fee, the core contract receives exactly the basket, the user pays exactly what the swaps took plus the basket's part of the input denom (and collects whatever input the periphery held before), nothing of the input denom is left in the periphery and its other balances do not change.", "quantifier": "all reachable core states, pools, swap outcomes within the limits, senders and amounts; routes that pay with the input denom", "why_tests_cant": "Two contracts, the bank and arbitrary swap results together.", "anchors": ["contracts/periphery/src/execute.rs: mint_exact_amount_out, finish_operation", "contracts/core/src/execute/token.rs: mint", "packages/pool/src/sim/route.rs: to_msgs"]}
{"id": "C63", "title": "A sale through the periphery is settled exactly", "statement": "When BurnExactAmountIn or BurnExactAmountOut succeeds together with all its messages, the collector receives the burn fee, the core contract pays exactly the basket of the burned amount, the user receives exactly the proceeds of the swaps plus the basket's part of the output denom (and what the periphery held), and the only thing left in the periphery is, per asset, the difference between the redeemed basket and the sold basket, whose amounts differ by at most one index token.", "quantifier": "all reachable core states, pools, swap outcomes within the limits, senders and amounts; routes that pay out the output denom", "why_tests_cant": "Two contracts, the bank, two different roundings of the fee and arbitrary swap results together.", "anchors": ["contracts/periphery/src/execute.rs: burn_exact_amount_in, burn_exact_amount_out, finish_operation", "contracts/core/src/execute/token.rs: burn", "contracts/periphery/src/lib.rs: deduct_fee"]}
{"id": "C64", "title": "BurnExactAmountOut delivers the requested amount", "statement": "When BurnExactAmountOut succeeds with all its messages the user receives at least the desired amount of the output denom. (False for the code: the burned amount is reduced by one and the search accepts up to 4999 units too little.)", "quantifier": "all reachable core states, pools, desired outputs, fees", "why_tests_cant": "Search, rounding and two contracts for all inputs.", "anchors": ["contracts/periphery/src/execute.rs: burn_exact_amount_out", "packages/pool/src/sim/index_in.rs: search_efficient_amount_for_output"]}
{"id": "C65", "title": "A purchase does not spend the periphery's other balances", "statement": "A successful MintExactAmountOut never lowers the periphery's balance of any denom other than the input denom. (False for the code: nothing compares the first hop of a route with the input denom, so a caller can pay with coins left in the periphery; true for routes that pay with the input denom.)", "quantifier": "all worlds, callers and routes", "why_tests_cant": "Requires all routes a caller could name.", "anchors": ["contracts/periphery/src/execute.rs: mint_exact_amount_out", "packages/pool/src/sim/mod.rs", "packages/interface/src/types.rs: SwapRoutes"]}
{"id": "C66", "title": "GetConfig tells the pause state of the requested time", "statement": "GetConfig(t) answers for every t whose nanoseconds fit in 64 bits, with the stored governance account, nominee and denoms; its pause flag is set exactly if the contract is paused at t, and while it is set no mint or burn at block time t is accepted.", "quantifier": "every state and every query time", "why_tests_cant": "Agreement of the query with execution for all states and times.", "anchors": ["contracts/core/src/query.rs: get_config", "contracts/core/src/state/pause.rs: refresh", "contracts/core/src/execute/token.rs: mint, burn"]}
{"id": "C67", "title": "Pool answers are told apart by their type", "statement": "An answer of the chain is taken for a weighted, a stable or a concentrated pool exactly if its text begins with the JSON of that pool type (the code compares base64 prefixes), and then decoded as that kind; an answer of any other kind is left out of the pools handed to the simulator, without an error.", "quantifier": "all byte strings, all lists of pool ids and answers", "why_tests_cant": "A comparison of base64 prefixes is right only for some alignments of the text; samples cannot cover all continuations.", "anchors": ["packages/pool/src/query.rs: decode_pool, query_raw_pools", "packages/pool/src/lib.rs"]}
{"id": "C68", "title": "The time of fee collections does not matter", "statement": "Collecting the streaming fee at t1 and again at t2 leaves the same basket as collecting once at t2. (False for the code: the fee is 1-(1+r)^n deducted from the basket by compounding upwards, so one late collection takes more than two early ones; proved: collecting more often never leaves the holders less, up to rounding.)", "quantifier": "all reachable states and collection times", "why_tests_cant": "Comparison of two executions for all times, rates and units.", "anchors": ["contracts/core/src/state/fee.rs: collect_streaming_fee", "contracts/core/src/execute/fee.rs: execute"]}
{"id": "C69", "title": "Coins are accepted only where they are payment", "statement": "A message that takes no payment is rejected if coins are attached. (False for the code: every message but Mint and Burn of the core contract, and Claim and Close of the airdrop, ignores attached coins, which stay in the contract without being recorded; an accepted Burn carries exactly one coin of the index denom and an accepted Mint only denoms of the basket.)", "quantifier": "all reachable states, senders, coins and messages", "why_tests_cant": "Every message with every list of coins.", "anchors": ["contracts/core/src/contract.rs: execute", "contracts/core/src/execute/token.rs: mint, burn", "contracts/airdrop/src/execute/claim.rs", "contracts/airdrop/src/execute/close.rs"]}
{"id": "C70", "title": "A simulation is the sequence of swaps it stands for", "statement": "The simulated proceeds (or cost) of an amount of index tokens exist and are t exactly if the coins of its basket, sold (or bought) one after the other, each along the first route listed for its pair and hop by hop in the pools as the earlier swaps left them, bring (or cost) t in total; a coin that is the output (input) denom already counts as it is, purchases walk their route backwards, weighted pools charge their own swap fee and other pools answer what the chain answers.", "quantifier": "all pools, routes, baskets, amounts and chain answers", "why_tests_cant": "Every sequence of pools and routes, including baskets whose routes share a pool.", "anchors": ["packages/pool/src/sim/index_in.rs: estimate_out_given_in, estimate_token_given_index_in", "packages/pool/src/sim/index_out.rs: estimate_in_given_out, estimate_token_given_index_out"]}
{"id": "C71", "title": "A search is a bounded sequence of proportional corrections", "statement": "The searches for a budget and for proceeds end at an amount exactly if it is the first whose value is at most the target and less than 5000 below it, after one to 256 corrections of the initial guess (one million by default), each of which scales the amount by target over value, rounded down; with a minimum (maximum) the amount found is moved a third of the way towards it, and refused if beyond it.", "quantifier": "all pools, routes, baskets, targets and initial guesses", "why_tests_cant": "The behaviour of a loop for all price functions.", "anchors": ["packages/pool/src/sim/index_in.rs: search_efficient_amount_for_output", "packages/pool/src/sim/index_out.rs: search_efficient_amount_for_input", "packages/pool/src/sim/mod.rs: estimate_index_for_input, estimate_index_for_output"]}
{"id": "C72", "title": "Compact route text is read back as written", "statement": "Every list of routes whose pool ids fit 64 bits and whose denoms have no comma is read back from its text; in general a hop text is read as (id, denom) exactly if the part before its first comma is a decimal numeral for id below 2^64 and the part after its last comma is denom, and any other text aborts.", "quantifier": "all texts, all lists of routes", "why_tests_cant": "All strings.", "anchors": ["packages/interface/src/periphery.rs: From<SwapInfoCompact> for SwapInfo, From<SwapInfosCompact> for Vec<SwapInfo>"]}
{"id": "C73", "title": "Accuracy of the power function", "statement": "For every base in (0,2) and every exponent strictly between zero and one the result of the series is within 2.2 units of the eighth decimal place of the exact real power. For exponents up to one or from two on the whole power function is as accurate, relatively for bases above one.", "quantifier": "all bases and exponents", "why_tests_cant": "An error bound over all inputs of an iterative algorithm, against the real power function.", "anchors": ["packages/math/src/pow.rs: pow, pow_int, pow_approx"]}
{"id": "C74", "title": "Simulated prices of weighted pools follow the exact formula", "statement": "For a sale that at most doubles the pool's balance of the input asset the simulated output differs from U*(1-(R/(R+a))^(w_in/w_out)) by at most 2.3e-8 of U, one unit and rounding proportional to w_in/w_out; the simulated cost of a purchase of b differs from R*((U/(U-b))^(w_out/w_in)-1)/(1-fee) by at most 1.2e-8 of R times the power, divided by (1-fee), two units and rounding proportional to w_out/w_in.", "quantifier": "all balances, weights, fees and amounts", "why_tests_cant": "An error bound against real arithmetic over all pools.", "anchors": ["packages/pool/src/weighted.rs: calc_out_amount_given_in, calc_in_amount_given_out, solve_constant_function_invariants", "packages/math/src/pow.rs: pow"]}
{"id": "C75", "title": "The stable pool solver keeps the pool's invariant", "statement": "For the (currently unused) solver of stable pools: square roots are rounded down exactly, the reserves are ordered and scaled as intended, the proceeds never exceed the pool's balance, and a sale keeps the invariant x*y*(x^2+y^2+w) up to a thousandth.", "quantifier": "all balances and amounts", "why_tests_cant": "Numeric statement over all pools; the code says that it is to replace the chain's query later.", "anchors": ["packages/pool/src/stable.rs: solve_cfmm_direct, solve_cfmm, scaled_sorted_pool_reserves, scale_coin, descale_amount, calc_out_amount_given_in, calc_in_amount_given_out"]}
{"id": "C76", "title": "A rebalance starts and ends exactly under its conditions", "statement": "Init is accepted if and only if the pending streaming fee can be collected, the sender is governance, no rebalance is active, the manager's address is valid, both lists are non-empty and name no denom twice, and every deflation denom is in the basket with at least its target; Finalize if and only if a rebalance is active, the sender may manage it, every deflation denom has exactly its target and the reserve is used up. What each stores and drops is given exactly.", "quantifier": "every state (every reachable state for Finalize) and every message with its environment", "why_tests_cant": "An if-and-only-if needs both directions over all states and plans; tests check selected accept and reject cases.", "anchors": ["contracts/core/src/execute/rebalance/init.rs: init", "contracts/core/src/execute/rebalance/finalize.rs: finalize", "contracts/core/src/state/rebalance.rs: Rebalance::validate"]}
{"id": "C77", "title": "A rebalance trade is accepted exactly under its conditions", "statement": "Deflate and Inflate, of the reserve denom and of any other denom, are accepted if and only if the listed conditions hold (active rebalance, allowed sender, listed denom, route present and cooled down, trade and price limits, amounts available, no overflow, the proceeds can be split over the weights). The new units, the new reserve, the recorded trade time and the single swap message are given exactly.", "quantifier": "every reachable state and every trade message with its environment and market estimates", "why_tests_cant": "Both directions and the exact effect over all baskets, weights, supplies and market answers.", "anchors": ["contracts/core/src/execute/rebalance/trade/mod.rs: trade", "contracts/core/src/execute/rebalance/trade/deflate.rs: deflate, deflate_reserve", "contracts/core/src/execute/rebalance/trade/inflate.rs: inflate, inflate_reserve", "contracts/core/src/state/units.rs: add_key, sub_key"]}
{"id": "C78", "title": "Every governance message is accepted exactly under its conditions", "statement": "Pause, Release, UpdateGov, AcceptGov, RevokeGov, UpdateFee, UpdateRebalanceManager, UpdateReserveDenom and UpdateTradeInfo are each accepted if and only if the sender and the contents satisfy the conditions listed for the message, change exactly what is listed there and send nothing.", "quantifier": "every state and every governance message with its environment", "why_tests_cant": "Both directions and the exact effect over all states, senders and contents.", "anchors": ["contracts/core/src/execute/gov/pause.rs: pause, release", "contracts/core/src/execute/gov/update.rs: update_gov, accept_gov, revoke_gov, update_fee, update_rebalance_manager, update_reserve_denom, update_trade_info", "contracts/core/src/state/fee.rs: Fee::check_rates"]}
{"id": "C79", "title": "Burn, Realize and creation are accepted exactly under their conditions", "statement": "Burn is accepted if and only if the pending fee can be collected, the contract is neither paused nor rebalancing, the address is valid, exactly one non-zero coin of the index denom is attached, the burned amount is at most the supply and all products fit; Realize if and only if the fee can be collected and the sender is the collector; creation if and only if no denom is repeated, the addresses are valid and the rates allowed; the reply if and only if it has the expected id and a denom. The effect of each is given exactly.", "quantifier": "every state (every reachable state for Burn) and every message with its environment", "why_tests_cant": "Both directions and the exact effect over all states and amounts.", "anchors": ["contracts/core/src/execute/token.rs: burn", "contracts/core/src/execute/fee.rs: realize", "contracts/core/src/contract.rs: instantiate, reply"]}
{"id": "C80", "title": "Every airdrop message is accepted exactly under its conditions", "statement": "Register (open and bearer), Fund, Claim (open and bearer) and Close are accepted if and only if the listed conditions hold: one non-zero coin of the right denom, free label, root and key given in hex, valid signatures, airdrop present, of the right kind and open, sender the creator, not claimed before, the proof leads from the leaf to the root, enough left. The new state and the payment are given exactly; hex texts are characterised as the texts with digits of either case.", "quantifier": "every state (every reachable state for Close), every message, every hash and signature function", "why_tests_cant": "Both directions over all proofs, texts and histories; tests try single corruptions.", "anchors": ["contracts/airdrop/src/execute/register.rs", "contracts/airdrop/src/execute/fund.rs", "contracts/airdrop/src/execute/claim.rs", "contracts/airdrop/src/execute/close.rs", "contracts/airdrop/src/verify.rs: verify_merkle_proof"]}
{"id": "C81", "title": "The events of the core contract tell the truth and are enough to follow supply and settings", "statement": "A message is accepted exactly when it yields an event, which names the message and the sender. Mint and burn events report the change of the supply and the accounts paid, trade events the amounts of the swap that is sent, and the events of governance messages what is stored. An observer who reads only event texts always knows supply, governance, nominated account, pause, reserve denom and rebalance manager, and the total of reported mints is the supply and the total of reported burns. Fee rates are not reported.", "quantifier": "every state, every message, every history", "why_tests_cant": "Following a contract by its events is a statement about all histories; tests compare single events.", "anchors": ["contracts/core/src/execute/token.rs: mint_event, burn_event", "contracts/core/src/execute/gov/pause.rs: pause, release", "contracts/core/src/execute/gov/update.rs: update_gov, accept_gov, update_trade_info", "contracts/core/src/execute/rebalance/init.rs: init", "contracts/core/src/execute/rebalance/finalize.rs: finalize", "contracts/core/src/execute/rebalance/trade/deflate.rs: deflate, deflate_reserve", "contracts/core/src/execute/rebalance/trade/inflate.rs: inflate, inflate_reserve", "contracts/core/src/contract.rs: reply"]}
{"id": "C82", "title": "The events of the airdrop contract tell the truth, and all are found under the key action", "statement": "A message is accepted exactly when it yields an event; each event is given word for word and its amounts are those that are paid in or out. An observer who reads only event texts always knows creator, type, signer, root, total, claimed amount, closing and label of every airdrop. Every event carries the name of the message under the key action. (The last claim is false: a closing is reported under method. No event gives the denom.)", "quantifier": "every state, every message, every history, every hash and signature function", "why_tests_cant": "Following the airdrops by events is a statement about all histories; tests compare single events.", "anchors": ["contracts/airdrop/src/execute/register.rs: register_open_event, register_bearer_event", "contracts/airdrop/src/execute/fund.rs: fund_event", "contracts/airdrop/src/execute/claim.rs: claim_open_event, claim_bearer_event", "contracts/airdrop/src/execute/close.rs: close_event"]}
{"id": "C83", "title": "The events of the periphery report what is paid and received", "statement": "An operation is accepted exactly when it yields an event; each event is given word for word. The reported index tokens of a purchase are what the caller receives. (The last claim is false: the contract rounds the amount after the fee down, the core contract rounds the fee down. The report is at most one token too low, never too high, and exact when the fee comes to less than one token.)", "quantifier": "every environment, every operation; for the amounts every successful transaction on a reachable core contract with any market", "why_tests_cant": "The difference of the two roundings depends on rate and amount; a test with a round amount sees none.", "anchors": ["contracts/periphery/src/execute.rs: mint_exact_amount_in, mint_exact_amount_out, burn_exact_amount_in, burn_exact_amount_out, finish_operation"]}
{"id": "C84", "title": "Exactly when the periphery accepts an operation and what it then does", "statement": "Each of the four operations (mint or burn, exact in or out) is accepted exactly when its routes can be read, the core contract and all pools named in the routes answer, exactly one non-zero coin of the right denom is attached, the search (where there is one) ends within the user's bound, and the simulated cost or proceeds of the basket are non-zero and within the limit. The messages then sent are given exactly: one swap per coin of the basket other than the paid one, along the user's route for the pair, with its proportional share of the limit; the call of the core contract with the sorted basket or the index tokens; and the pay-out to the sender.", "quantifier": "every environment (chain answers, pools, block), every sender, funds and message, every reachable state of the core contract", "why_tests_cant": "An acceptance condition quantifies over all prices, pools, routes and core states; tests only show some accepted and some rejected calls.", "anchors": ["contracts/periphery/src/execute.rs: mint_exact_amount_in, mint_exact_amount_out, burn_exact_amount_in, burn_exact_amount_out", "packages/pool/src/sim/route.rs: to_msgs", "packages/pool/src/sim/mod.rs: estimate_index_for_input, estimate_index_for_output", "contracts/periphery/src/lib.rs: deduct_fee, expand_fee"]}
{"id": "C85", "title": "Exactly when the simulation queries of the periphery answer and what they say", "statement": "SimulateMintExactAmountOut and SimulateBurnExactAmountIn answer exactly when the core contract and the pools answer and the basket of the amount less the fee can be priced; they return that amount, its sorted basket and the price. SimulateMintExactAmountIn and SimulateBurnExactAmountOut answer exactly when the search that starts at one million index tokens ends; they return the amount found with the fee undone (for mints less 100), its sorted basket and the price of the amount found.", "quantifier": "every environment, every query, every reachable state of the core contract", "why_tests_cant": "The answers depend on all prices and pools; tests compare single answers.", "anchors": ["contracts/periphery/src/query.rs: simulate_mint_exact_amount_in, simulate_mint_exact_amount_out, simulate_burn_exact_amount_in, simulate_burn_exact_amount_out"]}
{"id": "C86", "title": "A purchase may spend at most what is attached", "statement": "The limits of the swaps of an accepted MintExactAmountOut or MintExactAmountIn, together with the coins of the input denom attached to the mint, are at most the attached amount. (False for MintExactAmountIn: the code adds 10000 to the simulated cost without comparing with the attached amount, so that an operation may count on coins that are not there; they exceed the simulated cost by at most 10000. True for MintExactAmountOut.)", "quantifier": "every environment, every accepted operation on a reachable core contract", "why_tests_cant": "The excess needs a search that ends close to the budget; tests with round numbers and large amounts do not look at limits.", "anchors": ["contracts/periphery/src/execute.rs: mint_exact_amount_in (44-48), mint_exact_amount_out", "packages/pool/src/sim/route.rs: to_msgs"]}
{"id": "C87", "title": "The recorded signer is the valid address of the key", "statement": "The address the contract derives from a public key is a valid Bech32 address with the chain's prefix that decodes, by the published rule for such addresses (alphabet, checksum, regrouping of bits), to RIPEMD-160 of SHA-256 of the key. Two keys get the same address exactly when these hashes collide. The address is the text osmo1 followed by 38 letters of the alphabet, so it contains none of the separators used in signed texts. In every reachable state the recorded signer of every bearer airdrop is that address for the recorded key, and a signature of it by the key was seen.", "quantifier": "every public key of every length, every prefix, every reachable state with the contract's real hashes and every signature check", "why_tests_cant": "A test compares one key with one address; that the encoding loses nothing and always has a correct checksum is a statement about all keys.", "anchors": ["contracts/airdrop/src/verify.rs: pub_to_addr, sha256_digest, ripemd160_digest", "contracts/airdrop/src/execute/register.rs: register_bearer"]}
{"id": "C88", "title": "A registration signature can be reused by anyone", "statement": "The registration signature of a bearer airdrop covers only the signer's own address. Once one bearer registration has been accepted, anyone can at any later time and in any state register further bearer airdrops under the same signer with the same key and signature and a Merkle root, denom, amount and label of their own choice.", "quantifier": "every accepted registration, every later state, caller, root, denom, amount and free label", "why_tests_cant": "The tests register each airdrop with its own signature by its own creator; a replay by a third party is never tried.", "anchors": ["contracts/airdrop/src/execute/register.rs: register_bearer", "contracts/airdrop/src/verify.rs: pub_to_addr"]}
{"id": "C89", "title": "Between rebalances only the streaming fee changes what an index token stands for", "statement": "Take any reachable state without rebalance and any history of messages from anyone in which no rebalance start and no change of fees is accepted. Without streaming fee the units stay exactly as they are. With an unfrozen streaming fee of rate r per second that was last collected N seconds (less than 136 years) earlier than after the history, a unit u becomes some u' with u(2-(1+r)^N) <= u' <= u and u' <= u/((1+r)^N(1-N*10^-18)) + m for m messages: no holder, minter or redeemer and no pattern of calls can take more from the other holders, and the fee cannot be avoided.", "quantifier": "every reachable state, every history of messages of every length with arbitrary times, senders and funds", "why_tests_cant": "The bound is over unbounded histories with arbitrary spacing of collections; a test collects once or twice.", "anchors": ["contracts/core/src/state/fee.rs: StreamingFee::collect", "contracts/core/src/execute/fee.rs: collect_streaming_fee", "contracts/core/src/contract.rs: execute"]}
{"id": "C90", "title": "A fully funded airdrop pays everyone on its list", "statement": "Whatever messages anyone sends, as long as an airdrop is not closed and was funded with at least the total of its Merkle tree, every entry of the tree that was not claimed yet can still be claimed for its whole amount with the path of its leaf (for bearer airdrops by the account the signer's key signed for): nobody can use up another one's share. On the chain the transaction goes through and the account receives the amount.", "quantifier": "every tree, every history of contract messages and chain transactions, every unpaid leaf, every sender; the hash function must not collide on the strings hashed and no text involved may be 64 bytes long", "why_tests_cant": "The claim is over all interleavings of claims, fundings and other airdrops; tests claim one leaf of a funded airdrop.", "anchors": ["contracts/airdrop/src/execute/claim.rs: claim_open, claim_bearer", "contracts/airdrop/src/verify.rs: verify_merkle_proof", "contracts/airdrop/src/execute/fund.rs: fund"]}
{"id": "C91", "title": "Accepted mints, burns and fee payments are settled on the chain", "statement": "A mint that the contract accepts and whose coins the sender owns always goes through: nothing it sends can fail. With default receivers the sender has then paid exactly max(1, floor(unit * amount)) of each asset, owns amount - fee more index tokens, and the collector owns the fee. A burn that the contract accepts goes through exactly when the contract holds floor(unit * burned) of each asset; the redeemer then owns exactly that much more. While all stored routes have one hop, the contract does hold it whenever the remaining index tokens and the uncollected fee stand for at least the rounding losses so far. A fee payment goes through exactly when the contract holds the accrued fee, and the collector then owns it.", "quantifier": "every reachable state, sender, amount, receiver and bank; for the last part of the burn clause every history of transactions with one-hop routes", "why_tests_cant": "Unit tests look at the messages of one mint or burn; whether the bank can always execute them depends on all earlier history.", "anchors": ["contracts/core/src/execute/token.rs: mint, burn", "contracts/core/src/execute/fee.rs: realize", "contracts/core/src/state/units.rs: calc_require_amount, calc_refund_amount"]}
{"id": "C92", "title": "Version texts are read faithfully", "statement": "The version parser used by migrations accepts exactly the texts of semantic versions (three numbers below 2^64 without leading zeros, optional pre-release and build identifiers) and reads each as the version it is the text of. Hence different texts are different versions, an unforced migration from one text to another is accepted exactly when both are texts of versions and the new one is greater, and of two different version texts exactly one migrates to the other.", "quantifier": "every text, every version, every contract name", "why_tests_cant": "The tests try three texts; the claim is about all texts, including malformed ones.", "anchors": ["packages/utils/src/lib.rs: store_version", "contracts/core/src/contract.rs: migrate"]}
{"id": "C93", "title": "The stores of a contract do not collide", "statement": "Items and map entries are kept in one byte storage under keys made of names, length prefixed parts and a bare last part. No two places of a contract have the same key. Reading any place from the bytes gives the value of the contract's state, an index entry is present exactly for the airdrops of that type or creator, and every listing (trade routes of a denom; airdrops by id, type and creator; labels; claims of an airdrop) read from the bytes with its prefix, start, limit and order gives the listing of the state.", "quantifier": "every place, every reachable state, every start, limit and order; key parts of at most 65535 bytes and ids below 2^64", "why_tests_cant": "Collisions and overlapping prefixes need particular names, ids or denoms; the tests store a handful of entries.", "anchors": ["contracts/core/src/state/mod.rs: CONFIG, TRADE_INFOS", "contracts/airdrop/src/state.rs: airdrops, LABELS, CLAIM_LOGS", "contracts/airdrop/src/query/airdrop.rs: list_airdrops", "contracts/airdrop/src/query/claim.rs: list_claims", "contracts/core/src/query.rs: list_trade_info"]}
{"id": "C94", "title": "The airdrop contract on bytes does what the contract on stores does", "statement": "The handlers of the airdrop contract that read and write the byte storage, including the removal of old and the writing of new index entries when an airdrop is saved, refine the abstract contract: on the bytes of a reachable state a message fails with the same error or succeeds with the same sent messages, and afterwards every key and every scan of the bytes is that of the new state. By induction every history from instantiation sends the same messages and ends in the bytes of the abstract state; in particular no index entry is ever missing, stale or left behind.", "quantifier": "every reachable state, every message with u64 ids and a sender of at most 65535 bytes, every history of such messages", "why_tests_cant": "Stale index entries would only show in listings after particular updates; the claim is an induction over histories.", "anchors": ["contracts/airdrop/src/state.rs: airdrops, load_airdrop, save_label, assert_not_claimed", "contracts/airdrop/src/execute/register.rs: register_open, register_bearer", "contracts/airdrop/src/execute/claim.rs: claim_open, claim_bearer", "contracts/airdrop/src/execute/fund.rs: fund_open", "contracts/airdrop/src/execute/close.rs: close_open"]}
{"id": "C95", "title": "Trade limits bound the volume swapped over time", "statement": "As long as governance does not rewrite the route of a pair, the accepted swaps over the pair within any stretch of time are spaced by the stored cooldown and together ask for at most the stored maximum once for every full cooldown in the stretch and once more: volume * cooldown <= maximum * (length + cooldown). Across rewrites, even with the same settings, the bound does not hold, because rewriting forgets the last swap.", "quantifier": "every state with a stored route, every history, every stretch of time", "why_tests_cant": "A bound on sums over arbitrarily long histories.", "anchors": ["contracts/core/src/state/rebalance.rs: TradeInfo::assert_cooldown", "contracts/core/src/execute/rebalance/trade/mod.rs: trade", "contracts/core/src/execute/rebalance/trade/deflate.rs: deflate", "contracts/core/src/execute/rebalance/trade/inflate.rs: inflate", "contracts/core/src/execute/gov/update.rs: update_trade_info", "contracts/core/src/query.rs: get_trade_info"]}
{"id": "C96", "title": "Queries tell what the last accepted message set", "statement": "After every history GetConfig, GetFee, GetRebalance and GetTradeInfo tell, for each setting (governance account, nominee, reserve denom, pause, fee collector and rates, rebalance plan and manager, route settings of each pair, time of the last swap of each pair), the value set by the last accepted message that sets it, and that of the start if there is none; LatestAirdropId tells the number of accepted registrations.", "quantifier": "every reachable state, every history, every time asked for, every pair of denoms", "why_tests_cant": "The claim relates an answer to the whole history before it, including the rejected messages.", "anchors": ["contracts/core/src/query.rs: get_config, get_fee, get_rebalance, get_trade_info", "contracts/core/src/contract.rs: execute", "contracts/airdrop/src/query/airdrop.rs: latest_airdrop_id"]}
{"id": "C97", "title": "The core contract on the byte storage does what the abstract contract does", "statement": "The handlers of the core contract, written as the code has them (load a record from its byte key, change it, save or remove it), refine the abstract contract on records: creation, the reply with the denom, every message, every query and the migration succeed exactly when the abstract ones do, fail with the same error, send the same messages, and leave a byte storage that reads and scans exactly like the storage of the abstract state; so does every history. A migration changes only the version record. A trade route from a denom that is too long for the two-byte length prefix of a key can never be stored.", "quantifier": "every reachable state, every message and history whose denoms fit the two-byte length prefix, every query, every version text and name", "why_tests_cant": "Lost updates, forgotten removals and stale writes show up only under particular orders of messages; the claim covers all of them.", "anchors": ["contracts/core/src/contract.rs: instantiate, reply, execute, migrate", "contracts/core/src/execute/token.rs: mint, burn, realize", "contracts/core/src/execute/gov/update.rs: update_gov, accept_gov, revoke_gov, update_fee, update_rebalance_manager, update_reserve_denom, update_trade_info", "contracts/core/src/execute/gov/pause.rs: pause, release", "contracts/core/src/execute/fee.rs: collect_streaming_fee", "contracts/core/src/execute/rebalance/init.rs: init", "contracts/core/src/execute/rebalance/finalize.rs: finalize", "contracts/core/src/execute/rebalance/trade/mod.rs: trade", "contracts/core/src/execute/rebalance/trade/deflate.rs: deflate", "contracts/core/src/execute/rebalance/trade/inflate.rs: inflate", "contracts/core/src/query.rs: all queries", "contracts/core/src/state/mod.rs: CONFIG, FEE, TOTAL_SUPPLY, INDEX_UNITS, RESERVE_UNITS, PENDING_GOV, REBALANCE, TRADE_INFOS"]}
{"id": "C98", "title": "When a rebalance can be completed", "statement": "A rebalance can be completed only if the gap of every denom to be sold, other than the reserve denom, can be brought to zero by swaps of whole base units: otherwise, whatever the senders, times and market answers, it stays active and Mint, Burn and Finalize are rejected for ever. Once all targets are met, and on a market that gives nothing for nothing, it can be completed exactly when what the reserve holds for each denom other than the reserve denom can be spent by swaps of whole base units; then the calls can all be made at one time. A rebalance that buys one denom, sells no reserve denom and has not begun to trade can be completed exactly when all gaps can be closed. If the supply divides 10^18 those are exactly the multiples of 10^18 / supply.", "quantifier": "every reachable state with an active rebalance, every continuation, every market that charges something for a positive amount", "why_tests_cant": "That no continuation whatsoever ends a rebalance cannot be tested; the amounts that block depend on the supply.", "anchors": ["contracts/core/src/execute/rebalance/finalize.rs: finalize", "contracts/core/src/execute/rebalance/trade/deflate.rs: deflate", "contracts/core/src/execute/rebalance/trade/inflate.rs: inflate, inflate_reserve", "contracts/core/src/execute/rebalance/trade/mod.rs: trade", "contracts/core/src/execute/rebalance/trade/deflate.rs: inflate_reserve_unit"]}
{"id": "C99", "title": "Messages are understood as they are written", "statement": "The text a client writes for a message (field names and variants in snake_case, amounts and decimals in quotes, other numbers plain, missing values null) makes the contract run exactly that message, for every message of the core, airdrop and periphery contracts and for the creation of an index, whatever characters its texts contain. Different messages have different texts. Every number of a message that is read fits its type (below 2^128, or 2^64 for times, pool ids and airdrop ids), whatever bytes were sent. A text is read as Mint exactly when it is an object with the one field `mint` holding each of amount, receiver, refund_to at most once and nothing else; an amount is read exactly when it is digits with at most one leading plus, with value below 2^128.", "quantifier": "every message whose numbers fit their types, every byte string, every state", "why_tests_cant": "All texts with all escapes, spellings and lengths; a field renamed on one side or a number cut short shows only for messages nobody wrote down.", "anchors": ["packages/interface/src/core.rs: InstantiateMsg, ExecuteMsg, GovMsg, RebalanceMsg", "packages/interface/src/airdrop.rs: ExecuteMsg", "packages/interface/src/periphery.rs: ExecuteMsg", "contracts/core/src/contract.rs: instantiate, execute"]}
{"id": "C100", "title": "No message is understood by two contracts", "statement": "A text that is accepted as a message names one of the messages of its contract, and no text is accepted by two of the three contracts: a message sent to the wrong contract is refused. In particular every message built by the periphery helper of the interface package, which is given a message of the core contract, is refused by the periphery contract.", "quantifier": "every byte string, every message, every state", "why_tests_cant": "That no text whatever is read by two contracts cannot be tested.", "anchors": ["packages/interface/src/helpers/periphery.rs", "packages/interface/src/helpers/core.rs", "packages/interface/src/core.rs: ExecuteMsg", "packages/interface/src/airdrop.rs: ExecuteMsg", "packages/interface/src/periphery.rs: ExecuteMsg"]}
{"id": "C101", "title": "Arbitrary texts lead only where messages lead, and no stored number leaves its type", "statement": "Whatever byte strings a core or airdrop contract is created from and fed, in any order and from anybody, it goes through exactly the states, and sends exactly the messages, of the history of those texts that are messages; a text that is not a message of the contract changes nothing and sends nothing, wherever it arrives. In every such state every stored amount and decimal is below 2^128 and every stored time, height, pool id and airdrop id below 2^64, as long as the clock, the heights and the coins of the chain are: storing a number never cuts it short and every stored value can be read again.", "quantifier": "every creation text, every list of byte strings with any senders, funds and environments", "why_tests_cant": "All sequences of arbitrary bytes; a number out of range would arise only after a particular history.", "anchors": ["contracts/core/src/contract.rs: instantiate, reply, execute", "contracts/airdrop/src/contract.rs: instantiate, execute", "contracts/core/src/state/fee.rs", "contracts/core/src/state/units.rs", "contracts/core/src/execute/token.rs: mint, burn", "contracts/core/src/execute/rebalance/trade/deflate.rs: deflate", "contracts/core/src/execute/rebalance/trade/inflate.rs: inflate"]}
{"id": "C102", "title": "Queries are understood as written and answers are read back as given", "statement": "The text a client writes for a query of any of the three contracts is answered with the text of exactly what that query returns, field by field as the interface types are written (a missing value as null, a public key as lower-case hex, the reason of a refused claim only when it is refused). A client that reads the answer of the core or airdrop contract with the types of the interface gets exactly what the query returned, in every state whose numbers fit their types (every state a contract can be in, C101), whatever characters the texts in it contain.", "quantifier": "every query whose numbers fit, every state, every environment", "why_tests_cant": "All states and all queries; a wrong field or a number written in the wrong type shows only for the answers that contain it.", "anchors": ["contracts/core/src/contract.rs: query", "contracts/core/src/query.rs: all queries", "contracts/airdrop/src/contract.rs: query", "contracts/airdrop/src/airdrop.rs: to_resp", "contracts/airdrop/src/query/", "contracts/periphery/src/contract.rs: query", "packages/interface/src/core.rs: QueryMsg and responses", "packages/interface/src/airdrop.rs: QueryMsg and responses", "packages/interface/src/periphery.rs: QueryMsg and responses"]}
{"id": "C103", "title": "The contracts run on bytes as on states, and what stands in their storage is the text of the state", "statement": "Created from bytes and fed any byte strings, a core or airdrop contract whose storage holds bytes under bytes (every handler reading the JSON text of a value and writing the JSON text of the new one) fails with the same errors, succeeds alike and sends the same messages as the contract on messages and states; and at every moment its storage holds, under the key of every place, exactly the text of that part of the state, field by field (amounts as quoted digits, decimals with up to eighteen digits after the point, public keys as base64, index entries as the length of the key) and nothing under any other key. Two states whose texts stand in the same storage are the same state.", "quantifier": "every creation text, every list of byte strings with any senders, funds and environments whose clock and coins fit; denoms that are the first part of a map key, and senders, of at most 65535 bytes", "why_tests_cant": "All histories of arbitrary bytes; a value that one handler writes and another cannot read back shows only in the histories that lead there.", "anchors": ["contracts/core/src/contract.rs: instantiate, reply, execute", "contracts/core/src/state/mod.rs", "contracts/core/src/state/fee.rs", "contracts/core/src/state/units.rs", "contracts/core/src/state/pause.rs", "contracts/core/src/state/rebalance.rs", "contracts/airdrop/src/contract.rs: instantiate, execute", "contracts/airdrop/src/state.rs", "contracts/airdrop/src/airdrop.rs"]}
{"id": "C104", "title": "Queries and migrations on bytes: answers are read from the stored texts, and a migration changes only the version record", "statement": "Asked with any byte string of at most 65535 bytes, a core or airdrop contract whose storage holds the texts of a reachable state (listings scan the sorted keys, read each key and each text, and look up index entries) gives, byte for byte, the answer or error that the state gives; so created from bytes and fed any such byte strings it sends what the contract on states sends and answers every query as it does, with no condition on the names in the messages. A denom or creator of more than 65535 bytes is an error on every storage. A migrate message given as bytes is accepted exactly when it can be read and either asks for force or the new code has the same name and a greater version, and then the storage holds the same state under the new version.", "quantifier": "every creation text, every list of byte strings, every query text of at most 65535 bytes, every environment whose clock and coins fit; every pair of versions and every migrate text", "why_tests_cant": "All storages and all query texts; pages, index look-ups and key decoding differ only for particular keys and lengths.", "anchors": ["contracts/core/src/contract.rs: query, migrate", "contracts/core/src/query.rs", "contracts/airdrop/src/contract.rs: query, migrate", "contracts/airdrop/src/query/airdrop.rs", "contracts/airdrop/src/query/claim.rs", "contracts/airdrop/src/query/label.rs", "packages/utils/src/lib.rs: store_version", "packages/interface/src/types.rs: range_option"]}
{"id": "C105", "title": "Exactly the JSON texts are read, and each says one thing", "statement": "A byte string sent to a contract is read as a tree exactly when it is the UTF-8 form of a JSON text (a grammar of white space, quoted texts with escapes and surrogate pairs, whole numbers without leading zeros, lists, objects and the three words), and then as the tree that the text says; no text says two things. An amount is read exactly from digits with at most one plus sign and a value below 2^128; a decimal exactly from one or two such amounts with a point between them, at most eighteen characters after the point and a value below 2^128 (so `1.+5` is 1.05); bytes exactly from their base64 text, of which padding may be left out.", "quantifier": "every byte string, every text, every tree", "why_tests_cant": "Both directions over all byte strings: nothing else is accepted and nothing of the grammar is refused.", "anchors": ["Cargo.lock: cosmwasm-std 1.5.2, serde-json-wasm 0.5.1", "contracts/core/src/contract.rs: instantiate, execute, query (entry_point)", "contracts/airdrop/src/contract.rs: instantiate, execute, query (entry_point)", "contracts/periphery/src/contract.rs: execute, query (entry_point)", "packages/pool/src/query.rs: from_json"]}
{"id": "C106", "title": "Exactly the messages of the published tables are accepted", "statement": "For each of the nine kinds of message (instantiate, execute, query and migrate of the contracts) a table gives the names of its variants and fields and the types of their values. A byte string is accepted as a message exactly when it is the UTF-8 form of a JSON text of the form in the table, and it is then understood as the message whose full text it says: fields in any order, none twice and none unknown (in a coin unknown ones are ignored), options as null or left out, amounts and decimals in any of their forms, all numbers within their types. On bytes that are no message of the table an execution fails and changes nothing.", "quantifier": "every byte string, every message, every storage", "why_tests_cant": "An exact condition over all byte strings for nine message types with nested variants; a test can only send some texts.", "anchors": ["packages/interface/src/core.rs: InstantiateMsg, ExecuteMsg, GovMsg, RebalanceMsg, QueryMsg, MigrateMsg", "packages/interface/src/airdrop.rs: InstantiateMsg, ExecuteMsg, QueryMsg, MigrateMsg", "packages/interface/src/periphery.rs: InstantiateMsg, ExecuteMsg, QueryMsg, MigrateMsg", "packages/interface/src/types.rs: SwapRoute, RangeOrder", "contracts/core/src/contract.rs: execute (entry_point)", "contracts/airdrop/src/contract.rs: execute (entry_point)", "contracts/periphery/src/contract.rs: execute (entry_point)"]}
{"id": "C107", "title": "Answers about pools: exactly those of the three forms are understood, and stable pools as the chain writes them are refused", "statement": "The bytes of the chain's answer about a pool are decoded as a pool exactly when they begin with the type of a weighted, stable or concentrated pool, are the UTF-8 form of a JSON text with the fields of that kind (each once, none unknown, in any order, each of its type) and its id is a number of 64 bits; the pool then has the id, the fee and the assets written there. They are passed over exactly when they begin with none of the three types. A stable pool whose scaling factors are written as texts, as the chain writes them, is refused, so every zap whose routes go through such a pool fails. A zap that succeeds has received, for every pool on its routes, an answer that describes a pool or is of none of the three types. Asking all questions first and decoding afterwards gives the same pools as decoding each answer at once.", "quantifier": "every byte string as an answer, every list of pools, every zap", "why_tests_cant": "The tests replace the answers of the chain by a converted file in which scaling factors are plain numbers (conv.js), so the form the chain sends is never tried; and an exact condition over all byte strings cannot be sampled.", "anchors": ["packages/pool/src/query.rs: raw_query, decode_pool, query_pools", "packages/pool/src/weighted.rs: Pool, PoolAsset, PoolParams", "packages/pool/src/stable.rs: Pool, PoolParams", "packages/pool/src/concentrated.rs: Pool", "packages/pool/src/testdata/conv.js"]}
{"id": "C108", "title": "Zaps with bytes at every border do what they do on messages and states", "statement": "On a chain where the periphery and the core contract are called with bytes, the core contract keeps a storage of bytes and answers questions with bytes, and the chain answers about pools with bytes, a text makes a successful zap exactly when it can be read as a message whose zap succeeds on states. Both then end with the same balances, and the storage of the core contract holds the texts of its new state. The messages sent are those of the handlers with the texts of the calls in them, and the periphery's own call to itself is read back. A query of the periphery gets, byte for byte, the answer it gets on states. Instantiating stores the name and version only; a migration is accepted exactly when the message can be read and asks for force or the new code has the same name and a greater version.", "quantifier": "every reachable state whose texts are stored, every text, sender, funds, answer about pools and settlement of the swaps", "why_tests_cant": "The tests of the periphery call its functions with values, with a mocked core contract; no test runs both contracts with the texts that travel between them.", "anchors": ["contracts/periphery/src/execute.rs: mint_exact_amount_in, mint_exact_amount_out, burn_exact_amount_in, burn_exact_amount_out, finish_operation", "contracts/periphery/src/query.rs", "contracts/periphery/src/contract.rs: instantiate, execute, query, migrate", "packages/interface/src/helpers/core.rs: IbcCore", "packages/utils/src/lib.rs: store_version"]}
{"id": "C109", "title": "Messages and questions to the chain are bytes that say them, and the reply is read as it says", "statement": "Every message for the token factory and the pool manager (create denom, mint, burn, both swaps) is sent under its type name as bytes that, by the wire format, say exactly that message: no other message can be read from them, by any reader of the format. The question for a pool says its number; a question for what a swap would give or cost cannot be asked of an empty route, and otherwise says the first pool, the coin and every hop in order. The core contract accepts a reply exactly when it is to message zero and its bytes are a response naming a denom; it then changes nothing but the denom of its token and sends nothing; a response names one denom.", "quantifier": "every message and question with pool numbers of 64 bits and fewer than 2^64 bytes; every state, reply number and reply bytes", "why_tests_cant": "Unit tests compare messages as values and mock the answers; the bytes are written by generated code that no test of the repository looks at.", "anchors": ["contracts/core/src/execute/token.rs", "contracts/core/src/contract.rs: instantiate, reply", "packages/interface/src/types.rs: sim_swap_exact_in, sim_swap_exact_out, msg_swap_exact_in, msg_swap_exact_out, From<SwapRoutes>", "packages/pool/src/query.rs: query_pool"]}
{"id": "C110", "title": "The hashes behind leaves, proofs and addresses are SHA-256 and RIPEMD-160", "statement": "For every message the first hash is the one value FIPS 180-4 gives: padding to whole blocks, 64 rounds a block, with the first bits of the roots of the first primes as constants. The second hash is the one value the RIPEMD-160 paper gives: two lines of 80 steps with the words in the order of powers of a permutation. The address made from a public key decodes to the second hash of the first hash of the key and to nothing else.", "quantifier": "every message, key and prefix", "why_tests_cant": "Tests compare a few known digests; an error that needs a certain length or carry does not show in them.", "anchors": ["contracts/airdrop/src/verify.rs: sha256_digest, ripemd160_digest, pub_to_addr"]}
{"id": "C111", "title": "The text of a response says what is sent and reported, and the text of a reply is read as it says", "statement": "Each entry point answers a text with a text. If it succeeds, the JSON text handed to the chain says, by the names in it, exactly the messages that the contract sends, in order, and exactly the attributes of its event, and a text says at most one such response: transfers with receiver and coins, calls of contracts with the address, the bytes of the message and the funds, and the messages of the token factory and the pool manager as bytes that say them (C109). No message asks for a reply but the creation of the denom at instantiation, which asks for one with identifier zero on success. A text is accepted exactly when it can be read as a message that the contract accepts. The reply's text is accepted exactly when it says that message zero succeeded with data naming a denom, which is recorded and reported.", "quantifier": "every text, state, environment and sender for the core, airdrop and periphery contracts; messages with pool numbers of 64 bits and fewer than 2^64 bytes", "why_tests_cant": "Tests compare responses as values; the text that leaves the contract, and the text of the reply that comes back, are made and read by derived code that no test of the repository runs.", "anchors": ["contracts/core/src/execute/token.rs", "contracts/core/src/contract.rs: instantiate, execute, reply", "contracts/airdrop/src/contract.rs: instantiate, execute", "contracts/periphery/src/contract.rs: instantiate, execute", "packages/interface/src/helpers/core.rs: call_with_funds"]}
{"id": "C112", "title": "What accepted trades and settings do on the chain", "statement": "A sale (Deflate of a denom other than the reserve denom) that the contract accepts goes through on the chain exactly when the hops of the stored route up to the reserve denom trade different denoms, the pools settle it for at most the estimated cost, and the contract holds that much of the reserve denom; the contract has then paid and received only the reserve denom. A purchase (Inflate) goes through exactly when the hops differ, the pools give at least the estimate and the contract holds the amount given in; it then has paid exactly that amount of the reserve denom and received the settled amount of the denom at the end of the route. Settings, start and end of a rebalance and trades of the reserve denom always go through. No other balance of anybody changes but for attached coins. So at every point of every history no trade lowers the contract's balance of a denom other than the reserve denom: an asset that a rebalance removes from the basket stays in the contract.", "quantifier": "every reachable state, balance, sender, attached coins, route of any length and settlement by the pools; the last claim for every history of transactions", "why_tests_cant": "The unit tests of trades replace the estimates and look only at the messages, and the integration tests run no trade, so none sees that the asset is not sold; no set of runs covers every history.", "anchors": ["contracts/core/src/execute/rebalance/trade: deflate, inflate, deflate_reserve, inflate_reserve", "packages/interface/src/types.rs: SwapRoutes::denom_last, msg_swap_exact_in, msg_swap_exact_out", "contracts/core/src/execute/gov/update.rs: update_trade_info"]}
{"id": "C113", "title": "Every refusal names a true reason", "statement": "Whenever the core or the airdrop contract refuses a message, the kind of the error states a fact about the stored state, the sender, the attached coins and the message: Unauthorized only to an account that may not send it; Paused, NotPaused, OnRebalancing and NotOnRebalancing only when that is so and matters for the message; InsufficientFunds only when a denom of the basket is missing from the coins; a payment error only when the coins are not exactly one coin of the asked denom; a cooldown only when the pair was used too recently; a trade error only when a limit of pair, plan or trader is exceeded; UnableToFinalize only when a target is not reached or reserve is left; an abort only for an empty route or a denom outside the plan; AlreadyClaimed, InvalidProof, InvalidSignature, Closed, WrongType, AlreadyExists, a hex error and insufficient airdrop funds only when true. No other kinds occur. Conversely, an account that is not entitled is told so, an entitled one is told of the pause, the running or missing rebalance or the missing nomination that is in its way, and a claimer or funder is told of the first obstacle that applies.", "quantifier": "every reachable state, environment, sender, list of attached coins with distinct denoms and message; estimates of the chain and the signature check may fail", "why_tests_cant": "The unit tests pin the error of a few chosen refusals each; a wrong error on another path, such as an Unauthorized to the governance account, is not seen.", "anchors": ["contracts/core/src/error.rs: ContractError", "contracts/core/src/execute", "contracts/core/src/state", "contracts/airdrop/src/error.rs: ContractError", "contracts/airdrop/src/execute", "contracts/airdrop/src/verify.rs"]}
{"id": "C114", "title": "Every refusal of the periphery names a true reason", "statement": "Whenever the periphery refuses a zap or its end, either the chain itself answered a question for a pool, a pool fee or an estimate with that error, or the kind of the error states a fact: an abort only for an unreadable hop or a stranger ending a zap; a wrong address or a missing core contract only when that is so; a payment error only when not exactly one coin of the asked denom is attached; NotFound only when a denom of the basket has no route or a hop goes through an unknown pool; TradeAmountExceeded only when what is paid buys less than the minimum, what is redeemed brings less than the minimum, or the output needs more index tokens than are attached; MaxLoopExceeded only when 256 corrections all miss; a division by zero only when a pool is empty or without weight or some amount of the basket is simulated to be worth nothing; the errors of the power function only when a swap moves a weighted pool too far or not at all. No other kinds occur. Conversely an unreadable hop, a wrong address and a missing core contract are reported in this order.", "quantifier": "every core contract in a reachable state, all pools, estimates, senders, attached coins and messages", "why_tests_cant": "The end-to-end tests run zaps that succeed; the refusals inside the pool simulation and the search are not exercised, and which error belongs to which cause is nowhere asserted.", "anchors": ["contracts/periphery/src/execute.rs", "contracts/periphery/src/error.rs: ContractError", "packages/pool/src/error.rs: PoolError", "packages/pool/src/sim", "packages/pool/src/weighted.rs", "packages/math/src/pow.rs"]}
{"id": "C115", "title": "Nobody gets between a user and their price", "statement": "Outside a rebalance, whatever anyone but the governance account and a nominee sends in a block, in whatever order, a mint or burn of the same block is accepted in one order exactly as in the other, with the same coins taken, refunded and paid out; the only exception is a supply that would leave the 128-bit range or fall below what is burned. A claim on an airdrop that is accepted now is accepted later with the same payment, whatever is sent in between, unless its key was paid, the airdrop was closed or the funds left no longer suffice.", "quantifier": "all states without a rebalance, all pairs of histories of outsiders at one block time, all mints and burns; all reachable airdrop states, claims and later histories", "why_tests_cant": "Tests run one fixed order of messages. That no third party's message can change what another one's mint or burn moves is a statement over all interleavings.", "anchors": ["contracts/core/src/contract.rs: execute", "contracts/core/src/execute/fee.rs: collect_streaming_fee", "contracts/core/src/execute/token.rs: mint, burn", "contracts/airdrop/src/execute/claim.rs"]}
{"id": "C116", "title": "The worst that fees can do to holders", "statement": "As long as no rebalance is started, nobody can reduce what an index token stands for faster than the highest streaming fee the contract allows. Over any messages from anyone, governance included and changing the fees as often as it likes, an index token that stood for u of an asset still stands for at least u*(2 - R^N) and at most u, where R = 1.000000021979553 and N is the number of seconds from the last collection before them to the last message. In thirty days at least 94.1% are left.", "quantifier": "all reachable states without a rebalance, all histories in the order of time in which no rebalance start is accepted, all assets", "why_tests_cant": "Tests try a few fee settings. That no sequence of fee changes, freezes and collections, at any times, takes more than the cap is a statement over all histories.", "anchors": ["contracts/core/src/state/fee.rs: collect", "contracts/core/src/execute/gov/update.rs: update_fee_strategy", "contracts/core/src/execute/fee.rs: collect_streaming_fee"]}
{"id": "C117", "title": "Airdrops do not affect each other", "statement": "Whatever is done with other airdrops makes no difference to an airdrop. Take any history of messages to the airdrop contract and leave out any of the fundings, claims and closings of other airdrops: every message about the airdrop in question gets the same answer, the same refusal for the same reason or the same coins, and in the end its record, its claims, its pages of claims and the verdicts on claims are the same.", "quantifier": "all states, all histories, all airdrops, every selection of messages about other airdrops", "why_tests_cant": "Tests run one history at a time. Isolation compares two histories of arbitrary length that differ in arbitrarily many messages.", "anchors": ["contracts/airdrop/src/execute/claim.rs: claim_open, claim_bearer", "contracts/airdrop/src/execute/fund.rs: fund", "contracts/airdrop/src/execute/close.rs: close", "contracts/airdrop/src/state.rs: load_airdrop, assert_not_claimed", "contracts/airdrop/src/query/claim.rs: list_claims, verify_claim"]}
{"id": "C118", "title": "Nothing that is paid in gets stuck", "statement": "Over any history without the start of a rebalance, the contract holds of every denom other than the index denom at most what it held at first, what was given to it unasked, the basket of the index tokens in existence, the fees not yet collected, the fees that fee changes threw away, and one coin per rounding (two per mint or burn, one per collection or fee change). So when all index tokens are burnt and the fees are collected, everything that was paid in has been paid out, but for this dust. The fees thrown away by a fee change do stay on the contract for good.", "quantifier": "all histories on a chain with a bank, without an accepted start of a rebalance; all denoms other than the index denom", "why_tests_cant": "Collateral tests check that enough is there. Whether too much stays behind after arbitrarily many mints, burns and fee charges, each with its rounding, needs an upper bound over all histories.", "anchors": ["contracts/core/src/execute/token.rs: mint, burn", "contracts/core/src/execute/fee.rs: collect_streaming_fee, realize_streaming_fee", "contracts/core/src/execute/gov/update.rs: update_fee_strategy", "contracts/core/src/state/units.rs: calc_require_amount, calc_refund_amount"]}
{"id": "C119", "title": "The airdrop contract holds exactly what is left in its airdrops", "statement": "From the creation of the airdrop contract on, whatever happens on the chain, the contract holds of every denom exactly what it held at first, what is left in its open airdrops (funded minus claimed), and what strayed to it: transfers to its account, coins attached to claims and closings, which the contract does not refuse, and payments directed to the contract itself. When all airdrops of a denom are closed or fully claimed, only what strayed is left, and it never leaves.", "quantifier": "all histories of messages, transfers and inflows on the chain; all denoms", "why_tests_cant": "An equality over all histories: tests compare the balance after a few hand-written steps, and none attaches coins to a claim.", "anchors": ["contracts/airdrop/src/execute/register.rs", "contracts/airdrop/src/execute/fund.rs: fund", "contracts/airdrop/src/execute/claim.rs: claim_open, claim_bearer", "contracts/airdrop/src/execute/close.rs: close"]}
{"id": "C120", "title": "Exactly when the queries of the core contract answer, and why they refuse", "statement": "The fee and portfolio queries and the simulations of a mint and of a burn answer exactly under the stated conditions (the streaming fee can be charged up to the time asked for, the basket fits 128 bits, the funds cover the basket with at least one of each coin and hold no other coin), their answer is the one computed from the units at that time, and each refusal has the reason it names. Asked without funds, the simulation of a mint refuses whenever a coin of the basket rounds down to nothing, although the mint is possible. The refusals of the creation of the contract and of the reply have the reasons they name.", "quantifier": "all reachable states, times, amounts and funds of distinct coins", "why_tests_cant": "Tests query a few states with convenient amounts; that the simulation without funds refuses small amounts shows only for amounts that round down.", "anchors": ["contracts/core/src/query.rs: get_fee, get_portfolio, simulate_mint, simulate_burn", "contracts/core/src/state/units.rs: calc_refund_amount, calc_require_amount", "contracts/core/src/contract.rs: instantiate, reply"]}
{"id": "C121", "title": "What rebalances leave behind on the contract", "statement": "From the creation of the core contract on, whatever happens on the chain, rebalances included, the contract holds of every denom other than the index denom at most what it held at first, gifts, fees thrown away by fee changes, one coin for each rounding, the rounding of trades (bounded by the supply and the inverse of the last weight), coins orphaned by trades, and what it owes. Orphaned are: what a sale takes out of the basket but the swap does not take from the contract, and what a purchase brings in another denom or beyond its estimate. With one-hop routes only the latter occurs. Orphaned coins really stay.", "quantifier": "all histories of messages, transfers and inflows on the chain; all routes, weights, market outcomes; all denoms", "why_tests_cant": "An inequality over all histories; tests do not compare the balance with what the contract owes after trades, and none uses a market that differs from the estimate.", "anchors": ["contracts/core/src/execute/rebalance/trade/deflate.rs", "contracts/core/src/execute/rebalance/trade/inflate.rs", "contracts/core/src/execute/rebalance/finalize.rs", "contracts/core/src/execute/rebalance/init.rs"]}
{"id": "C122", "title": "One trade can make a rebalance endless", "statement": "If the supply is at most 10^18 base units and does not divide 2*10^18, a trade that moves all but one of the base units still to be moved leaves a rest that no trade can move any more. So, in a rebalance without a manager whose sales are done, anybody can make one accepted trade after which Mint, Burn and Finalize are rejected for ever, whatever anybody (governance included) does. The same holds of sales that cost all but one of the base units still to be sold. If the supply divides 10^18, no trade can do this.", "quantifier": "all reachable states with an active rebalance, all supplies, all amounts left, all senders, all later histories", "why_tests_cant": "The rest is off by a fraction of a base unit that depends on the supply; tests use round supplies, which divide 10^18, and never ask what can happen in all later histories.", "anchors": ["contracts/core/src/execute/rebalance/trade/inflate.rs", "contracts/core/src/execute/rebalance/trade/deflate.rs", "contracts/core/src/execute/rebalance/finalize.rs"]}
{"id": "C123", "title": "The answers of the airdrop contract tell what happened", "statement": "After any history, GetAirdrop for a number answers exactly when the registration that got this number was accepted, and the record it gives is what that registration said, the sum of what accepted registrations and fundings paid in, the sum of what accepted claims paid out, and the height of the accepted Close if there was one. With a label it answers for the airdrop that carries the label. GetClaim answers an amount exactly when an accepted claim with that key was paid that amount by that airdrop; else it is refused as not found.", "quantifier": "all histories of accepted and rejected messages, all numbers, labels and claim keys", "why_tests_cant": "The claim ties an answer to the whole history before it, rejected messages included; tests compare answers after a few fixed steps.", "anchors": ["contracts/airdrop/src/query/airdrop.rs", "contracts/airdrop/src/query/claim.rs", "contracts/airdrop/src/state.rs", "contracts/airdrop/src/execute/claim.rs", "contracts/airdrop/src/execute/close.rs"]}
{"id": "C124", "title": "Rebalances that can never end, and how anyone can bring one about", "statement": "The least amount per index token that trades can move away completely is 10^18 divided by the greatest common divisor of the supply and 10^18 (in units of 10^-18). An accepted Init that wants less than this taken out of the basket of some denom other than the reserve denom starts a rebalance that never ends: Mint, Burn and Finalize are rejected for ever. In every state there is an amount of one to four base units such that, if anybody mints it, the next rebalance that wants less than one base unit per index token taken out never ends. If the sales earned less than the least amount for a denom to be bought, the rebalance never ends either.", "quantifier": "all reachable states, all supplies, all rebalances, all later histories with all senders and market answers", "why_tests_cant": "Whether a rebalance can end depends on common divisors of the supply and 10^18; tests use round supplies, for which it always can.", "anchors": ["contracts/core/src/execute/rebalance/init.rs", "contracts/core/src/execute/rebalance/trade/deflate.rs", "contracts/core/src/execute/rebalance/trade/inflate.rs", "contracts/core/src/execute/rebalance/finalize.rs", "contracts/core/src/execute/token.rs"]}
{"id": "C125", "title": "The listings of the airdrop contract are its history", "statement": "Following the pages of ListClaims for a registered airdrop, with any allowed limit and in either order, yields exactly the claims that were paid, every one once, and the listed amounts add up to what the claimants of this airdrop received. Following the pages of ListAirdrops yields the airdrops in the order of their registration, numbered without gaps, as many as registrations were accepted, each as GetAirdrop shows it. The list for a creator names exactly the airdrops that were registered by messages of this address.", "quantifier": "all histories of messages (accepted and rejected), all airdrops, all creators, all limits and orders", "why_tests_cant": "A listing is a fold over the whole history cut into pages; tests list a few entries on one page.", "anchors": ["contracts/airdrop/src/query/claim.rs", "contracts/airdrop/src/query/airdrop.rs", "contracts/airdrop/src/execute/mod.rs", "packages/interface/src/lib.rs"]}
{"id": "C126", "title": "Everyone can leave", "statement": "Call the contract backed when it holds, of every denom but its own, at least what all index tokens and the uncollected fees stand for. A backed contract stays backed whatever anyone sends, until the next mint or trade of a rebalance. After any history in which trades of rebalances lost nothing, one coin of each denom for each mint so far, given by anybody, makes it backed. While it is backed, every burn that it accepts goes through. In a backed contract, outside a rebalance and while not paused, any number of holders can in one block burn any of their index tokens, up to all that exist, in any order, and every one of these burns is paid.", "quantifier": "all histories, all baskets and fees, all lists of holders and amounts in all orders", "why_tests_cant": "A run of all holders in every order cannot be enumerated; whether the last one is paid depends on the roundings of the whole history.", "anchors": ["contracts/core/src/execute/token.rs", "contracts/core/src/execute/fee.rs", "contracts/core/src/state/units.rs", "contracts/core/src/state/fee.rs"]}
{"id": "C127", "title": "Refused questions to the periphery name a true reason", "statement": "When one of the four questions to the periphery, which simulate its zaps, is not answered, the kind of the error is true of the question. Either the chain itself gave this error when asked for a pool or an estimate, or the fact that the kind stands for holds: a hop that is not readable, a wrong address, no core contract there, a missing route or pool, a search that does not end in 256 corrections from one million, a weighted pool that refuses a swap, a basket that is simulated to cost or to bring nothing while its amount is searched, or a number that does not fit. Unreadable hops, wrong addresses and missing contracts are always named, in this order. The question what a coin buys is refused as a number that does not fit whenever the amount found, with the mint fee undone, is below one hundred.", "quantifier": "all questions, all core contracts that can arise, all answers of the chain and all pools", "why_tests_cant": "Tests sample a few refusals; that no other refusal carries a wrong kind is a statement about all pools, routes and amounts.", "anchors": ["contracts/periphery/src/query.rs", "contracts/periphery/src/contract.rs", "packages/pool/src/sim/mod.rs", "packages/pool/src/sim/index_out.rs"]}
{"id": "C128", "title": "Pools of equal weights give nothing away but rounding", "statement": "In the simulation of a weighted pool, between two denoms of equal weight: a sale brings exactly the constant product of the balances with one rounding to 18 digits and one to whole units. Whoever sells more, at a smaller fee, into a pool with less of the denom sold and more of the denom bought, gets no less. The product of the balances falls by at most one 10^18-th of the balance sold from times the new balance of the denom sold. Selling a coin and selling the proceeds back, or buying a coin and selling it back, brings back no more than was paid but for a few 10^18-th of the balance, so nothing is won in a pool with less than about half of 10^18 units. Selling in two parts brings at most one unit and two 10^18-th of the balance more than selling at once.", "quantifier": "all pools with two denoms of equal weight and any others, all balances, amounts and fees", "why_tests_cant": "The worst case over all balances lies at sizes that no test pool has: with 10^21 units of each denom a single unit is simulated to bring a thousand.", "anchors": ["packages/pool/src/weighted.rs", "packages/math/src/pow.rs"]}
{"id": "C129", "title": "With one-hop routes a rebalance that sells an asset never ends", "statement": "As long as governance stores only trade routes with one hop, a rebalance that wants anything at all taken out of the basket of a denom other than the reserve denom never ends on the chain: at every later point of every history the rebalance is still there, an index token stands for as much of the denom as before, and every Mint, Burn and Finalize fails, whoever sends it and whatever the pools answer. So every rebalance that did end had nothing to sell but the reserve denom itself.", "quantifier": "all histories of transactions from the creation of the contract, all markets, all rebalances", "why_tests_cant": "The contract accepts the trades in isolation, only the chain refuses their swaps; that nothing else ends the rebalance is a statement about all continuations.", "anchors": ["contracts/core/src/execute/rebalance/trade/deflate.rs", "contracts/core/src/execute/rebalance/finalize.rs", "contracts/core/src/execute/rebalance/mod.rs"]}
{"id": "C130", "title": "The test-querier contract hands questions over as they are", "statement": "Whatever text asks the test-querier contract one of the questions it knows - with fields in any order, with white space, with fields it does not know, with options left out - the contract hands the chain one text that depends on the question only and asks the same question, and answers with exactly the bytes that the chain says to it; when the chain reports an error, or the text asks none of the known questions, the contract fails, in the second case without asking. On a chain that says the same to all texts with the same meaning, asking the contract is asking the chain, and any number of such contracts in a row say what one of them says. Any JSON object creates the contract, nothing else does, and the creation sends no messages.", "quantifier": "all byte strings, all chains as functions of the text they are asked, any number of contracts in a row", "why_tests_cant": "Tests ask a few well-formed questions; that reading and writing again loses nothing of any question, in any spelling, is a statement about all texts.", "anchors": ["contracts/test-querier/src/lib.rs"]}
{"id": "C131", "title": "Whatever the weights, sales there and back win nothing but rounding", "statement": "After a sale in a weighted pool of any weights and any fee, the pool keeps of the denom paid out at least the part (R/(R+x))^(w/w') that the exact formula leaves, up to 2w/w'+1+(R+x)/R parts of 10^18. So selling a coin, at most as much as the pool has of it, and selling the proceeds back brings at most the coin and 4*2^K*(K+2) parts of 10^18 of what the pool then holds, where K bounds the ratio of the weights: in a pool with less than 2.6*10^15 units after the sale and weights of up to four to one, nothing is won. For purchases the same is false: with weights two to three, buying 400000 of a million and buying back the payment leaves more than two thirds of the 400000.", "quantifier": "all pools, weights, balances, amounts and fees", "why_tests_cant": "The power of a broken exponent is computed by a cut-off series and rounded in several places; that no amount and no weights turn this into a gain cannot be sampled.", "anchors": ["packages/pool/src/weighted.rs", "packages/math/src/pow.rs"]}
{"id": "C132", "title": "No sequence of sales takes anything out of a weighted pool but rounding", "statement": "Take any weighted pool and any number n of sales between two of its denoms, one after another, by whomever, in either direction and at any fees, each of at most as much as the pool has of the denom sold. If in the end the pool has no more of one denom than at first, then it has of the other no less than at first, up to n*K*2^K*(2K+3) parts of 10^18 of the balance, where K bounds the ratio of the two weights. So as long as this is less than a unit (n times the balance below 1.4*10^15 for weights of four to one), no sequence of trades wins anything: if both balances are no more than at first, both are as at first. In pools of 10^21 units the rounding can be won.", "quantifier": "all pools and weights, all lengths and orders of sales, all amounts and fees", "why_tests_cant": "A gain could be spread over any number of small trades; only an invariant of single sales excludes all sequences.", "anchors": ["packages/pool/src/weighted.rs", "packages/math/src/pow.rs"]}
