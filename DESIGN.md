# Design: a Lean 4 model of ibcx-contracts

Source: `/repo` (many-things/ibcx-contracts, Rust).  Nothing is built or run; the
model is a reading of the source.  Every definition cites the file and lines it
models and says where it simplifies.

## Layout

| module | content |
|---|---|
| `Verif/Num.lean`, `Verif/NumLemmas.lean` | errors, `Res`, Uint128 / Decimal arithmetic of cosmwasm-std 1.5.2 |
| `Verif/KV.lean`, `Verif/KVLemmas.lean` | sorted key-value store (cw-storage-plus `Map`), range reads |
| `Verif/Core/{State,Units,Fee,Token,Gov,Rebalance,Exec,Query}.lean` | the core contract |
| `Verif/Core/*` (others) | exact behaviour of each handler (`…_eq_ok`), invariants, accuracy of the fee power |
| `Verif/Chain/World.lean` | bank, token factory, execution of emitted messages, transactions |
| `Verif/Chain/AirdropWorld.lean`, `Verif/Chain/ZapWorld.lean` | the airdrop contract, and the periphery together with one core contract, on their chain |
| `Verif/Airdrop/{State,Verify,Exec,Query}.lean` | the airdrop contract |
| `Verif/Math/Pow.lean` | `packages/math`: fixed-point power; the other `Verif/Math` files relate it to real powers |
| `Verif/Pool/{Weighted,Stable,Sim,Decode}.lean` | `packages/pool`: weighted pools, swap simulator, swap message builder, pool kinds |
| `Verif/Periphery/{Exec,Query,Text}.lean` | the periphery (zap) contract |
| `Verif/Iface/{Page,Version,Semver}.lean` | pagination, contract versions and migration |
| `Verif/Storage/{Raw,Contracts,Exec,CoreExec}.lean` | the byte storage under the stores: keys, prefixes, indexes, scans (cw-storage-plus) |
| `Verif/Json/{Text,Codec,Messages,Stored,Answers,Pools,History,Contract,ContractQuery,Zap,Response}.lean` | JSON over bytes (serde-json-wasm 0.5.1), codecs of messages, stored values, answers and pools, entry points on texts, histories of texts, the contracts with bytes in and bytes stored, zaps across both contracts, and the texts of responses and of the reply |
| `Verif/Proto/Wire.lean` | the protobuf bytes of messages and questions to the chain (prost 0.12.3), and reading the reply to `MsgCreateDenom` |
| `Verif/Spec/*.lean` | small specifications used in the statements, independent of model helpers; `Spec/Link.lean` relates both |
| `Verif/Props/*.lean` | the property theorems, one file per property group, each with `example`s |
| `Verif/Airdrop/{Digest,DigestLemmas}.lean` | SHA-256, RIPEMD-160 and Bech32 down to the bits, `pub_to_addr`; Bech32 round trip |
| `Verif/Conformance/*.lean` | the repository's own unit tests replayed on the model (tests of the model, not proofs) |
| `Verif/Audit.lean` | fails the build if a theorem depends on an unexpected axiom |

## Modelling conventions

* `Uint128`, `u64`, `Decimal`, `Decimal256` values are `Nat` (a `Decimal` is its
  number of atomics, 10^-18).  Every operation that can overflow, underflow or
  divide by zero is an explicit check returning an error.  `panic!`/`unwrap`
  become the error `Err.panic`: on chain a panic and an `Err` are both a failed
  transaction with no effect.  `overflow-checks = true` in the release profile
  (`/repo/Cargo.toml`), so plain `+`/`-` on `u64` also fail instead of wrapping;
  `delta as u32` wraps and is modelled as `% 2^32`.
* Message arguments and block times are unrestricted naturals, a superset of the
  values the Rust types admit, so the theorems cover every real input.
* `addr_validate`, the swap estimator of the chain, the signature check and the
  hash functions are parameters of the environment of each call (arbitrary
  functions); theorems hold for every choice.
* A transaction that fails leaves state and balances unchanged (platform rule).
* A history is a list of transactions with arbitrary environments.  Where block
  time monotonicity matters it is an explicit hypothesis.
* Event attributes are modelled apart from the handlers (`Verif/Events`), as texts.
  The contract models take typed messages and hold typed values; C99 relates messages to their texts.  The layout of keys in the byte storage is in `Verif/Storage`, the contract models use the
  abstract stores; C93 relates them to the bytes, and C94 and C97 prove that the airdrop and the core handlers run on bytes
  (`Verif/Storage/{Exec,CoreExec}.lean`) do what these models do, C103 that they do so with texts in and texts stored, and C108 the same for zaps across both contracts.
* Coins: zero coins are stripped and an empty bank send has no effect (wasmd).

## How the reading was checked

The repository's unit tests (all of `contracts/core`, `contracts/airdrop`,
`packages/math`, `packages/utils`, `packages/interface`; those of `packages/pool`
need an Osmosis node) are repeated on the model in `Verif/Conformance`, with the
same inputs and expected results, evaluated by the kernel.  The airdrop tests use
the real Merkle trees, keys and signatures: SHA-256, RIPEMD-160 and Bech32 are
defined in `Verif/Airdrop/Digest.lean`, ECDSA over secp256k1 in
`Verif/Conformance/Secp256k1.lean`.  These are tests, not proofs.  C87 and C110 are
theorems about these hash functions (C110: they are the standard ones); the others hold for any.

## Claims that are false for the code

Where the code violates a claim, the full claim is a definition (`Cnn_full`), its
negation is a theorem with a concrete reachable witness (`Cnn_full_false`), and
what does hold is proved under the suffix `_partial`.  This concerns C06, C07,
C08, C12, C14, C21, C22, C25, C26, C29, C41, C44, C45, C50, C64, C65, C68, C69, C73, C74, C75,
and later ones marked partial in `MANIFEST.json`.

## Trusted base

* Lean's kernel.
* Axioms: every theorem depends on a subset of `propext`, `Classical.choice`,
  `Quot.sound` (most on all three).  `Verif/Audit.lean` checks this for every
  theorem of the project during the build.  No axiom is added; there is no
  `sorry`, `native_decide` or `bv_decide`.
* The reading of the Rust code, and of cosmwasm-std 1.5.2, cw-utils 1.0.3,
  cw-storage-plus 1.2.0, cw2 1.1.2, semver 1.0.21 and serde-json-wasm 0.5.1 and prost 0.12.3 semantics as
  written in `Verif/Num.lean`, `Verif/KV.lean`, `Verif/Iface`, `Verif/Json`, `Verif/Proto`.
* The bank / token factory / pool-manager behaviour as written in `Verif/Chain`.

## What is modelled

* `contracts/core`: all entry points (instantiate, execute with every message,
  reply, every query, migrate).
* `contracts/airdrop`: all messages and queries, `verify.rs`, migrate.
* `contracts/periphery`: all messages (mint and burn, exact in and exact out,
  finish operation) and all simulation queries.
* `packages/pool`: weighted pools, the simulator (`sim/`), pool kinds; stable and
  concentrated pools as arbitrary answers of the chain's estimate query, which is
  how the code uses them; separately the solver in `stable.rs`, which the
  contracts do not call.
* `packages/math`: `pow.rs`.
* The event attributes of all messages of the three contracts.
* `packages/interface`: routes, pool ids, compact route text, pagination.

* The JSON texts of messages, stored values, answers and of the chain's answers about pools (`Verif/Json`).
  The grammar of JSON and the tables of names and types are given separately (`Verif/Spec/JsonText.lean`,
  `Verif/Spec/Schema.lean`, `Verif/Spec/Pools.lean`).
* The texts of responses and of the reply (`Verif/Json/Response.lean`, meaning in `Verif/Spec/Response.lean`).
* `contracts/test-querier`: questions and creation (`Verif/Json/Relay.lean`), without the stored version.
* The protobuf bytes of messages and questions to the chain and of the reply (`Verif/Proto`, grammar in
  `Verif/Spec/Proto.lean`).  Groups, a form of field no longer in use, are refused by the model and skipped by prost.

Not modelled: gas, the texts of errors, the signature check of the chain
(an arbitrary function; a concrete one is used in the conformance tests only),
`integration-test`, schema generators, the TypeScript SDK.

## Plan per property

Status and theorem names are in `MANIFEST.json`; the statements are in `properties.jsonl`.
* **C01** (proved) Recorded supply equals minted minus burned. Invariant over histories with a ledger of mint/burn messages, and the same against the bank's index supply in the chain model.
* **C02** (proved) Mint takes exactly the required basket and refunds the rest. Functional specification of mint (`iff`), messages spelled out.
* **C03** (proved) Mint is accepted exactly when its published conditions hold. `iff` between acceptance and the published conditions.
* **C04** (proved) Burn pays exactly the redeemable basket. Functional specification of burn (`iff`).
* **C05** (proved) A mint followed by a burn never returns more than was paid. Arithmetic of floors.
* **C06** (partial) Full collateralisation. Chain-level invariant with slack counting mints; exact form refuted by a witness history. For routes of any length the slack also counts what trades moved in the wrong denom.
* **C07** (partial) Splitting a burn is never profitable; splitting a mint is never cheaper. Both halves negated with witnesses, bounded form proved.
* **C08** (partial) SimulateMint predicts Mint. Equality of query and execute paths; refuted where a requirement rounds to zero.
* **C09** (proved) SimulateBurn predicts Burn. Equality of query and execute paths.
* **C10** (proved) Streaming fee accrual conserves units and never touches frozen or same-second states. From the accrual function and two-sided bounds of the truncating power.
* **C11** (proved) Queries at time t answer what execution at time t would see. Every query at time t equals the answer after an accrual at t.
* **C12** (partial) Fee accrual never blocks users. Lower bound `(1+r)^n >= 1+n*r` for the truncating power; invariant "stuck" over all continuations; success when the exact power is at most two; failure when it is past two by more than the truncation, by the bound on the error of the truncating power.
* **C13** (proved) Fee rates stay in range. State invariant over histories.
* **C14** (partial) Accrued streaming fees are paid out exactly once and never lost. Ledger of accrued, paid and discarded amounts over histories; refutation by witness.
* **C15** (proved) Pause blocks minting and burning exactly until expiry. Per message, lifted to queries and times.
* **C16** (proved) Governance changes hands only by nomination and acceptance. Authorisation lemma per message, lifted to histories.
* **C17** (proved) Nobody but governance changes settings. Frame lemmas per message, lifted to histories.
* **C18** (proved) No minting or burning during a rebalance; supply constant. State invariant over histories.
* **C19** (proved) A rebalance only moves the listed denoms, within their bounds. Invariant relating the current units to those at the start of the rebalance.
* **C20** (proved) Finalize means the targets are met exactly. From the acceptance condition of Finalize.
* **C21** (partial) A started rebalance can always be completed. Stuck-state invariant over all continuations; reachable witness.
* **C22** (partial) Accepted rebalances have usable weights. Stuck-state invariant over all continuations; reachable witness.
* **C23** (proved) Proceeds are split over inflation weights without creating value. Arithmetic over the list of weights, induction on the loop.
* **C24** (proved) Trades respect size limit, slippage limit and cooldown. Per trade, and a log of trades over histories for the cooldown.
* **C25** (partial) Deflating a denom sells that denom. Invariant "second key component = denom of the first hop"; consequence for emitted messages.
* **C26** (partial) Inflating a denom buys that denom. As C25.
* **C27** (proved) The basket never contains a denom twice. State invariant over histories.
* **C28** (proved) Streaming fee stands still during a rebalance. State invariant over histories.
* **C29** (partial) A governance-configured fee freeze persists. Witness history; persistence over histories without fee update and Finalize.
* **C30** (proved) Changing the fee never charges the past at the new rate. Accrual before the update, with two-sided bounds.
* **C31** (proved) An airdrop never pays more than it was funded. Invariant over airdrop histories.
* **C32** (proved) Each claim key is paid at most once per airdrop. Invariant and monotonicity of the claim log.
* **C33** (proved) The airdrop contract can always pay. Chain-level solvency invariant.
* **C34** (proved) Closing is final and returns exactly the remainder. Functional specification and ledger over histories.
* **C35** (proved) Airdrop identity is stable. Invariant over histories.
* **C36** (proved) Labels are unique, permanent and owned. Invariant over histories.
* **C37** (proved) Merkle proofs: completeness and soundness. Abstract hash, inductive trees; collision-freeness only among the strings hashed.
* **C38** (proved) Leaf and signature payloads are unambiguous. Injectivity of the texts on character lists.
* **C39** (proved) A claim pays exactly the proven amount to the proven claimer. Functional specification of the two claim kinds.
* **C40** (proved) Only the creator can fund or close. Authorisation lemma per message.
* **C41** (partial) VerifyClaim predicts Claim. Comparison of query and execution; witnesses in both directions.
* **C42** (proved) Zap search stays within the budget. Loop invariant of the two searches over arbitrary pools.
* **C43** (proved) Swap messages never spend more than the budget. Induction over the message builder.
* **C44** (partial) Swap messages enforce the minimum output. Induction over the message builder; witness for the failure.
* **C45** (partial) MintExactAmountIn delivers the requested minimum. World with periphery, core, bank and arbitrary swap results; witness for the failure.
* **C46** (proved) Zap sends a basket core accepts. Functional specification against C03.
* **C47** (proved) Route order is preserved. Induction over the message builder.
* **C48** (proved) BurnExactAmountOut never burns more than attached. World with periphery, core, bank.
* **C49** (proved) Leftovers can only be swept by the contract itself to the caller. Case analysis of the entry points.
* **C50** (partial) Zap simulations agree with execution. Comparison of query and execution; witnesses for the failures. For the operations that search, the exact characterisations of C84 and C85 are put side by side: both searches end within the same window below the target.
* **C51** (proved) Weighted pool bookkeeping conserves tokens and never overdraws. Decimal256 arithmetic over `Nat`; induction over swap sequences.
* **C52** (proved) Power function: integer exponents. Induction over the squaring loop, error bounds.
* **C53** (proved) Power series evaluation terminates and stays in range. Loop invariant of the series and comparison with real powers; the result is also identified with an independently written sum of rounded terms up to the first one below 10^-8.
* **C54** (proved) Paged listings are complete and bounded. Sorted store; induction over pages.
* **C55** (proved) Versions only move forward without force. Total order of versions; induction over migrations.
* **C56** (proved) Pool ids are collected completely and once. List lemmas.
* **C57** (proved) With one-hop routes no asset can ever be sold for the reserve. Chain-level invariant with one-hop routes.
* **C58** (proved) A bearer signature is not bound to one airdrop. Replay of the accepted claim in a second airdrop.
* **C59** (proved) An airdrop never pays more than its tree holds. C37 combined with the claim log over histories.
* **C60** (proved) Equal-weight pools are priced by the constant-product formula. Rounding bounds of chained fixed-point operations.
* **C61** (proved) Simulated sales never promise more than the exact weighted formula. Comparison with real powers through C52 and C53.
* **C62** (proved) A purchase through the periphery is settled exactly. World with periphery, core, bank and arbitrary swap results.
* **C63** (proved) A sale through the periphery is settled exactly. World with periphery, core, bank and arbitrary swap results.
* **C64** (partial) BurnExactAmountOut delivers the requested amount. Witness, and the bound from C48.
* **C65** (partial) A purchase does not spend the periphery's other balances. Witness, and the balance equations of C62.
* **C66** (proved) GetConfig tells the pause state of the requested time. Direct.
* **C67** (proved) Pool answers are told apart by their type. Base64 as a function on bytes; alignment of prefixes.
* **C68** (partial) The time of fee collections does not matter. Two-sided power bounds; witness for the inequality.
* **C69** (partial) Coins are accepted only where they are payment. Case analysis of every message; witness.
* **C70** (proved) A simulation is the sequence of swaps it stands for. Induction over the basket and over each route, against an inductive relation.
* **C71** (proved) A search is a bounded sequence of proportional corrections. Induction over the remaining iterations, against an inductive relation.
* **C72** (proved) Compact route text is read back as written. Induction over the text; first and last parts are unique.
* **C73** (partial) Accuracy of the power function. Trace of the loop, rounding deficits of its terms by induction, and tail bounds of the binomial series (Mathlib's binomial series; alternating above one, geometric below); witness for the small base.
* **C74** (partial) Simulated prices of weighted pools follow the exact formula. C73 and C52 carried through the formula, with Bernoulli inequalities for the rounded base and exponent; witness for weights 3 and 2.
* **C75** (partial) The stable pool solver keeps the pool's invariant. Induction over the digits of the square root; list lemmas; monotonicity of the invariant; witness.
* **C76** (proved) A rebalance starts and ends exactly under its conditions. Case analysis of the handlers; both directions; the reachable invariant (distinct denoms) for Finalize.
* **C77** (proved) A rebalance trade is accepted exactly under its conditions. Case analysis of the handlers; induction over the weights for the split.
* **C78** (proved) Every governance message is accepted exactly under its conditions. Case analysis of the handlers.
* **C79** (proved) Burn, Realize and creation are accepted exactly under their conditions. Case analysis; a list sorted by distinct denoms is determined by its content.
* **C80** (proved) Every airdrop message is accepted exactly under its conditions. Case analysis; hex text characterised digit by digit; induction over the path.
* **C81** (proved) The events of the core contract tell the truth and are enough to follow supply and settings. Case analysis of the handlers with their attributes; induction over the history; decimal texts read back.
* **C82** (partial) The events of the airdrop contract tell the truth, and all are found under the key action. Case analysis; induction over the history.
* **C83** (partial) The events of the periphery report what is paid and received. Case analysis; settlement theorems C45/C62 and arithmetic of the two roundings.
* **C84** (proved) Exactly when the periphery accepts an operation and what it then does. Iff lemmas for every step; C70 and C71 for simulations and searches; uniqueness of the sorted basket and of the sorted list of pool ids.
* **C85** (proved) Exactly when the simulation queries of the periphery answer and what they say. The same lemmas as C84.
* **C86** (partial) A purchase may spend at most what is attached. Sum of rounded-down shares over the messages of C84; witness by execution.
* **C87** (proved) The recorded signer is the valid address of the key. The fold of the checksum is linear over exclusive or, so that the appended checksum makes the remainder 1; regrouping 8 to 5 bits is inverted by reading one number in base 32; induction over histories for the stored signer.
* **C88** (proved) A registration signature can be reused by anyone. The acceptance condition of a registration does not mention root, denom or label in the signature check.
* **C89** (proved) Between rebalances only the streaming fee changes what an index token stands for. Each accepted message is at most one accrual; its factor 1-k satisfies (1+r)^n(1-n/10^18) <= 1+k <= (1+r)^n; factors compose by (1-k)(2-F) >= 2-(1+k)F and (1-k)(1+k) <= 1; induction over the history.
* **C90** (proved) A fully funded airdrop pays everyone on its list. The recorded claims and the unpaid leaf are leaves with distinct keys, so that their sum is at most the total of the tree (C59); C37 gives the proof, C33 the payment.
* **C91** (proved) Accepted mints, burns and fee payments are settled on the chain. The messages of C02, C04 and C14 are run on the bank of `Chain/World.lean`; the collateral bound C06 gives the condition of the burn.
* **C92** (proved) Version texts are read faithfully. `Spec/Version.lean` states which texts are versions; the number loop and the identifier loop are each characterised by an equivalence, by induction over the text.
* **C93** (proved) The stores of a contract do not collide. `Storage/Raw.lean` models key bytes, the ordered byte storage and prefix scans (with the end bound from incrementing the last byte); `Storage/Contracts.lean` lists the places of both contracts. Length prefixes make the decoding of keys unique; UTF-8 and big endian bytes keep the order of texts and numbers; a scan whose end bound carries over (ids ending with 255) is shown to meet no foreign key.
* **C94** (proved) The airdrop contract on bytes does what the contract on stores does. Simulation: `Rep` says which value lies under each place's key; every read returns the state's field and every write is the corresponding update of the state, `airdrops().save` updating three places; induction over the history.
* **C95** (proved) Trade limits bound the volume swapped over time. Induction over the history with the stored last trade time as invariant; counting of spaced times in an interval.
* **C96** (proved) Queries tell what the last accepted message set. One lemma per setting over all messages; one induction over histories for all settings.
* **C97** (proved) The core contract on the byte storage does what the abstract contract does. Simulation as in C94: `CoreRep` says which value lies under each place's key; every load returns the field of the state, every save and remove is the corresponding update; one matching lemma per handler, induction over the history.
* **C98** (proved) When a rebalance can be completed. `Closable` is an inductive relation on the gap and the supply alone. Blocking: `not Closable` of the gap (of the reserve entry) is an invariant of every step, and `Finalize` needs it to fail. Completion: the swaps are read off the derivation of `Closable`, governance stores an unlimited route first; induction over the derivation and over the reserve entries.
* **C99** (proved) Messages are understood as they are written. A reader and a writer of JSON over bytes (`Verif/Json/Text.lean`) and a codec for each message type. The specification `Spec/Texts.lean` writes the texts with string operations only. Faithfulness is proved for the grammar (`ofBytes (toBytes j) = some j`) and for each codec; the range of what is read by walking through the decoders.
* **C100** (proved) No message is understood by two contracts. The variants are read by name (`oneOf`), an accepted text is an object with exactly one field; the three lists of names are disjoint.
* **C101** (proved) Arbitrary texts lead only where messages lead, and no stored number leaves its type. `Json/History.lean` runs the contracts on texts. A run on texts equals the run on the messages that can be read (`coreReadable`, `dropReadable`), by induction. `CoreStateFits` and `DropStateFits` (`Spec/Fits.lean`) are invariants, proved handler by handler in `Core/NumbersFit.lean` and `Airdrop/NumbersFit.lean` from the range checks of the arithmetic and from C99_in_range.
* **C102** (proved) Queries are understood as written and answers are read back as given. `Spec/QueryTexts.lean` writes the texts of queries and answers with string operations only. Each codec is shown to write them (`Json/QueryTextSpec.lean`); reading back follows from the faithfulness of the codecs once every answer fits, which follows from the fits of the state and the range checks of the arithmetic.
* **C103** (proved) The contracts run on bytes as on states, and what stands in their storage is the text of the state. The handlers of `Storage/CoreExec.lean` and `Storage/Exec.lean` are written over any kind of stored value that can be written and read (`CoreCell`, `DropCell`); with the JSON codecs these are byte strings (`Json/Stored.lean`, `Json/Contract.lean`). The simulation of C94 and C97 is proved once for all kinds, provided that what the state keeps is read back, which follows from the faithfulness of the codecs and from C101_core_fits and C101_airdrop_fits. `Spec/StoredTexts.lean` writes the stored texts with string operations only; that a decimal has only one such text is proved in `Json/StoredTextSpec.lean`.
* **C104** (proved) Queries and migrations on bytes: answers are read from the stored texts, and a migration changes only the version record. `Json/ContractQuery.lean` has the query and migrate entry points on a storage of bytes, with `KeyDeserialize` for texts and numbers. A page of the byte storage is the page of C93 with every value replaced by its text; reading it back gives the entries of the state (`Props/ByteQueries.lean`). That no denom of a short message is too long for a key is proved from the JSON reader: a text inside a value read from bytes is no longer than the bytes, escapes included (`Json/SizeLemmas.lean`). Migration acceptance is stated with the version texts of C92.
* **C105** (proved) Exactly the JSON texts are read, and each says one thing. The grammar is an inductive specification (`Spec/JsonText.lean`). Soundness by induction on the steps of the reader, completeness by recursion over the derivation (`Json/GrammarLemmas.lean`); a number text is the decimal form of its value. UTF-8 is stated with the encoder of Lean's library. Base64 and decimals by case analysis on the readers (`Json/GrammarLemmas2.lean`).
* **C106** (proved) Exactly the messages of the published tables are accepted. The tables are data of an inductive type `Schema`; `Means` gives by recursion the trees of a form and what they say in full (`Spec/Schema.lean`). An executable form of `Means` is proved equal to it by mutual recursion (`Json/SchemaLemmas.lean`), and for each codec reading followed by writing is proved equal to that form, field by field and variant by variant (`Json/SchemaLemmas2.lean`). With C105 for the texts, and since codecs read back what they write, the exact condition follows.
* **C107** (proved) Answers about pools: exactly those of the three forms are understood, and stable pools as the chain writes them are refused. The answers are modelled by codecs in the manner of the messages (`Json/Pools.lean`) and given as tables of names and types (`Spec/Pools.lean`); reading and writing is proved equal to the tables as for C106, and how the pool is made from the fields is proved equal to its description (`Json/PoolsLemmas.lean`). How an answer must begin is C67. For the zaps, a successful one has asked for all pools of its routes (the acceptance conditions of the zaps).
* **C108** (proved) Zaps with bytes at every border do what they do on messages and states. The handlers are written again with bytes at every border (`Json/Zap.lean`). Each question to the core contract gets the answer of the state (C104) and is read back (C102); each answer about pools is C107; the amounts sent are below `2^128`, since they come from checked products, so the calls are read back (C99). By induction over the messages, both runs fail or both reach worlds with the same bank and a storage that holds the texts of the state (C103 for the step of the core contract; `Json/ZapLemmas.lean`, `Json/ZapLemmas2.lean`).
* **C109** (proved) Messages and questions to the chain are bytes that say them, and the reply is read as it says. The wire format is a grammar over bytes (`Spec/Proto.lean`). Bytes have at most one list of fields (`fields_unique`), numbers and texts are read off them, so a message is determined by its bytes; that each writer's bytes are derivable, and that the reader accepts exactly the derivable ones, is by induction (`Proto/WireLemmas.lean`).
* **C110** (proved) The hashes behind leaves, proofs and addresses are SHA-256 and RIPEMD-160. The standards are written over words of 32 bits with the constants as roots, primes and permutations (`Spec/Hash.lean`); the model computes with numbers and tables. Each operation, round, schedule and block of one is the same as of the other (`Airdrop/HashLemmas.lean`); the tables are checked against the roots by `n^e ≤ x < (n+1)^e`.
* **C111** (proved) The text of a response says what is sent and reported, and the text of a reply is read as it says. `Spec/Response.lean` says what a JSON tree means by members of objects, whatever their order, and base64 and protobuf by their own specifications; at most one response is meant (`C111_one_meaning`). The writers are shown to produce trees that mean the response, the reader to accept exactly the trees that mean a reply (`Json/ResponseLemmas.lean`); the entry points combine this with C81–C83 and C109.
* **C112** (proved) What accepted trades and settings do on the chain. The accepted message's swap is known from C24 and the stored route's first denom from the invariant of routes (`Inv.routes`); the chain's conditions for it are computed on the balances after the attached coins moved. The last claim combines the three over all trades at any point of a history.
* **C113** (proved) Every refusal names a true reason. The facts are written in Spec/Reasons.lean, one line per kind of error. Each function's failing step is characterised (Core/ErrorLemmas.lean) and each handler followed step by step; the invariants rule out the aborts of missing reserve units, stored empty routes, plan denoms missing from the basket and stored roots that are not hex.
* **C114** (proved) Every refusal of the periphery names a true reason. Spec/ReasonsZap.lean lists the fact behind each kind. The weighted pool's arithmetic is followed error by error, with the bounds on the power function excluding the signs and bases that cannot occur; along the simulation the pools stay the pools read up to balances; the search loop is followed by induction on the corrections left.
* **C115** (proved) Nobody gets between a user and their price. An accepted message of an outsider without rebalance is an accrual followed by a change of supply or collected fees only; a second accrual at the same time changes nothing; so after any such history the state is the old one or agrees with the accrued old one on all that mint and burn look at. Claims: identity of airdrops over all histories (C35) and the exact condition of acceptance (C80).
* **C116** (proved) The worst that fees can do to holders. Induction on the history: an accepted message is at most one accrual, whose factor is at most that of the highest rate over the seconds since the last accrual, and a fee change starts at the present second; the factors multiply. The bound for thirty days is the truncating power, computed by the kernel, with its error bound.
* **C117** (proved) Airdrops do not affect each other. Two states are alike for an airdrop if its record, its claims, the labels and the next number agree. A message about the airdrop, or a registration, leads from alike states to the same answer and alike states, refusals included; a message about another airdrop leads to a state alike to the one before. Induction on the history with the messages left out.
* **C118** (proved) Nothing that is paid in gets stuck. The counterpart of C06 in the other direction: each accepted message lowers what the contract owes by no more than what it pays out plus less than one base unit per rounding, and raises its balance by no more than it receives. Summed over the history by induction; the fees dropped by update_fee_strategy are counted separately and a history where they stay behind is exhibited.
* **C119** (proved) The airdrop contract holds exactly what is left in its airdrops. Each accepted message changes what is left by exactly what is put in less what is sent; transfers and inflows leave it alone. Induction on the history on the chain with a bank.
* **C120** (proved) Exactly when the queries of the core contract answer, and why they refuse. The exact conditions for each step of a query are put together; for refusals the failing step is traced back to its cause. For the funds this takes an induction on the coins required: taking one coin leaves the others as they are.
* **C121** (proved) What rebalances leave behind on the contract. For each kind of message an upper bound of what it takes from the obligations of a denom against what it takes from the balance; trades use the exact rounding of the division by the supply and the leftover of the split over the weights. Induction on the history on the chain with a bank. That orphaned coins stay is shown by a history.
* **C122** (proved) One trade can make a rebalance endless. The arithmetic: what is left is worth less than three base units, and closing it would need a part worth exactly one or two, so the supply would divide 2*10^18. Then the trade is shown to be accepted from the exact conditions of its acceptance, and C98 (an amount that cannot be closed blocks for ever) is applied to the state after it.
* **C123** (proved) The answers of the airdrop contract tell what happened. Induction on the history from its end: every record shows something that happened. Conversely what happened is recorded at once and never lost (records only grow). The registration with a given number determines all fields but the totals and the end, which gives the equivalence.
* **C124** (proved) Rebalances that can never end, and how anyone can bring one about. By C98 an amount that can be closed contains a positive part worth a whole number of base units; with the greatest common divisor taken out of supply and 10^18 coprimality makes this part a multiple of the least amount. The supply is followed through the collection of fees and the mint; among four consecutive numbers one is coprime to ten. Then C98 on the state after Init.
* **C125** (proved) The listings of the airdrop contract are its history. The pages make up the sorted store (C54), the store shows what happened (C123), and the sum of the records is the total claimed (C31); the numbers of the airdrops are those below the counter, and two sorted lists with the same elements are equal.
* **C126** (proved) Everyone can leave. The cover of the debts (C06) changes by the loss of each transaction, which is zero but for mints and trades; what a burn pays lowers the debt by as much (C91). Induction over the burns of the block: the second collection in a second does nothing, and no burn lowers the balance of another account.
* **C127** (proved) Refused questions to the periphery name a true reason. The errors of each step of a question are traced back with the lemmas of C114; the facts are stated for the zap that the question is about. The small purchase follows from the exact condition for the search (C71) and the subtraction of one hundred.
* **C128** (proved) Pools of equal weights give nothing away but rounding. The exponent is exactly one, so the power is its base (C60); the rest is arithmetic over the two roundings: the bound for the amount after the fee is carried over to the whole payment, and the bounds of both swaps are added after clearing the denominators.
* **C129** (proved) With one-hop routes a rebalance that sells an asset never ends. Invariant over the transactions: during the rebalance only a Deflate of the denom changes its units, and by C57 no such trade goes through; Finalize needs the units at or below the target.
* **C130** (proved) The test-querier contract hands questions over as they are. The reader of QueryRequest accepts exactly the trees that ask a question by the names of their members (Spec/Relay.lean), by cases over the variants; what is written asks the question it was written from; the rest follows through C105. Which variants there are follows from the features of cosmwasm-std in Cargo.toml.
* **C131** (proved) Whatever the weights, sales there and back win nothing but rounding. From the upper bound C61 on sales: lowering the base of a power by e lowers the power by at most e(w+1/r) (Bernoulli), so each sale keeps the exact invariant up to rounding; two sales are composed in the real numbers. The counterexample for purchases is computed in the kernel.
* **C132** (proved) No sequence of sales takes anything out of a weighted pool but rounding. By C131 a sale keeps the weighted product R^w*U^w' up to a factor (1-eta)^max(w,w'), eta = 2^K(2K+3)/10^18; induction over the sales and Bernoulli.
