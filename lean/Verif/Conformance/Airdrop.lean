import Verif.Conformance.Secp256k1
import Verif.Events.Airdrop
import Verif.Props.AirdropDemo
/-!
# The unit tests of the airdrop contract, replayed on the model

Every `#[test]` under `/repo/contracts/airdrop/src/` is repeated here with the same Merkle trees, keys and signatures.
The hashes and the address are computed by `Verif/Airdrop/Digest.lean`, the signatures are checked by
`Verif/Conformance/Secp256k1.lean`, and the kernel evaluates everything.  These are tests of the model, not proofs of
properties.  Left out: the contract version check of `/repo/contracts/airdrop/src/contract.rs:110-117` (see
`Verif/Iface/Version.lean`).
-/

namespace Ibcx.Airdrop.Conformance
open Ibcx Ibcx.Airdrop Ibcx.Airdrop.Digest

set_option synthInstance.maxSize 1000

/-- The primitives of the tests. -/
def crypto : Crypto := realCrypto Secp.verify

/-- `mock_env()`; `addr_validate` of the mock API accepts these addresses. -/
def env : Env :=
  { now := 1571797419, height := 12345, contract := "cosmos2contract", validAddr := fun a => 3 ≤ a.length
    estOut := fun _ _ => .error .querier, estIn := fun _ _ => .error .querier }

/-- `mock_open_airdrop`, `/repo/contracts/airdrop/src/execute/mod.rs:67-86`. -/
def openRoot : String := "597f35d2e2f4f5c02e31be44695da0c3e0ce03bbb212c6cfc4ef94d7d4940bb5"

/-- `mock_bearer_airdrop`, `/repo/contracts/airdrop/src/execute/mod.rs:88-116`. -/
def bearerRoot : String := "1cf8a2c703330168311d9b9a9bc9063865fda851fb513959416cb6d2bc98b4a7"

/-- `/repo/contracts/airdrop/src/execute/mod.rs:95`. -/
def signer : String := "osmo1cyyzpxplxdzkeea7kwsydadg87357qnahakaks"

/-- `/repo/contracts/airdrop/src/execute/mod.rs:96`. -/
def signerPub : String := "02ec18c82501c5088119251679b538e9cf8eae502956cc862c7778aa148365e886"

/-- `/repo/contracts/airdrop/src/execute/mod.rs:97`. -/
def signerSig : String := "c8cccdaa7568544164b2bcbea55eaaaa7f52e63ff2e9f075d7419a4558f2ec5574f196d449304314f22a0803f4fc260c476a1380b6db72b7cb6976980b9a1a46"

/-- The bytes of the key. -/
def pubBytes : Bytes := ((hexDecode signerPub).toOption).getD []

/-- The record of the open test airdrop. -/
def openDrop (label : Option String) : Drop :=
  { kind := .openAirdrop, creator := "tester", denom := "ukrw", totalAmount := 100000, totalClaimed := 0
    merkleRoot := openRoot, label := label, createdAt := 12345, closedAt := none }

/-- The record of the bearer test airdrop. -/
def bearerDrop (label : Option String) : Drop :=
  { kind := .bearer signer pubBytes, creator := "tester", denom := "ukrw", totalAmount := 1000000, totalClaimed := 0
    merkleRoot := bearerRoot, label := label, createdAt := 12345, closedAt := none }

/-- The state after the registration, where a test starts from it. -/
def stateOf (a : Drop) : State := { latest := 1, drops := [(0, a)], labels := [], claims := [] }

/-! ## `verify.rs` -/

/-- `pub_to_addr` on the key of the tests gives the address of the tests. -/
example : pubToAddr pubBytes "osmo" = signer := by decide +kernel

/-- The proof of `/repo/contracts/airdrop/src/verify.rs:77-82`. -/
def openProof : List String :=
  ["7ea10756e42edf91a6fae6fa8a1acd00751c52c5e0f9d497a7abff7813512667",
   "eda896591efa2cd33541930d90ea37449af60460ef8e527109ee9940238266ce",
   "b712f5b328047024ff46b9e105ecb71dfcb9813088a87a7e6a46731e7db62638",
   "eca3408c50efba13b12ec9b352e0403369ff423ee89f23d1f7ada03a90d7e84f"]

/-- The claimer of `/repo/contracts/airdrop/src/verify.rs:83`. -/
def claimer : String := "osmo1phaxpevm5wecex2jyaqty2a4v02qj7qmlmzk5a"

/-- `test_verify_merkle_proof`, `/repo/contracts/airdrop/src/verify.rs:74-126`. -/
example : verifyMerkleProof crypto openRoot openProof claimer 1000 = .ok () ∧
    verifyMerkleProof crypto openRoot openProof claimer 10000 = .error .invalidProof ∧
    verifyMerkleProof crypto openRoot openProof "asdf" 10000 = .error .invalidProof ∧
    verifyMerkleProof crypto openRoot (openProof.take 3) claimer 10000 = .error .invalidProof := by decide +kernel

/-! ## `contract.rs`, `execute/register.rs` -/

/-- `init`, `/repo/contracts/airdrop/src/contract.rs:96-118`. -/
example : initial.latest = 0 := by decide

/-- `test_register_open`, `/repo/contracts/airdrop/src/execute/register.rs:241-279`. -/
example : (registerR crypto initial env ⟨"tester", [⟨"ukrw", 100000⟩]⟩
      (.openDrop openRoot "ukrw" (some "test_open_airdrop"))).map (fun r =>
      (r.2, getLabel r.1.1 "tester/test_open_airdrop", getAirdrop r.1.1 (.id 0), listByType r.1.1 .openDrop none none none,
        listByCreator r.1.1 env "tester" none none none)) =
    .ok (registerEvent 0 (openDrop (some "tester/test_open_airdrop")), .ok ⟨"tester", "test_open_airdrop", 0⟩,
      .ok (0, openDrop (some "tester/test_open_airdrop")), .ok [(0, openDrop (some "tester/test_open_airdrop"))],
      .ok [(0, openDrop (some "tester/test_open_airdrop"))]) := by decide +kernel

/-- `test_register_bearer`, `/repo/contracts/airdrop/src/execute/register.rs:281-324`: the registration signature is
checked. -/
example : (registerR crypto initial env ⟨"tester", [⟨"ukrw", 1000000⟩]⟩
      (.bearer bearerRoot "ukrw" signerPub signerSig (some "test_bearer_airdrop"))).map (fun r =>
      (r.2, getLabel r.1.1 "tester/test_bearer_airdrop", getAirdrop r.1.1 (.id 0), listByType r.1.1 .bearer none none none,
        listByCreator r.1.1 env "tester" none none none)) =
    .ok (registerEvent 0 (bearerDrop (some "tester/test_bearer_airdrop")), .ok ⟨"tester", "test_bearer_airdrop", 0⟩,
      .ok (0, bearerDrop (some "tester/test_bearer_airdrop")), .ok [(0, bearerDrop (some "tester/test_bearer_airdrop"))],
      .ok [(0, bearerDrop (some "tester/test_bearer_airdrop"))]) := by decide +kernel

/-- `register_airdrop`, `/repo/contracts/airdrop/src/execute/mod.rs:28-65`: the starting states of the other tests. -/
example : (register crypto initial env ⟨"tester", [⟨"ukrw", 100000⟩]⟩ (.openDrop openRoot "ukrw" none)).map (·.1) =
      .ok (stateOf (openDrop none)) ∧
    (register crypto initial env ⟨"tester", [⟨"ukrw", 1000000⟩]⟩
      (.bearer bearerRoot "ukrw" signerPub signerSig none)).map (·.1) = .ok (stateOf (bearerDrop none)) := by
  decide +kernel

/-! ## `execute/fund.rs`, `execute/close.rs` -/

/-- `test_fund_open`, `/repo/contracts/airdrop/src/execute/fund.rs:132-203`, and `test_fund_bearer`,
`/repo/contracts/airdrop/src/execute/fund.rs:205-275`. -/
example : ∀ a ∈ [openDrop none, bearerDrop none],
    (fundR (stateOf a) ⟨"tester", [⟨"ukrw", 10000000⟩]⟩ (.id 0)).map (fun r => (r.2, r.1.1)) =
      .ok (fundEvent "tester" a.kind 0 10000000, stateOf { a with totalAmount := a.totalAmount + 10000000 }) ∧
    (fundR (stateOf a) ⟨"tester", []⟩ (.id 0)).map (·.2) = .error .payment ∧
    (fundR (stateOf a) ⟨"tester", [⟨"ujpy", 10⟩]⟩ (.id 0)).map (·.2) = .error .payment ∧
    (fundR (stateOf a) ⟨"tester", [⟨"ukrw", 10⟩, ⟨"ujpy", 10⟩]⟩ (.id 0)).map (·.2) = .error .payment ∧
    (fundR (stateOf a) ⟨"abuser", [⟨"ukrw", 10000000⟩]⟩ (.id 0)).map (·.2) = .error .unauthorized ∧
    ((close (stateOf a) env ⟨"tester", []⟩ (.id 0)).bind (fun o =>
      fundR o.1 ⟨"tester", [⟨"ukrw", 10000000⟩]⟩ (.id 0))).map (·.2) = .error .closed := by decide +kernel

/-- `test_close_open`, `/repo/contracts/airdrop/src/execute/close.rs:153-173`, and `test_close_bearer`,
`/repo/contracts/airdrop/src/execute/close.rs:175-196`. -/
example : ∀ a ∈ [openDrop none, bearerDrop none],
    (closeR (stateOf a) env ⟨"tester", []⟩ (.id 0)).map (·.2) =
      .ok (closeEvent "tester" a.kind 0 a.totalAmount) := by decide +kernel

/-! ## `execute/claim.rs` -/

/-- The open claim of the tests with a key, an amount and a proof. -/
def claimAs (s : State) (key : String) (amount : Nat) (proof : List String) : Res (Out × List Attr) :=
  claimR crypto s env ⟨"anyone", []⟩ (.openDrop (.id 0) amount (some key) proof)

/-- The invalid proof of `/repo/contracts/airdrop/src/execute/claim.rs:264-269`: the last two entries exchanged. -/
def openProofBad : List String :=
  ["7ea10756e42edf91a6fae6fa8a1acd00751c52c5e0f9d497a7abff7813512667",
   "eda896591efa2cd33541930d90ea37449af60460ef8e527109ee9940238266ce",
   "eca3408c50efba13b12ec9b352e0403369ff423ee89f23d1f7ada03a90d7e84f",
   "b712f5b328047024ff46b9e105ecb71dfcb9813088a87a7e6a46731e7db62638"]

/-- `test_claim_open`, `/repo/contracts/airdrop/src/execute/claim.rs:249-334`. -/
example : (claimAs (stateOf (openDrop none)) claimer 1000 openProofBad).map (·.2) = .error .invalidProof ∧
    (claimAs (stateOf (openDrop none)) claimer 999 openProof).map (·.2) = .error .invalidProof ∧
    (claimAs (stateOf (openDrop none)) "osmo1z7huy904a3yf3aj8mxt5z6shy7dezrlw5gduju" 1000 openProof).map (·.2) =
      .error .invalidProof ∧
    (claimAs (stateOf (openDrop none)) claimer 1000 openProof).map (·.2) =
      .ok (claimOpenEvent "anyone" .openAirdrop 0 claimer 1000) ∧
    ((claimAs (stateOf (openDrop none)) claimer 1000 openProof).bind (fun r =>
      claimAs r.1.1 claimer 1000 openProof)).map (·.2) = .error .alreadyClaimed := by decide +kernel

/-- The bearer claim of the tests. -/
def redeem (s : State) (amount : Nat) (who hash sign : String) (proof : List String) : Res (Out × List Attr) :=
  claimR crypto s env ⟨"anyone", []⟩ (.bearer (.id 0) amount (some who) hash sign proof)

/-- `/repo/contracts/airdrop/src/execute/claim.rs:344-345`. -/
def hashValid : String := "c2ae4a162c574a85c596cfda7c057c5aa15c7b4d6a5679f44fb365d76e63e24e"
/-- `/repo/contracts/airdrop/src/execute/claim.rs:345`. -/
def hashInvalid : String := "ba2b4d1a5891634c11f53917c7683bd9aff9b3c3595d93a88c0169bb201606c8"
/-- `/repo/contracts/airdrop/src/execute/claim.rs:348`, signed by the signer. -/
def signValid : String := "418e71e063fa630855ca431a6cf1b3ba7d7ef88364f5e24de6da1068071521542cdb061b66ec8a75c534720354f2347d64e3e0e75ca24edb0766f7b9336a3694"
/-- `/repo/contracts/airdrop/src/execute/claim.rs:350`, signed by the claimer. -/
def signInvalid : String := "8037897fdde7d83152b4586440b16a9e36ae6fa07a7574c347282c204a8e147967721ecfcc671d27cfd5545420cfc17a3ee8f5563ceef82f8e0209e7a751ba9f"

/-- `/repo/contracts/airdrop/src/execute/claim.rs:352-357`. -/
def bearerProof : List String :=
  ["7673db0bbf54220efc87bf8f57b5bc0fa489fe4508fa6051ed938ccbb11f5e7b",
   "f4e567b6b15b97e312757c1a2bd5273a14f4300b4e5d3df8980f7a3d400e90ce",
   "3591dea5b253198a4ba4bbbc440a1fb955967a11cce4abe442f8867c224bff19",
   "2a301d9535b68c35e0ae38108085966fb8657b396c92df1b86d7e07c183436a6"]

/-- `/repo/contracts/airdrop/src/execute/claim.rs:358-363`. -/
def bearerProofBad : List String :=
  ["7673db0bbf54220efc87bf8f57b5bc0fa489fe4508fa6051ed938ccbb11f5e7b",
   "f4e567b6b15b97e312757c1a2bd5273a14f4300b4e5d3df8980f7a3d400e90ce",
   "2a301d9535b68c35e0ae38108085966fb8657b396c92df1b86d7e07c183436a6",
   "3591dea5b253198a4ba4bbbc440a1fb955967a11cce4abe442f8867c224bff19"]

/-- The bearer airdrop after the registration. -/
def bearerState : State := stateOf (bearerDrop none)

/-- `test_claim_bearer`, `/repo/contracts/airdrop/src/execute/claim.rs:336-463`: the rejected claims. -/
example : (redeem bearerState 10000 claimer hashValid signValid bearerProofBad).map (·.2) = .error .invalidProof ∧
    (redeem bearerState 10000 claimer hashValid signInvalid bearerProof).map (·.2) = .error .invalidSignature ∧
    (redeem bearerState 10000 claimer hashInvalid signValid bearerProof).map (·.2) = .error .invalidProof ∧
    (redeem bearerState 10000 signer hashValid signValid bearerProof).map (·.2) = .error .invalidSignature ∧
    (redeem bearerState 9999 claimer hashValid signValid bearerProof).map (·.2) = .error .invalidProof := by
  decide +kernel

/-- `test_claim_bearer`, `/repo/contracts/airdrop/src/execute/claim.rs:336-463`: the accepted claim and its
repetition. -/
example : (redeem bearerState 10000 claimer hashValid signValid bearerProof).map (·.2) =
      .ok (claimBearerEvent "anyone" (.bearer signer pubBytes) 0 signer claimer 10000) ∧
    ((redeem bearerState 10000 claimer hashValid signValid bearerProof).bind (fun r =>
      redeem r.1.1 10000 claimer hashValid signValid bearerProof)).map (·.2) = .error .alreadyClaimed := by
  decide +kernel

end Ibcx.Airdrop.Conformance
