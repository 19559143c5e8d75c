import Verif.Spec.Accept
import Verif.Spec.AcceptDrop
/-!
# What a refusal says

For each kind of error the fact about state, sender and message that it stands for.  Only data types of the model are
used.
-/

namespace Ibcx.Spec
open Ibcx

namespace Core
open Ibcx.Core

/-- The account may send this message. -/
def Entitled (s : State) (a : Addr) : ExecMsg → Prop
  | .mint .. => True
  | .burn _ => True
  | .realize => a = s.fee.collector
  | .gov .acceptGov => s.pendingGov = some a
  | .gov _ => a = s.config.gov
  | .rebalance (.init ..) => a = s.config.gov
  | .rebalance _ => ∀ r m, s.rebalance = some r → r.manager = some m → a = m

/-- The message mints, redeems or starts a pause. -/
def NeedsRunning : ExecMsg → Prop
  | .mint .. => True
  | .burn _ => True
  | .gov (.pause _) => True
  | _ => False

/-- The message may not come during a rebalance. -/
def NeedsQuiet : ExecMsg → Prop
  | .mint .. => True
  | .burn _ => True
  | .gov (.updateFeeStrategy _) => True
  | .gov (.updateReserveDenom _) => True
  | .rebalance (.init ..) => True
  | _ => False

/-- The message is about the running rebalance. -/
def NeedsRebalance : ExecMsg → Prop
  | .gov (.updateRebalanceManager _) => True
  | .rebalance (.trade _) => True
  | .rebalance .finalize => True
  | _ => False

/-- The message makes the contract compute with amounts: payments, fees and trades. -/
def Computes : ExecMsg → Prop
  | .mint .. => True
  | .burn _ => True
  | .realize => True
  | .gov (.updateFeeStrategy _) => True
  | .rebalance (.init ..) => True
  | .rebalance (.trade _) => True
  | _ => False

/-- The message begins with the accrual of the streaming fee. -/
def Accrues : ExecMsg → Prop
  | .mint .. => True
  | .burn _ => True
  | .realize => True
  | .gov (.updateFeeStrategy _) => True
  | .rebalance (.init ..) => True
  | _ => False

/-- The addresses named in a message. -/
def addressesOf : ExecMsg → List Addr
  | .mint _ a b => a.toList ++ b.toList
  | .burn a => a.toList
  | .gov (.updateGov a) => [a]
  | .gov (.updateFeeStrategy p) => [p.collector]
  | .gov (.updateRebalanceManager a) => a.toList
  | .rebalance (.init a _ _) => a.toList
  | _ => []

/-- The pair over which a trade swaps, if it does. -/
def pairOf (s : State) : TradeMsg → Option (Denom × Denom)
  | .deflate d _ _ => if d = s.config.reserveDenom then none else some (d, s.config.reserveDenom)
  | .inflate d _ _ => if d = s.config.reserveDenom then none else some (s.config.reserveDenom, d)

/-- The rates of a fee payload are out of bounds. -/
def RatesBad (p : FeePayload) : Prop :=
  (∃ r, (p.mintFee = some r ∨ p.burnFee = some r) ∧ (r = 0 ∨ 1000000000000000000 ≤ r)) ∨
  (∃ sf, p.streamingFee = some sf ∧ (sf.rate = 0 ∨ 21979553000 < sf.rate))

/-- The plan of a rebalance has an empty list, names a denom twice, or wants to lower a denom that the basket does not
hold or holds less of. -/
def PlanBad (units defl infl : Units) : Prop :=
  defl = [] ∨ infl = [] ∨ ¬ ((defl ++ infl).map (·.1)).Nodup ∨
    ∃ d target, (d, target) ∈ defl ∧ ∀ unit, units.lookup d = some unit → unit < target

/-- The swap pair of the trade was used less than its cooldown ago. -/
def CoolingDown (s : State) (now : Nat) (t : TradeMsg) : Prop :=
  ∃ k i last, pairOf s t = some k ∧ s.tradeInfos.get k = some i ∧ i.lastTradedAt = some last ∧ now < last + i.cooldown

/-- The trade exceeds the limit of its pair, what the plan leaves to trade, or the limit given with it. -/
def TradeBad (s : State) (env : Env) : TradeMsg → Prop
  | .deflate d out maxIn => ∃ i, s.tradeInfos.get (d, s.config.reserveDenom) = some i ∧
      (i.maxTradeAmount < out ∨ ∃ cost, env.estIn i.routes ⟨s.config.reserveDenom, out⟩ = .ok cost ∧
        (maxIn < cost ∨ ∃ r target unit, s.rebalance = some r ∧ r.deflation.lookup d = some target ∧
          s.indexUnits.lookup d = some unit ∧ part (unit - target) s.totalSupply < cost))
  | .inflate d amountIn minOut => ∃ i, s.tradeInfos.get (s.config.reserveDenom, d) = some i ∧
      (i.maxTradeAmount < amountIn ∨
        (∃ res unit, s.reserveUnits = some res ∧ res.lookup d = some unit ∧ part unit s.totalSupply < amountIn) ∨
        ∃ got, env.estOut i.routes ⟨s.config.reserveDenom, amountIn⟩ = .ok got ∧ got < minOut)

/-- The chain gives no estimate for the swap of the trade. -/
def NoEstimate (s : State) (env : Env) : TradeMsg → Prop
  | .deflate d out _ => ∃ i e, s.tradeInfos.get (d, s.config.reserveDenom) = some i ∧
      env.estIn i.routes ⟨s.config.reserveDenom, out⟩ = .error e
  | .inflate d amountIn _ => ∃ i e, s.tradeInfos.get (s.config.reserveDenom, d) = some i ∧
      env.estOut i.routes ⟨s.config.reserveDenom, amountIn⟩ = .error e

/-- The traded denom is not one that the plan lowers, or not one that the reserve holds an entry for. -/
def NotPlanned (s : State) : TradeMsg → Prop
  | .deflate d _ _ => ∃ r, s.rebalance = some r ∧ r.deflation.lookup d = none
  | .inflate d _ _ => ∃ res, s.reserveUnits = some res ∧ res.lookup d = none

/-- There are no index tokens, or the proceeds cannot be split over the weights because the last of them are zero. -/
def NothingToDivideBy (s : State) : TradeMsg → Prop
  | .deflate .. => s.totalSupply = 0 ∨ ∃ r ws, s.rebalance = some r ∧ ws ≠ [] ∧ ws <:+ r.inflation ∧ weightSum ws = 0
  | .inflate .. => s.totalSupply = 0

/-- The fact that an error of the core contract stands for. -/
def Reason (s : State) (env : Env) (info : Info) (msg : ExecMsg) : Err → Prop
  | .unauthorized => ¬ Entitled s info.sender msg
  | .paused => pausedAt s env.now ∧ NeedsRunning msg
  | .notPaused => ¬ pausedAt s env.now ∧ msg = .gov .release
  | .onRebalancing => s.rebalance ≠ none ∧ NeedsQuiet msg
  | .notOnRebalancing => s.rebalance = none ∧ NeedsRebalance msg
  | .invalidAddr => ∃ a ∈ addressesOf msg, env.validAddr a = false
  | .invalid =>
      (∃ t, msg = .gov (.pause (some t)) ∧ t ≤ env.now) ∨
      (∃ p, msg = .gov (.updateFeeStrategy p) ∧ RatesBad p) ∨
      (∃ m defl infl s1, msg = .rebalance (.init m defl infl) ∧ collectStreamingFee s env.now = .ok s1 ∧
        PlanBad s1.indexUnits defl infl)
  | .insufficientFunds => ∃ amount a b d, msg = .mint amount a b ∧ d ∈ s.indexUnits.map (·.1) ∧
      ∀ c ∈ info.funds, c.denom ≠ d
  | .payment => ∃ a, msg = .burn a ∧ ¬ ∃ n, info.funds = [⟨s.config.indexDenom, n⟩] ∧ n ≠ 0
  | .generic =>
      (∃ amount a b, msg = .mint amount a b ∧ ∃ c ∈ info.funds, c.denom ∉ s.indexUnits.map (·.1)) ∨
      (∃ a, msg = .gov (.updateGov a) ∧ s.pendingGov ≠ none) ∨
      (∃ t, msg = .rebalance (.trade t) ∧ NoEstimate s env t)
  | .notFound =>
      (s.pendingGov = none ∧ (msg = .gov .acceptGov ∨ msg = .gov .revokeGov)) ∨
      (∃ t k, msg = .rebalance (.trade t) ∧ pairOf s t = some k ∧ s.tradeInfos.get k = none)
  | .onTradeCooldown => ∃ t, msg = .rebalance (.trade t) ∧ CoolingDown s env.now t
  | .tradeError => ∃ t, msg = .rebalance (.trade t) ∧ TradeBad s env t
  | .querier => ∃ t, msg = .rebalance (.trade t) ∧ NoEstimate s env t
  | .unableToFinalize => msg = .rebalance .finalize ∧ ∃ r, s.rebalance = some r ∧
      ((∃ d target unit, (d, target) ∈ r.deflation ∧ s.indexUnits.lookup d = some unit ∧ target < unit) ∨
        ∃ res d u, s.reserveUnits = some res ∧ (d, u) ∈ res ∧ u ≠ 0)
  | .panic => (∃ d c m, msg = .gov (.updateTradeInfo d [] c m)) ∨
      ∃ t, msg = .rebalance (.trade t) ∧ NotPlanned s t
  | .divideByZero => ∃ t, msg = .rebalance (.trade t) ∧ NothingToDivideBy s t
  | .overflow => Computes msg
  | _ => False

/-- The chain answers a question about a swap with a number, or not at all, or with something else. -/
def Estimates (env : Env) : Prop :=
  ∀ rs c e, env.estIn rs c = .error e ∨ env.estOut rs c = .error e → e = .querier ∨ e = .generic

end Core

namespace Drop
open Ibcx.Airdrop

/-- The message addresses this airdrop, which exists. -/
def At (s : State) (id : DropId) (n : Nat) (a : Drop) : Prop := target s id = some n ∧ s.drops.get n = some a

/-- The airdrop a message is about, if it is not a registration. -/
def About : ExecMsg → Option DropId
  | .register _ => none
  | .fund id => some id
  | .claim p => some (claimDrop p)
  | .close id => some id

/-- The text is not the hex of 32 bytes. -/
def NotHash (text : String) : Prop := ¬ ∃ h : Hash32, HexOf text h.bytes

/-- The text is not the hex of any bytes. -/
def NotHex (text : String) : Prop := ¬ ∃ bs, HexOf text bs

/-- The coins attached are not exactly one coin of the denom that is not zero. -/
def NotPaid (info : Info) (denom : Denom) : Prop := ¬ ∃ n, info.funds = [⟨denom, n⟩] ∧ n ≠ 0

/-- A hex text in the message is malformed. -/
def BadHex : ExecMsg → Prop
  | .register (.openDrop root _ _) => NotHash root
  | .register (.bearer root _ pub sig _) => NotHash root ∨ NotHex pub ∨ NotHex sig
  | .claim (.openDrop _ _ _ proof) => ∃ text ∈ proof, NotHash text
  | .claim (.bearer _ _ _ _ sign proof) => (∃ text ∈ proof, NotHash text) ∨ NotHex sign
  | _ => False

/-- What the key, the signature and the signed text of a message are. -/
def Signature (c : Crypto) (s : State) (info : Info) (key sig : Bytes) (text : String) : ExecMsg → Prop
  | .register (.bearer _ _ pub sign _) => HexOf pub key ∧ HexOf sign sig ∧ text = c.addrOf key
  | .claim (.bearer id amount account hash sign _) => ∃ n a signer, At s id n a ∧ a.kind = .bearer signer key ∧
      HexOf sign sig ∧ text = hash ++ "/" ++ account.getD info.sender ++ "/" ++ toString amount
  | _ => False

/-- The payload is for the other kind of airdrop. -/
def OtherKind (a : Drop) : ClaimPayload → Prop
  | .openDrop .. => a.kind ≠ .openAirdrop
  | .bearer .. => a.kind = .openAirdrop

/-- The proof given with a claim. -/
def proofOf : ClaimPayload → List String
  | .openDrop _ _ _ proof => proof
  | .bearer _ _ _ _ _ proof => proof

/-- The account given with a claim. -/
def accountOf : ClaimPayload → Option String
  | .openDrop _ _ account _ => account
  | .bearer _ _ account _ _ _ => account

/-- The label of a registration. -/
def labelOf : RegisterPayload → Option String
  | .openDrop _ _ label => label
  | .bearer _ _ _ _ label => label

/-- The denom of a registration. -/
def denomOf : RegisterPayload → Denom
  | .openDrop _ denom _ => denom
  | .bearer _ denom _ _ _ => denom

/-- The fact that an error of the airdrop contract stands for. -/
def Reason (c : Crypto) (s : State) (env : Env) (info : Info) (msg : ExecMsg) : Err → Prop
  | .hex => BadHex msg
  | .payment => (∃ p, msg = .register p ∧ NotPaid info (denomOf p)) ∨
      ∃ id n a, msg = .fund id ∧ At s id n a ∧ NotPaid info a.denom
  | .alreadyExists => ∃ p l, msg = .register p ∧ labelOf p = some l ∧ s.labels.get (info.sender ++ "/" ++ l) ≠ none
  | .invalidSignature => ∃ key sig text, Signature c s info key sig text msg ∧
      c.verify (c.sha text.toUTF8.data.toList) sig key = .ok false
  | .generic => ∃ key sig text e, Signature c s info key sig text msg ∧
      c.verify (c.sha text.toUTF8.data.toList) sig key = .error e
  | .invalidAddr => (∃ p x, msg = .claim p ∧ accountOf p = some x ∧ env.validAddr x = false) ∨
      ∃ p key sig text, msg = .register p ∧ Signature c s info key sig text msg ∧ env.validAddr text = false
  | .notFound => ∃ id, About msg = some id ∧ ¬ ∃ n a, At s id n a
  | .unauthorized => ∃ id n a, (msg = .fund id ∨ msg = .close id) ∧ At s id n a ∧ a.creator ≠ info.sender
  | .closed => ∃ id n a, About msg = some id ∧ At s id n a ∧ a.closedAt ≠ none
  | .wrongType => ∃ p n a, msg = .claim p ∧ At s (claimDrop p) n a ∧ OtherKind a p
  | .alreadyClaimed => ∃ p n a, msg = .claim p ∧ At s (claimDrop p) n a ∧ s.claims.get (n, claimKey info p) ≠ none
  | .invalidProof => ∃ p n a, msg = .claim p ∧ At s (claimDrop p) n a ∧
      ¬ ProofHolds c a.merkleRoot (proofOf p) (claimKey info p) (claimAmount p)
  | .insufficientAirdropFunds => ∃ p n a, msg = .claim p ∧ At s (claimDrop p) n a ∧
      a.totalAmount < a.totalClaimed + claimAmount p
  | .overflow => (∃ p, msg = .register p ∧ 2 ^ 64 ≤ s.latest + 1) ∨
      (∃ id n a x, msg = .fund id ∧ At s id n a ∧ info.funds = [⟨a.denom, x⟩] ∧ 2 ^ 128 ≤ a.totalAmount + x) ∨
      ∃ p n a, msg = .claim p ∧ At s (claimDrop p) n a ∧ 2 ^ 128 ≤ a.totalClaimed + claimAmount p
  | _ => False

/-- The check of a signature that cannot be carried out is reported by the standard library. -/
def Verifies (c : Crypto) : Prop := ∀ d sig key e, c.verify d sig key = .error e → e = .generic

end Drop

end Ibcx.Spec
