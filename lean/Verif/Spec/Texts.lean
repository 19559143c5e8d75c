import Verif.Core.Query
import Verif.Airdrop.Query
import Verif.Periphery.Query
/-!
# The texts of messages, as a client writes them

Written with texts only; nothing of the model of JSON is used.
-/

namespace Ibcx.Spec.Texts
open Ibcx

/-- A character inside quotes. -/
def inside (c : Char) : String :=
  match c.toNat with
  | 34 => "\\\""
  | 92 => "\\\\"
  | 8 => "\\b"
  | 9 => "\\t"
  | 10 => "\\n"
  | 12 => "\\f"
  | 13 => "\\r"
  | n => if n < 16 then "\\u000" ++ String.singleton ("0123456789ABCDEF".toList.getD n '0')
    else if n < 32 then "\\u001" ++ String.singleton ("0123456789ABCDEF".toList.getD (n - 16) '0')
    else String.singleton c

/-- A text in quotes. -/
def quoted (s : String) : String := "\"" ++ String.join (s.toList.map inside) ++ "\""

/-- Parts separated by commas. -/
def commas : List String → String
  | [] => ""
  | [x] => x
  | x :: xs => x ++ "," ++ commas xs

/-- An object. -/
def obj (fs : List (String × String)) : String := "{" ++ commas (fs.map fun f => quoted f.1 ++ ":" ++ f.2) ++ "}"

/-- An array. -/
def arr (xs : List String) : String := "[" ++ commas xs ++ "]"

/-- A value that may be missing. -/
def orNull {α : Type} (f : α → String) : Option α → String
  | none => "null"
  | some a => f a

/-- A truth value. -/
def flag (b : Bool) : String := if b then "true" else "false"

/-- An amount: its digits in quotes. -/
def amount (n : Nat) : String := quoted (toString n)

/-- The number written with the given digits. -/
def digitsValue (ds : List Char) : Nat := ds.foldl (fun n c => 10 * n + (c.toNat - 48)) 0

/-- The text of a decimal number with `n` parts of `10^-18`: no point for a whole number; otherwise as many digits after the
point as needed, at most eighteen and the last one not zero. -/
def IsDecimal (n : Nat) (s : String) : Prop :=
  (∃ w, n = 10 ^ 18 * w ∧ s = toString w) ∨
  ∃ w f, f ≠ [] ∧ f.length ≤ 18 ∧ (∀ c ∈ f, c.isDigit = true) ∧ f.getLast? ≠ some '0' ∧
    n = 10 ^ 18 * w + digitsValue f * 10 ^ (18 - f.length) ∧ s = toString w ++ "." ++ String.ofList f

section
variable (dec : Nat → String)

/-- A list of denoms with decimal numbers. -/
def units (us : List (Denom × Nat)) : String := arr (us.map fun e => arr [quoted e.1, quoted (dec e.2)])

/-- A coin. -/
def coin (c : Coin) : String := obj [("denom", quoted c.denom), ("amount", amount c.amount)]

/-- A hop of a swap. -/
def hop (r : SwapRoute) : String := obj [("pool_id", toString r.poolId), ("token_denom", quoted r.tokenDenom)]

/-- The fees asked for. -/
def feePayload (f : Core.FeePayload) : String :=
  obj [("collector", quoted f.collector), ("mint_fee", orNull (fun n => quoted (dec n)) f.mintFee),
    ("burn_fee", orNull (fun n => quoted (dec n)) f.burnFee),
    ("streaming_fee", orNull (fun p : Core.StreamingFeePayload => obj [("rate", quoted (dec p.rate)), ("freeze", flag p.freeze)])
      f.streamingFee)]

/-- The message that creates an index. -/
def coreInstantiate (m : Core.InstantiateMsg) : String :=
  obj [("gov", quoted m.gov), ("fee", feePayload dec m.fee), ("index_denom", quoted m.indexDenom),
    ("index_units", units dec m.indexUnits), ("reserve_denom", quoted m.reserveDenom)]

/-- The messages of governance. -/
def gov : Core.GovMsg → String
  | .pause e => obj [("pause", obj [("expires_at", orNull toString e)])]
  | .release => "{\"release\":{}}"
  | .updateGov g => obj [("update_gov", quoted g)]
  | .acceptGov => "{\"accept_gov\":{}}"
  | .revokeGov => "{\"revoke_gov\":{}}"
  | .updateFeeStrategy f => obj [("update_fee_strategy", feePayload dec f)]
  | .updateRebalanceManager m => obj [("update_rebalance_manager", orNull quoted m)]
  | .updateReserveDenom d => obj [("update_reserve_denom", quoted d)]
  | .updateTradeInfo d routes cooldown max =>
    obj [("update_trade_info", obj [("denom", quoted d), ("routes", arr (routes.map hop)), ("cooldown", toString cooldown),
      ("max_trade_amount", amount max)])]

/-- The messages of the rebalance. -/
def rebalance : Core.RebalanceMsg → String
  | .init manager deflation inflation =>
    obj [("init", obj [("manager", orNull quoted manager), ("deflation", units dec deflation),
      ("inflation", units dec inflation)])]
  | .trade (.deflate d out max) =>
    obj [("trade", obj [("deflate", obj [("target_denom", quoted d), ("amount_out", amount out), ("max_amount_in", amount max)])])]
  | .trade (.inflate d spent min) =>
    obj [("trade", obj [("inflate", obj [("target_denom", quoted d), ("amount_in", amount spent), ("min_amount_out", amount min)])])]
  | .finalize => "{\"finalize\":{}}"

/-- The messages of the core contract. -/
def core : Core.ExecMsg → String
  | .mint n receiver refundTo =>
    obj [("mint", obj [("amount", amount n), ("receiver", orNull quoted receiver), ("refund_to", orNull quoted refundTo)])]
  | .burn redeemTo => obj [("burn", obj [("redeem_to", orNull quoted redeemTo)])]
  | .realize => "{\"realize\":{}}"
  | .gov m => obj [("gov", gov dec m)]
  | .rebalance m => obj [("rebalance", rebalance dec m)]

end

/-- The name of an airdrop. -/
def dropId : Airdrop.DropId → String
  | .id n => obj [("id", toString n)]
  | .label l => obj [("label", quoted l)]

/-- The messages of the airdrop contract. -/
def airdrop : Airdrop.ExecMsg → String
  | .register (.openDrop root denom label) =>
    obj [("register", obj [("open", obj [("merkle_root", quoted root), ("denom", quoted denom), ("label", orNull quoted label)])])]
  | .register (.bearer root denom pub sig label) =>
    obj [("register", obj [("bearer", obj [("merkle_root", quoted root), ("denom", quoted denom), ("signer_pub", quoted pub),
      ("signer_sig", quoted sig), ("label", orNull quoted label)])])]
  | .fund id => obj [("fund", dropId id)]
  | .claim (.openDrop id n account proof) =>
    obj [("claim", obj [("open", obj [("airdrop", dropId id), ("amount", amount n), ("account", orNull quoted account),
      ("merkle_proof", arr (proof.map quoted))])])]
  | .claim (.bearer id n account hash sign proof) =>
    obj [("claim", obj [("bearer", obj [("airdrop", dropId id), ("amount", amount n), ("account", orNull quoted account),
      ("claim_hash", quoted hash), ("claim_sign", quoted sign), ("merkle_proof", arr (proof.map quoted))])])]
  | .close id => obj [("close", dropId id)]

/-- The routes given to the periphery contract. -/
def swapInfo (si : List Periphery.Compact) : String :=
  arr (si.map fun c => obj [("key", quoted c.key), ("routes", arr (c.routes.map quoted))])

/-- The messages of the periphery contract. -/
def periphery : Periphery.PExecMsg → String
  | .mintExactIn core input min si =>
    obj [("mint_exact_amount_in", obj [("core_addr", quoted core), ("input_asset", quoted input),
      ("min_output_amount", amount min), ("swap_info", swapInfo si)])]
  | .mintExactOut core output input si =>
    obj [("mint_exact_amount_out", obj [("core_addr", quoted core), ("output_amount", amount output),
      ("input_asset", quoted input), ("swap_info", swapInfo si)])]
  | .burnExactIn core output min si =>
    obj [("burn_exact_amount_in", obj [("core_addr", quoted core), ("output_asset", quoted output),
      ("min_output_amount", amount min), ("swap_info", swapInfo si)])]
  | .burnExactOut core output si =>
    obj [("burn_exact_amount_out", obj [("core_addr", quoted core), ("output_asset", coin output), ("swap_info", swapInfo si)])]
  | .finishOperation refundTo asset =>
    obj [("finish_operation", obj [("refund_to", quoted refundTo), ("refund_asset", quoted asset)])]

/-! ## Which messages a client can write: their numbers fit the number types -/

/-- Sixteen bytes. -/
def Amount (n : Nat) : Prop := n < 2 ^ 128
/-- Eight bytes. -/
def Number (n : Nat) : Prop := n < 2 ^ 64

/-- The numbers of a fee fit. -/
def FeeFits (f : Core.FeePayload) : Prop :=
  (∀ n ∈ f.mintFee, Amount n) ∧ (∀ n ∈ f.burnFee, Amount n) ∧ ∀ p ∈ f.streamingFee, Amount p.rate

/-- The numbers of a message that creates an index fit. -/
def InstantiateFits (m : Core.InstantiateMsg) : Prop := FeeFits m.fee ∧ ∀ e ∈ m.indexUnits, Amount e.2

/-- The numbers of a message of the core contract fit. -/
def CoreFits : Core.ExecMsg → Prop
  | .mint n _ _ => Amount n
  | .gov (.pause e) => ∀ t ∈ e, Number t
  | .gov (.updateFeeStrategy f) => FeeFits f
  | .gov (.updateTradeInfo _ routes cooldown max) => (∀ r ∈ routes, Number r.poolId) ∧ Number cooldown ∧ Amount max
  | .rebalance (.init _ deflation inflation) => (∀ e ∈ deflation, Amount e.2) ∧ ∀ e ∈ inflation, Amount e.2
  | .rebalance (.trade (.deflate _ x y)) => Amount x ∧ Amount y
  | .rebalance (.trade (.inflate _ x y)) => Amount x ∧ Amount y
  | _ => True

/-- The number naming an airdrop fits. -/
def IdFits : Airdrop.DropId → Prop
  | .id n => Number n
  | .label _ => True

/-- The numbers of a message of the airdrop contract fit. -/
def DropFits : Airdrop.ExecMsg → Prop
  | .register _ => True
  | .fund id => IdFits id
  | .claim (.openDrop id n _ _) => IdFits id ∧ Amount n
  | .claim (.bearer id n _ _ _ _) => IdFits id ∧ Amount n
  | .close id => IdFits id

/-- The numbers of a message of the periphery contract fit. -/
def ZapFits : Periphery.PExecMsg → Prop
  | .mintExactIn _ _ n _ => Amount n
  | .mintExactOut _ n _ _ => Amount n
  | .burnExactIn _ _ n _ => Amount n
  | .burnExactOut _ c _ => Amount c.amount
  | .finishOperation _ _ => True

end Ibcx.Spec.Texts
