import Mathlib.Data.List.Forall2
import Verif.Spec.Texts
import Verif.Spec.JsonText
/-!
# The messages as a table of names and types

`Schema` describes the form of a message, `Means` says which JSON trees have the form and gives the tree in which the
same message is written in full: fields in the order of the table, absent options as `null`, numbers in their usual
form.  The tables at the end are those of the interface package.
-/

namespace Ibcx.Spec.JsonText
open Ibcx Ibcx.Json

/-- Digits with at most one plus sign in front, with a value of so many bits. -/
def NumberText (bits : Nat) (cs : List Char) (n : Nat) : Prop :=
  ∃ ds, (cs = ds ∨ cs = '+' :: ds) ∧ ds ≠ [] ∧ (∀ c ∈ ds, c.isDigit = true) ∧ n = Texts.digitsValue ds ∧ n < 2 ^ bits

/-- Digits with at most one plus sign in front, with a value below 2^128. -/
def AmountText (cs : List Char) (n : Nat) : Prop := NumberText 128 cs n

/-- An amount, or two amounts with a point between them of which the second has at most eighteen characters: a number of
10^-18 parts below 2^128. -/
def DecimalText (cs : List Char) (n : Nat) : Prop :=
  n < 2 ^ 128 ∧
    ((∃ w, AmountText cs w ∧ n = 10 ^ 18 * w) ∨
      ∃ a f w m, cs = a ++ '.' :: f ∧ AmountText a w ∧ AmountText f m ∧ f.length ≤ 18 ∧
        n = 10 ^ 18 * w + m * 10 ^ (18 - f.length))

end Ibcx.Spec.JsonText

namespace Ibcx.Spec
open Ibcx Ibcx.Json

/-- The form of a value. -/
inductive Schema where
  /-- any text -/
  | text
  /-- true or false -/
  | flag
  /-- a whole number of so many bits, written as a number -/
  | number (bits : Nat)
  /-- a whole number of 128 bits, written as a text -/
  | amount
  /-- a whole number of 256 bits, written as a text -/
  | wide
  /-- a decimal number, written as a text -/
  | decimal
  /-- one of the given texts -/
  | word (ws : List String)
  /-- a value or `null`; as a field it may be left out -/
  | optional (s : Schema)
  /-- a list of values -/
  | list (s : Schema)
  /-- a list of two values -/
  | pair (s t : Schema)
  /-- an object with the given fields and no others, in any order -/
  | record (fields : List (String × Schema))
  /-- an object with the given fields, in any order; other fields are ignored -/
  | openRecord (fields : List (String × Schema))
  /-- an object with one field, which is one of the given ones -/
  | choice (cases : List (String × Schema))

namespace Schema
open JsonText (AmountText DecimalText NumberText)

mutual
/-- `Means dec s j v`: the tree `j` has the form `s` and says what the tree `v` says in full.  `dec` is the usual form of a
decimal number. -/
def Means (dec : Nat → String) : Schema → Json → Json → Prop
  | .text, j, v => ∃ s, j = .str s ∧ v = .str s
  | .flag, j, v => ∃ b, j = .bool b ∧ v = .bool b
  | .number bits, j, v => ∃ n, n < 2 ^ bits ∧ j = .num n ∧ v = .num n
  | .amount, j, v => ∃ s n, j = .str s ∧ AmountText s.toList n ∧ v = .str (toString n)
  | .wide, j, v => ∃ s n, j = .str s ∧ NumberText 256 s.toList n ∧ v = .str (toString n)
  | .decimal, j, v => ∃ s n, j = .str s ∧ DecimalText s.toList n ∧ v = .str (dec n)
  | .word ws, j, v => ∃ s ∈ ws, j = .str s ∧ v = .str s
  | .optional s, j, v => (j = .null ∧ v = .null) ∨ (j ≠ .null ∧ Means dec s j v)
  | .list s, j, v => ∃ xs ys, j = .arr xs ∧ v = .arr ys ∧ List.Forall₂ (Means dec s) xs ys
  | .pair s t, j, v => ∃ x y x' y', j = .arr [x, y] ∧ v = .arr [x', y'] ∧ Means dec s x x' ∧ Means dec t y y'
  | .record fields, j, v => ∃ fs vs, j = .obj fs ∧ v = .obj vs ∧ (fs.map (·.1)).Nodup ∧
      (∀ f ∈ fs, f.1 ∈ fields.map (·.1)) ∧ MeansFields dec fields fs vs
  | .openRecord fields, j, v => ∃ fs vs, j = .obj fs ∧ v = .obj vs ∧
      ((fs.map (·.1)).filter (· ∈ fields.map (·.1))).Nodup ∧ MeansFields dec fields fs vs
  | .choice cases, j, v => ∃ name x y, j = .obj [(name, x)] ∧ v = .obj [(name, y)] ∧ MeansCase dec cases name x y

/-- The fields of an object, each under its name; an option may be left out and then stands for `null`. -/
def MeansFields (dec : Nat → String) : List (String × Schema) → List (String × Json) → List (String × Json) → Prop
  | [], _, vs => vs = []
  | (name, s) :: rest, fs, vs => ∃ v vs', vs = (name, v) :: vs' ∧
      ((∃ j, (name, j) ∈ fs ∧ Means dec s j v) ∨ (name ∉ fs.map (·.1) ∧ (∃ t, s = .optional t) ∧ v = .null)) ∧
      MeansFields dec rest fs vs'

/-- The only field of an object, of the form given for its name. -/
def MeansCase (dec : Nat → String) : List (String × Schema) → String → Json → Json → Prop
  | [], _, _, _ => False
  | (n, s) :: rest, name, x, y => (n = name ∧ Means dec s x y) ∨ (n ≠ name ∧ MeansCase dec rest name x y)
end

/-! ## The tables -/

/-- `Coin` of cosmwasm-std. -/
def coin : Schema := .openRecord [("denom", .text), ("amount", .amount)]

/-- A list of denominations with decimal numbers, `/repo/packages/interface/src/core.rs:28`. -/
def units : Schema := .list (.pair .text .decimal)

/-- Ascending or descending, `/repo/packages/interface/src/types.rs:151-155`. -/
def order : Schema := .word ["asc", "desc"]

/-- `/repo/packages/interface/src/core.rs:13-20`. -/
def feePayload : Schema := .record
  [("collector", .text), ("mint_fee", .optional .decimal), ("burn_fee", .optional .decimal),
   ("streaming_fee", .optional (.record [("rate", .decimal), ("freeze", .flag)]))]

/-- `/repo/packages/interface/src/core.rs:22-30`. -/
def coreInstantiate : Schema := .record
  [("gov", .text), ("fee", feePayload), ("index_denom", .text), ("index_units", units), ("reserve_denom", .text)]

/-- `/repo/packages/interface/src/core.rs:32-53`. -/
def gov : Schema := .choice
  [("pause", .record [("expires_at", .optional (.number 64))]),
   ("release", .record []),
   ("update_gov", .text),
   ("accept_gov", .record []),
   ("revoke_gov", .record []),
   ("update_fee_strategy", feePayload),
   ("update_rebalance_manager", .optional .text),
   ("update_reserve_denom", .text),
   ("update_trade_info", .record
     [("denom", .text), ("routes", .list (.record [("pool_id", .number 64), ("token_denom", .text)])),
      ("cooldown", .number 64), ("max_trade_amount", .amount)])]

/-- `/repo/packages/interface/src/core.rs:55-80`. -/
def rebalance : Schema := .choice
  [("init", .record [("manager", .optional .text), ("deflation", units), ("inflation", units)]),
   ("trade", .choice
     [("deflate", .record [("target_denom", .text), ("amount_out", .amount), ("max_amount_in", .amount)]),
      ("inflate", .record [("target_denom", .text), ("amount_in", .amount), ("min_amount_out", .amount)])]),
   ("finalize", .record [])]

/-- `/repo/packages/interface/src/core.rs:82-96`. -/
def coreExecute : Schema := .choice
  [("mint", .record [("amount", .amount), ("receiver", .optional .text), ("refund_to", .optional .text)]),
   ("burn", .record [("redeem_to", .optional .text)]),
   ("realize", .record []),
   ("gov", gov),
   ("rebalance", rebalance)]

/-- `/repo/packages/interface/src/core.rs:98-139`. -/
def coreQuery : Schema := .choice
  [("get_balance", .record [("account", .text)]),
   ("get_total_supply", .record []),
   ("get_config", .record [("time", .optional (.number 64))]),
   ("get_fee", .record [("time", .optional (.number 64))]),
   ("get_portfolio", .record [("time", .optional (.number 64))]),
   ("get_rebalance", .record []),
   ("get_trade_info", .record [("denom_in", .text), ("denom_out", .text)]),
   ("list_trade_info", .record
     [("denom_in", .text), ("start_after", .optional .text), ("limit", .optional (.number 32)), ("order", .optional order)]),
   ("simulate_mint", .record [("amount", .amount), ("funds", .optional (.list coin)), ("time", .optional (.number 64))]),
   ("simulate_burn", .record [("amount", .amount), ("time", .optional (.number 64))])]

/-- `/repo/packages/interface/src/airdrop.rs:9-13`. -/
def dropId : Schema := .choice [("id", .number 64), ("label", .text)]

/-- `/repo/packages/interface/src/airdrop.rs:105-124`. -/
def claim : Schema := .choice
  [("open", .record
     [("airdrop", dropId), ("amount", .amount), ("account", .optional .text), ("merkle_proof", .list .text)]),
   ("bearer", .record
     [("airdrop", dropId), ("amount", .amount), ("account", .optional .text), ("claim_hash", .text), ("claim_sign", .text),
      ("merkle_proof", .list .text)])]

/-- `/repo/packages/interface/src/airdrop.rs:46-77,187-193`. -/
def dropExecute : Schema := .choice
  [("register", .choice
     [("open", .record [("merkle_root", .text), ("denom", .text), ("label", .optional .text)]),
      ("bearer", .record
        [("merkle_root", .text), ("denom", .text), ("signer_pub", .text), ("signer_sig", .text), ("label", .optional .text)])]),
   ("fund", dropId),
   ("claim", claim),
   ("close", dropId)]

/-- `/repo/packages/interface/src/airdrop.rs:195-223,275-313`. -/
def dropQuery : Schema := .choice
  [("get_airdrop", .record [("id", dropId)]),
   ("list_airdrops", .record [("option", .choice
     [("by_i_d", .record
        [("start_after", .optional (.number 64)), ("limit", .optional (.number 32)), ("order", .optional order)]),
      ("by_type", .record
        [("type", .word ["open", "bearer"]), ("start_after", .optional (.number 64)), ("limit", .optional (.number 32)),
         ("order", .optional order)]),
      ("by_label", .record
        [("start_after", .optional .text), ("limit", .optional (.number 32)), ("order", .optional order)]),
      ("by_creator", .record
        [("creator", .text), ("start_after", .optional (.number 64)), ("limit", .optional (.number 32)),
         ("order", .optional order)])])]),
   ("latest_airdrop_id", .record []),
   ("get_claim", .record [("airdrop", dropId), ("claim_key", .text)]),
   ("verify_claim", .record [("claim", claim)]),
   ("list_claims", .record
     [("airdrop", dropId), ("start_after", .optional .text), ("limit", .optional (.number 32)), ("order", .optional order)]),
   ("get_label", .record [("label", .text)]),
   ("list_labels", .record
     [("start_after", .optional .text), ("limit", .optional (.number 32)), ("order", .optional order)])]

/-- `/repo/packages/interface/src/periphery.rs:30-34`. -/
def swapInfo : Schema := .list (.record [("key", .text), ("routes", .list .text)])

/-- `/repo/packages/interface/src/periphery.rs:92-131`. -/
def zapExecute : Schema := .choice
  [("mint_exact_amount_in", .record
     [("core_addr", .text), ("input_asset", .text), ("min_output_amount", .amount), ("swap_info", swapInfo)]),
   ("mint_exact_amount_out", .record
     [("core_addr", .text), ("output_amount", .amount), ("input_asset", .text), ("swap_info", swapInfo)]),
   ("burn_exact_amount_in", .record
     [("core_addr", .text), ("output_asset", .text), ("min_output_amount", .amount), ("swap_info", swapInfo)]),
   ("burn_exact_amount_out", .record [("core_addr", .text), ("output_asset", coin), ("swap_info", swapInfo)]),
   ("finish_operation", .record [("refund_to", .text), ("refund_asset", .text)])]

/-- `/repo/packages/interface/src/periphery.rs:133-165`. -/
def zapQuery : Schema := .choice
  [("simulate_mint_exact_amount_in", .record [("core_addr", .text), ("input_asset", coin), ("swap_info", swapInfo)]),
   ("simulate_mint_exact_amount_out", .record
     [("core_addr", .text), ("output_amount", .amount), ("input_asset", .text), ("swap_info", swapInfo)]),
   ("simulate_burn_exact_amount_in", .record
     [("core_addr", .text), ("input_amount", .amount), ("output_asset", .text), ("swap_info", swapInfo)]),
   ("simulate_burn_exact_amount_out", .record [("core_addr", .text), ("output_asset", coin), ("swap_info", swapInfo)])]

/-- `/repo/packages/interface/src/core.rs:221-224`. -/
def migrate : Schema := .record [("force", .optional .flag)]

end Schema

/-- The bytes `b` are the UTF-8 form of a JSON text of the form `S`, which says in full what the JSON text `full` says. -/
def Schema.Says (dec : Nat → String) (S : Schema) (b : List Nat) (full : String) : Prop :=
  ∃ cs j v, b = (cs.flatMap String.utf8EncodeChar).map UInt8.toNat ∧ JsonText.IsText cs j ∧ Schema.Means dec S j v ∧
    JsonText.IsText full.toList v

end Ibcx.Spec
