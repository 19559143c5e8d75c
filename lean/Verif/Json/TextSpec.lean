import Verif.Json.StoredLemmas
import Verif.Spec.Texts
/-! # The written JSON agrees with the texts of `Verif.Spec.Texts` -/

namespace Ibcx.Json
open Ibcx Ibcx.Spec

/-- The written tree as a text, for the statements (`to_json_string`; `/repo/packages/utils/src/lib.rs:38` writes the bytes). -/
def shown (j : Json) : String := String.ofList (write j)

theorem toText_shown {α : Type} (c : Codec α) (a : α) : c.toText a = Storage.textBytes (shown (c.enc a)) := by
  simp only [Codec.toText, toBytes, shown, Storage.textBytes, String.toList_ofList]

theorem inside_escape (c : Char) : (Texts.inside c).toList = escape c := by
  have hq : c = '"' ↔ c.toNat = 34 := ⟨fun h => by subst h; rfl, fun h => Char.toNat_inj.1 h⟩
  have hb : c = '\\' ↔ c.toNat = 92 := ⟨fun h => by subst h; rfl, fun h => Char.toNat_inj.1 h⟩
  unfold Texts.inside escape
  rw [if_congr hq rfl rfl, if_congr hb rfl rfl]
  by_cases h : c.toNat < 32
  · have : ∀ n < 32, (match n with
      | 34 => "\\\""
      | 92 => "\\\\"
      | 8 => "\\b"
      | 9 => "\\t"
      | 10 => "\\n"
      | 12 => "\\f"
      | 13 => "\\r"
      | n => if n < 16 then "\\u000" ++ String.singleton ("0123456789ABCDEF".toList.getD n '0')
        else if n < 32 then "\\u001" ++ String.singleton ("0123456789ABCDEF".toList.getD (n - 16) '0')
        else String.singleton c).toList =
        if n = 34 then ['\\', '"'] else if n = 92 then ['\\', '\\'] else if n = 8 then ['\\', 'b'] else if n = 9 then ['\\', 't']
        else if n = 10 then ['\\', 'n'] else if n = 12 then ['\\', 'f'] else if n = 13 then ['\\', 'r']
        else if n < 32 then ['\\', 'u', '0', '0', hexUpper (n / 16), hexUpper (n % 16)] else [c] := by
      intro n hn
      interval_cases n <;> simp [hexUpper]
    exact this _ h
  · generalize c.toNat = n at h
    split <;> simp_all
    rw [if_neg (by omega), if_neg (by omega)]
    simpa using h

theorem join_toList (l : List String) : (String.join l).toList = l.flatMap String.toList := by
  simp [String.toList_join]

theorem quoted_writeStr (s : String) : Texts.quoted s = String.ofList (writeStr s) := by
  apply String.toList_inj.1
  simp only [Texts.quoted, writeStr, String.toList_append, String.toList_ofList, join_toList, List.flatMap_map,
    inside_escape]
  simp

theorem commas_cons (x : String) (xs : List String) : Texts.commas (x :: xs) = x ++ String.join (xs.map ("," ++ ·)) := by
  induction xs generalizing x with
  | nil => simp [Texts.commas]
  | cons y ys ih =>
    rw [Texts.commas, ih]
    · apply String.toList_inj.1
      simp
    · simp

theorem shown_null : shown .null = "null" := rfl
theorem shown_str (s : String) : shown (.str s) = Texts.quoted s := (quoted_writeStr s).symm
theorem shown_num (n : Nat) : shown (.num n) = toString n := String.ofList_toList
theorem shown_bool (b : Bool) : shown (.bool b) = Texts.flag b := by cases b <;> rfl

theorem writeItems_join (xs : List Json) : writeItems xs = (String.join (xs.map fun x => "," ++ shown x)).toList := by
  induction xs with
  | nil => rfl
  | cons x xs ih => simp [writeItems, ih, shown]

theorem writeFields_join (fs : List (String × Json)) :
    writeFields fs = (String.join (fs.map fun f => "," ++ (Texts.quoted f.1 ++ ":" ++ shown f.2))).toList := by
  induction fs with
  | nil => rfl
  | cons f fs ih =>
    obtain ⟨k, x⟩ := f
    simp [writeFields, ih, shown, quoted_writeStr]

theorem shown_arr (xs : List Json) : shown (.arr xs) = Texts.arr (xs.map shown) := by
  cases xs with
  | nil => rfl
  | cons x xs =>
    apply String.toList_inj.1
    simp [Texts.arr, commas_cons, shown, write, writeItems_join, join_toList, Function.comp_def, List.flatMap_map]

theorem shown_obj (fs : List (String × Json)) : shown (.obj fs) = Texts.obj (fs.map fun f => (f.1, shown f.2)) := by
  cases fs with
  | nil => rfl
  | cons f fs =>
    obtain ⟨k, x⟩ := f
    apply String.toList_inj.1
    simp [Texts.obj, commas_cons, shown, write, writeFields_join, join_toList, quoted_writeStr, Function.comp_def,
      List.flatMap_map]

theorem shown_opt {α : Type} (c : Codec α) (f : α → String) (h : ∀ a, shown (c.enc a) = f a) (o : Option α) :
    shown (c.opt.enc o) = Texts.orNull f o := by
  cases o with
  | none => rfl
  | some a => exact h a

theorem shown_list {α : Type} (c : Codec α) (f : α → String) (h : ∀ a, shown (c.enc a) = f a) (xs : List α) :
    shown (c.list.enc xs) = Texts.arr (xs.map f) := by
  show shown (.arr (xs.map c.enc)) = _
  rw [shown_arr, List.map_map]
  congr 1
  exact List.map_congr_left fun a _ => h a

/-- The text of a decimal number, for the statements (`Display` of the `Decimal` fields, `/repo/packages/interface/src/core.rs:9`). -/
def decText (n : Nat) : String := String.ofList (decimalText n)

theorem trim_last (cs : List Char) : (trimZeros cs).getLast? ≠ some '0' := by
  rw [trimZeros, List.getLast?_reverse]
  intro h
  have h2 := List.head?_dropWhile_not (fun c : Char => decide (c = '0')) cs.reverse
  rw [h] at h2
  simp at h2

theorem decText_spec (n : Nat) : Texts.IsDecimal n (decText n) := by
  have hone : ONE = 10 ^ 18 := rfl
  have hdiv : ONE * (n / ONE) + n % ONE = n := Nat.div_add_mod n ONE
  have hmod : n % ONE < ONE := Nat.mod_lt _ (by rw [hone]; exact Nat.pow_pos (by decide))
  unfold decText decimalText
  rw [hone] at *
  split_ifs with h0
  · left
    refine ⟨n / 10 ^ 18, ?_, String.ofList_toList⟩
    rw [h0] at hdiv
    exact hdiv.symm
  · right
    obtain ⟨h1, h2, h3, h4⟩ := fraction_spec hmod h0
    refine ⟨n / 10 ^ 18, _, h1, h2, h3, trim_last _, ?_, ?_⟩
    · have h5 : Texts.digitsValue (trimZeros (padded (n % 10 ^ 18))) = val (trimZeros (padded (n % 10 ^ 18))) := rfl
      rw [h5, h4]
      exact hdiv.symm
    · apply String.toList_inj.1
      simp

theorem shown_dec (n : Nat) : shown (decimal.enc n) = Texts.quoted (decText n) := shown_str _
theorem shown_text (s : String) : shown (text.enc s) = Texts.quoted s := shown_str s
theorem shown_amount (n : Nat) : shown (u128.enc n) = Texts.amount n := shown_str _
theorem shown_uint (bits n : Nat) : shown ((uint bits).enc n) = toString n := shown_num n
theorem shown_flag (b : Bool) : shown (flag.enc b) = Texts.flag b := shown_bool b

theorem shown_units (us : Core.Units) : shown (units.enc us) = Texts.units decText us :=
  shown_list _ _ (fun e => by
    show shown (.arr [text.enc e.1, decimal.enc e.2]) = _
    rw [shown_arr]
    simp only [List.map_cons, List.map_nil, shown_text, shown_dec]) us

theorem shown_coin (c : Coin) : shown (coin.enc c) = Texts.coin c := by
  show shown (.obj _) = _
  rw [shown_obj]
  simp only [List.map_cons, List.map_nil, shown_str, shown_amount]
  rfl

theorem shown_hop (r : SwapRoute) : shown (swapRoute.enc r) = Texts.hop r := by
  show shown (.obj _) = _
  rw [shown_obj]
  simp only [List.map_cons, List.map_nil, shown_text, shown_uint]
  rfl

theorem shown_optText (o : Option String) : shown (text.opt.enc o) = Texts.orNull Texts.quoted o := shown_opt _ _ shown_text o
theorem shown_optNum (bits : Nat) (o : Option Nat) : shown ((uint bits).opt.enc o) = Texts.orNull toString o :=
  shown_opt _ _ (shown_uint bits) o
theorem shown_optDec (o : Option Nat) : shown (decimal.opt.enc o) = Texts.orNull (fun n => Texts.quoted (decText n)) o :=
  shown_opt _ _ shown_dec o
theorem shown_hops (rs : List SwapRoute) : shown (swapRoute.list.enc rs) = Texts.arr (rs.map Texts.hop) :=
  shown_list _ _ shown_hop rs
theorem shown_textList (xs : List String) : shown (text.list.enc xs) = Texts.arr (xs.map Texts.quoted) :=
  shown_list _ _ shown_text xs

theorem shown_streaming (p : Core.StreamingFeePayload) : shown (streamingFeePayload.enc p) =
    Texts.obj [("rate", Texts.quoted (decText p.rate)), ("freeze", Texts.flag p.freeze)] := by
  show shown (.obj _) = _
  rw [shown_obj]
  simp only [List.map_cons, List.map_nil, shown_dec, shown_flag]

theorem shown_feePayload (f : Core.FeePayload) : shown (feePayload.enc f) = Texts.feePayload decText f := by
  show shown (.obj _) = _
  rw [shown_obj]
  simp only [List.map_cons, List.map_nil, shown_text, shown_optDec, shown_opt _ _ shown_streaming]
  rfl

theorem shown_coreInstantiate (m : Core.InstantiateMsg) : shown (coreInstantiate.enc m) = Texts.coreInstantiate decText m := by
  show shown (.obj _) = _
  rw [shown_obj]
  simp only [List.map_cons, List.map_nil, shown_text, shown_feePayload, shown_units]
  rfl

theorem shown_variant (name : String) (j : Json) : shown (variant name j) = Texts.obj [(name, shown j)] := by
  rw [variant, shown_obj]
  rfl

/-- Compares a written record with its text. -/
macro "show_fields" : tactic => `(tactic| (
  try simp only [shown_variant, shown_obj, List.map_cons, List.map_nil, shown_text, shown_amount, shown_uint, shown_flag,
    shown_optText, shown_optNum, shown_hops, shown_units, shown_coin, shown_textList, shown_feePayload]
  try first | rfl | decide +kernel))

theorem shown_gov (m : Core.GovMsg) : shown (govMsg.enc m) = Texts.gov decText m := by
  rcases m with (e | _ | g | _ | _ | f | m | d | ⟨d, r, c, m⟩) <;> simp only [govMsg, Texts.gov] <;> show_fields

theorem shown_rebalance (m : Core.RebalanceMsg) : shown (rebalanceMsg.enc m) = Texts.rebalance decText m := by
  rcases m with (⟨m, d, i⟩ | (⟨d, a, b⟩ | ⟨d, a, b⟩) | _) <;> simp only [rebalanceMsg, tradeMsg, Texts.rebalance] <;> show_fields

theorem shown_core (m : Core.ExecMsg) : shown (coreExecute.enc m) = Texts.core decText m := by
  rcases m with (⟨a, r, t⟩ | r | _ | g | b) <;>
    simp only [coreExecute, Texts.core, shown_variant, shown_gov, shown_rebalance] <;> show_fields

theorem shown_dropId (i : Airdrop.DropId) : shown (dropId.enc i) = Texts.dropId i := by
  rcases i with (n | l) <;> simp only [dropId, Texts.dropId] <;> show_fields

theorem shown_airdrop (m : Airdrop.ExecMsg) : shown (dropExecute.enc m) = Texts.airdrop m := by
  rcases m with ((⟨r, d, l⟩ | ⟨r, d, p, s, l⟩) | i | (⟨i, a, c, p⟩ | ⟨i, a, c, x, y, p⟩) | i) <;>
    simp only [dropExecute, registerPayload, claimPayload, Texts.airdrop, shown_variant, shown_obj, List.map_cons, List.map_nil,
      shown_dropId] <;> show_fields

theorem shown_compact (c : Periphery.Compact) : shown (compact.enc c) =
    Texts.obj [("key", Texts.quoted c.key), ("routes", Texts.arr (c.routes.map Texts.quoted))] := by
  simp only [compact]
  show_fields

theorem shown_swapInfo (si : List Periphery.Compact) : shown (compact.list.enc si) = Texts.swapInfo si :=
  shown_list _ _ shown_compact si

theorem shown_periphery (m : Periphery.PExecMsg) : shown (zapExecute.enc m) = Texts.periphery m := by
  rcases m with (⟨c, i, m, s⟩ | ⟨c, o, i, s⟩ | ⟨c, o, m, s⟩ | ⟨c, o, s⟩ | ⟨r, a⟩) <;>
    simp only [zapExecute, Texts.periphery, shown_variant, shown_obj, List.map_cons, List.map_nil, shown_swapInfo] <;> show_fields

end Ibcx.Json
