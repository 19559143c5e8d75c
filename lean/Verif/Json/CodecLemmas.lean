import Mathlib.Tactic.Ring
import Verif.Json.Codec
import Verif.Json.TextLemmas
/-!
# Lemmas: values written are read back

Not part of the model.
-/

namespace Ibcx.Json
open Ibcx

/-- What is written is read back. -/
def Codec.Faithful {α : Type} (c : Codec α) : Prop := ∀ a, c.Fits a → c.dec (c.enc a) = some a

/-- No value is written as `null`. -/
def Codec.Solid {α : Type} (c : Codec α) : Prop := ∀ a, c.enc a ≠ .null

/-! ### Numbers -/

theorem digits_all (n : Nat) : ∀ c ∈ (toString n).toList, c.isDigit = true := by
  have h : (toString n).toList = Nat.toDigits 10 n := Nat.toList_repr
  intro c hc
  rw [h] at hc
  exact Nat.isDigit_of_mem_toDigits (by decide) (by decide) hc

theorem digits_ne_nil (n : Nat) : (toString n).toList ≠ [] := by
  have h : (toString n).toList = Nat.toDigits 10 n := Nat.toList_repr
  rw [h]
  exact Nat.toDigits_ne_nil

/-- The value of a list of digits. -/
def val (ds : List Char) : Nat := ds.foldl (fun n c => 10 * n + (c.toNat - 48)) 0

theorem parseU128_digits {ds : List Char} (h1 : ds ≠ []) (h2 : ∀ c ∈ ds, c.isDigit = true) (h3 : val ds < U128) :
    parseU128 ds = some (val ds) := by
  have hs : dropPlus ds = ds := by
    unfold dropPlus
    split
    · exact absurd (h2 '+' (by simp)) (by decide)
    · rfl
  have ha : ds.all Char.isDigit = true := by simpa using h2
  unfold parseU128
  dsimp only
  rw [hs, if_neg h1, if_pos ha]
  exact if_pos h3

theorem parseU128_toString {n : Nat} (h : n < U128) : parseU128 (toString n).toList = some n := by
  have hv : val (toString n).toList = n := value_digits n
  rw [parseU128_digits (digits_ne_nil n) (digits_all n) (by rw [hv]; exact h), hv]

theorem fold_shift (ds : List Char) : ∀ a, ds.foldl (fun n c => 10 * n + (c.toNat - 48)) a = a * 10 ^ ds.length + val ds := by
  induction ds with
  | nil => intro a; simp [val]
  | cons d ds ih =>
    intro a
    have h1 : val (d :: ds) = (10 * 0 + (d.toNat - 48)) * 10 ^ ds.length + val ds := ih _
    rw [List.foldl_cons, ih, h1, List.length_cons, pow_succ]
    ring

theorem val_append (a b : List Char) : val (a ++ b) = val a * 10 ^ b.length + val b := by
  rw [val, List.foldl_append, fold_shift]
  rfl

theorem val_zeros (k : Nat) : val (List.replicate k '0') = 0 := by
  induction k with
  | zero => rfl
  | succ k ih =>
    rw [List.replicate_succ]
    show List.foldl _ (10 * 0 + ('0'.toNat - 48)) _ = 0
    have : 10 * 0 + ('0'.toNat - 48) = 0 := by decide
    rw [this]
    exact ih

theorem trim_split (cs : List Char) : ∃ k, cs = trimZeros cs ++ List.replicate k '0' := by
  refine ⟨(cs.reverse.takeWhile (· = '0')).length, ?_⟩
  have h := List.takeWhile_append_dropWhile (p := fun c : Char => decide (c = '0')) (l := cs.reverse)
  have h2 : cs.reverse.takeWhile (· = '0') = List.replicate (cs.reverse.takeWhile (· = '0')).length '0' := by
    apply List.eq_replicate_iff.2
    refine ⟨rfl, ?_⟩
    intro c hc
    have := List.all_takeWhile (p := fun c : Char => decide (c = '0')) (l := cs.reverse)
    simpa using List.all_eq_true.1 this c hc
  conv_lhs => rw [← List.reverse_reverse cs, ← h, List.reverse_append]
  rw [trimZeros]
  congr 1
  rw [h2]
  simp

theorem splitDot_plain {cs : List Char} (h : '.' ∉ cs) : splitDot cs = [cs] := by
  induction cs with
  | nil => rfl
  | cons c cs ih =>
    have hc : c ≠ '.' := by rintro rfl; exact h (by simp)
    rw [splitDot, if_neg hc, ih (fun hm => h (by simp [hm]))]

theorem splitDot_two {a b : List Char} (ha : '.' ∉ a) (hb : '.' ∉ b) : splitDot (a ++ '.' :: b) = [a, b] := by
  induction a with
  | nil => rw [List.nil_append, splitDot, if_pos rfl, splitDot_plain hb]
  | cons c cs ih =>
    have hc : c ≠ '.' := by rintro rfl; exact ha (by simp)
    rw [List.cons_append, splitDot, if_neg hc, ih (fun hm => ha (by simp [hm]))]

theorem no_dot {ds : List Char} (h : ∀ c ∈ ds, c.isDigit = true) : '.' ∉ ds := by
  intro hm
  have := h _ hm
  revert this; decide

theorem padded_spec {m : Nat} (h : m < 10 ^ 18) : (padded m).length = 18 ∧ val (padded m) = m ∧ ∀ c ∈ padded m, c.isDigit = true := by
  have hl : (toString m).toList.length ≤ 18 := by
    have e : (toString m).toList = Nat.toDigits 10 m := Nat.toList_repr
    rw [e]
    exact (Nat.length_toDigits_le_iff (by decide) (by decide)).2 h
  refine ⟨?_, ?_, ?_⟩
  · rw [padded, List.length_append, List.length_replicate]; omega
  · rw [padded, val_append, val_zeros, Nat.zero_mul, Nat.zero_add]
    exact value_digits m
  · intro c hc
    rw [padded, List.mem_append] at hc
    rcases hc with hc | hc
    · rw [List.eq_of_mem_replicate hc]; decide
    · exact digits_all m c hc

theorem fraction_spec {m : Nat} (h : m < 10 ^ 18) (h0 : m ≠ 0) : trimZeros (padded m) ≠ [] ∧ (trimZeros (padded m)).length ≤ 18 ∧
    (∀ c ∈ trimZeros (padded m), c.isDigit = true) ∧
    val (trimZeros (padded m)) * 10 ^ (18 - (trimZeros (padded m)).length) = m := by
  obtain ⟨hl, hv, hd⟩ := padded_spec h
  obtain ⟨k, hk⟩ := trim_split (padded m)
  have hlen : (trimZeros (padded m)).length + k = 18 := by
    rw [← hl]
    conv_rhs => rw [hk]
    simp
  have hval : val (trimZeros (padded m)) * 10 ^ k = m := by
    conv_rhs => rw [← hv, hk]
    rw [val_append, val_zeros, List.length_replicate, Nat.add_zero]
  refine ⟨?_, by omega, ?_, ?_⟩
  · intro hn
    rw [hn] at hval
    apply h0
    rw [← hval]
    simp [val]
  · intro c hc
    apply hd c
    rw [hk]
    exact List.mem_append_left _ hc
  · have : 18 - (trimZeros (padded m)).length = k := by omega
    rw [this]
    exact hval

theorem parseDecimal_text {n : Nat} (h : n < U128) : parseDecimal (decimalText n) = some n := by
  have hone : ONE = 10 ^ 18 := rfl
  have hpos : 0 < ONE := by rw [hone]; exact Nat.pow_pos (by decide)
  have hdiv : ONE * (n / ONE) + n % ONE = n := Nat.div_add_mod n ONE
  have hmod : n % ONE < ONE := Nat.mod_lt _ hpos
  have hq : n / ONE < U128 := lt_of_le_of_lt (Nat.div_le_self _ _) h
  unfold decimalText
  split_ifs with h0
  · unfold parseDecimal
    rw [splitDot_plain (no_dot (digits_all _))]
    dsimp only
    rw [parseU128_toString hq]
    simp only [Option.bind_eq_bind, Option.bind_some]
    rw [h0, Nat.add_zero] at hdiv
    rw [hdiv, if_pos h]
  · have hm : n % ONE < 10 ^ 18 := hmod
    obtain ⟨f1, f2, f3, f4⟩ := fraction_spec hm h0
    generalize hf : trimZeros (padded (n % ONE)) = f at f1 f2 f3 f4
    have hvf : val f < U128 := by
      have h1 : val f ≤ n % ONE := by
        conv_rhs => rw [← f4]
        exact Nat.le_mul_of_pos_right _ (Nat.pow_pos (by decide))
      have h2 : n % ONE ≤ n := Nat.mod_le _ _
      exact lt_of_le_of_lt (le_trans h1 h2) h
    unfold parseDecimal
    rw [splitDot_two (no_dot (digits_all _)) (no_dot f3)]
    dsimp only
    rw [parseU128_toString hq, parseU128_digits f1 f3 hvf]
    simp only [Option.bind_eq_bind, Option.bind_some]
    rw [f4, hdiv, if_pos ⟨f2, h⟩]

/-! ### Base64 -/

theorem base64_value : ∀ n < 64, base64Value (Pool.base64Char n) = some n := by decide

theorem base64_not_pad : ∀ n < 64, Pool.base64Char n ≠ '=' := by decide

theorem fromBase64_toBase64 : ∀ (bs : List Nat), (∀ b ∈ bs, b < 256) → fromBase64 (Pool.toBase64 bs) = some bs
  | [], _ => rfl
  | [a], h => by
    have ha : a < 256 := h a (by simp)
    rw [Pool.toBase64, fromBase64, if_pos ⟨rfl, rfl, rfl⟩, lastOne, base64_value _ (by omega), base64_value _ (by omega)]
    simp only [Option.bind_eq_bind, Option.bind_some]
    rw [if_pos (by omega)]
    congr 2
    omega
  | [a, b], h => by
    have ha : a < 256 := h a (by simp)
    have hb : b < 256 := h b (by simp)
    rw [Pool.toBase64, fromBase64, if_neg (fun x => base64_not_pad _ (by omega) x.2.1), if_pos ⟨rfl, rfl⟩, lastTwo,
      base64_value _ (by omega), base64_value _ (by omega), base64_value _ (by omega)]
    simp only [Option.bind_eq_bind, Option.bind_some]
    rw [if_pos (by omega)]
    congr 2
    · omega
    · congr 1; omega
  | a :: b :: c :: rest, h => by
    have ha : a < 256 := h a (by simp)
    have hb : b < 256 := h b (by simp)
    have hc : c < 256 := h c (by simp)
    have ih := fromBase64_toBase64 rest (fun x hx => h x (by simp [hx]))
    rw [Pool.toBase64, fromBase64, if_neg (fun x => base64_not_pad _ (by omega) x.2.1),
      if_neg (fun x => base64_not_pad _ (by omega) x.2),
      base64_value _ (by omega), base64_value _ (by omega), base64_value _ (by omega), base64_value _ (by omega), ih]
    simp only [Option.bind_eq_bind, Option.bind_some, Option.some.injEq, List.cons.injEq, and_true]
    refine ⟨?_, ?_, ?_⟩ <;> omega

/-! ### Codecs -/

theorem text_faithful : text.Faithful := fun _ _ => rfl
theorem flag_faithful : flag.Faithful := fun _ _ => rfl
theorem uint_faithful (bits : Nat) : (uint bits).Faithful := fun n h => by
  show (if n < 2 ^ bits then some n else none) = some n
  exact if_pos h
theorem u128_faithful : u128.Faithful := fun n h => by
  show parseU128 (toString n).toList = some n
  exact parseU128_toString h
theorem decimal_faithful : decimal.Faithful := fun n h => by
  show parseDecimal (String.ofList (decimalText n)).toList = some n
  rw [String.toList_ofList]
  exact parseDecimal_text h
theorem binary_faithful : binary.Faithful := fun b _ => by
  show (fromBase64 (String.ofList (Pool.toBase64 (b.map UInt8.toNat))).toList).map (·.map UInt8.ofNat) = some b
  rw [String.toList_ofList, fromBase64_toBase64 _ (by
    intro x hx
    obtain ⟨y, _, rfl⟩ := List.mem_map.1 hx
    exact y.toNat_lt)]
  rw [Option.map_some, List.map_map]
  have : UInt8.ofNat ∘ UInt8.toNat = id := by
    funext x
    simp
  rw [this, List.map_id]

theorem text_solid : text.Solid := fun _ h => by cases h
theorem uint_solid (bits : Nat) : (uint bits).Solid := fun _ h => by cases h
theorem flag_solid : flag.Solid := fun _ h => by cases h
theorem u128_solid : u128.Solid := fun _ h => by cases h
theorem decimal_solid : decimal.Solid := fun _ h => by cases h
theorem list_solid {α : Type} (c : Codec α) : c.list.Solid := fun _ h => by cases h

theorem opt_some {α : Type} {c : Codec α} (hs : c.Solid) (hf : c.Faithful) {a : α} (h : c.Fits a) :
    c.opt.dec (c.enc a) = some (some a) := by
  have h1 : c.opt.dec (c.enc a) = (c.dec (c.enc a)).map some := by
    have hn := hs a
    generalize c.enc a = j at hn
    cases j <;> first | rfl | exact absurd rfl hn
  rw [h1, hf a h]
  rfl

theorem opt_faithful {α : Type} {c : Codec α} (hs : c.Solid) (hf : c.Faithful) : c.opt.Faithful := by
  intro o h
  cases o with
  | none => rfl
  | some a => exact opt_some hs hf (h a rfl)

theorem list_faithful {α : Type} {c : Codec α} (hf : c.Faithful) : c.list.Faithful := by
  intro xs h
  show (xs.map c.enc).mapM c.dec = some xs
  induction xs with
  | nil => rfl
  | cons x xs ih =>
    rw [List.map_cons, List.mapM_cons, hf x (h x (by simp)), ih (fun a ha => h a (by simp [ha]))]
    rfl

theorem pair_faithful {α β : Type} {c : Codec α} {d : Codec β} (hc : c.Faithful) (hd : d.Faithful) : (c.pair d).Faithful := by
  intro p h
  show (do
    let a ← c.dec (c.enc p.1)
    let b ← d.dec (d.enc p.2)
    some (a, b)) = some p
  rw [hc p.1 h.1, hd p.2 h.2]
  rfl

theorem optional_some {α : Type} {c : Codec α} {fs : List (String × Json)} {name : String} {j : Json}
    (h : field fs name = some j) : optional fs name c = c.opt.dec j := by
  rw [optional, h]

theorem coin_faithful : coin.Faithful := by
  rintro ⟨d, n⟩ h
  have h1 : u128.dec (u128.enc n) = some n := u128_faithful n h
  simp [coin, fields, once, req, field, text, h1]

theorem coin_solid : coin.Solid := fun _ h => by cases h

/-- Whatever is written as a text is read back from it. -/
theorem ofText_toText {α : Type} {c : Codec α} (hf : c.Faithful) {a : α} (h : c.Fits a) : c.ofText (c.toText a) = some a := by
  rw [Codec.ofText, Codec.toText, ofBytes_toBytes]
  exact hf a h

end Ibcx.Json
