import Verif.Json.GrammarLemmas2
import Verif.Props.MessageText
import Verif.Spec.Schema
/-!
# C105: exactly the JSON texts are read, and each says one thing
-/

namespace Ibcx.Props
open Ibcx Ibcx.Json Ibcx.Spec Ibcx.Spec.JsonText

/-- **C105 (JSON).** The reader accepts exactly the texts of the grammar and gives what they say. -/
theorem C105_json (cs : List Char) (j : Json.Json) : Json.read cs = some j ↔ IsText cs j := read_iff cs j

/-- White space, an escaped character, one written as two halves, and numbers. -/
example : IsText " { \"a\\u0041\\ud83d\\ude00\" : [ 1 ,20, null ] }\n".toList
    (.obj [("aA😀", .arr [.num 1, .num 20, .null])]) := by
  have h : (Json.read " { \"a\\u0041\\ud83d\\ude00\" : [ 1 ,20, null ] }\n".toList).map write =
      some (write (.obj [("aA😀", .arr [.num 1, .num 20, .null])])) := by decide +kernel
  obtain ⟨j, h1, h2⟩ := Option.map_eq_some_iff.1 h
  have e : j = .obj [("aA😀", .arr [.num 1, .num 20, .null])] := by
    have a := read_write j
    rw [h2, read_write] at a
    exact (Option.some.inj a).symm
  rw [← e]
  exact (C105_json _ _).1 h1

/-- Not JSON: a trailing comma, a leading zero, a sign, text after the value, half a character, an unknown escape. -/
example : ∀ t ∈ ["[1,]", "[01]", "-1", "{} {}", "\"\\ud83d\"", "\"\\x\"", "", "{\"a\" 1}", "{a:1}", "tru"],
    Json.read t.toList = none := by
  intro t ht
  have : ∀ t ∈ ["[1,]", "[01]", "-1", "{} {}", "\"\\ud83d\"", "\"\\x\"", "", "{\"a\" 1}", "{a:1}", "tru"],
      (Json.read t.toList).isNone = true := by decide +kernel
  exact Option.isNone_iff_eq_none.1 (this t ht)

/-- **C105 (one meaning).** No text says two things. -/
theorem C105_one_meaning {cs : List Char} {j j' : Json.Json} (h : IsText cs j) (h' : IsText cs j') : j = j' :=
  Option.some.inj (((C105_json _ _).2 h).symm.trans ((C105_json _ _).2 h'))

/-- Two texts that say the same. -/
example : IsText "[1]".toList (.arr [.num 1]) ∧ IsText "[ 1 ]".toList (.arr [.num 1]) := by
  refine ⟨⟨[], "[1]".toList, [], rfl, by simp [Blank], .list (.last (b := []) (b' := []) (by simp [Blank]) (.number 1)
    (by simp [Blank])), by simp [Blank]⟩, ⟨[], "[ 1 ]".toList, [], rfl, by simp [Blank], .list (.last (b := [' ']) (b' := [' '])
    (by simp [Blank]) (.number 1) (by simp [Blank])), by simp [Blank]⟩⟩

/-- **C105 (bytes).** A byte string is read as a tree exactly when it is the UTF-8 form of a JSON text of that tree. -/
theorem C105_bytes (b : Storage.Bytes) (j : Json.Json) :
    ofBytes b = some j ↔ ∃ cs, b = (cs.flatMap String.utf8EncodeChar).map UInt8.toNat ∧ IsText cs j := by
  constructor
  · intro h
    obtain ⟨cs, h1, h2⟩ := Option.bind_eq_some_iff.1 h
    exact ⟨cs, (fromUtf8_iff _ _).1 h1, (C105_json _ _).1 h2⟩
  · rintro ⟨cs, h1, h2⟩
    unfold ofBytes
    rw [(fromUtf8_iff _ _).2 h1]
    exact (C105_json _ _).2 h2

/-- The bytes of a text with a character of two bytes; the longer form of a quote, half a character and a byte that never
occurs are refused. -/
example : (ofBytes [34, 195, 188, 34]).map write = some (write (.str "ü")) ∧ (ofBytes [192, 162, 192, 162]).isNone = true ∧
    (ofBytes [34, 237, 160, 189, 34]).isNone = true ∧ (ofBytes [34, 255, 34]).isNone = true := by decide +kernel

private theorem amount_no_dot {cs : List Char} {n : Nat} (h : AmountText cs n) : '.' ∉ cs := by
  obtain ⟨ds, h1, _, h3, _⟩ := h
  have hd : '.' ∉ ds := fun hm => absurd (h3 _ hm) (by decide)
  rcases h1 with rfl | rfl
  · exact hd
  · rw [List.mem_cons]
    rintro (h | h)
    · exact absurd h (by decide)
    · exact hd h

/-- **C105 (decimals).** A decimal number is read exactly from an amount, or from two amounts with a point between them of
which the second has at most eighteen characters; a plus sign after the point counts as a place. -/
theorem C105_decimal (s : String) (n : Nat) : decimal.dec (.str s) = some n ↔ DecimalText s.toList n := by
  have amt : ∀ cs m, parseU128 cs = some m ↔ AmountText cs m := fun cs m => C99_amount_read cs m
  show parseDecimal s.toList = some n ↔ _
  unfold DecimalText
  generalize s.toList = cs
  have hU : U128 = 2 ^ 128 := rfl
  have hO : ONE = 10 ^ 18 := rfl
  rw [← hU, ← hO]
  unfold parseDecimal
  constructor
  · intro h
    split at h
    · rename_i w hw
      obtain ⟨rfl, _⟩ := (splitDot_one_iff _ _).1 hw
      obtain ⟨m, hm, h⟩ := Option.bind_eq_some_iff.1 h
      split at h
      · rename_i hlt
        have e := Option.some.inj h
        subst e
        exact ⟨hlt, .inl ⟨m, (amt _ _).1 hm, rfl⟩⟩
      · cases h
    · rename_i w f hw
      obtain ⟨rfl, _⟩ := (splitDot_two_iff _ _ _).1 hw
      obtain ⟨m, hm, h⟩ := Option.bind_eq_some_iff.1 h
      obtain ⟨k, hk, h⟩ := Option.bind_eq_some_iff.1 h
      split at h
      · rename_i hlt
        have e := Option.some.inj h
        subst e
        exact ⟨hlt.2, .inr ⟨w, f, m, k, rfl, (amt _ _).1 hm, (amt _ _).1 hk, hlt.1, rfl⟩⟩
      · cases h
    · cases h
  · rintro ⟨hn, ⟨w, hw, rfl⟩ | ⟨a, f, w, m, rfl, ha, hf, hl, rfl⟩⟩
    · rw [(splitDot_one_iff _ _).2 ⟨rfl, amount_no_dot hw⟩]
      dsimp only
      rw [(amt _ _).2 hw]
      show (if _ then _ else _) = _
      exact if_pos hn
    · rw [(splitDot_two_iff _ _ _).2 ⟨rfl, amount_no_dot ha, amount_no_dot hf⟩]
      dsimp only
      rw [(amt _ _).2 ha, (amt _ _).2 hf]
      show (if _ then _ else _) = _
      exact if_pos ⟨hl, hn⟩

/-- Several forms of one and a half; with a plus sign after the point the digit moves; too many places. -/
example : decimal.dec (.str "1.5") = some 1500000000000000000 ∧ decimal.dec (.str "+01.50") = some 1500000000000000000 ∧
    decimal.dec (.str "1.+5") = some 1050000000000000000 ∧ decimal.dec (.str "1.") = none ∧ decimal.dec (.str ".5") = none ∧
    decimal.dec (.str "0.0000000000000000001") = none ∧ decimal.dec (.str "1.2.3") = none ∧ decimal.dec (.str "-1") = none := by
  decide +kernel

/-- **C105 (base64).** Bytes are read exactly from their base64 text, of which padding may be left out at the end. -/
theorem C105_base64 (s : String) (bs : List UInt8) :
    binary.dec (.str s) = some bs ↔ ∃ k, s.toList ++ List.replicate k '=' = Texts.base64 bs := binary_iff s bs

/-- With padding, with some and without; bits that must be zero; a character that is none of base64. -/
example : binary.dec (.str "QQ==") = some [65] ∧ binary.dec (.str "QQ=") = some [65] ∧ binary.dec (.str "QQ") = some [65] ∧
    binary.dec (.str "QR==") = none ∧ binary.dec (.str "QQ-=") = none ∧ binary.dec (.str "TWFu") = some [77, 97, 110] := by
  decide +kernel

end Ibcx.Props
