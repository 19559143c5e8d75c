import Mathlib.Data.List.Forall2
import Verif.Airdrop.Lemmas
import Verif.Spec.Merkle
/-!
# Lemmas about texts, hex and byte strings

Not part of the model.
-/

namespace Ibcx.Airdrop
open Ibcx Ibcx.Spec

theorem utf8_inj {a b : String} (h : a.toUTF8.data.toList = b.toUTF8.data.toList) : a = b := by
  have h1 : a.toUTF8 = b.toUTF8 := by
    cases ha : a.toUTF8; cases hb : b.toUTF8
    rw [ha, hb] at h
    congr 1
    exact Array.toList_inj.1 h
  exact String.toByteArray_inj.1 h1

/-- Two texts `x ++ sep ++ digits` with no separator in the digits. -/
theorem last_sep_inj {sep : Char} {a a' d d' : List Char} (h : a ++ sep :: d = a' ++ sep :: d') (h1 : sep ∉ d)
    (h2 : sep ∉ d') : a = a' ∧ d = d' := by
  rcases List.append_eq_append_iff.1 h with ⟨as, e1, e2⟩ | ⟨as, e1, e2⟩
  · cases as with
    | nil => simp at e1 e2; exact ⟨e1.symm, e2⟩
    | cons x as =>
      simp at e2
      exact absurd (by rw [e2.2]; simp) h1
  · cases as with
    | nil => simp at e1 e2; exact ⟨e1, e2.symm⟩
    | cons x as =>
      simp at e2
      exact absurd (by rw [e2.2]; simp) h2

theorem digits_no {n : Nat} {x : Char} (hx : x.isDigit = false) : x ∉ (toString n).toList := by
  intro h
  have : (toString n).toList = Nat.toDigits 10 n := Nat.toList_repr
  rw [this] at h
  have := Nat.isDigit_of_mem_toDigits (by decide) (by decide) h
  rw [this] at hx; cases hx

theorem toString_nat_inj {m n : Nat} (h : (toString m).toList = (toString n).toList) : m = n := by
  have h1 : (toString m).toList = Nat.toDigits 10 m := Nat.toList_repr
  have h2 : (toString n).toList = Nat.toDigits 10 n := Nat.toList_repr
  rw [h1, h2] at h
  rw [← Nat.ofDigitChars_ten_toDigits (n := m), ← Nat.ofDigitChars_ten_toDigits (n := n), h]

theorem leafText_inj {a a' : String} {n n' : Nat} (h : a ++ ":" ++ toString n = a' ++ ":" ++ toString n') :
    a = a' ∧ n = n' := by
  have h := congrArg String.toList h
  simp only [String.toList_append] at h
  have e : ":".toList = [':'] := rfl
  rw [e] at h
  simp only [List.append_assoc, List.singleton_append] at h
  obtain ⟨h1, h2⟩ := last_sep_inj h (digits_no (by decide)) (digits_no (by decide))
  exact ⟨String.toList_inj.1 h1, toString_nat_inj h2⟩

theorem signText_inj {h h' a a' : String} {n n' : Nat} (ha : '/' ∉ a.toList) (ha' : '/' ∉ a'.toList)
    (e : h ++ "/" ++ a ++ "/" ++ toString n = h' ++ "/" ++ a' ++ "/" ++ toString n') : h = h' ∧ a = a' ∧ n = n' := by
  have e := congrArg String.toList e
  simp only [String.toList_append] at e
  have es : "/".toList = ['/'] := rfl
  rw [es] at e
  simp only [List.append_assoc, List.singleton_append] at e
  rw [← List.append_assoc, ← List.append_assoc] at e
  obtain ⟨h1, h2⟩ := last_sep_inj e (digits_no (by decide)) (digits_no (by decide))
  obtain ⟨h3, h4⟩ := last_sep_inj h1 ha ha'
  exact ⟨String.toList_inj.1 h3, String.toList_inj.1 h4, toString_nat_inj h2⟩

theorem sortedConcat_eq (a b : Hash32) : sortedConcat a b = pairBytes a b := by
  unfold sortedConcat pairBytes
  by_cases h : b.bytes < a.bytes
  · rw [if_pos h, if_neg (by simpa using h)]
  · rw [if_neg h, if_pos (by simpa using h)]

theorem pairBytes_comm (a b : Hash32) : pairBytes a b = pairBytes b a := by
  unfold pairBytes
  rcases List.le_total a.bytes b.bytes with h | h
  · rw [if_pos h]
    split
    · rename_i h'
      rw [List.le_antisymm h h']
    · rfl
  · rw [if_pos h]
    split
    · rename_i h'
      rw [List.le_antisymm h h']
    · rfl

theorem pairBytes_length (a b : Hash32) : (pairBytes a b).length = 64 := by
  unfold pairBytes
  split <;> simp [a.len, b.len]

theorem Hash32.ext' {a b : Hash32} (h : a.bytes = b.bytes) : a = b := by
  cases a; cases b; simp at h; subst h; rfl

/-- A pair of hashes is determined up to order. -/
theorem pairBytes_inj {a b x y : Hash32} (h : pairBytes a b = pairBytes x y) : (a = x ∧ b = y) ∨ (a = y ∧ b = x) := by
  have key : ∀ {p q r s : Hash32}, p.bytes ++ q.bytes = r.bytes ++ s.bytes → p = r ∧ q = s := by
    intro p q r s e
    obtain ⟨h1, h2⟩ := List.append_inj e (by rw [p.len, r.len])
    exact ⟨Hash32.ext' h1, Hash32.ext' h2⟩
  unfold pairBytes at h
  split at h <;> split at h
  · exact .inl (key h)
  · exact .inr (key h)
  · obtain ⟨h1, h2⟩ := key h; exact .inr ⟨h2, h1⟩
  · obtain ⟨h1, h2⟩ := key h; exact .inl ⟨h2, h1⟩

/-- Fold along decoded hashes. -/
def climb (c : Crypto) : Hash32 → List Hash32 → Hash32
  | h, [] => h
  | h, p :: ps => climb c (c.sha (pairBytes h p)) ps

theorem climb_append (c : Crypto) (h : Hash32) (ps qs : List Hash32) :
    climb c h (ps ++ qs) = climb c (climb c h ps) qs := by
  induction ps generalizing h with
  | nil => rfl
  | cons p ps ih => exact ih _

theorem foldProof_eq_ok {c : Crypto} {h h' : Hash32} {ps : List String} :
    foldProof c h ps = .ok h' ↔ ∃ path, List.Forall₂ (fun p q => hexDecode32 p = .ok q) ps path ∧ h' = climb c h path := by
  induction ps generalizing h with
  | nil => simp [foldProof, climb, eq_comm]
  | cons p ps ih =>
    simp only [foldProof, bind_eq_ok, ih, sortedConcat_eq]
    constructor
    · rintro ⟨b, h1, path, h2, rfl⟩
      exact ⟨b :: path, .cons h1 h2, rfl⟩
    · rintro ⟨path, h1, rfl⟩
      cases h1 with
      | cons h1 h2 => exact ⟨_, h1, _, h2, rfl⟩

theorem verifyMerkleProof_eq_ok {c : Crypto} {root : String} {proof : List String} {who : String} {amount : Nat} :
    verifyMerkleProof c root proof who amount = .ok () ↔
      ∃ path, List.Forall₂ (fun p q => hexDecode32 p = .ok q) proof path ∧
        hexDecode32 root = .ok (climb c (c.sha (leafBytes who amount)) path) := by
  simp only [verifyMerkleProof, bind_eq_ok, foldProof_eq_ok, require_eq_ok]
  constructor
  · rintro ⟨h, ⟨path, h1, rfl⟩, r, h2, rfl⟩
    exact ⟨path, h1, h2⟩
  · rintro ⟨path, h1, h2⟩
    exact ⟨_, ⟨path, h1, rfl⟩, _, h2, rfl⟩

theorem hexVal_hexDigit : ∀ n < 16, hexVal (hexDigit n) = some n := by decide

theorem hexChars_hexText (bs : Bytes) :
    hexChars (bs.flatMap (fun b => [hexDigit (b.toNat / 16), hexDigit (b.toNat % 16)])) = some bs := by
  induction bs with
  | nil => rfl
  | cons b bs ih =>
    have hb : b.toNat < 256 := b.toNat_lt
    simp only [List.flatMap_cons, List.cons_append, List.nil_append, hexChars]
    rw [hexVal_hexDigit _ (by omega), hexVal_hexDigit _ (by omega), ih]
    simp only [Option.bind_eq_bind, Option.bind_some]
    congr 2
    rw [show 16 * (b.toNat / 16) + b.toNat % 16 = b.toNat by omega]
    exact UInt8.ofNat_toNat

theorem hexDecode_hexText (bs : Bytes) : hexDecode (hexText bs) = .ok bs := by
  simp only [hexDecode, hexText, String.toList_ofList, hexChars_hexText]

theorem hexDecode32_hexText (h : Hash32) : hexDecode32 (hexText h.bytes) = .ok h := by
  simp only [hexDecode32, hexDecode_hexText]
  rw [dif_pos h.len]

end Ibcx.Airdrop
