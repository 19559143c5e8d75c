import Mathlib.Tactic.IntervalCases
import Verif.Json.Text
/-!
# Lemmas: what is written is read back

Not part of the model.
-/

namespace Ibcx.Json
open Ibcx

/-- A text that does not begin with white space. -/
theorem skipWs_cons {c : Char} {r : List Char} (h : ¬ (c = ' ' ∨ c = '\n' ∨ c = '\t' ∨ c = '\r')) :
    skipWs (c :: r) = c :: r := by
  simp [skipWs, h]

theorem readStr_plain {c : Char} (h1 : c ≠ '"') (h2 : c ≠ '\\') (r : List Char) :
    readStr (c :: r) = (readStr r).bind fun x => some (c :: x.1, x.2) := by
  rw [readStr.eq_def]
  split
  · simp_all
  · simp_all
  · simp_all
  · simp_all
  · rename_i heq
    simp only [List.cons.injEq] at heq
    obtain ⟨rfl, rfl⟩ := heq
    rfl

theorem readStr_escaped {c d : Char} (h : c ≠ 'u') (hd : unescape c = some d) (r : List Char) :
    readStr ('\\' :: c :: r) = (readStr r).bind fun x => some (d :: x.1, x.2) := by
  rw [readStr.eq_def]
  split
  · simp_all
  · simp_all
  · simp_all
  · rename_i heq
    simp only [List.cons.injEq] at heq
    obtain ⟨_, rfl, rfl⟩ := heq
    rw [hd]
    rfl
  · rename_i hne heq
    simp only [List.cons.injEq] at heq
    exact absurd heq.2.symm (hne c r heq.1.symm)

theorem readStr_code {a b c d : Char} {n : Nat} (h : hexFour a b c d = some n) (hn : n < 0xD800) (r : List Char) :
    readStr ('\\' :: 'u' :: a :: b :: c :: d :: r) = (readStr r).bind fun x => some (Char.ofNat n :: x.1, x.2) := by
  have hn' : ¬ (0xD800 ≤ n ∧ n ≤ 0xDFFF) := by omega
  rw [readStr]
  simp only [h, Option.bind_eq_bind, Option.bind_some, if_neg hn']

theorem hexValue_upper : ∀ n < 16, hexValue (hexUpper n) = some n := by decide

theorem readStr_escape (c : Char) (r : List Char) :
    readStr (escape c ++ r) = (readStr r).bind fun x => some (c :: x.1, x.2) := by
  have hc : Char.ofNat c.toNat = c := Char.ofNat_toNat c
  unfold escape
  split_ifs with h1 h2 h3 h4 h5 h6 h7 h8
  · subst h1; exact readStr_escaped (by decide) (by decide) r
  · subst h2; exact readStr_escaped (by decide) (by decide) r
  · rw [← hc, h3]; exact readStr_escaped (by decide) (by decide) r
  · rw [← hc, h4]; exact readStr_escaped (by decide) (by decide) r
  · rw [← hc, h5]; exact readStr_escaped (by decide) (by decide) r
  · rw [← hc, h6]; exact readStr_escaped (by decide) (by decide) r
  · rw [← hc, h7]; exact readStr_escaped (by decide) (by decide) r
  · have := readStr_code (a := '0') (b := '0') (c := hexUpper (c.toNat / 16)) (d := hexUpper (c.toNat % 16)) (n := c.toNat) (by
      simp only [hexFour, hexValue_upper _ (show c.toNat / 16 < 16 by omega), hexValue_upper _ (show c.toNat % 16 < 16 by omega)]
      have : hexValue '0' = some 0 := by decide
      simp only [this, Option.bind_eq_bind, Option.bind_some, Option.some.injEq]
      omega) (by omega) r
    rw [hc] at this
    exact this
  · exact readStr_plain h1 h2 r

theorem readStr_text (s : List Char) (r : List Char) : readStr (s.flatMap escape ++ '"' :: r) = some (s, r) := by
  induction s with
  | nil => simp [readStr]
  | cons c s ih =>
    rw [List.flatMap_cons, List.append_assoc, readStr_escape, ih]
    rfl

theorem readStr_writeStr (s : String) (r : List Char) :
    ∃ body, writeStr s ++ r = '"' :: body ∧ readStr body = some (s.toList, r) :=
  ⟨s.toList.flatMap escape ++ '"' :: r, by simp [writeStr], readStr_text _ _⟩

/-! ### Numbers -/

/-- What may follow a number. -/
def Ends (r : List Char) : Prop := ∀ c ∈ r.head?, c.isDigit = false

theorem readNum_digits : ∀ (ds : List Char) (n : Nat) (r : List Char), (∀ c ∈ ds, c.isDigit = true) → Ends r →
    readNum n (ds ++ r) = (ds.foldl (fun n c => 10 * n + (c.toNat - 48)) n, r)
  | [], n, r, _, hr => by
    cases r with
    | nil => rfl
    | cons c r =>
      have : c.isDigit = false := hr c (by simp)
      simp [readNum, this]
  | d :: ds, n, r, hd, hr => by
    have h1 : d.isDigit = true := hd d (by simp)
    rw [List.cons_append, readNum, if_pos h1, readNum_digits ds _ r (fun c hc => hd c (by simp [hc])) hr]
    rfl

theorem value_digits (n : Nat) : (toString n).toList.foldl (fun n c => 10 * n + (c.toNat - 48)) 0 = n := by
  have h : (toString n).toList = Nat.toDigits 10 n := Nat.toList_repr
  rw [h]
  exact Nat.ofDigitChars_ten_toDigits

theorem digit_ne {c : Char} (h : c.isDigit = true) : c.toNat < 58 ∧ 48 ≤ c.toNat := by
  simp only [Char.isDigit, Bool.and_eq_true, decide_eq_true_eq] at h
  have h1 := UInt32.le_iff_toNat_le.1 h.1
  have h2 := UInt32.le_iff_toNat_le.1 h.2
  exact ⟨Nat.lt_succ_of_le h2, h1⟩

theorem toString_cases (n : Nat) : (n = 0 ∧ (toString n).toList = ['0']) ∨
    ∃ d ds, (toString n).toList = d :: ds ∧ d.isDigit = true ∧ d ≠ '0' ∧ ∀ c ∈ ds, c.isDigit = true := by
  have h : (toString n).toList = Nat.toDigits 10 n := Nat.toList_repr
  have hall : ∀ c ∈ (toString n).toList, c.isDigit = true := by
    intro c hc
    rw [h] at hc
    exact Nat.isDigit_of_mem_toDigits (by decide) (by decide) hc
  rcases Nat.eq_zero_or_pos n with rfl | hn
  · left; exact ⟨rfl, by decide⟩
  · right
    have hfirst : ∀ n, 0 < n → (Nat.toDigits 10 n).head? ≠ some '0' := by
      intro n
      induction n using Nat.strongRecOn with
      | ind n ih =>
        intro hn
        by_cases hlt : n < 10
        · rw [Nat.toDigits_of_lt_base hlt]
          have : ∀ n < 10, 0 < n → [Nat.digitChar n].head? ≠ some '0' := by decide
          exact this n hlt hn
        · rw [Nat.toDigits_of_base_le (by decide) (by omega)]
          have hq := ih (n / 10) (by omega) (by omega)
          cases hd : Nat.toDigits 10 (n / 10) with
          | nil => exact absurd hd Nat.toDigits_ne_nil
          | cons d ds =>
            rw [hd] at hq
            simpa using hq
    cases hd : (toString n).toList with
    | nil =>
      rw [h] at hd
      exact absurd hd Nat.toDigits_ne_nil
    | cons d ds =>
      rw [hd] at hall
      refine ⟨d, ds, rfl, hall d (by simp), ?_, fun c hc => hall c (by simp [hc])⟩
      rintro rfl
      apply hfirst n hn
      rw [← h, hd]
      rfl

/-! ### Values -/

theorem read_num (k : Nat) (n : Nat) (r : List Char) (hr : Ends r) :
    readValue (k + 1) ((toString n).toList ++ r) = some (.num n, r) := by
  rcases toString_cases n with ⟨rfl, h⟩ | ⟨d, ds, h, h1, h2, h3⟩
  · rw [h]
    simp [readValue, skipWs]
  · have hv := value_digits n
    rw [h] at hv ⊢
    have hd := digit_ne h1
    have ne : ∀ c : Char, (c.toNat < 48 ∨ 58 ≤ c.toNat) → d ≠ c := by
      rintro c hc rfl
      omega
    rw [List.cons_append, readValue]
    rw [skipWs_cons (by
      rintro (rfl | rfl | rfl | rfl) <;> revert h1 <;> decide)]
    dsimp only
    rw [if_neg (ne _ (by decide)), if_neg (ne _ (by decide)), if_neg (ne _ (by decide)), if_neg (ne _ (by decide)),
      if_neg (ne _ (by decide)), if_neg (ne _ (by decide)), if_neg h2, if_pos h1, readNum_digits ds _ r h3 hr]
    simp only [List.foldl_cons, Nat.mul_zero, Nat.zero_add] at hv
    rw [hv]

theorem read_word {k : Nat} {c : Char} {w r : List Char} {j : Json}
    (h : readValue (k + 1) (c :: (w ++ r)) = (readWord w (w ++ r)).map fun r => (j, r)) :
    readValue (k + 1) (c :: (w ++ r)) = some (j, r) := by
  rw [h, readWord, if_pos (by simp)]
  simp

theorem read_str (k : Nat) (s : String) (r : List Char) : readValue (k + 1) (writeStr s ++ r) = some (.str s, r) := by
  obtain ⟨body, h1, h2⟩ := readStr_writeStr s r
  rw [h1, readValue, skipWs_cons (by decide)]
  dsimp only
  rw [if_neg (by decide), if_neg (by decide), if_neg (by decide), if_pos rfl, h2]
  simp

theorem ends_cons {c : Char} {r : List Char} (h : c.isDigit = false) : Ends (c :: r) := by
  intro d hd
  simp only [List.head?_cons, Option.mem_def, Option.some.injEq] at hd
  rw [← hd]; exact h

/-- Written values do not begin with white space or a closing bracket. -/
theorem write_head (j : Json) : ∃ c r, write j = c :: r ∧ ¬ (c = ' ' ∨ c = '\n' ∨ c = '\t' ∨ c = '\r') ∧ c ≠ ']' := by
  cases j with
  | null => exact ⟨_, _, by rw [write], by decide, by decide⟩
  | bool b => cases b <;> exact ⟨_, _, by rw [write], by decide, by decide⟩
  | num n =>
    rw [write]
    rcases toString_cases n with ⟨rfl, h⟩ | ⟨d, ds, h, h1, h2, h3⟩
    · exact ⟨_, _, h, by decide, by decide⟩
    · refine ⟨_, _, h, ?_, ?_⟩
      · rintro (rfl | rfl | rfl | rfl) <;> revert h1 <;> decide
      · rintro rfl; revert h1; decide
  | str s => exact ⟨_, _, by rw [write, writeStr], by decide, by decide⟩
  | arr xs => cases xs <;> exact ⟨_, _, by rw [write], by decide, by decide⟩
  | obj fs => cases fs <;> exact ⟨_, _, by rw [write], by decide, by decide⟩

theorem writeItems_ends (xs : List Json) (r : List Char) : Ends (writeItems xs ++ ']' :: r) := by
  cases xs with
  | nil => rw [writeItems]; exact ends_cons (by decide)
  | cons x xs => rw [writeItems]; exact ends_cons (by decide)

theorem writeFields_ends (fs : List (String × Json)) (r : List Char) : Ends (writeFields fs ++ '}' :: r) := by
  cases fs with
  | nil => rw [writeFields]; exact ends_cons (by decide)
  | cons x xs => rw [writeFields]; exact ends_cons (by decide)

mutual
theorem readValue_write : ∀ (j : Json) (k : Nat) (r : List Char), 2 * (write j).length ≤ k → Ends r →
    readValue k (write j ++ r) = some (j, r)
  | .null, k, r, hk, _ => by
    rw [write] at hk ⊢
    obtain ⟨k, rfl⟩ : ∃ k', k = k' + 1 := ⟨k - 1, by simp at hk; omega⟩
    exact read_word (c := 'n') (w := ['u', 'l', 'l']) (by rw [readValue, skipWs_cons (by decide)]; rfl)
  | .bool true, k, r, hk, _ => by
    rw [write] at hk ⊢
    obtain ⟨k, rfl⟩ : ∃ k', k = k' + 1 := ⟨k - 1, by simp at hk; omega⟩
    exact read_word (c := 't') (w := ['r', 'u', 'e']) (by rw [readValue, skipWs_cons (by decide)]; rfl)
  | .bool false, k, r, hk, _ => by
    rw [write] at hk ⊢
    obtain ⟨k, rfl⟩ : ∃ k', k = k' + 1 := ⟨k - 1, by simp at hk; omega⟩
    exact read_word (c := 'f') (w := ['a', 'l', 's', 'e']) (by rw [readValue, skipWs_cons (by decide)]; rfl)
  | .num n, k, r, hk, hr => by
    rw [write] at hk ⊢
    obtain ⟨k, rfl⟩ : ∃ k', k = k' + 1 := ⟨k - 1, by
      rcases toString_cases n with ⟨_, h⟩ | ⟨d, ds, h, _⟩ <;> rw [h] at hk <;> simp at hk <;> omega⟩
    exact read_num k n r hr
  | .str s, k, r, hk, _ => by
    rw [write] at hk ⊢
    obtain ⟨k, rfl⟩ : ∃ k', k = k' + 1 := ⟨k - 1, by simp [writeStr] at hk; omega⟩
    exact read_str k s r
  | .arr [], k, r, hk, _ => by
    rw [write] at hk ⊢
    obtain ⟨k, rfl⟩ : ∃ k', k = k' + 1 := ⟨k - 1, by simp at hk; omega⟩
    simp [readValue, skipWs]
  | .arr (x :: xs), k, r, hk, _ => by
    rw [write] at hk ⊢
    obtain ⟨k, rfl⟩ : ∃ k', k = k' + 1 := ⟨k - 1, by simp at hk; omega⟩
    have h := readItems_write x xs k r (by simp at hk ⊢; omega)
    obtain ⟨c, t, hc, hw, hb⟩ := write_head x
    simp only [List.cons_append, List.append_assoc, List.nil_append] at h ⊢
    rw [readValue, skipWs_cons (by decide)]
    dsimp only
    rw [if_neg (by decide), if_neg (by decide), if_neg (by decide), if_neg (by decide), if_pos rfl]
    rw [hc] at h ⊢
    rw [List.cons_append] at h ⊢
    rw [skipWs_cons hw]
    split
    · rename_i heq
      exact absurd (List.cons.inj heq).1 hb
    · rw [h]; rfl
  | .obj [], k, r, hk, _ => by
    rw [write] at hk ⊢
    obtain ⟨k, rfl⟩ : ∃ k', k = k' + 1 := ⟨k - 1, by simp at hk; omega⟩
    simp [readValue, skipWs]
  | .obj ((key, x) :: fs), k, r, hk, _ => by
    rw [write] at hk ⊢
    obtain ⟨k, rfl⟩ : ∃ k', k = k' + 1 := ⟨k - 1, by simp at hk; omega⟩
    have h := readFields_write key x fs k r (by simp at hk ⊢; omega)
    simp only [List.cons_append, List.append_assoc, List.nil_append] at h ⊢
    rw [readValue, skipWs_cons (by decide)]
    dsimp only
    rw [if_neg (by decide), if_neg (by decide), if_neg (by decide), if_neg (by decide), if_neg (by decide), if_pos rfl]
    obtain ⟨body, h1, _⟩ := readStr_writeStr key (':' :: (write x ++ (writeFields fs ++ '}' :: r)))
    rw [h1] at h ⊢
    rw [skipWs_cons (by decide)]
    split
    · rename_i heq
      exact absurd (List.cons.inj heq).1 (by decide)
    · rw [h]; rfl
termination_by _ k => k

theorem readItems_write : ∀ (x : Json) (xs : List Json) (k : Nat) (r : List Char),
    2 * (write x ++ (writeItems xs ++ [']'])).length ≤ k →
    readItems k (write x ++ (writeItems xs ++ ']' :: r)) = some (x :: xs, r)
  | x, xs, k, r, hk => by
    obtain ⟨k, rfl⟩ : ∃ k', k = k' + 1 := ⟨k - 1, by simp at hk; omega⟩
    have hx := readValue_write x k (writeItems xs ++ ']' :: r) (by simp at hk; omega) (writeItems_ends xs r)
    rw [readItems, hx]
    cases xs with
    | nil =>
      rw [writeItems]
      simp [skipWs]
    | cons y ys =>
      have h := readItems_write y ys k r (by
        rw [writeItems] at hk
        simp at hk ⊢; omega)
      rw [writeItems]
      simp only [List.cons_append, List.append_assoc, Option.bind_eq_bind, Option.bind_some]
      rw [skipWs_cons (by decide)]
      simp [h]
termination_by _ _ k => k

theorem readFields_write : ∀ (key : String) (x : Json) (fs : List (String × Json)) (k : Nat) (r : List Char),
    2 * (writeStr key ++ (':' :: (write x ++ (writeFields fs ++ ['}'])))).length ≤ k →
    readFields k (writeStr key ++ (':' :: (write x ++ (writeFields fs ++ '}' :: r)))) = some ((key, x) :: fs, r)
  | key, x, fs, k, r, hk => by
    obtain ⟨k, rfl⟩ : ∃ k', k = k' + 1 := ⟨k - 1, by simp at hk; omega⟩
    have hx := readValue_write x k (writeFields fs ++ '}' :: r) (by simp at hk; omega) (writeFields_ends fs r)
    obtain ⟨body, h1, h2⟩ := readStr_writeStr key (':' :: (write x ++ (writeFields fs ++ '}' :: r)))
    rw [h1, readFields, skipWs_cons (by decide)]
    have hs : skipWs (':' :: (write x ++ (writeFields fs ++ '}' :: r))) = ':' :: (write x ++ (writeFields fs ++ '}' :: r)) :=
      skipWs_cons (by decide)
    simp only [h2, Option.bind_eq_bind, Option.bind_some, hs, hx]
    cases fs with
    | nil =>
      rw [writeFields]
      simp [skipWs]
    | cons y ys =>
      obtain ⟨key', y⟩ := y
      have h := readFields_write key' y ys k r (by
        rw [writeFields] at hk
        simp at hk ⊢; omega)
      rw [writeFields]
      simp only [List.cons_append, List.append_assoc]
      rw [skipWs_cons (by decide)]
      simp [h]
termination_by _ _ _ k => k
end

/-- Every written text is read back. -/
theorem read_write (j : Json) : read (write j) = some j := by
  have h := readValue_write j (2 * (write j).length) [] (le_refl _) (by intro c hc; simp at hc)
  rw [List.append_nil] at h
  simp [read, h, skipWs]

/-! ### Bytes -/

theorem char_valid (c : Char) : c.toNat < 0xD800 ∨ (0xDFFF < c.toNat ∧ c.toNat < 0x110000) := c.valid

theorem tailBits_ok {n : Nat} (h : n < 64) : tailBits (0x80 + n) = some n := by
  simp only [tailBits]
  rw [if_pos (by omega)]
  simp

theorem fromUtf8_char (c : Char) (r : Storage.Bytes) :
    fromUtf8 (Storage.utf8Char c ++ r) = (fromUtf8 r).map (c :: ·) := by
  have hc : Char.ofNat c.toNat = c := Char.ofNat_toNat c
  have hv := char_valid c
  generalize hn : c.toNat = n at hc hv
  unfold Storage.utf8Char
  simp only [hn]
  split_ifs with h1 h2 h3
  · rw [List.cons_append, List.nil_append, fromUtf8.eq_def]
    dsimp only
    rw [if_pos h1, hc]
    cases fromUtf8 r <;> rfl
  · rw [List.cons_append, List.cons_append, List.nil_append, fromUtf8, if_neg (by omega), if_pos (by omega)]
    rw [tailBits_ok (by omega)]
    have e : (0xC0 + n / 0x40 - 0xC0) * 0x40 + n % 0x40 = n := by omega
    simp only [Option.bind_eq_bind, Option.bind_some, e, hc]
    cases fromUtf8 r <;> rfl
  · rw [List.cons_append, List.cons_append, List.cons_append, List.nil_append, fromUtf8, if_neg (by omega),
      if_neg (by omega), if_pos (by omega)]
    dsimp only
    rw [tailBits_ok (by omega), tailBits_ok (by omega)]
    have e : (0xE0 + n / 0x1000 - 0xE0) * 0x1000 + n / 0x40 % 0x40 * 0x40 + n % 0x40 = n := by omega
    have hp : 0x800 ≤ n ∧ ¬ (0xD800 ≤ n ∧ n ≤ 0xDFFF) := by omega
    simp only [Option.bind_eq_bind, Option.bind_some, e, hc, if_pos hp]
    cases fromUtf8 r <;> rfl
  · rw [List.cons_append, List.cons_append, List.cons_append, List.cons_append, List.nil_append, fromUtf8,
      if_neg (by omega), if_neg (by omega), if_neg (by omega), if_pos (by omega)]
    dsimp only
    rw [tailBits_ok (by omega), tailBits_ok (by omega), tailBits_ok (by omega)]
    have e : (0xF0 + n / 0x40000 - 0xF0) * 0x40000 + n / 0x1000 % 0x40 * 0x1000 + n / 0x40 % 0x40 * 0x40 + n % 0x40 = n := by
      omega
    have hp : 0x10000 ≤ n ∧ n < 0x110000 := by omega
    simp only [Option.bind_eq_bind, Option.bind_some, e, hc, if_pos hp]
    cases fromUtf8 r <;> rfl

theorem fromUtf8_text (cs : List Char) : fromUtf8 (cs.flatMap Storage.utf8Char) = some cs := by
  induction cs with
  | nil => rfl
  | cons c cs ih => rw [List.flatMap_cons, fromUtf8_char, ih]; rfl

/-- Every written byte text is read back. -/
theorem ofBytes_toBytes (j : Json) : ofBytes (toBytes j) = some j := by
  rw [ofBytes, toBytes, fromUtf8_text]
  exact read_write j

end Ibcx.Json
