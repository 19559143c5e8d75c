import Verif.Spec.Text
import Verif.Periphery.Text
import Verif.Pool.Lemmas
import Mathlib.Tactic.IntervalCases
/-!
# C72: reading the compact route text
-/

namespace Ibcx.Props
open Ibcx Ibcx.Pool Ibcx.Periphery Ibcx.Spec

private theorem split_ne_nil (cs : List Char) : splitComma cs ≠ [] := by
  cases cs with
  | nil => simp [splitComma]
  | cons c cs =>
    simp only [splitComma]
    split
    · simp
    · split <;> simp

private theorem split_head (cs : List Char) : FirstPart cs ((splitComma cs).headD []) := by
  induction cs with
  | nil => exact ⟨by simp [splitComma], .inl rfl⟩
  | cons c cs ih =>
    simp only [splitComma]
    split
    · rename_i h
      exact ⟨by simp, .inr ⟨cs, by simp [h]⟩⟩
    · rename_i h
      have hn := split_ne_nil cs
      cases hs : splitComma cs with
      | nil => exact absurd hs hn
      | cons w ws =>
        rw [hs] at ih
        simp only [List.headD_cons] at ih ⊢
        refine ⟨by simp [ih.1, Ne.symm h], ?_⟩
        rcases ih.2 with h1 | ⟨rest, h1⟩
        · exact .inl (by rw [h1])
        · exact .inr ⟨rest, by rw [h1]; rfl⟩

private theorem split_last (cs : List Char) : LastPart cs ((splitComma cs).getLastD []) := by
  induction cs with
  | nil => exact ⟨by simp [splitComma], .inl rfl⟩
  | cons c cs ih =>
    have hn := split_ne_nil cs
    simp only [splitComma]
    split
    · rename_i h
      cases hs : splitComma cs with
      | nil => exact absurd hs hn
      | cons w ws =>
        rw [hs] at ih
        simp only [List.getLastD_cons] at ih ⊢
        refine ⟨ih.1, .inr ?_⟩
        rcases ih.2 with h1 | ⟨rest, h1⟩
        · exact ⟨[], by rw [h, ← h1]; rfl⟩
        · exact ⟨c :: rest, by rw [h1]; simp⟩
    · rename_i h
      cases hs : splitComma cs with
      | nil => exact absurd hs hn
      | cons w ws =>
        rw [hs] at ih
        simp only [List.getLastD_cons] at ih ⊢
        cases ws with
        | nil =>
          have h0 : cs = w := by
            have h2 := split_head cs
            rw [hs] at h2
            rcases h2.2 with h3 | ⟨rest, h3⟩
            · exact h3
            · exfalso
              rcases ih.2 with h4 | ⟨rest', h4⟩
              · simp only [List.getLastD_nil] at h4
                have : ',' ∈ w := by
                  rw [← h4, h3]
                  simp
                exact h2.1 this
              · have hlen : (splitComma cs).length = 1 := by rw [hs]; rfl
                have : ∀ xs : List Char, ',' ∈ xs → 2 ≤ (splitComma xs).length := by
                  intro xs
                  induction xs with
                  | nil => simp
                  | cons x xs ih =>
                    intro hm
                    simp only [splitComma]
                    split
                    · have := List.length_pos_iff.2 (split_ne_nil xs)
                      simp only [List.length_cons]
                      omega
                    · rename_i hx
                      have := ih (by simpa [Ne.symm hx] using hm)
                      cases hq : splitComma xs with
                      | nil => rw [hq] at this; simp at this
                      | cons a as => rw [hq] at this; simpa using this
                have := this cs (by rw [h4]; simp)
                omega
          subst h0
          simp only [List.getLastD_nil] at ih ⊢
          exact ⟨by simp [ih.1, Ne.symm h], .inl rfl⟩
        | cons v vs =>
          simp only [List.getLastD_cons] at ih ⊢
          refine ⟨ih.1, ?_⟩
          rcases ih.2 with h1 | ⟨rest, h1⟩
          · exfalso
            have : ∀ xs : List Char, ',' ∉ xs → splitComma xs = [xs] := by
              intro xs
              induction xs with
              | nil => intro _; rfl
              | cons x xs ih =>
                intro hm
                simp only [List.mem_cons, not_or] at hm
                simp only [splitComma, if_neg (Ne.symm hm.1), ih hm.2]
            rw [this cs (by rw [h1]; exact ih.1)] at hs
            simp at hs
          · exact .inr ⟨c :: rest, by rw [h1]; rfl⟩

private theorem first_unique {cs a b : List Char} (ha : FirstPart cs a) (hb : FirstPart cs b) : a = b := by
  have : ∀ (a b x y : List Char), ',' ∉ a → ',' ∉ b → (x = [] ∨ ∃ r, x = ',' :: r) → (y = [] ∨ ∃ r, y = ',' :: r) →
      a ++ x = b ++ y → a = b := by
    intro a
    induction a with
    | nil =>
      intro b x y _ hb hx hy h
      cases b with
      | nil => rfl
      | cons c b =>
        rcases hx with rfl | ⟨r, rfl⟩
        · simp at h
        · simp only [List.nil_append, List.cons_append, List.cons.injEq] at h
          exact absurd (by rw [h.1]; simp) hb
    | cons c a ih =>
      intro b x y ha hb hx hy h
      cases b with
      | nil =>
        rcases hy with rfl | ⟨r, rfl⟩
        · simp at h
        · simp only [List.nil_append, List.cons_append, List.cons.injEq] at h
          exact absurd (by simp [h.1]) ha
      | cons c' b =>
        simp only [List.cons_append, List.cons.injEq] at h
        simp only [List.mem_cons, not_or] at ha hb
        rw [h.1, ih b x y ha.2 hb.2 hx hy h.2]
  obtain ⟨ha1, ha2⟩ := ha
  obtain ⟨hb1, hb2⟩ := hb
  have ea : ∃ x, cs = a ++ x ∧ (x = [] ∨ ∃ r, x = ',' :: r) := by
    rcases ha2 with rfl | ⟨r, rfl⟩
    · exact ⟨[], by simp, .inl rfl⟩
    · exact ⟨_, rfl, .inr ⟨r, rfl⟩⟩
  have eb : ∃ x, cs = b ++ x ∧ (x = [] ∨ ∃ r, x = ',' :: r) := by
    rcases hb2 with rfl | ⟨r, rfl⟩
    · exact ⟨[], by simp, .inl rfl⟩
    · exact ⟨_, rfl, .inr ⟨r, rfl⟩⟩
  obtain ⟨x, rfl, hx⟩ := ea
  obtain ⟨y, h, hy⟩ := eb
  exact this a b x y ha1 hb1 hx hy h

private theorem last_iff_first {cs p : List Char} : LastPart cs p ↔ FirstPart cs.reverse p.reverse := by
  unfold LastPart FirstPart
  constructor
  · rintro ⟨h1, h2⟩
    refine ⟨by simpa using h1, ?_⟩
    rcases h2 with rfl | ⟨r, rfl⟩
    · exact .inl rfl
    · exact .inr ⟨r.reverse, by simp⟩
  · rintro ⟨h1, h2⟩
    refine ⟨by simpa using h1, ?_⟩
    rcases h2 with h | ⟨r, h⟩
    · exact .inl (by simpa using congrArg List.reverse h)
    · exact .inr ⟨r.reverse, by simpa using congrArg List.reverse h⟩

private theorem last_unique {cs a b : List Char} (ha : LastPart cs a) (hb : LastPart cs b) : a = b := by
  simpa using congrArg List.reverse (first_unique (last_iff_first.1 ha) (last_iff_first.1 hb))

private theorem digit_cases {c : Char} (h : c.isDigit) : ∃ d : Fin 10, c = digitChars.getD d.val '0' ∧
    c.toNat - 48 = d.val := by
  have h1 : 48 ≤ c.toNat ∧ c.toNat ≤ 57 := by
    simp only [Char.isDigit, Bool.and_eq_true, decide_eq_true_eq] at h
    exact ⟨by have := h.1; simpa [UInt32.le_iff_toNat_le] using this, by have := h.2; simpa [UInt32.le_iff_toNat_le] using this⟩
  refine ⟨⟨c.toNat - 48, by omega⟩, ?_, rfl⟩
  have hc : c = Char.ofNat c.toNat := (Char.ofNat_toNat c).symm
  have key : ∀ n, 48 ≤ n → n ≤ 57 → Char.ofNat n = digitChars.getD (n - 48) '0' := by
    intro n h2 h3
    interval_cases n <;> rfl
  rw [← key _ h1.1 h1.2]
  exact hc

private theorem digit_char (d : Fin 10) : (digitChars.getD d.val '0').isDigit ∧
    (digitChars.getD d.val '0').toNat - 48 = d.val ∧ digitChars.getD d.val '0' ≠ '+' ∧
    digitChars.getD d.val '0' ≠ ',' := by
  revert d
  decide

private theorem readDigits_iff : ∀ {cs : List Char} {z n : Nat}, readDigits z cs = some n ↔
    ∃ ds : List (Fin 10), cs = ds.map (digitChars.getD ·.val '0') ∧ n = ds.foldl (fun n d => 10 * n + d.val) z := by
  intro cs
  induction cs with
  | nil =>
    intro z n
    simp only [readDigits, Option.some.injEq]
    constructor
    · rintro rfl
      exact ⟨[], rfl, rfl⟩
    · rintro ⟨ds, h1, rfl⟩
      cases ds with
      | nil => rfl
      | cons d ds => simp at h1
  | cons c cs ih =>
    intro z n
    simp only [readDigits]
    constructor
    · intro h
      split at h
      · rename_i hc
        obtain ⟨ds, rfl, rfl⟩ := ih.1 h
        obtain ⟨d, h1, h2⟩ := digit_cases hc
        exact ⟨d :: ds, by simp [h1], by simp [h2]⟩
      · cases h
    · rintro ⟨ds, h1, h2⟩
      cases ds with
      | nil => simp at h1
      | cons d ds =>
        simp only [List.map_cons, List.cons.injEq] at h1
        obtain ⟨rfl, rfl⟩ := h1
        rw [if_pos (digit_char d).1, ih]
        exact ⟨ds, rfl, by rw [h2, List.foldl_cons, (digit_char d).2.1]⟩

private def strip : List Char → List Char
  | '+' :: ds => ds
  | ds => ds

private def body (ds : List Char) : Option Nat :=
  match ds with
  | [] => none
  | _ => match readDigits 0 ds with
    | some n => if n < 2 ^ 64 then some n else none
    | none => none

private theorem parseU64_body (cs : List Char) : parseU64 cs = body (strip cs) := rfl

private theorem parseU64_iff {cs : List Char} {n : Nat} : parseU64 cs = some n ↔ Numeral cs n ∧ n < 2 ^ 64 := by
  have key : ∀ ds : List Char, body ds = some n ↔ (ds ≠ [] ∧ readDigits 0 ds = some n ∧ n < 2 ^ 64) := by
    intro ds
    unfold body
    cases ds with
    | nil => simp
    | cons d ds =>
      simp only
      cases readDigits 0 (d :: ds) with
      | none => simp
      | some m =>
        simp only [ne_eq, reduceCtorEq, not_false_eq_true, Option.some.injEq, true_and]
        split
        · simp only [Option.some.injEq]
          constructor
          · rintro rfl; exact ⟨rfl, by assumption⟩
          · exact fun h => h.1
        · constructor
          · intro h; cases h
          · rintro ⟨rfl, h⟩; contradiction
  rw [parseU64_body, key]
  unfold Numeral decimal
  constructor
  · rintro ⟨h1, h2, h3⟩
    refine ⟨?_, h3⟩
    obtain ⟨ds, h4, h5⟩ := readDigits_iff.1 h2
    refine ⟨ds, ?_, h5, ?_⟩
    · rintro rfl
      exact h1 h4
    · unfold strip at h4
      split at h4
      · exact .inr (by rw [h4])
      · exact .inl h4
  · rintro ⟨⟨ds, h1, h2, h4⟩, h3⟩
    have hne : ds.map (digitChars.getD ·.val '0') ≠ [] := by simpa using h1
    have hs : strip cs = ds.map (digitChars.getD ·.val '0') := by
      unfold strip
      rcases h4 with h4 | h4
      · rw [h4]
        cases ds with
        | nil => rfl
        | cons d ds =>
          simp only [List.map_cons]
          split
          · rename_i hq
            simp only [List.cons.injEq] at hq
            exact absurd hq.1 (digit_char d).2.2.1
          · rfl
      · rw [h4]
        rfl
    rw [hs]
    exact ⟨hne, readDigits_iff.2 ⟨ds, rfl, h2⟩, h3⟩

private theorem numeral_plain {cs : List Char} {n : Nat} (h : Numeral cs n) : ',' ∉ cs := by
  obtain ⟨ds, _, _, h⟩ := h
  have : ',' ∉ ds.map (digitChars.getD ·.val '0') := by
    simp only [List.mem_map, not_exists, not_and]
    exact fun d _ => (digit_char d).2.2.2
  rcases h with rfl | rfl
  · exact this
  · rw [List.mem_cons, not_or]
    exact ⟨by decide, this⟩

private theorem parseRoute_iff {r : String} {id : Nat} {d : Denom} : parseRoute r = .ok ⟨id, d⟩ ↔
    id < 2 ^ 64 ∧ (∃ num, FirstPart r.toList num ∧ Numeral num id) ∧ LastPart r.toList d.toList := by
  have h0 : parseRoute r = .ok ⟨id, d⟩ ↔ parseU64 ((splitComma r.toList).headD []) = some id ∧
      String.ofList ((splitComma r.toList).getLastD []) = d := by
    unfold parseRoute
    simp only
    cases parseU64 ((splitComma r.toList).headD []) with
    | none => simp
    | some n => simp
  rw [h0, parseU64_iff]
  constructor
  · rintro ⟨⟨h1, h2⟩, rfl⟩
    refine ⟨h2, ⟨_, split_head _, h1⟩, ?_⟩
    rw [String.toList_ofList]
    exact split_last _
  · rintro ⟨h1, ⟨num, h2, h3⟩, h4⟩
    have e1 := first_unique h2 (split_head _)
    have e2 := last_unique h4 (split_last _)
    subst e1
    refine ⟨⟨h3, h1⟩, ?_⟩
    rw [← e2, String.ofList_toList]

/-- **C72 (hops).** A text is read as a hop through pool `id` for `denom` exactly if the part before its first comma is
a numeral for `id`, which fits 64 bits, and the part after its last comma is `denom`.  Parts between are ignored. -/
theorem C72_hop_text (r : String) (id : Nat) (denom : Denom) :
    parseRoute r = .ok ⟨id, denom⟩ ↔
      id < 2 ^ 64 ∧ (∃ num, FirstPart r.toList num ∧ Numeral num id) ∧ LastPart r.toList denom.toList :=
  parseRoute_iff

/-- Texts that are read, and texts that are refused. -/
example : parseRoute "7,uosmo" = .ok ⟨7, "uosmo"⟩ ∧ parseRoute "7,uosmo,uatom" = .ok ⟨7, "uatom"⟩ ∧
    parseRoute "uosmo,7" = .error .panic ∧ parseRoute "18446744073709551616,uosmo" = .error .panic := by decide +kernel

private theorem fold_digits (n : Nat) : ∃ ds : List (Fin 10), ds ≠ [] ∧
    Nat.toDigits 10 n = ds.map (digitChars.getD ·.val '0') ∧ decimal ds = n := by
  induction n using Nat.strong_induction_on with
  | _ n ih =>
    rw [Nat.toDigits_eq_if (by omega)]
    have hd : ∀ m, (h : m < 10) → Nat.digitChar m = digitChars.getD m '0' := by decide
    split
    · rename_i h
      exact ⟨[⟨n, h⟩], by simp, by simp [hd n h], by simp [decimal]⟩
    · rename_i h
      obtain ⟨ds, h1, h2, h3⟩ := ih (n / 10) (by omega)
      refine ⟨ds ++ [⟨n % 10, by omega⟩], by simp, ?_, ?_⟩
      · rw [h2, List.map_append, hd _ (by omega)]
        rfl
      · unfold decimal at h3 ⊢
        rw [List.foldl_append, h3]
        simp only [List.foldl_cons, List.foldl_nil]
        omega

private theorem toString_numeral (n : Nat) : Numeral (toString n).toList n := by
  obtain ⟨ds, h1, h2, h3⟩ := fold_digits n
  refine ⟨ds, h1, h3.symm, .inl ?_⟩
  rw [← h2]
  show (Nat.repr n).toList = _
  simp [Nat.repr]

/-- **C72 (round trip).** Every list of routes whose pool ids fit 64 bits and whose denoms have no commas is read back
from its text. -/
theorem C72_round_trip (infos : List SwapInfo)
    (h : ∀ i ∈ infos, Plain i.src ∧ Plain i.dst ∧ ∀ r ∈ i.routes, r.poolId < 2 ^ 64 ∧ Plain r.tokenDenom) :
    parseInfos (infos.map fun i => ⟨keyText i, i.routes.map hopText⟩) = .ok infos := by
  have hop : ∀ r : SwapRoute, r.poolId < 2 ^ 64 → Plain r.tokenDenom → parseRoute (hopText r) = .ok r := by
    intro r h1 h2
    obtain ⟨id, d⟩ := r
    rw [parseRoute_iff]
    have e : (hopText ⟨id, d⟩).toList = (toString id).toList ++ ',' :: d.toList := by
      simp [hopText, String.toList_append]
    rw [e]
    exact ⟨h1, ⟨_, ⟨numeral_plain (toString_numeral id), .inr ⟨_, rfl⟩⟩, toString_numeral id⟩, h2, .inr ⟨_, rfl⟩⟩
  have info : ∀ i : SwapInfo, Plain i.src → Plain i.dst → (∀ r ∈ i.routes, r.poolId < 2 ^ 64 ∧ Plain r.tokenDenom) →
      parseInfo ⟨keyText i, i.routes.map hopText⟩ = .ok i := by
    intro i h1 h2 h3
    have e : (keyText i).toList = i.src.toList ++ ',' :: i.dst.toList := by
      simp [keyText, String.toList_append]
    have e1 := first_unique (⟨h1, .inr ⟨_, e⟩⟩ : FirstPart _ _) (split_head (keyText i).toList)
    have e2 := last_unique (⟨h2, .inr ⟨_, e⟩⟩ : LastPart _ _) (split_last (keyText i).toList)
    have e3 : (i.routes.map hopText).mapM parseRoute = .ok i.routes := by
      generalize i.routes = rs at h3
      induction rs with
      | nil => rfl
      | cons r rs ih =>
        simp only [List.map_cons, List.mapM_cons, hop r (h3 r (by simp)).1 (h3 r (by simp)).2,
          ih (fun x hx => h3 x (by simp [hx]))]
        rfl
    simp only [parseInfo, e3, ok_bind, ← e1, ← e2, String.ofList_toList]
  unfold parseInfos
  induction infos with
  | nil => rfl
  | cons i is ih =>
    have hi := h i (by simp)
    simp only [List.map_cons, List.mapM_cons, info i hi.1 hi.2.1 hi.2.2, ih (fun x hx => h x (by simp [hx]))]
    rfl

/-- A two-hop route goes through its text; a hop with three parts loses the one in the middle, and one without a number
in front is refused. -/
example : parseInfos [⟨"uosmo,ujuno", ["1,uosmo", "42,uatom"]⟩] =
      .ok [⟨"uosmo", "ujuno", [⟨1, "uosmo"⟩, ⟨42, "uatom"⟩]⟩] ∧
    parseRoute "7,uosmo,uatom" = .ok ⟨7, "uatom"⟩ ∧ parseRoute "uosmo,7" = .error .panic ∧
    parseRoute "18446744073709551616,uosmo" = .error .panic := by decide +kernel

end Ibcx.Props
