import Mathlib.Data.List.Induction
import Verif.Iface.Semver
import Verif.Spec.Version
import Verif.Props.Version
/-!
# Properties of version texts (C92)
-/

namespace Ibcx.Props
open Ibcx Ibcx.Iface Ibcx.Spec

private theorem toString_digits (n : Nat) : (toString n).toList = Nat.toDigits 10 n := Nat.toList_repr

/-- A decimal text without leading zeros. -/
private def Plain (ds : List Char) : Prop :=
  ds ≠ [] ∧ (∀ c ∈ ds, c.isDigit) ∧ (1 < ds.length → ds.head? ≠ some '0')

private theorem digitsValue_eq (ds : List Char) : digitsValue ds = Nat.ofDigitChars 10 ds 0 := by
  rw [digitsValue, Nat.ofDigitChars_eq_foldl]
  rfl

private theorem digit_val {c : Char} (h : c.isDigit) : c.toNat - 48 < 10 ∧ (c.toNat - 48).digitChar = c := by
  have h' : 48 ≤ c.toNat ∧ c.toNat ≤ 57 := by
    simp only [Char.isDigit, Bool.and_eq_true, decide_eq_true_eq, ge_iff_le, UInt32.le_iff_toNat_le] at h
    exact h
  refine ⟨by omega, ?_⟩
  have e : c = Char.ofNat c.toNat := by simp
  have key : ∀ n, 48 ≤ n → n ≤ 57 → (n - 48).digitChar = Char.ofNat n := by
    intro n h1 h2
    obtain ⟨k, rfl⟩ : ∃ k, n = 48 + k := ⟨n - 48, by omega⟩
    have hk : k < 10 := by omega
    rw [Nat.add_sub_cancel_left]
    revert hk
    clear h1 h2
    revert k
    decide
  rw [key _ h'.1 h'.2, ← e]

private theorem value_pos {ds : List Char} (h : ∀ c ∈ ds, c.isDigit) (h1 : ds ≠ []) (h2 : ds.head? ≠ some '0') :
    0 < Nat.ofDigitChars 10 ds 0 := by
  cases ds with
  | nil => exact absurd rfl h1
  | cons c cs =>
    rw [Nat.ofDigitChars_cons, Nat.ofDigitChars_eq_ofDigitChars_zero]
    have hd := digit_val (h c (by simp))
    have : c.toNat - 48 ≠ 0 := by
      intro e
      rw [e] at hd
      exact h2 (by rw [List.head?_cons, ← hd.2]; rfl)
    have e : '0'.toNat = 48 := rfl
    rw [e]
    have h3 : 0 < 10 ^ cs.length := Nat.pow_pos (by decide)
    have : 0 < 10 ^ cs.length * (10 * 0 + (c.toNat - 48)) := Nat.mul_pos h3 (by omega)
    omega

private theorem toDigits_value {ds : List Char} (h : Plain ds) : Nat.toDigits 10 (Nat.ofDigitChars 10 ds 0) = ds := by
  induction ds using List.reverseRecOn with
  | nil => exact absurd rfl h.1
  | append_singleton cs c ih =>
    obtain ⟨h1, h2, h3⟩ := h
    have hd := digit_val (h2 c (by simp))
    have e0 : '0'.toNat = 48 := rfl
    rw [Nat.ofDigitChars_append, Nat.ofDigitChars_cons, Nat.ofDigitChars_nil, e0]
    by_cases hc : cs = []
    · subst hc
      rw [Nat.ofDigitChars_nil, Nat.mul_zero, Nat.zero_add, Nat.toDigits_of_lt_base hd.1, hd.2]
      rfl
    · have h4 : cs.head? ≠ some '0' := by
        have := h3 (by
          rw [List.length_append, List.length_singleton]
          have := List.length_pos_iff.2 hc
          omega)
        cases cs with
        | nil => exact absurd rfl hc
        | cons a as => simpa using this
      have h5 : ∀ x ∈ cs, x.isDigit := fun x hx => h2 x (by simp [hx])
      rw [← Nat.toDigits_append_toDigits (by decide) (value_pos h5 hc h4) hd.1, ih ⟨hc, h5, fun _ => h4⟩,
        Nat.toDigits_of_lt_base hd.1, hd.2]

private theorem digits_plain (n : Nat) : Plain (Nat.toDigits 10 n) := by
  refine ⟨Nat.toDigits_ne_nil, fun c hc => Nat.isDigit_of_mem_toDigits (by decide) (by decide) hc, ?_⟩
  induction n using Nat.strongRecOn with
  | _ n ih =>
    by_cases hn : n < 10
    · rw [Nat.toDigits_of_lt_base hn]
      intro h
      simp at h
    · rw [Nat.toDigits_of_base_le (by decide) (by omega)]
      intro _
      have h2 : Nat.toDigits 10 (n / 10) ≠ [] := Nat.toDigits_ne_nil
      have h1 := ih (n / 10) (by omega)
      cases hd : Nat.toDigits 10 (n / 10) with
      | nil => exact absurd hd h2
      | cons a as =>
        rw [hd] at h1
        by_cases hl : as = []
        · subst hl
          by_cases h3 : n / 10 < 10
          · rw [Nat.toDigits_of_lt_base h3] at hd
            simp only [List.cons.injEq, and_true] at hd
            subst hd
            have : n / 10 ≠ 0 := by omega
            simp only [List.cons_append, List.head?_cons, ne_eq, Option.some.injEq]
            intro e
            have key : ∀ k, k < 10 → k ≠ 0 → k.digitChar ≠ '0' := by decide
            exact key _ h3 this e
          · rw [Nat.toDigits_of_base_le (by decide) (by omega)] at hd
            have l1 := congrArg List.length hd
            have l2 : 0 < (Nat.toDigits 10 (n / 10 / 10)).length := Nat.length_toDigits_pos
            simp only [List.length_append, List.length_cons, List.length_nil] at l1
            have l3 : 0 < (Nat.toDigits 10 (n / 10 % 10)).length := Nat.length_toDigits_pos
            omega
        · have := List.length_pos_iff.2 hl
          have := h1 (by simp only [List.length_cons]; omega)
          simpa using this

/-- The value is determined by the text and the text by the value. -/
private theorem plain_iff {ds : List Char} {n : Nat} : (Plain ds ∧ Nat.ofDigitChars 10 ds 0 = n) ↔ ds = Nat.toDigits 10 n := by
  constructor
  · rintro ⟨h, rfl⟩
    exact (toDigits_value h).symm
  · rintro rfl
    exact ⟨digits_plain n, Nat.ofDigitChars_ten_toDigits⟩

/-- The text does not go on with a digit. -/
private def NoDigit (cs : List Char) : Prop := ∀ c, cs.head? = some c → c.isDigit = false

private theorem value_mono {cs : List Char} {k : Nat} : k ≤ Nat.ofDigitChars 10 cs k := by
  rw [Nat.ofDigitChars_eq_ofDigitChars_zero]
  have : 0 < 10 ^ cs.length := Nat.pow_pos (by decide)
  have := Nat.le_mul_of_pos_left k this
  omega

private theorem numLoop_iff {value len : Nat} {cs rest : List Char} {n : Nat} (hv : value < 2 ^ 64) :
    numLoop value len cs = some (n, rest) ↔ ∃ ds, cs = ds ++ rest ∧ (∀ c ∈ ds, c.isDigit) ∧ NoDigit rest ∧
      n = Nat.ofDigitChars 10 ds value ∧ n < 2 ^ 64 ∧ 0 < len + ds.length ∧ (value = 0 → 0 < len → ds = []) ∧
      (value = 0 → len = 0 → 1 < ds.length → ds.head? ≠ some '0') := by
  induction cs generalizing value len with
  | nil =>
    simp only [numLoop, List.nil_eq, List.append_eq_nil_iff]
    constructor
    · intro h
      split at h
      · cases h
      · simp only [Option.some.injEq, Prod.mk.injEq] at h
        obtain ⟨rfl, rfl⟩ := h
        exact ⟨[], ⟨rfl, rfl⟩, by simp, by simp [NoDigit], by simp [Nat.ofDigitChars_nil], hv, by simp; omega, by simp,
          by simp⟩
    · rintro ⟨ds, ⟨rfl, rfl⟩, _, _, rfl, _, h, _, _⟩
      rw [if_neg (by simp at h; omega)]
  | cons c cs ih =>
    simp only [numLoop]
    by_cases hd : c.isDigit
    · have hdv := digit_val hd
      rw [if_pos hd]
      have e0 : '0'.toNat = 48 := rfl
      have split_ds : ∀ ds : List Char, (c :: cs = ds ++ rest ∧ NoDigit rest) ↔
          ∃ ds', ds = c :: ds' ∧ cs = ds' ++ rest ∧ NoDigit rest := by
        intro ds
        cases ds with
        | nil =>
          simp only [List.nil_append, reduceCtorEq, false_and, exists_false, iff_false, not_and]
          rintro rfl h
          have := h c rfl
          rw [hd] at this
          cases this
        | cons a as =>
          simp only [List.cons_append, List.cons.injEq]
          constructor
          · rintro ⟨⟨rfl, rfl⟩, h⟩
            exact ⟨as, ⟨rfl, rfl⟩, rfl, h⟩
          · rintro ⟨_, ⟨rfl, rfl⟩, rfl, h⟩
            exact ⟨⟨rfl, rfl⟩, h⟩
      by_cases hz : value = 0 ∧ len > 0
      · rw [if_pos hz]
        simp only [reduceCtorEq, false_iff, not_exists]
        rintro ds ⟨h1, _, h3, _, _, _, h4, _⟩
        have := h4 hz.1 hz.2
        subst this
        obtain ⟨_, h, _⟩ := (split_ds []).1 ⟨h1, h3⟩
        cases h
      · rw [if_neg hz]
        by_cases hb : 10 * value + (c.toNat - 48) < 2 ^ 64
        · rw [if_pos hb, ih hb]
          constructor
          · rintro ⟨ds, rfl, g2, g3, g4, g5, g6, g7, g8⟩
            refine ⟨c :: ds, rfl, ?_, g3, by rw [Nat.ofDigitChars_cons, e0]; exact g4, g5, by simp, ?_, ?_⟩
            · intro x hx
              rcases List.mem_cons.1 hx with rfl | hx
              · exact hd
              · exact g2 x hx
            · intro h1 h2
              exact absurd ⟨h1, h2⟩ hz
            · intro h1 h2 h3
              simp only [List.head?_cons, ne_eq, Option.some.injEq]
              rintro rfl
              subst h1
              have := g7 (by decide) (by omega)
              subst this
              simp at h3
          · rintro ⟨ds, g1, g2, g3, g4, g5, g6, g7, g8⟩
            obtain ⟨ds', rfl, rfl, _⟩ := (split_ds ds).1 ⟨g1, g3⟩
            refine ⟨ds', rfl, fun x hx => g2 x (by simp [hx]), g3, by rw [Nat.ofDigitChars_cons, e0] at g4; exact g4, g5,
              by omega, ?_, ?_⟩
            · intro h1 _
              have hv0 : value = 0 := by omega
              have hl0 : len = 0 := by
                by_contra hl
                exact hz ⟨hv0, by omega⟩
              by_contra hne
              have := g8 hv0 hl0 (by
                have := List.length_pos_iff.2 hne
                simp only [List.length_cons]
                omega)
              simp only [List.head?_cons, ne_eq, Option.some.injEq] at this
              have hc0 : c.toNat - 48 = 0 := by omega
              rw [hc0] at hdv
              exact this hdv.2.symm
            · intro _ h
              omega
        · rw [if_neg hb]
          simp only [reduceCtorEq, false_iff, not_exists]
          rintro ds ⟨g1, g2, g3, g4, g5, _⟩
          obtain ⟨ds', rfl, rfl, _⟩ := (split_ds ds).1 ⟨g1, g3⟩
          rw [Nat.ofDigitChars_cons, e0] at g4
          have := value_mono (cs := ds') (k := 10 * value + (c.toNat - 48))
          omega
    · rw [if_neg hd]
      constructor
      · intro h
        split at h
        · cases h
        · simp only [Option.some.injEq, Prod.mk.injEq] at h
          obtain ⟨rfl, rfl⟩ := h
          exact ⟨[], rfl, by simp, by simpa [NoDigit] using hd, by simp [Nat.ofDigitChars_nil], hv, by simp; omega, by simp,
            by simp⟩
      · rintro ⟨ds, g1, g2, g3, g4, g5, g6, g7, g8⟩
        cases ds with
        | nil =>
          simp only [List.nil_append] at g1
          subst g1
          rw [if_neg (by simp at g6; omega), g4, Nat.ofDigitChars_nil]
        | cons a as =>
          simp only [List.cons_append, List.cons.injEq] at g1
          obtain ⟨rfl, _⟩ := g1
          exact absurd (g2 c (by simp)) hd

private theorem numericIdent_iff {cs rest : List Char} {n : Nat} :
    numericIdent cs = some (n, rest) ↔ n < 2 ^ 64 ∧ cs = Nat.toDigits 10 n ++ rest ∧ NoDigit rest := by
  rw [numericIdent, numLoop_iff (by decide)]
  constructor
  · rintro ⟨ds, rfl, g2, g3, g4, g5, g6, g7, g8⟩
    have : Plain ds := ⟨by rintro rfl; simp at g6, g2, g8 rfl rfl⟩
    exact ⟨g5, by rw [plain_iff.1 ⟨this, g4.symm⟩], g3⟩
  · rintro ⟨g1, rfl, g3⟩
    obtain ⟨⟨p1, p2, p3⟩, p4⟩ := plain_iff.2 (rfl : Nat.toDigits 10 n = Nat.toDigits 10 n)
    exact ⟨_, rfl, p2, g3, p4.symm, g1, by have := List.length_pos_iff.2 p1; omega, by simp, fun _ _ => p3⟩

private theorem dot_iff {cs rest : List Char} : dot cs = some rest ↔ cs = '.' :: rest := by
  unfold dot
  split
  · simp
  · rename_i h
    simp only [reduceCtorEq, false_iff]
    exact h rest

/-- The text ends or goes on with neither an identifier character nor a dot. -/
private def Ends (cs : List Char) : Prop := ∀ c, cs.head? = some c → identChar c = false ∧ c ≠ '.'

/-- A segment that the parser accepts. -/
private def Seg (pre : Bool) (s : List Char) : Prop :=
  s ≠ [] ∧ (∀ c ∈ s, identChar c) ∧ (pre && leadingZero s) = false

private theorem dotted_append {a : List Char} {segs : List (List Char)} (h : segs ≠ []) :
    dotted (a :: segs) = a ++ '.' :: dotted segs := by
  cases segs with
  | nil => exact absurd rfl h
  | cons b bs => rfl

private theorem identLoop_iff {pre : Bool} {acc : List (List Char)} {seg cs rest : List Char} {out : List (List Char)}
    (hseg : ∀ c ∈ seg, identChar c) :
    identLoop pre acc seg cs = some (out, rest) ↔ Ends rest ∧
      ((acc = [] ∧ seg = [] ∧ out = [] ∧ rest = cs) ∨
        ∃ segs, segs ≠ [] ∧ out = acc ++ segs ∧ (∀ s ∈ segs, Seg pre s) ∧ seg ++ cs = dotted segs ++ rest) := by
  induction cs generalizing acc seg with
  | nil =>
    simp only [identLoop]
    constructor
    · intro h
      split at h
      · next hs =>
        split at h
        · next ha =>
          simp only [Option.some.injEq, Prod.mk.injEq] at h
          obtain ⟨rfl, rfl⟩ := h
          exact ⟨by simp [Ends], .inl ⟨ha, hs, rfl, rfl⟩⟩
        · cases h
      · next hs =>
        split at h
        · cases h
        · next hz =>
          simp only [Option.some.injEq, Prod.mk.injEq] at h
          obtain ⟨rfl, rfl⟩ := h
          refine ⟨by simp [Ends], .inr ⟨[seg], by simp, rfl, ?_, by simp [dotted]⟩⟩
          intro s hs'
          simp only [List.mem_singleton] at hs'
          subst hs'
          exact ⟨hs, hseg, by simpa using hz⟩
    · rintro ⟨h1, ⟨rfl, rfl, rfl, rfl⟩ | ⟨segs, h2, rfl, h3, h4⟩⟩
      · rfl
      · cases segs with
        | nil => exact absurd rfl h2
        | cons a as =>
          cases as with
          | nil =>
            simp only [List.append_nil, dotted] at h4
            have h5 := h3 a (by simp)
            have hr : rest = [] := by
              cases rest with
              | nil => rfl
              | cons r rs =>
                have := (h1 r rfl).1
                rw [hseg r (by rw [h4]; simp)] at this
                cases this
            subst hr
            rw [List.append_nil] at h4
            subst h4
            rw [if_neg h5.1, if_neg (by rw [h5.2.2]; decide)]
          | cons b bs =>
            simp only [List.append_nil, dotted, List.append_assoc, List.cons_append] at h4
            have := hseg '.' (by rw [h4]; simp)
            exact absurd this (by decide)
  | cons c cs ih =>
    simp only [identLoop]
    by_cases hc : identChar c
    · rw [if_pos hc, ih (by
        intro x hx
        rcases List.mem_append.1 hx with hx | hx
        · exact hseg x hx
        · simp only [List.mem_singleton] at hx; subst hx; exact hc)]
      simp only [List.append_assoc, List.cons_append, List.nil_append, List.append_eq_nil_iff, List.cons_ne_self,
        and_false, false_and, false_or]
      constructor
      · rintro ⟨h1, h2⟩
        exact ⟨h1, .inr h2⟩
      · rintro ⟨h1, ⟨_, _, _, rfl⟩ | h2⟩
        · have := (h1 c rfl).1
          rw [hc] at this
          cases this
        · exact ⟨h1, h2⟩
    · rw [if_neg hc]
      -- how `seg ++ c :: cs` can be split into segments
      have shape : ∀ segs : List (List Char), segs ≠ [] → (∀ s ∈ segs, Seg pre s) → Ends rest →
          (seg ++ c :: cs = dotted segs ++ rest) → ∃ as, segs = seg :: as ∧
            ((as = [] ∧ rest = c :: cs) ∨ (as ≠ [] ∧ c = '.' ∧ cs = dotted as ++ rest)) := by
        intro segs h2 h3 h1 h4
        cases segs with
        | nil => exact absurd rfl h2
        | cons a as =>
          have ha := h3 a (by simp)
          -- the first non-identifier character is at the same place on both sides
          have split1 : ∀ (x y : List Char) (p q : Char) (xs ys : List Char), (∀ z ∈ x, identChar z) →
              (∀ z ∈ y, identChar z) → ¬ identChar p → ¬ identChar q → x ++ p :: xs = y ++ q :: ys →
              x = y ∧ p = q ∧ xs = ys := by
            intro x
            induction x with
            | nil =>
              intro y p q xs ys _ hy hp hq e
              cases y with
              | nil => simp only [List.nil_append, List.cons.injEq] at e; exact ⟨rfl, e⟩
              | cons b bs =>
                simp only [List.nil_append, List.cons_append, List.cons.injEq] at e
                exact absurd (e.1 ▸ hy b (by simp)) hp
            | cons b bs ihx =>
              intro y p q xs ys hx hy hp hq e
              cases y with
              | nil =>
                simp only [List.nil_append, List.cons_append, List.cons.injEq] at e
                exact absurd (e.1 ▸ hx b (by simp)) hq
              | cons b' bs' =>
                simp only [List.cons_append, List.cons.injEq] at e
                obtain ⟨rfl, e⟩ := e
                obtain ⟨rfl, r⟩ := ihx bs' p q xs ys (fun z hz => hx z (by simp [hz])) (fun z hz => hy z (by simp [hz])) hp hq e
                exact ⟨rfl, r⟩
          cases as with
          | nil =>
            simp only [dotted] at h4
            cases rest with
            | nil =>
              rw [List.append_nil] at h4
              have := ha.2.1 c (by rw [← h4]; simp)
              exact absurd this hc
            | cons r rs =>
              obtain ⟨rfl, rfl, rfl⟩ := split1 seg a c r cs rs hseg ha.2.1 hc (by rw [(h1 r rfl).1]; decide) h4
              exact ⟨[], rfl, .inl ⟨rfl, rfl⟩⟩
          | cons b bs =>
            simp only [dotted, List.append_assoc, List.cons_append] at h4
            obtain ⟨rfl, rfl, rfl⟩ := split1 seg a c '.' cs _ hseg ha.2.1 hc (by decide) h4
            exact ⟨b :: bs, rfl, .inr ⟨by simp, rfl, rfl⟩⟩
      constructor
      · intro h
        split at h
        · next hs =>
          split at h
          · next ha =>
            simp only [Option.some.injEq, Prod.mk.injEq] at h
            obtain ⟨rfl, rfl⟩ := h
            refine ⟨?_, .inl ⟨ha.1, hs, rfl, rfl⟩⟩
            intro x hx
            simp only [List.head?_cons, Option.some.injEq] at hx
            subst hx
            exact ⟨by simpa using hc, ha.2⟩
          · cases h
        · next hs =>
          split at h
          · cases h
          · next hz =>
            have hS : Seg pre seg := ⟨hs, hseg, by simpa using hz⟩
            split at h
            · next hdot =>
              rw [ih (by simp)] at h
              obtain ⟨h1, ⟨h2, _⟩ | ⟨segs, h2, rfl, h3, h4⟩⟩ := h
              · simp at h2
              · refine ⟨h1, .inr ⟨seg :: segs, by simp, by simp, ?_, ?_⟩⟩
                · intro s hs'
                  rcases List.mem_cons.1 hs' with rfl | hs'
                  · exact hS
                  · exact h3 s hs'
                · rw [List.nil_append] at h4
                  rw [dotted_append h2, hdot, h4]
                  simp
            · next hdot =>
              simp only [Option.some.injEq, Prod.mk.injEq] at h
              obtain ⟨rfl, rfl⟩ := h
              refine ⟨?_, .inr ⟨[seg], by simp, rfl, ?_, by simp [dotted]⟩⟩
              · intro x hx
                simp only [List.head?_cons, Option.some.injEq] at hx
                subst hx
                exact ⟨by simpa using hc, hdot⟩
              · intro s hs'
                simp only [List.mem_singleton] at hs'
                subst hs'
                exact hS
      · rintro ⟨h1, ⟨rfl, rfl, rfl, rfl⟩ | ⟨segs, h2, rfl, h3, h4⟩⟩
        · rw [if_pos rfl, if_pos ⟨rfl, (h1 c rfl).2⟩]
        · obtain ⟨as, rfl, ⟨rfl, rfl⟩ | ⟨h5, rfl, rfl⟩⟩ := shape segs h2 h3 h1 h4
          · have hS := h3 seg (by simp)
            rw [if_neg hS.1, if_neg (by rw [hS.2.2]; decide), if_neg (h1 c rfl).2]
          · have hS := h3 seg (by simp)
            rw [if_neg hS.1, if_neg (by rw [hS.2.2]; decide), if_pos rfl, ih (by simp)]
            exact ⟨h1, .inr ⟨as, h5, by simp, fun s hs => h3 s (by simp [hs]), by simp⟩⟩

private theorem identifier_iff {pre : Bool} {cs rest : List Char} {out : List (List Char)} :
    identifier pre cs = some (out, rest) ↔ Ends rest ∧ ((out = [] ∧ rest = cs) ∨
      (out ≠ [] ∧ (∀ s ∈ out, Seg pre s) ∧ cs = dotted out ++ rest)) := by
  rw [identifier, identLoop_iff (by simp)]
  simp only [true_and, List.nil_append]
  constructor
  · rintro ⟨h1, ⟨rfl, rfl⟩ | ⟨segs, h2, rfl, h3, h4⟩⟩
    · exact ⟨h1, .inl ⟨rfl, rfl⟩⟩
    · exact ⟨h1, .inr ⟨h2, h3, h4⟩⟩
  · rintro ⟨h1, ⟨rfl, rfl⟩ | ⟨h2, h3, h4⟩⟩
    · exact ⟨h1, .inl ⟨rfl, rfl⟩⟩
    · exact ⟨h1, .inr ⟨out, h2, rfl, h3, h4⟩⟩

private theorem optPart_iff {mark : Char} {pre : Bool} {cs rest : List Char} {out : List (List Char)} :
    optPart mark pre cs = some (out, rest) ↔
      (out = [] ∧ rest = cs ∧ cs.head? ≠ some mark) ∨
      (out ≠ [] ∧ (∀ s ∈ out, Seg pre s) ∧ cs = mark :: dotted out ++ rest ∧ Ends rest) := by
  cases cs with
  | nil =>
    simp only [optPart, Option.some.injEq, Prod.mk.injEq]
    constructor
    · rintro ⟨rfl, rfl⟩
      exact .inl ⟨rfl, rfl, by simp⟩
    · rintro (⟨rfl, rfl, _⟩ | ⟨_, _, h, _⟩)
      · exact ⟨rfl, rfl⟩
      · simp at h
  | cons c cs =>
    by_cases hc : c = mark
    · subst hc
      simp only [optPart, if_pos, List.head?_cons, ne_eq, not_true_eq_false, and_false, false_or, List.cons_append,
        List.cons.injEq, true_and]
      constructor
      · intro h
        split at h
        · cases h
        · next hne =>
          obtain ⟨h1, ⟨rfl, rfl⟩ | ⟨h2, h3, h4⟩⟩ := identifier_iff.1 h
          · exact absurd h (hne _)
          · exact ⟨h2, h3, h4, h1⟩
      · rintro ⟨h2, h3, h4, h1⟩
        have h := identifier_iff.2 ⟨h1, .inr ⟨h2, h3, h4⟩⟩
        rw [h]
        split
        · next e => simp only [Option.some.injEq, Prod.mk.injEq] at e; exact absurd e.1 h2
        · rfl
    · simp only [optPart, if_neg hc, Option.some.injEq, Prod.mk.injEq, List.head?_cons, List.cons_append, List.cons.injEq]
      constructor
      · rintro ⟨rfl, rfl⟩
        exact .inl ⟨rfl, rfl, by simpa using hc⟩
      · rintro (⟨rfl, rfl, _⟩ | ⟨_, _, ⟨h, _⟩, _⟩)
        · exact ⟨rfl, rfl⟩
        · exact absurd h hc

private theorem identChar_iff {c : Char} : identChar c ↔ c.isAlpha ∨ c.isDigit ∨ c = '-' := by
  simp [identChar, or_assoc]

private theorem not_all_digit {s : List Char} : s.all Char.isDigit = false ↔ ∃ c ∈ s, ¬ c.isDigit := by
  rw [← Bool.not_eq_true, List.all_eq_true]
  push Not
  rfl

/-- The segments of a pre-release are the texts of its identifiers. -/
private theorem pre_seg (s : List Char) : (Seg true s → preText (toPreId s) = s ∧ PreOk (toPreId s)) ∧
    ∀ p, PreOk p → Seg true (preText p) ∧ toPreId (preText p) = p := by
  constructor
  · rintro ⟨h1, h2, h3⟩
    cases hd : s.all Char.isDigit with
    | true =>
      have hp : Plain s := by
        refine ⟨h1, fun c hc => List.all_eq_true.1 hd c hc, fun hl he => ?_⟩
        simp [leadingZero, hd, hl, he] at h3
      simp only [toPreId, hd, if_true, preText, PreOk, and_true, digitsValue_eq, toString_digits]
      exact toDigits_value hp
    | false =>
      simp only [toPreId, hd, preText, PreOk, Word]
      refine ⟨by simp, ?_, ?_⟩
      · intro c hc
        exact identChar_iff.1 (h2 c (by simpa using hc))
      · simpa using not_all_digit.1 hd
  · intro p hp
    cases p with
    | num n =>
      have h := digits_plain n
      simp only [preText, toString_digits]
      have hd : (Nat.toDigits 10 n).all Char.isDigit = true := List.all_eq_true.2 h.2.1
      refine ⟨⟨h.1, fun c hc => identChar_iff.2 (.inr (.inl (h.2.1 c hc))), ?_⟩, ?_⟩
      · simp only [leadingZero, hd, Bool.true_and, Bool.and_eq_false_iff, decide_eq_false_iff_not]
        by_cases hl : 1 < (Nat.toDigits 10 n).length
        · exact .inr (by simpa using h.2.2 hl)
        · exact .inl hl
      · rw [toPreId, hd, if_pos rfl, digitsValue_eq, Nat.ofDigitChars_ten_toDigits]
    | text t =>
      obtain ⟨h1, c, h2, h3⟩ := hp
      have hd : t.toList.all Char.isDigit = false := not_all_digit.2 ⟨c, h2, h3⟩
      simp only [preText]
      refine ⟨⟨(fun e => by rw [e] at h2; exact absurd h2 (by simp)), fun x hx => identChar_iff.2 (h1 x hx), by simp [leadingZero, hd]⟩, ?_⟩
      rw [toPreId, hd]
      simp

private theorem zeros_split {s : List Char} (h : s ≠ []) (hd : ∀ c ∈ s, c.isDigit) :
    ∃ k ds, s = List.replicate k '0' ++ ds ∧ Plain ds := by
  induction s with
  | nil => exact absurd rfl h
  | cons c cs ih =>
    by_cases hc : c = '0' ∧ cs ≠ []
    · obtain ⟨k, ds, h1, h2⟩ := ih hc.2 (fun x hx => hd x (by simp [hx]))
      exact ⟨k + 1, ds, by rw [hc.1, h1]; rfl, h2⟩
    · refine ⟨0, c :: cs, rfl, by simp, hd, ?_⟩
      intro hl he
      simp only [List.head?_cons, Option.some.injEq] at he
      refine hc ⟨he, ?_⟩
      rintro rfl
      simp at hl

private theorem build_seg (s : List Char) : (Seg false s → buildText (toBuildId s) = s ∧ BuildOk (toBuildId s)) ∧
    ∀ p, BuildOk p → Seg false (buildText p) ∧ toBuildId (buildText p) = p := by
  constructor
  · rintro ⟨h1, h2, h3⟩
    cases hd : s.all Char.isDigit with
    | true =>
      obtain ⟨k, ds, rfl, hp⟩ := zeros_split h1 (fun c hc => List.all_eq_true.1 hd c hc)
      have hv : Nat.ofDigitChars 10 (List.replicate k '0' ++ ds) 0 = Nat.ofDigitChars 10 ds 0 := by
        rw [Nat.ofDigitChars_append, Nat.ofDigitChars_replicate_zero, Nat.mul_zero]
      simp only [toBuildId, hd, if_true, buildText, BuildOk, digitsValue_eq, toString_digits, hv, toDigits_value hp]
      simp
    | false =>
      simp only [toBuildId, hd, buildText, BuildOk, Word]
      refine ⟨by simp, ?_, ?_⟩
      · intro c hc
        exact identChar_iff.1 (h2 c (by simpa using hc))
      · simpa using not_all_digit.1 hd
  · intro p hp
    cases p with
    | num n len =>
      have h := digits_plain n
      simp only [BuildOk, toString_digits] at hp
      simp only [buildText, toString_digits]
      have hdm : ∀ c ∈ List.replicate (len - (Nat.toDigits 10 n).length) '0' ++ Nat.toDigits 10 n, c.isDigit := by
        intro c hc
        rcases List.mem_append.1 hc with hc | hc
        · rw [(List.mem_replicate.1 hc).2]; rfl
        · exact h.2.1 c hc
      have hd := List.all_eq_true.2 hdm
      refine ⟨⟨by simp [h.1], fun c hc => identChar_iff.2 (.inr (.inl (hdm c hc))), rfl⟩, ?_⟩
      rw [toBuildId, hd, if_pos rfl, digitsValue_eq, Nat.ofDigitChars_append, Nat.ofDigitChars_replicate_zero, Nat.mul_zero,
        Nat.ofDigitChars_ten_toDigits]
      simp only [List.length_append, List.length_replicate]
      congr 1
      omega
    | text t =>
      obtain ⟨h1, c, h2, h3⟩ := hp
      have hd : t.toList.all Char.isDigit = false := not_all_digit.2 ⟨c, h2, h3⟩
      simp only [buildText]
      refine ⟨⟨(fun e => by rw [e] at h2; exact absurd h2 (by simp)), fun x hx => identChar_iff.2 (h1 x hx), by simp⟩, ?_⟩
      rw [toBuildId, hd]
      simp

private theorem noDigit_cons {c : Char} {cs : List Char} (h : c.isDigit = false) : NoDigit (c :: cs) := by
  intro x hx
  simp only [List.head?_cons, Option.some.injEq] at hx
  subst hx
  exact h

private theorem ends_cons {c : Char} {cs : List Char} (h : identChar c = false ∧ c ≠ '.') : Ends (c :: cs) := by
  intro x hx
  simp only [List.head?_cons, Option.some.injEq] at hx
  subst hx
  exact h

private theorem map_back {α : Type} {f : List Char → α} {g : α → List Char} {P : List Char → Prop} {segs : List (List Char)}
    (h : ∀ s ∈ segs, P s) (hfg : ∀ s, P s → g (f s) = s) : (segs.map f).map g = segs := by
  induction segs with
  | nil => rfl
  | cons a as ih =>
    simp only [List.map_cons]
    rw [hfg a (h a (by simp)), ih (fun s hs => h s (by simp [hs]))]

private theorem map_forth {α : Type} {f : List Char → α} {g : α → List Char} {P : α → Prop} {xs : List α}
    (h : ∀ x ∈ xs, P x) (hfg : ∀ x, P x → f (g x) = x) : (xs.map g).map f = xs := by
  induction xs with
  | nil => rfl
  | cons a as ih =>
    simp only [List.map_cons]
    rw [hfg a (h a (by simp)), ih (fun s hs => h s (by simp [hs]))]

/-- **C92 (grammar).** The parser accepts exactly the texts of versions, and reads each as the version it is the text
of. -/
theorem C92_parse_iff (s : String) (v : Version) : parseVersion s = some v ↔ VersionOk v ∧ s.toList = versionText v := by
  rw [parseVersion]
  generalize s.toList = cs
  have start : parseChars cs = some v ↔ ∃ ma c1, numericIdent cs = some (ma, c1) ∧ ∃ c2, dot c1 = some c2 ∧
      ∃ mi c3, numericIdent c2 = some (mi, c3) ∧ ∃ c4, dot c3 = some c4 ∧ ∃ pa c5, numericIdent c4 = some (pa, c5) ∧
      ∃ pre c6, optPart '-' true c5 = some (pre, c6) ∧ ∃ build, optPart '+' false c6 = some (build, []) ∧
      v = ⟨ma, mi, pa, pre.map toPreId, build.map toBuildId⟩ := by
    simp only [parseChars, Option.bind_eq_bind, Option.bind_eq_some_iff, Prod.exists, Option.ite_none_right_eq_some,
      Option.some.injEq]
    constructor
    · rintro ⟨a, b, h1, c, h2, d, e, h3, f, h4, g, i, h5, j, k, h6, l, m, h7, rfl, rfl⟩
      exact ⟨a, b, h1, c, h2, d, e, h3, f, h4, g, i, h5, j, k, h6, l, h7, rfl⟩
    · rintro ⟨a, b, h1, c, h2, d, e, h3, f, h4, g, i, h5, j, k, h6, l, h7, rfl⟩
      exact ⟨a, b, h1, c, h2, d, e, h3, f, h4, g, i, h5, j, k, h6, l, [], h7, rfl, rfl⟩
  rw [start]
  constructor
  · rintro ⟨ma, c1, h1, c2, h2, mi, c3, h3, c4, h4, pa, c5, h5, pre, c6, h6, build, h7, rfl⟩
    obtain ⟨a1, rfl, a3⟩ := numericIdent_iff.1 h1
    obtain rfl := dot_iff.1 h2
    obtain ⟨b1, rfl, b3⟩ := numericIdent_iff.1 h3
    obtain rfl := dot_iff.1 h4
    obtain ⟨d1, rfl, d3⟩ := numericIdent_iff.1 h5
    have hpre : (∀ s ∈ pre, Seg true s) ∧ c5 = (if pre = [] then [] else '-' :: dotted pre) ++ c6 := by
      rcases optPart_iff.1 h6 with ⟨rfl, rfl, _⟩ | ⟨e1, e2, rfl, _⟩
      · exact ⟨by simp, by simp⟩
      · exact ⟨e2, by rw [if_neg e1]⟩
    have hbuild : (∀ s ∈ build, Seg false s) ∧ c6 = (if build = [] then [] else '+' :: dotted build) := by
      rcases optPart_iff.1 h7 with ⟨rfl, rfl, _⟩ | ⟨e1, e2, rfl, _⟩
      · exact ⟨by simp, by simp⟩
      · exact ⟨e2, by rw [if_neg e1, List.append_nil]⟩
    obtain ⟨p1, rfl⟩ := hpre
    obtain ⟨q1, rfl⟩ := hbuild
    constructor
    · refine ⟨a1, b1, d1, ?_, ?_⟩
      · intro p hp
        obtain ⟨s, hs, rfl⟩ := List.mem_map.1 hp
        exact ((pre_seg s).1 (p1 s hs)).2
      · intro p hp
        obtain ⟨s, hs, rfl⟩ := List.mem_map.1 hp
        exact ((build_seg s).1 (q1 s hs)).2
    · simp only [versionText, toString_digits, List.map_eq_nil_iff]
      rw [map_back p1 (fun s hs => ((pre_seg s).1 hs).1), map_back q1 (fun s hs => ((build_seg s).1 hs).1)]
      simp
  · rintro ⟨⟨v1, v2, v3, v4, v5⟩, rfl⟩
    have hq : optPart '+' false (if v.build = [] then [] else '+' :: dotted (v.build.map buildText)) =
        some (v.build.map buildText, []) := by
      rw [optPart_iff]
      by_cases hb : v.build = []
      · left; simp [hb]
      · right
        refine ⟨by simpa using hb, ?_, by rw [if_neg hb, List.append_nil], by simp [Ends]⟩
        intro s hs
        obtain ⟨p, hp, rfl⟩ := List.mem_map.1 hs
        exact ((build_seg []).2 p (v5 p hp)).1
    have hends : Ends (if v.build = [] then [] else '+' :: dotted (v.build.map buildText)) := by
      split
      · simp [Ends]
      · exact ends_cons ⟨by decide, by decide⟩
    have hp : optPart '-' true ((if v.pre = [] then [] else '-' :: dotted (v.pre.map preText)) ++
        (if v.build = [] then [] else '+' :: dotted (v.build.map buildText))) =
        some (v.pre.map preText, if v.build = [] then [] else '+' :: dotted (v.build.map buildText)) := by
      rw [optPart_iff]
      by_cases hb : v.pre = []
      · left
        refine ⟨by simp [hb], by simp [hb], ?_⟩
        rw [if_pos hb, List.nil_append]
        split <;> simp
      · right
        refine ⟨by simpa using hb, ?_, by rw [if_neg hb], hends⟩
        intro s hs
        obtain ⟨p, hp, rfl⟩ := List.mem_map.1 hs
        exact ((pre_seg []).2 p (v4 p hp)).1
    have hnd : NoDigit ((if v.pre = [] then [] else '-' :: dotted (v.pre.map preText)) ++
        (if v.build = [] then [] else '+' :: dotted (v.build.map buildText))) := by
      split
      · rw [List.nil_append]
        split
        · simp [NoDigit]
        · exact noDigit_cons (by decide)
      · exact noDigit_cons (by decide)
    refine ⟨v.major, _, numericIdent_iff.2 ⟨v1, by
        simp only [versionText, toString_digits, List.append_assoc, List.cons_append], noDigit_cons (by decide)⟩,
      _, dot_iff.2 rfl, v.minor, _, numericIdent_iff.2 ⟨v2, rfl, noDigit_cons (by decide)⟩, _, dot_iff.2 rfl,
      v.patch, _, numericIdent_iff.2 ⟨v3, rfl, hnd⟩, _, _, hp, _, hq, ?_⟩
    rw [map_forth v4 (fun p h => ((pre_seg []).2 p h).2), map_forth v5 (fun p h => ((build_seg []).2 p h).2)]

/-- A version with pre-release and build parts, and texts that are no versions. -/
example : parseVersion "1.20.3-alpha.7.x-1+001.b" =
      some ⟨1, 20, 3, [.text "alpha", .num 7, .text "x-1"], [.num 1 3, .text "b"]⟩ ∧
    parseVersion "1.02.3" = none ∧ parseVersion "1.2" = none ∧ parseVersion "1.2.3-01" = none := by decide +kernel

/-- **C92 (texts and versions).** Different texts are different versions: no two texts are read as the same version. -/
theorem C92_parse_injective {s t : String} {v : Version} (h1 : parseVersion s = some v) (h2 : parseVersion t = some v) :
    s = t := by
  have e := ((C92_parse_iff s v).1 h1).2.trans ((C92_parse_iff t v).1 h2).2.symm
  exact String.toList_inj.1 e

/-- Build parts keep their leading zeros, so the texts differ and so do the versions. -/
example : parseVersion "1.2.3+01" = some ⟨1, 2, 3, [], [.num 1 2]⟩ ∧
    parseVersion "1.2.3+1" = some ⟨1, 2, 3, [], [.num 1 1]⟩ := by decide +kernel

/-- **C92 (migration).** Without force, a contract at version text `old` migrates to `new` exactly when both are texts
of versions and the new one is greater. -/
theorem C92_unforced_migration (name old new : String) (force : Option Bool) (hf : force ≠ some true) :
    migrate parseVersion (some ⟨name, old⟩) name new force = .ok (some ⟨name, new⟩) ↔
      ∃ a b, VersionOk a ∧ VersionOk b ∧ old.toList = versionText a ∧ new.toList = versionText b ∧
        cmpVersion a b = .lt := by
  rw [C55_unforced_migration parseVersion _ _ _ _ hf]
  constructor
  · rintro ⟨o, a, b, h1, h2, h3, h4, _⟩
    cases h1
    obtain ⟨p1, p2⟩ := (C92_parse_iff _ _).1 h2
    obtain ⟨q1, q2⟩ := (C92_parse_iff _ _).1 h3
    exact ⟨a, b, p1, q1, p2, q2, h4⟩
  · rintro ⟨a, b, p1, q1, p2, q2, h4⟩
    exact ⟨old, a, b, rfl, (C92_parse_iff _ _).2 ⟨p1, p2⟩, (C92_parse_iff _ _).2 ⟨q1, q2⟩, h4, rfl⟩

/-- 0.1.10 is newer than 0.1.9. -/
example : migrate parseVersion (some ⟨"core", "0.1.9"⟩) "core" "0.1.10" none = .ok (some ⟨"core", "0.1.10"⟩) ∧
    (migrate parseVersion (some ⟨"core", "0.1.10"⟩) "core" "0.1.9" none).toOption = none := by
  refine ⟨?_, ?_⟩ <;> rfl

/-- **C92 (no two ways).** Of two different version texts exactly one can be migrated to the other without force. -/
theorem C92_one_way (name : String) {x y : String} {a b : Version} (hx : parseVersion x = some a)
    (hy : parseVersion y = some b) (hne : x ≠ y) :
    (migrate parseVersion (some ⟨name, x⟩) name y none = .ok (some ⟨name, y⟩)) ↔
      ¬ (migrate parseVersion (some ⟨name, y⟩) name x none = .ok (some ⟨name, x⟩)) := by
  have key : ∀ {x y : String} {a b : Version}, parseVersion x = some a → parseVersion y = some b →
      ((migrate parseVersion (some ⟨name, x⟩) name y none = .ok (some ⟨name, y⟩)) ↔ cmpVersion a b = .lt) := by
    intro x y a b h1 h2
    rw [C55_unforced_migration parseVersion _ _ _ _ (by simp)]
    constructor
    · rintro ⟨o, a', b', g1, g2, g3, g4, _⟩
      cases g1
      rw [h1] at g2
      rw [h2] at g3
      cases g2
      cases g3
      exact g4
    · intro h
      exact ⟨x, a, b, rfl, h1, h2, h, rfl⟩
  rw [key hx hy, key hy hx]
  have hab : a ≠ b := by
    rintro rfl
    exact hne (C92_parse_injective hx hy)
  have h1 := C55_versions_are_totally_ordered.swap a b
  have h2 := mt (C55_versions_are_totally_ordered.eq_iff a b).1 hab
  rw [← h1]
  revert h2
  cases cmpVersion a b <;> simp

/-- A version with everything, and texts that are no versions. -/
example : parseVersion "1.20.3-alpha.7.x-1+001.b" =
      some ⟨1, 20, 3, [.text "alpha", .num 7, .text "x-1"], [.num 1 3, .text "b"]⟩ ∧
    parseVersion "1.02.3" = none ∧ parseVersion "1.2" = none ∧ parseVersion "1.2.3-01" = none ∧
    parseVersion "1.2.3-" = none ∧ parseVersion "1.2.3-a..b" = none ∧ parseVersion "v1.2.3" = none ∧
    parseVersion "18446744073709551616.0.0" = none := by decide +kernel

/-- `0.1.9` migrates to `0.1.10`, and a pre-release to its release. -/
example : migrate parseVersion (some ⟨"core", "0.1.9"⟩) "core" "0.1.10" none = .ok (some ⟨"core", "0.1.10"⟩) ∧
    migrate parseVersion (some ⟨"core", "0.2.0-rc.10"⟩) "core" "0.2.0" none = .ok (some ⟨"core", "0.2.0"⟩) ∧
    (migrate parseVersion (some ⟨"core", "0.2.0"⟩) "core" "0.2.0-rc.10" none).toOption = none := by
  refine ⟨?_, ?_, ?_⟩ <;> rfl

end Ibcx.Props
