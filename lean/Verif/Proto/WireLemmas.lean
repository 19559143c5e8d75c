import Verif.Proto.Wire
import Verif.Spec.Proto
import Verif.Json.GrammarLemmas2
import Verif.NumLemmas
/-!
# Protobuf bytes: lemmas

Not part of the model.
-/

namespace Ibcx.Proto
open Ibcx Ibcx.Spec.Proto
open Ibcx.Storage (Bytes textBytes)

/-! ## Numbers -/

theorem spells_prefix {a : Bytes} {n : Nat} (h : Spells a n) : ∀ {a' : Bytes} {n' : Nat} {r r' : Bytes}, Spells a' n' →
    a ++ r = a' ++ r' → a = a' ∧ n = n' ∧ r = r' := by
  induction h with
  | last h1 =>
    intro a' n' r r' h' e
    cases h' with
    | last h2 =>
      simp only [List.cons_append, List.nil_append, List.cons.injEq] at e
      exact ⟨by rw [e.1], e.1, e.2⟩
    | more h2 h3 =>
      simp only [List.cons_append, List.nil_append, List.cons.injEq] at e
      omega
  | more h1 h2 ih =>
    intro a' n' r r' h' e
    cases h' with
    | last h3 =>
      simp only [List.cons_append, List.nil_append, List.cons.injEq] at e
      omega
    | more h3 h4 =>
      simp only [List.cons_append, List.cons.injEq] at e
      obtain ⟨e1, e2, e3⟩ := ih h4 e.2
      refine ⟨by rw [e.1, e1], by omega, e3⟩

theorem number_prefix {a a' r r' : Bytes} {n n' : Nat} (h : Number a n) (h' : Number a' n') (e : a ++ r = a' ++ r') :
    a = a' ∧ n = n' ∧ r = r' := spells_prefix h.1 h'.1 e

theorem varintF_spells : ∀ k n, n ≤ k → Spells (varintF k n) n := by
  intro k
  induction k with
  | zero => intro n h; exact .last (by omega)
  | succ k ih =>
    intro n h
    unfold varintF
    split
    · exact .last ‹_›
    · have := Spells.more (a := n % 128) (by omega) (ih (n / 128) (by omega))
      rwa [show n % 128 + 128 * (n / 128) = n by omega] at this

theorem varintF_length : ∀ j k n, n < 128 ^ (j + 1) → (varintF k n).length ≤ j + 1 := by
  intro j
  induction j with
  | zero =>
    intro k n h
    cases k with
    | zero => simp [varintF]
    | succ k => unfold varintF; rw [if_pos (by simpa using h)]; simp
  | succ j ih =>
    intro k n h
    cases k with
    | zero => simp [varintF]
    | succ k =>
      unfold varintF
      split
      · simp
      · have := ih k (n / 128) (by rw [Nat.div_lt_iff_lt_mul (by norm_num)]; rw [pow_succ] at h; exact h)
        simp only [List.length_cons]
        omega

theorem varint_number {n : Nat} (h : n < 2 ^ 64) : Number (varint n) n :=
  ⟨varintF_spells n n (le_refl _), varintF_length 9 n n (lt_of_lt_of_le h (by norm_num)), h⟩

theorem key_key {tag kind : Nat} (h1 : 1 ≤ tag) (h2 : tag < 2 ^ 29) (h3 : kind < 8) : Key (key tag kind) tag kind :=
  ⟨varint_number (by omega), h1, h2⟩

/-! ## One reading -/

theorem item_kind {kind : Nat} {b : Bytes} {x : Value} (h : Item kind b x) : kind ≤ 5 := by
  cases h <;> omega

theorem item_prefix {kind : Nat} {v v' r r' : Bytes} {x x' : Value} (h : Item kind v x) (h' : Item kind v' x')
    (e : v ++ r = v' ++ r') : v = v' ∧ x = x' ∧ r = r' := by
  cases h with
  | num h1 =>
    cases h' with
    | num h2 =>
      obtain ⟨rfl, rfl, rfl⟩ := number_prefix h1 h2 e
      exact ⟨rfl, rfl, rfl⟩
  | eight h1 =>
    cases h' with
    | eight h2 =>
      obtain ⟨rfl, rfl⟩ := List.append_inj e (h1.trans h2.symm)
      exact ⟨rfl, rfl, rfl⟩
  | block h1 =>
    cases h' with
    | block h2 =>
      rw [List.append_assoc, List.append_assoc] at e
      obtain ⟨rfl, e1, e2⟩ := number_prefix h1 h2 e
      obtain ⟨rfl, rfl⟩ := List.append_inj e2 e1
      exact ⟨rfl, rfl, rfl⟩
  | four h1 =>
    cases h' with
    | four h2 =>
      obtain ⟨rfl, rfl⟩ := List.append_inj e (h1.trans h2.symm)
      exact ⟨rfl, rfl, rfl⟩

theorem spells_ne {b : Bytes} {n : Nat} (h : Spells b n) : b ≠ [] := by cases h <;> simp

theorem fields_unique {b : Bytes} {fs : List (Nat × Value)} (h : Fields b fs) : ∀ {fs'}, Fields b fs' → fs = fs' := by
  induction h with
  | none =>
    intro fs' h'
    generalize hb : ([] : Bytes) = b at h'
    cases h' with
    | none => rfl
    | more h1 h2 h3 =>
      have := spells_ne h1.1.1
      simp_all
  | more h1 h2 h3 ih =>
    rename_i k v r tag kind x fs
    intro fs' h'
    generalize hb : k ++ v ++ r = b at h'
    cases h' with
    | none =>
      have := spells_ne h1.1.1
      simp_all
    | more g1 g2 g3 =>
      rw [List.append_assoc, List.append_assoc] at hb
      obtain ⟨rfl, e, hb⟩ := number_prefix h1.1 g1.1 hb
      have hk1 := item_kind h2
      have hk2 := item_kind g2
      rename_i tag' kind' _ _ _
      obtain rfl : tag = tag' := by omega
      obtain rfl : kind = kind' := by omega
      obtain ⟨rfl, rfl, rfl⟩ := item_prefix h2 g2 hb
      rw [ih g3]

theorem fields_append {a b : Bytes} {fs gs : List (Nat × Value)} (h : Fields a fs) (h' : Fields b gs) :
    Fields (a ++ b) (fs ++ gs) := by
  induction h with
  | none => exact h'
  | more h1 h2 _ ih =>
    have := Fields.more h1 h2 ih
    simpa [List.append_assoc] using this

/-! ## What is written -/

/-- The fields of a text. -/
def textFs (tag : Nat) (s : String) : List (Nat × Value) := if s = "" then [] else [(tag, .block (textBytes s))]

theorem block_fields {tag : Nat} {b : Bytes} (h1 : 1 ≤ tag) (h2 : tag < 2 ^ 29) (h3 : b.length < 2 ^ 64) :
    Fields (block tag b) [(tag, .block b)] := by
  have := Fields.more (key_key h1 h2 (kind := 2) (by norm_num)) (Item.block (varint_number h3)) Fields.none
  rw [List.append_nil] at this
  unfold block
  rwa [List.append_assoc]

theorem block_length {tag : Nat} {b : Bytes} : b.length ≤ (block tag b).length := by
  simp only [block, List.length_append]
  omega

theorem textField_fields {tag : Nat} {s : String} (h1 : 1 ≤ tag) (h2 : tag < 2 ^ 29) (h3 : (textField tag s).length < 2 ^ 64) :
    Fields (textField tag s) (textFs tag s) := by
  unfold textField textFs at *
  split
  · exact .none
  · rename_i h
    rw [if_neg h] at h3
    exact block_fields h1 h2 (lt_of_le_of_lt block_length h3)

/-- The fields of a number. -/
def numFs (tag n : Nat) : List (Nat × Value) := if n = 0 then [] else [(tag, .num n)]

theorem numField_fields {tag n : Nat} (h1 : 1 ≤ tag) (h2 : tag < 2 ^ 29) (h3 : n < 2 ^ 64) :
    Fields (numField tag n) (numFs tag n) := by
  unfold numField numFs
  split
  · exact .none
  · have := Fields.more (key_key h1 h2 (kind := 0) (by norm_num)) (Item.num (varint_number h3)) Fields.none
    rwa [List.append_nil] at this

theorem routes_fields {tag : Nat} (h1 : 1 ≤ tag) (h2 : tag < 2 ^ 29) : ∀ rs : List SwapRoute,
    (routesBytes tag rs).length < 2 ^ 64 → Fields (routesBytes tag rs) (rs.map fun r => (tag, .block (routeBytes r))) := by
  intro rs
  induction rs with
  | nil => intro _; exact .none
  | cons r rs ih =>
    intro h
    simp only [routesBytes, List.flatMap_cons, List.length_append] at h
    have hb : (routeBytes r).length < 2 ^ 64 := lt_of_le_of_lt (block_length (tag := tag)) (by omega)
    exact fields_append (block_fields h1 h2 hb) (ih (by simp only [routesBytes]; omega))

/-! ## What the fields say -/

theorem blocks_append (tag : Nat) (fs gs : List (Nat × Value)) : blocks tag (fs ++ gs) = blocks tag fs ++ blocks tag gs := by
  induction fs with
  | nil => rfl
  | cons f fs ih =>
    obtain ⟨t, x⟩ := f
    cases x with
    | block b => simp only [List.cons_append, blocks, ih]; split <;> rfl
    | num n => simpa only [List.cons_append, blocks] using ih
    | fixed b => simpa only [List.cons_append, blocks] using ih

theorem nums_append (tag : Nat) (fs gs : List (Nat × Value)) : nums tag (fs ++ gs) = nums tag fs ++ nums tag gs := by
  induction fs with
  | nil => rfl
  | cons f fs ih =>
    obtain ⟨t, x⟩ := f
    cases x with
    | num b => simp only [List.cons_append, nums, ih]; split <;> rfl
    | block n => simpa only [List.cons_append, nums] using ih
    | fixed b => simpa only [List.cons_append, nums] using ih

theorem blocks_text (tag t : Nat) (s : String) :
    blocks tag (textFs t s) = if t = tag ∧ s ≠ "" then [textBytes s] else [] := by
  unfold textFs
  by_cases h : s = "" <;> by_cases h' : t = tag <;> simp [h, h', blocks]

theorem blocks_num (tag t n : Nat) : blocks tag (numFs t n) = [] := by
  unfold numFs
  split <;> rfl

theorem nums_text (tag t : Nat) (s : String) : nums tag (textFs t s) = [] := by
  unfold textFs
  split <;> rfl

theorem nums_num (tag t n : Nat) : nums tag (numFs t n) = if t = tag ∧ n ≠ 0 then [n] else [] := by
  unfold numFs
  by_cases h : n = 0 <;> by_cases h' : t = tag <;> simp [h, h', nums]

theorem blocks_cons (tag t : Nat) (b : Bytes) (fs : List (Nat × Value)) :
    blocks tag ((t, .block b) :: fs) = if t = tag then b :: blocks tag fs else blocks tag fs := rfl

theorem blocks_nil (tag : Nat) : blocks tag [] = [] := rfl

theorem nums_block (tag t : Nat) (b : Bytes) : nums tag [(t, .block b)] = [] := rfl

theorem blocks_routes (tag t : Nat) (rs : List SwapRoute) :
    blocks tag (rs.map fun r => (t, .block (routeBytes r))) = if t = tag then rs.map routeBytes else [] := by
  induction rs with
  | nil => simp [blocks]
  | cons r rs ih =>
    simp only [List.map_cons, blocks, ih]
    split <;> rfl

theorem nums_routes (tag t : Nat) (rs : List SwapRoute) : nums tag (rs.map fun r => (t, .block (routeBytes r))) = [] := by
  induction rs with
  | nil => rfl
  | cons r rs ih => simpa only [List.map_cons, nums] using ih

theorem text_nil {s : String} (h : s = "") : textBytes s = [] := by subst h; rfl

theorem field_text (s : String) (l : List Bytes) (h : l = if s ≠ "" then [textBytes s] else []) :
    l.getLast?.getD [] = textBytes s := by
  subst h
  by_cases e : s = ""
  · simp [e, text_nil]
  · simp [e]

/-! ## Reading -/

theorem spells_lt {v : Bytes} {n : Nat} (h : Spells v n) : n < 128 ^ v.length := by
  induction h with
  | last h => simpa using h
  | more h1 _ ih =>
    rw [List.length_cons, pow_succ]
    omega

theorem readVarintF_iff : ∀ (k : Nat) {b : Bytes}, (∀ x ∈ b, x < 256) → ∀ {n : Nat} {r : Bytes},
    readVarintF (k + 1) b = some (n, r) ↔ ∃ v, Spells v n ∧ v.length ≤ k + 1 ∧ n < 2 * 128 ^ k ∧ b = v ++ r := by
  intro k
  induction k with
  | zero =>
    intro b hb n r
    cases b with
    | nil =>
      simp only [readVarintF, reduceCtorEq, false_iff]
      rintro ⟨v, h, _, _, e⟩
      exact spells_ne h (List.append_eq_nil_iff.1 e.symm).1
    | cons a b =>
      simp only [readVarintF]
      constructor
      · intro h
        split at h
        · split at h
          · cases h
          · cases h
            exact ⟨_, .last ‹_›, by simp, by simp at *; omega, rfl⟩
        · cases h
      · rintro ⟨v, h, h1, h2, e⟩
        cases h with
        | last h =>
          cases e
          rw [if_pos h, if_neg (by simp at h2; omega)]
          rfl
        | more h3 h4 =>
          have := spells_ne h4
          simp at h1
          exact absurd h1 this
  | succ k ih =>
    intro b hb n r
    cases b with
    | nil =>
      simp only [readVarintF, reduceCtorEq, false_iff]
      rintro ⟨v, h, _, _, e⟩
      exact spells_ne h (List.append_eq_nil_iff.1 e.symm).1
    | cons a b =>
      rw [readVarintF]
      have ha := hb a (by simp)
      have hb' : ∀ x ∈ b, x < 256 := fun x hx => hb x (by simp [hx])
      have hp : 1 ≤ 128 ^ k := Nat.one_le_pow _ _ (by norm_num)
      constructor
      · intro h
        split at h
        · rw [if_neg (by omega)] at h
          cases h
          exact ⟨_, .last ‹_›, by simp, by rw [pow_succ]; omega, rfl⟩
        · cases hx : readVarintF (k + 1) b with
          | none => rw [hx] at h; cases h
          | some o =>
            obtain ⟨m, r'⟩ := o
            rw [hx] at h
            cases h
            obtain ⟨v, h1, h2, h3, rfl⟩ := (ih hb').1 hx
            refine ⟨a :: v, ?_, by simpa using h2, by rw [pow_succ]; omega, rfl⟩
            have := Spells.more (a := a - 128) (by omega) h1
            rwa [show a - 128 + 128 = a by omega] at this
      · rintro ⟨v, h, h1, h2, e⟩
        cases h with
        | last h =>
          cases e
          rw [if_pos h, if_neg (by omega)]
          rfl
        | more h3 h4 =>
          rename_i a' m v
          simp only [List.cons_append, List.cons.injEq] at e
          obtain ⟨rfl, rfl⟩ := e
          rw [if_neg (by omega)]
          have := (ih hb').2 ⟨v, h4, by simpa using h1, by rw [pow_succ] at h2; omega, rfl⟩
          rw [this]
          simp

theorem readVarint_iff {b : Bytes} (hb : ∀ x ∈ b, x < 256) {n : Nat} {r : Bytes} :
    readVarint b = some (n, r) ↔ ∃ v, Number v n ∧ b = v ++ r := by
  unfold readVarint
  rw [readVarintF_iff 9 hb]
  constructor
  · rintro ⟨v, h1, h2, h3, h4⟩
    exact ⟨v, ⟨h1, h2, lt_of_lt_of_le h3 (by norm_num)⟩, h4⟩
  · rintro ⟨v, ⟨h1, h2, h3⟩, h4⟩
    exact ⟨v, h1, h2, lt_of_lt_of_le h3 (by norm_num), h4⟩

theorem take_iff {n : Nat} {b t r : Bytes} : take n b = some (t, r) ↔ t.length = n ∧ b = t ++ r := by
  unfold take
  split
  · rename_i h
    simp only [Option.some.injEq, Prod.mk.injEq]
    constructor
    · rintro ⟨rfl, rfl⟩
      exact ⟨by simpa using h, (List.take_append_drop n b).symm⟩
    · rintro ⟨rfl, rfl⟩
      simp
  · rename_i h
    simp only [reduceCtorEq, false_iff]
    rintro ⟨rfl, rfl⟩
    simp at h

theorem readKey_iff {b : Bytes} (hb : ∀ x ∈ b, x < 256) {tag kind : Nat} {r : Bytes} :
    readKey b = some ((tag, kind), r) ↔ ∃ v, Key v tag kind ∧ kind ≤ 5 ∧ b = v ++ r := by
  unfold readKey
  constructor
  · intro h
    cases hx : readVarint b with
    | none => rw [hx] at h; cases h
    | some o =>
      obtain ⟨k, r'⟩ := o
      rw [hx] at h
      simp only [Option.bind_eq_bind, Option.bind_some] at h
      split at h
      · rename_i hk
        cases h
        obtain ⟨v, h1, h2⟩ := (readVarint_iff hb).1 hx
        refine ⟨v, ⟨?_, hk.2.2, by omega⟩, hk.2.1, h2⟩
        rwa [show k / 8 * 8 + k % 8 = k by omega]
      · cases h
  · rintro ⟨v, ⟨h1, h2, h3⟩, h4, e⟩
    rw [(readVarint_iff hb).2 ⟨v, h1, e⟩]
    simp only [Option.bind_eq_bind, Option.bind_some]
    rw [if_pos ⟨by omega, by omega, by omega⟩, show (tag * 8 + kind) / 8 = tag by omega, show (tag * 8 + kind) % 8 = kind by omega]

theorem skip_iff {kind : Nat} {b : Bytes} (hb : ∀ x ∈ b, x < 256) {r : Bytes} :
    skip kind b = some r ↔ ∃ v x, Item kind v x ∧ b = v ++ r := by
  unfold skip
  constructor
  · intro h
    split at h
    · rename_i hk
      subst hk
      cases hx : readVarint b with
      | none => rw [hx] at h; cases h
      | some o =>
        rw [hx] at h
        cases h
        obtain ⟨v, h1, h2⟩ := (readVarint_iff hb).1 hx
        exact ⟨v, _, .num h1, h2⟩
    split at h
    · rename_i hk
      subst hk
      cases hx : take 8 b with
      | none => rw [hx] at h; cases h
      | some o =>
        rw [hx] at h
        cases h
        obtain ⟨h1, h2⟩ := take_iff.1 hx
        exact ⟨_, _, .eight h1, h2⟩
    split at h
    · rename_i hk
      subst hk
      cases hx : readVarint b with
      | none => rw [hx] at h; cases h
      | some o =>
        obtain ⟨n, r'⟩ := o
        rw [hx] at h
        simp only [Option.bind_eq_bind, Option.bind_some] at h
        cases hy : take n r' with
        | none => rw [hy] at h; cases h
        | some o =>
          obtain ⟨t, r''⟩ := o
          rw [hy] at h
          cases h
          obtain ⟨v, h1, rfl⟩ := (readVarint_iff hb).1 hx
          obtain ⟨rfl, rfl⟩ := take_iff.1 hy
          exact ⟨v ++ t, _, .block h1, by simp⟩
    split at h
    · rename_i hk
      subst hk
      cases hx : take 4 b with
      | none => rw [hx] at h; cases h
      | some o =>
        rw [hx] at h
        cases h
        obtain ⟨h1, h2⟩ := take_iff.1 hx
        exact ⟨_, _, .four h1, h2⟩
    · cases h
  · rintro ⟨v, x, h, rfl⟩
    cases h with
    | num h => rw [if_pos rfl, (readVarint_iff hb).2 ⟨v, h, rfl⟩]; rfl
    | eight h => rw [if_neg (by norm_num), if_pos rfl, take_iff.2 ⟨h, rfl⟩]; rfl
    | block h =>
      rename_i l t
      rw [if_neg (by norm_num), if_neg (by norm_num), if_pos rfl, (readVarint_iff hb).2 ⟨l, h, by rw [List.append_assoc]⟩]
      simp only [Option.bind_eq_bind, Option.bind_some]
      rw [take_iff.2 ⟨rfl, rfl⟩]
      rfl
    | four h => rw [if_neg (by norm_num), if_neg (by norm_num), if_neg (by norm_num), if_pos rfl, take_iff.2 ⟨h, rfl⟩]; rfl

theorem utf8_iff {t : Bytes} {cs : List Char} : Json.fromUtf8 t = some cs ↔ t = textBytes (String.ofList cs) := by
  rw [textBytes, String.toList_ofList]
  constructor
  · exact Json.fromUtf8_sound t cs
  · rintro rfl
    exact Json.fromUtf8_text cs

theorem key_length {b : Bytes} {tag kind : Nat} (h : Key b tag kind) : 1 ≤ b.length :=
  List.length_pos_of_ne_nil (spells_ne h.1.1)

theorem item_kind_le {kind : Nat} {v : Bytes} {x : Value} (h : Item kind v x) : kind ≤ 5 := by cases h <;> omega

theorem last_cons (a : Bytes) (l : List Bytes) (d : Bytes) : (a :: l).getLast?.getD d = l.getLast?.getD a := by
  rw [List.getLast?_cons]
  rfl

theorem blocks_other {tag t : Nat} {x : Value} {fs : List (Nat × Value)} (h : t ≠ tag) : blocks tag ((t, x) :: fs) = blocks tag fs := by
  cases x <;> simp [blocks, h]

theorem readDenomF_iff : ∀ (k : Nat) {b : Bytes}, (∀ x ∈ b, x < 256) → b.length ≤ k → ∀ {d d' : String},
    readDenomF k b d = some d' ↔ ∃ fs, Fields b fs ∧ (∀ x, (1, x) ∈ fs → ∃ t, x = .block (textBytes t)) ∧
      (blocks 1 fs).getLast?.getD (textBytes d) = textBytes d' := by
  intro k
  induction k with
  | zero =>
    intro b hb hl d d'
    have : b = [] := by simpa using hl
    subst this
    rw [readDenomF]
    constructor
    · intro h
      cases h
      exact ⟨[], .none, by simp, rfl⟩
    · rintro ⟨fs, h1, _, h3⟩
      cases fields_unique h1 .none
      rw [Storage.textBytes_inj h3]
  | succ k ih =>
    intro b hb hl d d'
    cases hbe : b with
    | nil =>
      rw [readDenomF]
      constructor
      · intro h
        cases h
        exact ⟨[], .none, by simp, rfl⟩
      · rintro ⟨fs, h1, _, h3⟩
        cases fields_unique h1 .none
        rw [Storage.textBytes_inj h3]
    | cons a r =>
      rw [readDenomF, ← hbe]; swap
      · simp
      constructor
      · intro h
        cases hx : readKey b with
        | none => rw [hx] at h; cases h
        | some o =>
          obtain ⟨⟨tag, kind⟩, r⟩ := o
          rw [hx] at h
          simp only [Option.bind_eq_bind, Option.bind_some] at h
          obtain ⟨v, h1, h2, rfl⟩ := (readKey_iff hb).1 hx
          have hr : ∀ x ∈ r, x < 256 := fun x hx => hb x (by simp [hx])
          have hv := key_length h1
          rw [List.length_append] at hl
          split at h
          · rename_i ht
            subst ht
            split at h
            · rename_i hk
              subst hk
              cases hy : readVarint r with
              | none => rw [hy] at h; cases h
              | some o =>
                obtain ⟨n, r'⟩ := o
                rw [hy] at h
                simp only [Option.bind_some] at h
                obtain ⟨l, h3, rfl⟩ := (readVarint_iff hr).1 hy
                cases hz : take n r' with
                | none => rw [hz] at h; cases h
                | some o =>
                  obtain ⟨t, r''⟩ := o
                  rw [hz] at h
                  simp only [Option.bind_some] at h
                  obtain ⟨rfl, rfl⟩ := take_iff.1 hz
                  cases hu : Json.fromUtf8 t with
                  | none => rw [hu] at h; cases h
                  | some cs =>
                    rw [hu] at h
                    simp only [Option.bind_some] at h
                    obtain ⟨fs, h4, h5, h6⟩ := (ih (fun x hx => hr x (by simp [hx]))
                      (by simp only [List.length_append] at hl; omega)).1 h
                    refine ⟨_, by simpa using Fields.more h1 (.block h3) h4, ?_, ?_⟩
                    · intro x hx
                      rcases List.mem_cons.1 hx with e | e
                      · cases e
                        exact ⟨_, by rw [utf8_iff.1 hu]⟩
                      · exact h5 x e
                    · rw [blocks_cons, if_pos rfl, last_cons, ← h6, utf8_iff.1 hu]
            · cases h
          · rename_i ht
            cases hy : skip kind r with
            | none => rw [hy] at h; cases h
            | some r' =>
              rw [hy] at h
              simp only [Option.bind_some] at h
              obtain ⟨w, x, h3, rfl⟩ := (skip_iff hr).1 hy
              obtain ⟨fs, h4, h5, h6⟩ := (ih (fun x hx => hr x (by simp [hx]))
                (by simp only [List.length_append] at hl; omega)).1 h
              refine ⟨_, by simpa using Fields.more h1 h3 h4, ?_, ?_⟩
              · intro x hx
                rcases List.mem_cons.1 hx with e | e
                · exact absurd (congrArg Prod.fst e).symm ht
                · exact h5 x e
              · rw [blocks_other ht, h6]
      · rintro ⟨fs, h1, h2, h3⟩
        cases h1 with
        | none => cases hbe
        | more h4 h5 h6 =>
          rename_i kb v r' tag kind x fs
          have hv := key_length h4
          simp only [List.length_append] at hl
          rw [(readKey_iff hb).2 ⟨kb, h4, item_kind_le h5, by rw [List.append_assoc]⟩]
          have hr : ∀ x ∈ v ++ r', x < 256 := fun x hx => hb x (by simp at hx ⊢; tauto)
          have ih' := @ih r' (fun x hx => hr x (by simp [hx])) (by omega)
          simp only [Option.bind_eq_bind, Option.bind_some]
          by_cases ht : tag = 1
          · subst ht
            obtain ⟨t, rfl⟩ := h2 x (by simp)
            rw [if_pos rfl]
            cases h5 with
            | block h5 =>
              rename_i l
              rw [if_pos rfl, (readVarint_iff hr).2 ⟨l, h5, by rw [List.append_assoc]⟩]
              simp only [Option.bind_some]
              rw [take_iff.2 ⟨rfl, rfl⟩]
              simp only [Option.bind_some]
              rw [utf8_iff (cs := t.toList).2 (by rw [String.ofList_toList])]
              simp only [Option.bind_some]
              refine ih'.2 ⟨fs, h6, fun x hx => h2 x (by simp [hx]), ?_⟩
              rw [blocks_cons, if_pos rfl, last_cons] at h3
              rwa [String.ofList_toList]
          · rw [if_neg ht, (skip_iff hr).2 ⟨v, x, h5, rfl⟩]
            simp only [Option.bind_some]
            refine ih'.2 ⟨fs, h6, fun x hx => h2 x (by simp [hx]), ?_⟩
            rwa [blocks_other ht] at h3

theorem readDenom_iff {b : Bytes} (hb : ∀ x ∈ b, x < 256) {d : String} : readDenom b = some d ↔ Created b d :=
  readDenomF_iff _ hb le_rfl

end Ibcx.Proto
