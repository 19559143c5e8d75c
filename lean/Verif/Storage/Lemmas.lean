import Mathlib.Data.List.Induction
import Mathlib.Data.List.Nodup
import Verif.Storage.Raw
import Verif.Iface.PageLemmas
/-!
# Lemmas about the raw storage

Not part of the model.
-/

namespace Ibcx.Storage
open Ibcx Ibcx.Iface Ibcx.Spec

theorem bytesLt_irrefl (a : Bytes) : bytesLt a a = false := by
  induction a with
  | nil => rfl
  | cons x xs ih => simp [bytesLt, ih]

theorem bytesLt_trans {a b c : Bytes} (h1 : bytesLt a b = true) (h2 : bytesLt b c = true) : bytesLt a c = true := by
  induction a generalizing b c with
  | nil =>
    cases b with
    | nil => simp [bytesLt] at h1
    | cons y ys =>
      cases c with
      | nil => simp [bytesLt] at h2
      | cons z zs => rfl
  | cons x xs ih =>
    cases b with
    | nil => simp [bytesLt] at h1
    | cons y ys =>
      cases c with
      | nil => simp [bytesLt] at h2
      | cons z zs =>
        simp only [bytesLt] at h1 h2 ⊢
        split at h1
        · split at h2
          · rw [if_pos (by omega)]
          · split at h2
            · cases h2
            · rw [if_pos (by omega)]
        · split at h1
          · cases h1
          · split at h2
            · rw [if_pos (by omega)]
            · split at h2
              · cases h2
              · rw [if_neg (by omega), if_neg (by omega)]
                exact ih h1 h2

theorem bytesLt_total {a b : Bytes} (h : a ≠ b) : bytesLt a b = true ∨ bytesLt b a = true := by
  induction a generalizing b with
  | nil =>
    cases b with
    | nil => exact absurd rfl h
    | cons y ys => exact .inl rfl
  | cons x xs ih =>
    cases b with
    | nil => exact .inr rfl
    | cons y ys =>
      simp only [bytesLt]
      rcases Nat.lt_trichotomy x y with h1 | h1 | h1
      · left; rw [if_pos h1]
      · subst h1
        simp only [Nat.lt_irrefl, if_false]
        exact ih (by rintro rfl; exact h rfl)
      · right; rw [if_pos h1]

theorem bytesLt_strict : Strict bytesLt where
  irrefl := bytesLt_irrefl
  trans _ _ _ := bytesLt_trans
  total _ _ := bytesLt_total

theorem bytesLt_append (p a b : Bytes) : bytesLt (p ++ a) (p ++ b) = bytesLt a b := by
  induction p with
  | nil => rfl
  | cons x xs ih => simp [bytesLt, ih]

/-- Exclusive lower bounds: one zero byte more. -/
theorem bytesLt_zero (a b : Bytes) : bytesLt b (a ++ [0]) = !bytesLt a b := by
  induction a generalizing b with
  | nil =>
    cases b with
    | nil => rfl
    | cons y ys =>
      cases ys <;> simp [bytesLt]
  | cons x xs ih =>
    cases b with
    | nil => rfl
    | cons y ys =>
      simp only [List.cons_append, bytesLt]
      rcases Nat.lt_trichotomy x y with h1 | h1 | h1
      · rw [if_neg (by omega), if_pos h1, if_pos h1]; rfl
      · subst h1; simp [ih]
      · rw [if_pos h1, if_neg (by omega), if_pos h1]; rfl

/-- A key with the prefix, below everything with the prefix, or above everything with the prefix. -/
theorem prefix_cases (p k : Bytes) : p <+: k ∨ (∀ x, bytesLt k (p ++ x) = true) ∨ (¬ p <+: k ∧ ∀ x, bytesLt (p ++ x) k = true) := by
  induction p generalizing k with
  | nil => exact .inl (List.nil_prefix)
  | cons a as ih =>
    cases k with
    | nil => right; left; intro x; rfl
    | cons b bs =>
      rcases Nat.lt_trichotomy a b with h | h | h
      · right; right
        refine ⟨?_, fun x => by simp [bytesLt, h]⟩
        intro hp
        have := (List.cons_prefix_cons.1 hp).1
        omega
      · subst h
        rcases ih bs with h1 | h1 | ⟨h1, h2⟩
        · exact .inl (List.cons_prefix_cons.2 ⟨rfl, h1⟩)
        · right; left; intro x; simp [bytesLt, h1]
        · right; right
          exact ⟨fun hp => h1 (List.cons_prefix_cons.1 hp).2, fun x => by simp [bytesLt, h2]⟩
      · right; left
        intro x
        simp [bytesLt, h]

/-- Between two keys with a prefix there are only keys with it. -/
theorem prefix_between {p k x y : Bytes} (h1 : bytesLt (p ++ x) k = true) (h2 : bytesLt k (p ++ y) = true) : p <+: k := by
  rcases prefix_cases p k with h | h | ⟨_, h⟩
  · exact h
  · have := bytesLt_trans h1 (h x)
    rw [bytesLt_irrefl] at this
    cases this
  · have := bytesLt_trans h2 (h y)
    rw [bytesLt_irrefl] at this
    cases this

theorem incrRev_spec (n x : Nat) (a : Bytes) (hx : x ≠ 255) :
    incrRev (List.replicate n 255 ++ x :: a) = List.replicate n 0 ++ (x + 1) :: a := by
  induction n with
  | zero => simp [incrRev, hx]
  | succ n ih => simp [List.replicate_succ, incrRev, ih]

theorem increment_spec (a : Bytes) (n x : Nat) (hx : x ≠ 255) :
    increment (a ++ x :: List.replicate n 255) = a ++ (x + 1) :: List.replicate n 0 := by
  simp only [increment, List.reverse_append, List.reverse_cons, List.reverse_replicate, List.append_assoc,
    List.singleton_append]
  rw [incrRev_spec n x _ hx]
  simp

/-- Every byte string that is not all 255 ends with a smaller byte and some 255. -/
theorem tail_split {p : Bytes} {h : Bytes} {c : Nat} {t : Bytes} (hp : p = h ++ c :: t) (hc : c ≠ 255) :
    ∃ a x n, p = a ++ x :: List.replicate n 255 ∧ x ≠ 255 ∧ h <+: a := by
  subst hp
  induction t using List.reverseRecOn with
  | nil => exact ⟨h, c, 0, rfl, hc, List.prefix_rfl⟩
  | append_singleton t b ih =>
    by_cases hb : b = 255
    · subst hb
      obtain ⟨a, x, n, h1, h2, h3⟩ := ih
      refine ⟨a, x, n + 1, ?_, h2, h3⟩
      have : h ++ c :: (t ++ [255]) = (h ++ c :: t) ++ [255] := by simp
      rw [this, h1, List.replicate_succ']
      simp
    · refine ⟨h ++ c :: t, b, 0, by simp, hb, List.prefix_append _ _⟩

theorem all255_prefix {n : Nat} {k : Bytes} (hk : ∀ b ∈ k, b < 256) (h : bytesLt (List.replicate n 255) k = true) :
    List.replicate n 255 <+: k := by
  induction n generalizing k with
  | zero => exact List.nil_prefix
  | succ n ih =>
    cases k with
    | nil => simp [List.replicate_succ, bytesLt] at h
    | cons b bs =>
      have hb := hk b (by simp)
      simp only [List.replicate_succ, bytesLt] at h ⊢
      rw [if_neg (by omega)] at h
      split at h
      · cases h
      · have : b = 255 := by omega
        subst this
        exact List.cons_prefix_cons.2 ⟨rfl, ih (fun x hx => hk x (by simp [hx])) h⟩

theorem below_zeros {n : Nat} {k : Bytes} (h : bytesLt k (List.replicate n 0) = true) : k.length < n := by
  induction n generalizing k with
  | zero => cases k <;> simp [bytesLt] at h
  | succ n ih =>
    cases k with
    | nil => simp
    | cons b bs =>
      simp only [List.replicate_succ, bytesLt] at h
      rw [if_neg (by omega)] at h
      split at h
      · cases h
      · have := ih h
        simp only [List.length_cons]
        omega

/-- The incremented prefix is the end of the keys with the prefix, provided no key is shorter than the prefix and agrees
with it up to a byte below 255. -/
theorem lt_increment {p h t k : Bytes} {c : Nat} (hp : p = h ++ c :: t) (hc : c ≠ 255) (hk : ∀ b ∈ k, b < 256)
    (hlow : bytesLt k p = false) (hlen : t = [] ∨ (h <+: k → p.length ≤ k.length)) :
    bytesLt k (increment p) = true ↔ p <+: k := by
  obtain ⟨a, x, n, e, hx, ha⟩ := tail_split hp hc
  have hinc := increment_spec a n x hx
  rw [← e] at hinc
  constructor
  · intro hlt
    rcases prefix_cases p k with h1 | h1 | ⟨h1, h2⟩
    · exact h1
    · have := h1 []
      rw [List.append_nil, hlow] at this
      cases this
    · exfalso
      rw [hinc] at hlt
      have h3 := h2 []
      rw [List.append_nil, e] at h3
      obtain ⟨k', rfl⟩ := prefix_between h3 hlt
      rw [bytesLt_append] at h3 hlt
      cases k' with
      | nil => simp [bytesLt] at h3
      | cons y ys =>
        simp only [bytesLt] at h3 hlt
        have hbs : ∀ b ∈ ys, b < 256 := fun b hb => hk b (by simp [hb])
        rcases Nat.lt_trichotomy x y with hxy | hxy | hxy
        · -- `y = x + 1`, followed by fewer zeros
          have hy : y = x + 1 := by
            by_contra hne
            rw [if_neg (by omega), if_pos (by omega)] at hlt
            cases hlt
          subst hy
          simp only [Nat.lt_irrefl, if_false] at hlt
          have hl := below_zeros hlt
          rcases hlen with rfl | hlen
          · -- no trailing 255
            have hl1 := congrArg List.length e
            have hl2 := congrArg List.length hp
            simp only [List.length_append, List.length_cons, List.length_replicate, List.length_nil] at hl1 hl2
            have := ha.length_le
            omega
          · have := hlen (ha.trans (List.prefix_append _ _))
            rw [e] at this
            simp only [List.length_append, List.length_cons, List.length_replicate] at this
            omega
        · subst hxy
          simp only [Nat.lt_irrefl, if_false] at h3
          obtain ⟨r, rfl⟩ := all255_prefix hbs h3
          exact h1 (by rw [e]; exact ⟨r, by simp⟩)
        · rw [if_neg (by omega), if_pos hxy] at h3
          cases h3
  · rintro ⟨r, rfl⟩
    rw [hinc, e, List.append_assoc, bytesLt_append]
    simp [bytesLt]

/-! ### Order of the keys -/

private theorem utf8_shape (c : Char) : (utf8Char c ≠ []) ∧ (∀ b ∈ utf8Char c, b < 255) ∧
    ∀ d : Char, c.toNat < d.toNat → ∀ x y, bytesLt (utf8Char c ++ x) (utf8Char d ++ y) = true := by
  have hv : ∀ c : Char, c.toNat < 0x110000 := fun c => by
    have := c.valid
    simp only [UInt32.isValidChar, Nat.isValidChar] at this
    show c.val.toNat < _
    omega
  refine ⟨?_, ?_, ?_⟩
  · unfold utf8Char
    dsimp only
    split
    · simp
    · split
      · simp
      · split <;> simp
  · have := hv c
    intro b hb
    unfold utf8Char at hb
    dsimp only at hb
    split at hb
    · simp only [List.mem_singleton] at hb; omega
    · split at hb
      · simp only [List.mem_cons, List.not_mem_nil, or_false] at hb; omega
      · split at hb
        · simp only [List.mem_cons, List.not_mem_nil, or_false] at hb; omega
        · simp only [List.mem_cons, List.not_mem_nil, or_false] at hb; omega
  · intro d h x y
    have h1 := hv c
    have h2 := hv d
    unfold utf8Char
    dsimp only
    generalize c.toNat = m at *
    generalize d.toNat = n at *
    by_cases a1 : m < 0x80
    · rw [if_pos a1]
      by_cases b1 : n < 0x80
      · rw [if_pos b1]; simp [bytesLt, h]
      · rw [if_neg b1]
        by_cases b2 : n < 0x800
        · rw [if_pos b2]; simp only [List.cons_append, bytesLt]; rw [if_pos (by omega)]
        · rw [if_neg b2]
          by_cases b3 : n < 0x10000
          · rw [if_pos b3]; simp only [List.cons_append, bytesLt]; rw [if_pos (by omega)]
          · rw [if_neg b3]; simp only [List.cons_append, bytesLt]; rw [if_pos (by omega)]
    · rw [if_neg a1, if_neg (show ¬ n < 0x80 by omega)]
      by_cases a2 : m < 0x800
      · rw [if_pos a2]
        by_cases b2 : n < 0x800
        · rw [if_pos b2]
          simp only [List.cons_append, bytesLt]
          by_cases e : m / 64 < n / 64
          · rw [if_pos (by omega)]
          · rw [if_neg (by omega), if_neg (by omega), if_pos (by omega)]
        · rw [if_neg b2]
          by_cases b3 : n < 0x10000
          · rw [if_pos b3]; simp only [List.cons_append, bytesLt]; rw [if_pos (by omega)]
          · rw [if_neg b3]; simp only [List.cons_append, bytesLt]; rw [if_pos (by omega)]
      · rw [if_neg a2, if_neg (show ¬ n < 0x800 by omega)]
        by_cases a3 : m < 0x10000
        · rw [if_pos a3]
          by_cases b3 : n < 0x10000
          · rw [if_pos b3]
            simp only [List.cons_append, bytesLt]
            by_cases e : m / 4096 < n / 4096
            · rw [if_pos (by omega)]
            · rw [if_neg (by omega), if_neg (by omega)]
              by_cases e2 : m / 64 < n / 64
              · rw [if_pos (by omega)]
              · rw [if_neg (by omega), if_neg (by omega), if_pos (by omega)]
          · rw [if_neg b3]; simp only [List.cons_append, bytesLt]; rw [if_pos (by omega)]
        · rw [if_neg a3, if_neg (show ¬ n < 0x10000 by omega)]
          simp only [List.cons_append, bytesLt]
          by_cases e : m / 262144 < n / 262144
          · rw [if_pos (by omega)]
          · rw [if_neg (by omega), if_neg (by omega)]
            by_cases e1 : m / 4096 < n / 4096
            · rw [if_pos (by omega)]
            · rw [if_neg (by omega), if_neg (by omega)]
              by_cases e2 : m / 64 < n / 64
              · rw [if_pos (by omega)]
              · rw [if_neg (by omega), if_neg (by omega), if_pos (by omega)]

theorem textBytes_lt_255 (s : String) : ∀ b ∈ textBytes s, b < 255 := by
  intro b hb
  obtain ⟨c, _, hc⟩ := List.mem_flatMap.1 hb
  exact (utf8_shape c).2.1 b hc

private theorem chars_lt (as bs : List Char) :
    (as < bs → bytesLt (as.flatMap utf8Char) (bs.flatMap utf8Char) = true) := by
  intro h
  induction as generalizing bs with
  | nil =>
    cases bs with
    | nil => exact absurd h (by simp)
    | cons b bs =>
      rw [List.flatMap_cons]
      cases hb : utf8Char b with
      | nil => exact absurd hb (utf8_shape b).1
      | cons x xs => rfl
  | cons a as ih =>
    cases bs with
    | nil => exact absurd h (by simp)
    | cons b bs =>
      rw [List.flatMap_cons, List.flatMap_cons]
      rcases List.cons_lt_cons_iff.1 h with h' | ⟨rfl, h'⟩
      · exact (utf8_shape a).2.2 b h' _ _
      · rw [bytesLt_append]
        exact ih bs h'

/-- The byte order of texts is the order of their code points. -/
theorem textBytes_lt (a b : String) : bytesLt (textBytes a) (textBytes b) = strLt a b := by
  have key : ∀ a b : String, a < b → bytesLt (textBytes a) (textBytes b) = true := fun a b h =>
    chars_lt a.toList b.toList (String.lt_iff_toList_lt.1 h)
  by_cases h : a < b
  · rw [key a b h]
    simp [strLt, h]
  · have hs : strLt a b = false := by simp [strLt, h]
    rw [hs]
    by_cases e : a = b
    · subst e; exact bytesLt_irrefl _
    · have h2 := key b a ((lt_or_gt_of_ne e).resolve_left h)
      cases h3 : bytesLt (textBytes a) (textBytes b) with
      | false => rfl
      | true =>
        have := bytesLt_trans h3 h2
        rw [bytesLt_irrefl] at this
        cases this

theorem textBytes_inj {a b : String} (h : textBytes a = textBytes b) : a = b := by
  by_contra e
  rcases lt_or_gt_of_ne e with h1 | h1
  · have := textBytes_lt a b
    rw [h, bytesLt_irrefl] at this
    simp [strLt, h1] at this
  · have := textBytes_lt b a
    rw [h, bytesLt_irrefl] at this
    simp [strLt, h1] at this

theorem bigEndian_length (k n : Nat) : (bigEndian k n).length = k := by
  induction k generalizing n with
  | zero => rfl
  | succ k ih => simp [bigEndian, ih]

theorem bigEndian_lt_256 (k n : Nat) : ∀ b ∈ bigEndian k n, b < 256 := by
  induction k generalizing n with
  | zero => simp [bigEndian]
  | succ k ih =>
    intro b hb
    simp only [bigEndian, List.mem_cons] at hb
    rcases hb with rfl | hb
    · exact Nat.mod_lt _ (by decide)
    · exact ih _ b hb

/-- The byte order of big-endian numbers is the order of the numbers. -/
theorem bigEndian_lt (k : Nat) {a b : Nat} (ha : a < 256 ^ k) (hb : b < 256 ^ k) :
    bytesLt (bigEndian k a) (bigEndian k b) = natLt a b := by
  induction k generalizing a b with
  | zero =>
    have h1 : a = 0 := by simpa using ha
    have h2 : b = 0 := by simpa using hb
    subst h1 h2
    rfl
  | succ k ih =>
    simp only [bigEndian, bytesLt]
    have hp : 0 < 256 ^ k := Nat.pow_pos (by decide)
    rw [Nat.pow_succ, Nat.mul_comm] at ha hb
    generalize 256 ^ k = P at *
    have a1 : a / P < 256 := Nat.div_lt_of_lt_mul (by rw [Nat.mul_comm]; exact ha)
    have b1 : b / P < 256 := Nat.div_lt_of_lt_mul (by rw [Nat.mul_comm]; exact hb)
    rw [Nat.mod_eq_of_lt a1, Nat.mod_eq_of_lt b1, ih (Nat.mod_lt _ hp) (Nat.mod_lt _ hp)]
    have ea := Nat.div_add_mod a P
    have eb := Nat.div_add_mod b P
    have ma := Nat.mod_lt a hp
    have mb := Nat.mod_lt b hp
    simp only [natLt]
    rcases Nat.lt_trichotomy (a / P) (b / P) with h | h | h
    · have := Nat.mul_le_mul_left P (Nat.succ_le_of_lt h)
      rw [Nat.mul_succ] at this
      rw [if_pos h]
      symm
      exact decide_eq_true (by omega)
    · rw [if_neg (by omega), if_neg (by omega)]
      rw [h] at ea
      exact decide_eq_decide.2 (by omega)
    · have := Nat.mul_le_mul_left P (Nat.succ_le_of_lt h)
      rw [Nat.mul_succ] at this
      rw [if_neg (by omega), if_pos h]
      symm
      exact decide_eq_false (by omega)

theorem u64Bytes_inj {a b : Nat} (ha : a < 2 ^ 64) (hb : b < 2 ^ 64) (h : u64Bytes a = u64Bytes b) : a = b := by
  have e : (2 : Nat) ^ 64 = 256 ^ 8 := by decide
  rw [e] at ha hb
  have h1 := bigEndian_lt 8 ha hb
  have h2 := bigEndian_lt 8 hb ha
  unfold u64Bytes at h
  rw [h, bytesLt_irrefl] at h1 h2
  simp only [natLt, Bool.false_eq, decide_eq_false_iff_not] at h1 h2
  omega

/-! ### Places -/

theorem lenPrefixed_inj {a b x y : Bytes} (ha : a.length ≤ 0xFFFF) (hb : b.length ≤ 0xFFFF)
    (h : lenPrefixed a ++ x = lenPrefixed b ++ y) : a = b ∧ x = y := by
  simp only [lenPrefixed, List.cons_append, List.cons.injEq] at h
  obtain ⟨h1, h2, h3⟩ := h
  exact List.append_inj h3 (by omega)

theorem parts_inj {ps qs : List Bytes} {x y : Bytes} (hl : ps.length = qs.length) (hp : ∀ p ∈ ps, p.length ≤ 0xFFFF)
    (hq : ∀ p ∈ qs, p.length ≤ 0xFFFF) (h : ps.flatMap lenPrefixed ++ x = qs.flatMap lenPrefixed ++ y) :
    ps = qs ∧ x = y := by
  induction ps generalizing qs with
  | nil =>
    cases qs with
    | nil => exact ⟨rfl, by simpa using h⟩
    | cons q qs => simp at hl
  | cons p ps ih =>
    cases qs with
    | nil => simp at hl
    | cons q qs =>
      simp only [List.flatMap_cons, List.append_assoc] at h
      obtain ⟨e1, h1⟩ := lenPrefixed_inj (hp p (by simp)) (hq q (by simp)) h
      obtain ⟨e2, h2⟩ := ih (by simpa using hl) (fun r hr => hp r (by simp [hr])) (fun r hr => hq r (by simp [hr])) h1
      exact ⟨by rw [e1, e2], h2⟩

/-- The places a contract uses: names of items do not begin with a zero byte, namespaces are short and not empty, each
namespace has a fixed number of parts, and the parts fit. -/
def Used (arity : String → Nat) : Slot → Prop
  | .item name => ∃ c r, textBytes name = c :: r ∧ c ≠ 0
  | .entry ns parts last => (textBytes ns).length < 256 ∧ textBytes ns ≠ [] ∧ parts.length = arity ns ∧
      (∀ p ∈ parts, p.length ≤ 0xFFFF ∧ ∀ b ∈ p, b < 256) ∧ ∀ b ∈ last, b < 256

theorem Used.key {arity : String → Nat} {s : Slot} (h : Used arity s) : s.key = .ok s.bytes := by
  cases s with
  | item name => rfl
  | entry ns parts last =>
    obtain ⟨h1, _, _, h4, _⟩ := h
    simp only [Slot.key]
    rw [if_pos ⟨by omega, fun p hp => (h4 p hp).1⟩]

theorem lenPrefixed_lt_256 {p : Bytes} (h1 : p.length ≤ 0xFFFF) (h2 : ∀ b ∈ p, b < 256) : ∀ b ∈ lenPrefixed p, b < 256 := by
  intro b hb
  simp only [lenPrefixed, List.mem_cons] at hb
  rcases hb with rfl | rfl | hb
  · omega
  · omega
  · exact h2 b hb

theorem Used.lt_256 {arity : String → Nat} {s : Slot} (h : Used arity s) : ∀ b ∈ s.bytes, b < 256 := by
  cases s with
  | item name =>
    intro b hb
    have := textBytes_lt_255 name b hb
    omega
  | entry ns parts last =>
    obtain ⟨h1, h2, h3, h4, h5⟩ := h
    intro b hb
    simp only [Slot.bytes, prefixBytes, List.mem_append] at hb
    rcases hb with (hb | hb) | hb
    · refine lenPrefixed_lt_256 (by omega) ?_ b hb
      intro b hb
      have := textBytes_lt_255 ns b hb
      omega
    · obtain ⟨p, hp, hb⟩ := List.mem_flatMap.1 hb
      exact lenPrefixed_lt_256 (h4 p hp).1 (h4 p hp).2 b hb
    · exact h5 b hb

/-- A used place has the prefix of a namespace and parts exactly if it is an entry under them. -/
theorem prefix_iff {arity : String → Nat} {s : Slot} (h : Used arity s) {ns : String} {parts : List Bytes}
    (hns : (textBytes ns).length < 256) (hl : parts.length = arity ns) (hp : ∀ p ∈ parts, p.length ≤ 0xFFFF) (last : Bytes) :
    prefixBytes ns parts ++ last = s.bytes ↔ s = .entry ns parts last := by
  constructor
  · rintro e
    cases s with
    | item name =>
      exfalso
      obtain ⟨c, r, h1, h2⟩ := h
      simp only [Slot.bytes, prefixBytes, lenPrefixed, List.cons_append] at e
      rw [h1] at e
      simp only [List.cons.injEq] at e
      omega
    | entry ns' parts' last' =>
      obtain ⟨h1, h2, h3, h4, h5⟩ := h
      simp only [Slot.bytes, prefixBytes, List.append_assoc] at e
      obtain ⟨e1, e2⟩ := lenPrefixed_inj (by omega) (by omega) e
      have := textBytes_inj e1
      subst this
      obtain ⟨rfl, rfl⟩ := parts_inj (by omega) hp (fun p hp => (h4 p hp).1) e2
      rfl
  · rintro rfl
    rfl

/-- Different used places have different key bytes. -/
theorem bytes_inj {arity : String → Nat} {s t : Slot} (hs : Used arity s) (ht : Used arity t) (h : s.bytes = t.bytes) :
    s = t := by
  cases s with
  | entry ns parts last =>
    obtain ⟨h1, h2, h3, h4, h5⟩ := hs
    exact ((prefix_iff ht h1 h3 (fun p hp => (h4 p hp).1) last).1 h).symm
  | item name =>
    cases t with
    | entry ns parts last =>
      obtain ⟨h1, h2, h3, h4, h5⟩ := ht
      exact (prefix_iff hs h1 h3 (fun p hp => (h4 p hp).1) last).1 h.symm
    | item name' =>
      exact congrArg Slot.item (textBytes_inj h)

/-! ### Iteration -/

/-- What is stored under a namespace and parts. -/
def under {V : Type} (ns : String) (parts : List Bytes) (st : List (Slot × V)) : KV Bytes V :=
  st.filterMap (fun e => match e.1 with
    | .entry ns' parts' last => if ns' = ns ∧ parts' = parts then some (last, e.2) else none
    | .item _ => none)

/-- The stored places as raw storage. -/
def rawOf {V : Type} (st : List (Slot × V)) : Raw V := st.map (fun e => (e.1.bytes, e.2))

/-- The prefix scan meets no foreign keys: the prefix ends with a byte below 255, or no stored place with the namespace
is shorter than the prefix. -/
def Clean {V : Type} (st : List (Slot × V)) (ns : String) (parts : List Bytes) : Prop :=
  (∃ h c, prefixBytes ns parts = h ++ [c] ∧ c ≠ 255) ∨
    ∃ c t, parts.flatMap lenPrefixed = c :: t ∧ c ≠ 255 ∧
      ∀ e ∈ st, lenPrefixed (textBytes ns) <+: e.1.bytes → (prefixBytes ns parts).length ≤ e.1.bytes.length

theorem eq_of_sorted {K V : Type} {lt : K → K → Bool} (hs : Strict lt) {l₁ l₂ : List (K × V)} (hp : l₁.Perm l₂)
    (h1 : l₁.Pairwise (fun a b => lt a.1 b.1 = true)) (h2 : l₂.Pairwise (fun a b => lt a.1 b.1 = true)) : l₁ = l₂ := by
  refine hp.eq_of_pairwise ?_ h1 h2
  intro a b _ _ hab hba
  have := hs.trans _ _ _ hab hba
  rw [hs.irrefl] at this
  cases this

theorem range_scan {V : Type} {arity : String → Nat} {st : List (Slot × V)} (hu : ∀ e ∈ st, Used arity e.1)
    (hn : (st.map (·.1)).Nodup) {ns : String} {parts : List Bytes} (hns : (textBytes ns).length < 256)
    (hl : parts.length = arity ns) (hp : ∀ p ∈ parts, p.length ≤ 0xFFFF) (hc : Clean st ns parts)
    (min max : Option Bytes) (order : RangeOrder) :
    rangeWithPrefix (rawOf st) (prefixBytes ns parts) min max order = range bytesLt (under ns parts st) min max order := by
  -- one place
  have one : ∀ e ∈ st, ((!bytesLt e.1.bytes (startBound (prefixBytes ns parts) min) &&
      bytesLt e.1.bytes (endBound (prefixBytes ns parts) max)) = true ↔
      ∃ last, e.1 = .entry ns parts last ∧ inBounds bytesLt min max last = true) := by
    intro e he
    have hue := hu e he
    simp only [Bool.and_eq_true, Bool.not_eq_true']
    constructor
    · rintro ⟨h1, h2⟩
      have hpre : prefixBytes ns parts <+: e.1.bytes := by
        have hlow : bytesLt e.1.bytes (prefixBytes ns parts) = false := by
          cases hb : bytesLt e.1.bytes (prefixBytes ns parts) with
          | false => rfl
          | true =>
            cases min with
            | none => simp only [startBound] at h1; rw [hb] at h1; cases h1
            | some k =>
              have : bytesLt (prefixBytes ns parts) (prefixBytes ns parts ++ (k ++ [0])) = true := by
                have h := bytesLt_append (prefixBytes ns parts) [] (k ++ [0])
                rw [List.append_nil] at h
                rw [h]
                cases k <;> rfl
              have := bytesLt_trans hb this
              simp only [startBound] at h1
              rw [h1] at this
              cases this
        cases max with
        | some k =>
          simp only [endBound] at h2
          rcases prefix_cases (prefixBytes ns parts) e.1.bytes with h | h | ⟨_, h⟩
          · exact h
          · have := h []
            rw [List.append_nil, hlow] at this
            cases this
          · have := bytesLt_trans (h k) h2
            rw [bytesLt_irrefl] at this
            cases this
        | none =>
          simp only [endBound] at h2
          rcases hc with ⟨h, c, hpc, hcc⟩ | ⟨c, t, hpt, hcc, hlen⟩
          · exact (lt_increment hpc hcc hue.lt_256 hlow (.inl rfl)).1 h2
          · exact (lt_increment (by rw [prefixBytes, hpt]) hcc hue.lt_256 hlow (.inr (hlen e he))).1 h2
      obtain ⟨last, hlast⟩ := hpre
      have hs := (prefix_iff hue hns hl hp last).1 hlast
      refine ⟨last, hs, ?_⟩
      rw [hs] at h1 h2
      simp only [Slot.bytes] at h1 h2
      simp only [inBounds, Bool.and_eq_true]
      constructor
      · cases min with
        | none => rfl
        | some k =>
          simp only [startBound] at h1
          rw [bytesLt_append, bytesLt_zero] at h1
          simpa using h1
      · cases max with
        | none => rfl
        | some k =>
          simp only [endBound] at h2
          rwa [bytesLt_append] at h2
    · rintro ⟨last, hs, hb⟩
      simp only [inBounds, Bool.and_eq_true] at hb
      have hlow : ∀ x, bytesLt (prefixBytes ns parts ++ x) (prefixBytes ns parts) = false := by
        intro x
        have h := bytesLt_append (prefixBytes ns parts) x []
        rw [List.append_nil] at h
        rw [h]
        cases x <;> rfl
      constructor
      · rw [hs]
        simp only [Slot.bytes]
        cases min with
        | none => exact hlow last
        | some k =>
          simp only [startBound]
          have := hb.1
          dsimp only at this
          rw [bytesLt_append, bytesLt_zero, this]
          rfl
      · cases max with
        | some k =>
          rw [hs]
          simp only [Slot.bytes, endBound]
          rw [bytesLt_append]
          exact hb.2
        | none =>
          simp only [endBound]
          have hpre : prefixBytes ns parts <+: e.1.bytes := by rw [hs]; exact List.prefix_append _ _
          have hlow' : bytesLt e.1.bytes (prefixBytes ns parts) = false := by rw [hs]; exact hlow last
          rcases hc with ⟨h, c, hpc, hcc⟩ | ⟨c, t, hpt, hcc, hlen⟩
          · exact (lt_increment hpc hcc hue.lt_256 hlow' (.inl rfl)).2 hpre
          · exact (lt_increment (by rw [prefixBytes, hpt]) hcc hue.lt_256 hlow' (.inr (hlen e he))).2 hpre
  -- all places, unsorted
  have all : ((rawOf st).filter (fun e => !bytesLt e.1 (startBound (prefixBytes ns parts) min) &&
        bytesLt e.1 (endBound (prefixBytes ns parts) max))).map (fun e => (e.1.drop (prefixBytes ns parts).length, e.2)) =
      (under ns parts st).filter (fun e => inBounds bytesLt min max e.1) := by
    clear hn hc hu
    induction st with
    | nil => rfl
    | cons e st ih =>
      have ih' := ih (fun e he => one e (by simp [he]))
      have h1 := one e (by simp)
      simp only [rawOf, List.map_cons, List.filter_cons, under, List.filterMap_cons] at ih' ⊢
      by_cases hm : ∃ last, e.1 = .entry ns parts last
      · obtain ⟨last, hm⟩ := hm
        have hd : ∀ v : V, (((Slot.entry ns parts last).bytes).drop (prefixBytes ns parts).length, v) = (last, v) := by
          intro v
          simp [Slot.bytes]
        rw [hm] at h1 ⊢
        simp only [Slot.entry.injEq, true_and, exists_eq_left'] at h1
        simp only [and_self, if_true, List.filter_cons]
        by_cases hb : inBounds bytesLt min max last = true
        · rw [if_pos (h1.2 hb), if_pos hb, List.map_cons, ih', hd]
        · rw [if_neg (fun h => hb (h1.1 h)), if_neg hb, ih']
      · have h2 : ¬ (!bytesLt e.1.bytes (startBound (prefixBytes ns parts) min) &&
            bytesLt e.1.bytes (endBound (prefixBytes ns parts) max)) = true := fun h => by
          obtain ⟨last, h3, _⟩ := h1.1 h
          exact hm ⟨last, h3⟩
        rw [if_neg h2, ih']
        cases he : e.1 with
        | item name => rfl
        | entry ns' parts' last =>
          have : ¬ (ns' = ns ∧ parts' = parts) := by
            rintro ⟨rfl, rfl⟩
            exact hm ⟨last, he⟩
          simp only [if_neg this]
  -- keys are distinct
  have hraw : ((rawOf st).map (·.1)).Nodup := by
    simp only [rawOf, List.map_map]
    rw [show ((fun x : Bytes × V => x.1) ∘ fun e : Slot × V => (e.1.bytes, e.2)) = (fun e => e.1.bytes) from rfl]
    rw [show (st.map fun e : Slot × V => e.1.bytes) = (st.map (·.1)).map Slot.bytes by simp]
    refine List.Nodup.map_on ?_ hn
    intro a ha b hb hab
    obtain ⟨x, hx, rfl⟩ := List.mem_map.1 ha
    obtain ⟨y, hy, rfl⟩ := List.mem_map.1 hb
    exact bytes_inj (hu x hx) (hu y hy) hab
  have hunder : ((under ns parts st).map (·.1)).Nodup := by
    clear all one hraw hc hu
    induction st with
    | nil => simp [under]
    | cons e st ih =>
      simp only [List.map_cons, List.nodup_cons] at hn
      have ih' := ih hn.2
      simp only [under, List.filterMap_cons] at ih' ⊢
      cases he : e.1 with
      | item name => exact ih'
      | entry ns' parts' last =>
        dsimp only
        by_cases h : ns' = ns ∧ parts' = parts
        · rw [if_pos h]
          simp only [List.map_cons, List.nodup_cons]
          refine ⟨?_, ih'⟩
          intro hmem
          apply hn.1
          obtain ⟨x, hx, hx1⟩ := List.mem_map.1 hmem
          obtain ⟨y, hy, hy1⟩ := List.mem_filterMap.1 hx
          refine List.mem_map.2 ⟨y, hy, ?_⟩
          cases hy2 : y.1 with
          | item name => rw [hy2] at hy1; cases hy1
          | entry ns2 parts2 last2 =>
            rw [hy2] at hy1
            dsimp only at hy1
            split at hy1
            · next h3 =>
              simp only [Option.some.injEq] at hy1
              subst hy1
              dsimp only at hx1
              rw [he, h.1, h.2, h3.1, h3.2, hx1]
            · cases hy1
        · rw [if_neg h]
          exact ih'
  -- the ascending lists agree
  have asc : ((sortKeys bytesLt (rawOf st)).filter (fun e => !bytesLt e.1 (startBound (prefixBytes ns parts) min) &&
        bytesLt e.1 (endBound (prefixBytes ns parts) max))).map (fun e => (e.1.drop (prefixBytes ns parts).length, e.2)) =
      (sortKeys bytesLt (under ns parts st)).filter (fun e => inBounds bytesLt min max e.1) := by
    refine eq_of_sorted bytesLt_strict ?_ ?_ ?_
    · refine (((sortKeys_perm (rawOf st)).filter _).map _).trans ?_
      rw [all]
      exact ((sortKeys_perm (under ns parts st)).filter _).symm
    · rw [List.pairwise_map]
      have hsub := (sortKeys_sorted bytesLt_strict hraw).sublist (List.filter_sublist
        (p := fun e : Bytes × V => !bytesLt e.1 (startBound (prefixBytes ns parts) min) &&
          bytesLt e.1 (endBound (prefixBytes ns parts) max)) (l := sortKeys bytesLt (rawOf st)))
      refine List.Pairwise.imp_of_mem ?_ hsub
      intro a b ha hb hab
      -- both keys have the prefix
      have pre : ∀ x ∈ (sortKeys bytesLt (rawOf st)).filter (fun e =>
          !bytesLt e.1 (startBound (prefixBytes ns parts) min) && bytesLt e.1 (endBound (prefixBytes ns parts) max)),
          ∃ last, x.1 = prefixBytes ns parts ++ last := by
        intro x hx
        obtain ⟨hx1, hx2⟩ := List.mem_filter.1 hx
        obtain ⟨y, hy, rfl⟩ := List.mem_map.1 ((sortKeys_perm _).mem_iff.1 hx1)
        obtain ⟨last, h1, _⟩ := (one y hy).1 hx2
        exact ⟨last, by rw [h1]; rfl⟩
      obtain ⟨la, ea⟩ := pre a ha
      obtain ⟨lb, eb⟩ := pre b hb
      rw [ea, eb, bytesLt_append] at hab
      simpa [ea, eb] using hab
    · exact (sortKeys_sorted bytesLt_strict hunder).sublist List.filter_sublist
  cases order with
  | asc => exact asc
  | desc =>
    simp only [rangeWithPrefix, dbRange, range, List.map_reverse]
    rw [asc]

/-! ### Keys read as texts and numbers -/

theorem range_map {K L V : Type} {ltK : K → K → Bool} {ltL : L → L → Bool} (f : K → L) {m : KV K V}
    (hf : ∀ a ∈ m.map (·.1), ∀ b ∈ m.map (·.1), ltL (f a) (f b) = ltK a b) {min max : Option K}
    (hmin : ∀ k, min = some k → ∀ a ∈ m.map (·.1), ltL (f k) (f a) = ltK k a)
    (hmax : ∀ k, max = some k → ∀ a ∈ m.map (·.1), ltL (f a) (f k) = ltK a k) (order : RangeOrder) :
    range ltL (m.map (fun e => (f e.1, e.2))) (min.map f) (max.map f) order =
      (range ltK m min max order).map (fun e => (f e.1, e.2)) := by
  have ins : ∀ (e : K × V) (es : List (K × V)), (∀ x ∈ es, ltL (f e.1) (f x.1) = ltK e.1 x.1) →
      insertKey ltL (f e.1, e.2) (es.map (fun e => (f e.1, e.2))) = (insertKey ltK e es).map (fun e => (f e.1, e.2)) := by
    intro e es h
    induction es with
    | nil => rfl
    | cons x xs ih =>
      simp only [List.map_cons, insertKey, h x (by simp)]
      split
      · rfl
      · rw [ih (fun y hy => h y (by simp [hy]))]; rfl
  have srt : ∀ es : List (K × V), (∀ a ∈ es.map (·.1), ∀ b ∈ es.map (·.1), ltL (f a) (f b) = ltK a b) →
      sortKeys ltL (es.map (fun e => (f e.1, e.2))) = (sortKeys ltK es).map (fun e => (f e.1, e.2)) := by
    intro es h
    induction es with
    | nil => rfl
    | cons e es ih =>
      simp only [List.map_cons, sortKeys]
      rw [ih (fun a ha b hb => h a (by simp at ha ⊢; exact .inr ha) b (by simp at hb ⊢; exact .inr hb))]
      refine ins e _ ?_
      intro x hx
      refine h e.1 (by simp) x.1 ?_
      have := (sortKeys_perm es).mem_iff.1 hx
      simp only [List.map_cons, List.mem_cons, List.mem_map]
      exact .inr ⟨x, this, rfl⟩
  have asc : (sortKeys ltL (m.map (fun e => (f e.1, e.2)))).filter (fun e => inBounds ltL (min.map f) (max.map f) e.1) =
      ((sortKeys ltK m).filter (fun e => inBounds ltK min max e.1)).map (fun e => (f e.1, e.2)) := by
    rw [srt m hf, List.filter_map]
    congr 1
    refine List.filter_congr ?_
    intro x hx
    have hm : x.1 ∈ m.map (·.1) := List.mem_map.2 ⟨x, (sortKeys_perm m).mem_iff.1 hx, rfl⟩
    simp only [Function.comp, inBounds]
    cases min with
    | none =>
      cases max with
      | none => rfl
      | some b => simp [hmax b rfl x.1 hm]
    | some a =>
      cases max with
      | none => simp [hmin a rfl x.1 hm]
      | some b => simp [hmin a rfl x.1 hm, hmax b rfl x.1 hm]
  cases order with
  | asc => exact asc
  | desc =>
    simp only [range, asc, List.map_reverse]

end Ibcx.Storage
