import Mathlib.Data.String.Basic
import Verif.KVLemmas
import Verif.Spec.Page
/-!
# Lemmas about paged listings

Not part of the model.
-/

namespace Ibcx.Iface
open Ibcx Ibcx.Spec

variable {K V : Type} {lt : K → K → Bool}

theorem strLt_strict : Strict strLt where
  irrefl a := by simp [strLt]
  trans a b c := by simp only [strLt, decide_eq_true_eq]; exact lt_trans
  total a b h := by simp only [strLt, decide_eq_true_eq]; exact lt_or_gt_of_ne h

theorem natLt_strict : Strict natLt where
  irrefl a := by simp [natLt]
  trans a b c := by simp only [natLt, decide_eq_true_eq]; exact lt_trans
  total a b h := by simp only [natLt, decide_eq_true_eq]; omega

theorem insertKey_perm (e : K × V) (es : List (K × V)) : (insertKey lt e es).Perm (e :: es) := by
  induction es with
  | nil => exact List.Perm.refl _
  | cons x xs ih =>
    simp only [insertKey]
    split
    · exact List.Perm.refl _
    · exact (List.Perm.cons x ih).trans (List.Perm.swap e x xs)

theorem sortKeys_perm (es : List (K × V)) : (sortKeys lt es).Perm es := by
  induction es with
  | nil => exact List.Perm.refl _
  | cons e es ih => exact (insertKey_perm e _).trans (List.Perm.cons e ih)

theorem insertKey_sorted (hs : Strict lt) {e : K × V} {es : List (K × V)} (hn : e.1 ∉ es.map (·.1))
    (h : es.Pairwise (fun a b => lt a.1 b.1 = true)) : (insertKey lt e es).Pairwise (fun a b => lt a.1 b.1 = true) := by
  induction es with
  | nil => simp [insertKey]
  | cons x xs ih =>
    simp only [List.map_cons, List.mem_cons, not_or] at hn
    rw [List.pairwise_cons] at h
    simp only [insertKey]
    split
    · rename_i hlt
      rw [List.pairwise_cons]
      refine ⟨?_, List.pairwise_cons.2 h⟩
      intro b hb
      rcases List.mem_cons.1 hb with rfl | hb
      · exact hlt
      · exact hs.trans _ _ _ hlt (h.1 b hb)
    · rename_i hlt
      rw [List.pairwise_cons]
      refine ⟨?_, ih hn.2 h.2⟩
      intro b hb
      rcases List.mem_cons.1 ((insertKey_perm e xs).mem_iff.1 hb) with rfl | hb
      · exact (hs.total _ _ hn.1).resolve_left hlt
      · exact h.1 b hb

theorem sortKeys_sorted (hs : Strict lt) {es : List (K × V)} (hn : (es.map (·.1)).Nodup) :
    (sortKeys lt es).Pairwise (fun a b => lt a.1 b.1 = true) := by
  induction es with
  | nil => simp [sortKeys]
  | cons e es ih =>
    simp only [List.map_cons, List.nodup_cons] at hn
    refine insertKey_sorted hs ?_ (ih hn.2)
    intro h
    exact hn.1 (((sortKeys_perm es).map _).mem_iff.1 h)

/-- All entries in the given order. -/
def listing (lt : K → K → Bool) (m : KV K V) : RangeOrder → List (K × V)
  | .asc => sortKeys lt m
  | .desc => (sortKeys lt m).reverse

theorem listing_perm (m : KV K V) (o : RangeOrder) : (listing lt m o).Perm m := by
  cases o
  · exact sortKeys_perm m
  · exact (List.reverse_perm _).trans (sortKeys_perm m)

theorem listing_sorted (hs : Strict lt) {m : KV K V} (hn : (m.map (·.1)).Nodup) (o : RangeOrder) :
    (listing lt m o).Pairwise (fun a b => before lt o a.1 b.1) := by
  cases o
  · exact sortKeys_sorted hs hn
  · simp only [listing, List.pairwise_reverse]
    exact sortKeys_sorted hs hn

theorem limit_eq_ok {limit : Option Nat} {n : Nat} :
    getAndCheckLimit limit MAX_LIMIT DEFAULT_LIMIT = .ok n ↔ n = limit.getD 10 ∧ n ≤ 30 := by
  cases limit with
  | none => simp [getAndCheckLimit, DEFAULT_LIMIT]; omega
  | some l =>
    have e : MAX_LIMIT = 30 := rfl
    simp only [getAndCheckLimit, Option.getD_some]
    by_cases h : l ≤ MAX_LIMIT
    · rw [if_pos h]; simp only [Except.ok.injEq]; omega
    · rw [if_neg h]; simp; omega

/-- The key comes after the cursor. -/
def after (lt : K → K → Bool) (o : RangeOrder) (start : Option K) (k : K) : Bool :=
  match start with
  | some x => (match o with | .asc => lt x k | .desc => lt k x)
  | none => true

/-- A page is a prefix of the entries after the cursor. -/
theorem page_eq_ok {m : KV K V} {start : Option K} {limit : Option Nat} {order : Option RangeOrder}
    {es : List (K × V)} :
    page lt m start limit order = .ok es ↔ limit.getD 10 ≤ 30 ∧
      es = ((listing lt m (order.getD .asc)).filter (fun e => after lt (order.getD .asc) start e.1)).take (limit.getD 10) := by
  simp only [page, rangeOption, bind_eq_ok, limit_eq_ok]
  constructor
  · rintro ⟨o, ⟨n, ⟨rfl, h1⟩, h2⟩, h3⟩
    refine ⟨h1, ?_⟩
    cases ho : order.getD .asc <;> rw [ho] at h2 <;> simp only [Except.ok.injEq] at h2 h3 <;> subst h2 <;>
      subst h3 <;> cases start <;> simp [range, listing, inBounds, after, List.filter_reverse]
  · rintro ⟨h1, rfl⟩
    cases ho : order.getD .asc
    · refine ⟨_, ⟨_, ⟨rfl, h1⟩, rfl⟩, ?_⟩
      cases start <;> simp [range, listing, inBounds, after]
    · refine ⟨_, ⟨_, ⟨rfl, h1⟩, rfl⟩, ?_⟩
      cases start <;> simp [range, listing, inBounds, after, List.filter_reverse]

/-- The entries after the last entry of a prefix are the rest. -/
theorem filter_after {E : Type} {R : E → E → Prop} {f : E → E → Bool} (hf : ∀ a b, f a b = true ↔ R a b)
    (hi : ∀ a, ¬ R a a) (ht : ∀ a b c, R a b → R b c → R a c) {p q : List E} {e : E}
    (h : (p ++ e :: q).Pairwise R) : (p ++ e :: q).filter (f e) = q := by
  rw [List.pairwise_append, List.pairwise_cons] at h
  obtain ⟨_, ⟨h2, _⟩, h3⟩ := h
  rw [List.filter_append, List.filter_cons]
  have e1 : p.filter (f e) = [] := by
    rw [List.filter_eq_nil_iff]
    intro a ha hx
    exact hi _ (ht _ _ _ ((hf _ _).1 hx) (h3 a ha e (by simp)))
  have e2 : q.filter (f e) = q := by
    rw [List.filter_eq_self]
    intro a ha
    exact (hf _ _).2 (h2 a ha)
  have e3 : ¬ f e e = true := fun hx => hi _ ((hf _ _).1 hx)
  rw [e1, e2, if_neg e3]
  rfl

end Ibcx.Iface
