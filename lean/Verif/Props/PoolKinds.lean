import Verif.Pool.Decode
import Verif.NumLemmas
/-!
# C67: pools are told apart by the beginning of their JSON text

The code compares base64 texts.  The statements below speak about the bytes of the answer.
-/

namespace Ibcx.Spec

/-- The bytes of an ASCII text. -/
def ascii (s : String) : List Nat := s.toList.map Char.toNat

/-- A list of bytes. -/
def Bytes (v : List Nat) : Prop := ∀ b ∈ v, b < 256

/-- The beginning of the JSON text of a weighted pool, with the closing quote of its type. -/
def weightedText : String := "{\"pool\":{\"@type\":\"/osmosis.gamm.v1beta1.Pool\""

/-- The beginning of the JSON text of a stable pool, without the closing quote of its type. -/
def stableText : String := "{\"pool\":{\"@type\":\"/osmosis.gamm.poolmodels.stableswap.v1beta1.Pool"

/-- The beginning of the JSON text of a concentrated liquidity pool, without the last letter of its type. -/
def concentratedText : String := "{\"pool\":{\"@type\":\"/osmosis.concentratedliquidity.v1beta1.Poo"

end Ibcx.Spec

namespace Ibcx.Props
open Ibcx Ibcx.Pool Ibcx.Spec

private theorem base64Char_inj : ∀ m n : Fin 64, base64Char m = base64Char n → m = n := by decide +kernel

private theorem base64Char_pad : ∀ m : Fin 64, base64Char m ≠ '=' := by decide +kernel

private theorem char_eq {m n : Nat} (hm : m < 64) (hn : n < 64) : base64Char m = base64Char n ↔ m = n := by
  constructor
  · intro h
    have := base64Char_inj ⟨m, hm⟩ ⟨n, hn⟩ h
    simpa using this
  · intro h; rw [h]

private theorem char_ne_pad {m : Nat} (hm : m < 64) : base64Char m ≠ '=' := base64Char_pad ⟨m, hm⟩

/-- Whole groups of three bytes can be compared in base64 and then dropped. -/
private theorem prefix_groups (q : List Char) : ∀ (p v : List Nat), p.length % 3 = 0 → Bytes p → Bytes v →
    ((toBase64 p ++ q).isPrefixOf (toBase64 v) = true ↔ ∃ w, v = p ++ w ∧ q.isPrefixOf (toBase64 w) = true)
  | [], v, _, _, _ => by simp [toBase64]
  | [_], _, h, _, _ => by simp at h
  | [_, _], _, h, _, _ => by simp at h
  | a :: b :: c :: p, v, h, hp, hv => by
    have hlen : p.length % 3 = 0 := by simp at h; omega
    have hp' : Bytes p := fun x hx => hp x (by simp [hx])
    have ha := hp a (by simp)
    have hb := hp b (by simp)
    have hc := hp c (by simp)
    match v, hv with
    | [], _ => simp [toBase64]
    | [x], hv =>
      have hx := hv x (by simp)
      have h1 : base64Char (b % 16 * 4 + c / 64) ≠ '=' := char_ne_pad (by omega)
      simp [toBase64, List.isPrefixOf, h1]
    | [x, y], hv =>
      have h1 : base64Char (c % 64) ≠ '=' := char_ne_pad (by omega)
      simp [toBase64, List.isPrefixOf, h1]
    | x :: y :: z :: v, hv =>
      have hx := hv x (by simp)
      have hy := hv y (by simp)
      have hz := hv z (by simp)
      have hv' : Bytes v := fun u hu => hv u (by simp [hu])
      have ih := prefix_groups q p v hlen hp' hv'
      simp only [toBase64, List.cons_append, List.isPrefixOf, Bool.and_eq_true, beq_iff_eq, ih, List.cons.injEq]
      rw [char_eq (by omega) (by omega), char_eq (by omega) (by omega), char_eq (by omega) (by omega),
        char_eq (by omega) (by omega)]
      constructor
      · rintro ⟨h1, h2, h3, h4, w, rfl, hw⟩
        exact ⟨w, ⟨by omega, by omega, by omega, rfl⟩, hw⟩
      · rintro ⟨w, ⟨rfl, rfl, rfl, rfl⟩, hw⟩
        exact ⟨rfl, rfl, rfl, rfl, w, rfl, hw⟩

private theorem weighted_const : POOL_WEIGHTED.toList = toBase64 (ascii weightedText) ++ [] := by decide +kernel
private theorem stable_const : POOL_STABLE.toList = toBase64 (ascii stableText) ++ ['I'] := by decide +kernel
private theorem concentrated_const : POOL_CONCENTRATED.toList = toBase64 (ascii concentratedText) ++ [] := by
  decide +kernel

private theorem texts_bytes : (∀ b ∈ ascii weightedText, b < 256) ∧ (∀ b ∈ ascii stableText, b < 256) ∧
    (∀ b ∈ ascii concentratedText, b < 256) := by decide +kernel

private theorem texts_len : (ascii weightedText).length % 3 = 0 ∧ (ascii stableText).length % 3 = 0 ∧
    (ascii concentratedText).length % 3 = 0 := by decide +kernel

private theorem weighted_prefix {v : List Nat} (hv : Bytes v) :
    POOL_WEIGHTED.toList.isPrefixOf (toBase64 v) = true ↔ ascii weightedText <+: v := by
  rw [weighted_const, prefix_groups _ _ _ texts_len.1 texts_bytes.1 hv]
  simp [List.IsPrefix, eq_comm]

private theorem concentrated_prefix {v : List Nat} (hv : Bytes v) :
    POOL_CONCENTRATED.toList.isPrefixOf (toBase64 v) = true ↔ ascii concentratedText <+: v := by
  rw [concentrated_const, prefix_groups _ _ _ texts_len.2.2 texts_bytes.2.2 hv]
  simp [List.IsPrefix, eq_comm]

private theorem quarter_char : ∀ a : Fin 256, ('I' == base64Char (a / 4)) = decide (32 ≤ a.val ∧ a.val ≤ 35) := by
  decide +kernel

private theorem first_char {w : List Nat} (hw : Bytes w) :
    ['I'].isPrefixOf (toBase64 w) = true ↔ ∃ c r, w = c :: r ∧ 32 ≤ c ∧ c ≤ 35 := by
  have key : ∀ a, a < 256 → ('I' == base64Char (a / 4)) = decide (32 ≤ a ∧ a ≤ 35) := fun a h =>
    quarter_char ⟨a, h⟩
  match w, hw with
  | [], _ => simp [toBase64]
  | [a], hw =>
    have := key a (hw a (by simp))
    simp only [toBase64, List.isPrefixOf, this]
    simp
  | [a, b], hw =>
    have := key a (hw a (by simp))
    simp only [toBase64, List.isPrefixOf, this]
    simp
  | a :: b :: c :: w, hw =>
    have := key a (hw a (by simp))
    simp only [toBase64, List.isPrefixOf, this]
    simp

private theorem stable_prefix {v : List Nat} (hv : Bytes v) :
    POOL_STABLE.toList.isPrefixOf (toBase64 v) = true ↔
      ∃ c r, v = ascii stableText ++ c :: r ∧ 32 ≤ c ∧ c ≤ 35 := by
  rw [stable_const, prefix_groups _ _ _ texts_len.2.1 texts_bytes.2.1 hv]
  constructor
  · rintro ⟨w, rfl, hw⟩
    have hb : Bytes w := fun x hx => hv x (by simp [hx])
    obtain ⟨c, r, rfl, h⟩ := (first_char hb).1 hw
    exact ⟨c, r, rfl, h⟩
  · rintro ⟨c, r, rfl, h⟩
    have hb : Bytes (c :: r) := fun x hx => hv x (by simp only [List.mem_append]; exact .inr hx)
    exact ⟨c :: r, rfl, (first_char hb).2 ⟨c, r, rfl, h⟩⟩

private theorem prefix_clash {p q v : List Nat} (n : Nat) (h1 : p <+: v) (h2 : q <+: v)
    (hp : n < p.length) (hq : n < q.length) : p[n]? = q[n]? := by
  obtain ⟨a, rfl⟩ := h1
  obtain ⟨b, hb⟩ := h2
  rw [← List.getElem?_append_left (l₂ := a) hp, ← hb, List.getElem?_append_left hq]

/-- An answer of the chain is read as a weighted pool exactly when it begins with the text of one; as a stable pool
exactly when it begins with the text of one and the next byte is one of the four from the space to the number sign,
among which is the closing quote; as a concentrated pool exactly when it begins with the text of one; and is dropped
otherwise. -/
theorem C67_pool_kind (v : List Nat) (hv : Bytes v) :
    (poolType v = some .weighted ↔ ascii weightedText <+: v) ∧
    (poolType v = some .stable ↔ ∃ c r, v = ascii stableText ++ c :: r ∧ 32 ≤ c ∧ c ≤ 35) ∧
    (poolType v = some .concentrated ↔ ascii concentratedText <+: v) := by
  have hw := weighted_prefix hv
  have hs := stable_prefix hv
  have hc := concentrated_prefix hv
  have w_s : ascii weightedText <+: v → ¬ ascii stableText <+: v := fun h1 h2 => by
    have := prefix_clash 32 h1 h2 (by decide +kernel) (by decide +kernel)
    revert this; decide +kernel
  have w_c : ascii weightedText <+: v → ¬ ascii concentratedText <+: v := fun h1 h2 => by
    have := prefix_clash 27 h1 h2 (by decide +kernel) (by decide +kernel)
    revert this; decide +kernel
  have s_c : ascii stableText <+: v → ¬ ascii concentratedText <+: v := fun h1 h2 => by
    have := prefix_clash 27 h1 h2 (by decide +kernel) (by decide +kernel)
    revert this; decide +kernel
  have st : (∃ c r, v = ascii stableText ++ c :: r ∧ 32 ≤ c ∧ c ≤ 35) → ascii stableText <+: v := by
    rintro ⟨c, r, rfl, -⟩; exact List.prefix_append _ _
  have unf : poolType v = if POOL_WEIGHTED.toList.isPrefixOf (toBase64 v) then some .weighted
    else if POOL_STABLE.toList.isPrefixOf (toBase64 v) then some .stable
    else if POOL_CONCENTRATED.toList.isPrefixOf (toBase64 v) then some .concentrated else none := rfl
  rw [unf]
  by_cases h1 : ascii weightedText <+: v
  · have h2 := mt st (w_s h1)
    have h3 := w_c h1
    simp only [hw.2 h1, h1, h3]
    exact ⟨by simp, ⟨by simp, fun h => absurd h h2⟩, by simp⟩
  · have e1 := Bool.eq_false_iff.2 (mt hw.1 h1)
    by_cases h2 : ∃ c r, v = ascii stableText ++ c :: r ∧ 32 ≤ c ∧ c ≤ 35
    · have h3 := s_c (st h2)
      simp only [e1, hs.2 h2, h1, h3]
      exact ⟨by simp, ⟨fun _ => h2, by simp⟩, by simp⟩
    · have e2 := Bool.eq_false_iff.2 (mt hs.1 h2)
      by_cases h3 : ascii concentratedText <+: v
      · simp only [e1, e2, hc.2 h3, h1, h3]
        exact ⟨by simp, ⟨by simp, fun h => absurd h h2⟩, by simp⟩
      · have e3 := Bool.eq_false_iff.2 (mt hc.1 h3)
        simp only [e1, e2, e3, h1, h3]
        exact ⟨by simp, ⟨by simp, fun h => absurd h h2⟩, by simp⟩

/-- Three answers of the three kinds, and one of a fourth kind. -/
example : poolType (ascii (weightedText ++ ",\"id\":\"1\"}}")) = some .weighted ∧
    poolType (ascii (stableText ++ "\",\"id\":\"1\"}}")) = some .stable ∧
    poolType (ascii (concentratedText ++ "l\",\"id\":\"1\"}}")) = some .concentrated ∧
    poolType (ascii "{\"pool\":{\"@type\":\"/osmosis.cosmwasmpool.v1beta1.CosmWasmPool\"}}") = none := by
  decide +kernel

/-- The pools handed to the simulator: an answer for every id is needed, each is decoded as its kind, and the answers
of an unknown kind are left out without an error. -/
theorem C67_unknown_pools_are_dropped (raw : Nat → Res (List Nat)) (utf8 : List Nat → Bool)
    (parse : PoolType → List Nat → Res Pool) (ids : List Nat) (ps : List Pool) :
    queryRawPools raw utf8 parse ids = .ok ps ↔
      ∃ answers : List (List Nat), List.Forall₂ (fun n v => raw n = .ok v) ids answers ∧
        ∃ found : List (Option Pool),
          List.Forall₂ (fun v o => (poolType v = none ∧ o = none) ∨
            ∃ k p, poolType v = some k ∧ utf8 v = true ∧ parse k v = .ok p ∧ o = some p) answers found ∧
          ps = found.filterMap id := by
  have dec : ∀ v o, decodePool utf8 parse v = .ok o ↔ (poolType v = none ∧ o = none) ∨
      ∃ k p, poolType v = some k ∧ utf8 v = true ∧ parse k v = .ok p ∧ o = some p := by
    intro v o
    unfold decodePool
    cases h : poolType v with
    | none =>
      constructor
      · intro e; cases e; exact .inl ⟨rfl, rfl⟩
      · rintro (⟨-, rfl⟩ | ⟨k, p, hk, -⟩)
        · rfl
        · cases hk
    | some k =>
      simp only [bind_eq_ok, require_eq_ok]
      constructor
      · rintro ⟨_, hu, p, hp, ho⟩
        exact .inr ⟨k, p, rfl, hu, hp, by simpa [eq_comm] using ho⟩
      · rintro (⟨h, -⟩ | ⟨k', p, hk, hu, hp, rfl⟩)
        · cases h
        · cases hk
          exact ⟨(), hu, p, hp, rfl⟩
  have mm : ∀ {α β : Type} (f : α → Res β) (l : List α) (r : List β),
      l.mapM f = .ok r ↔ List.Forall₂ (fun a b => f a = .ok b) l r := by
    intro α β f l
    induction l with
    | nil => intro r; cases r <;> simp [pure, Except.pure]
    | cons a l ih =>
      intro r
      rw [List.mapM_cons]
      simp only [bind_eq_ok]
      constructor
      · rintro ⟨b, hb, bs, hbs, h⟩
        cases h
        exact .cons hb ((ih _).1 hbs)
      · intro h
        cases h with
        | cons hb hbs => exact ⟨_, hb, _, (ih _).2 hbs, rfl⟩
  unfold queryRawPools
  simp only [bind_eq_ok, mm, dec]
  constructor
  · rintro ⟨as, h1, fs, h2, h⟩
    cases h
    exact ⟨as, h1, fs, h2, rfl⟩
  · rintro ⟨as, h1, fs, h2, rfl⟩
    exact ⟨as, h1, fs, h2, rfl⟩

/-- Three pools are asked for, the second answer is of an unknown kind: two pools come back. -/
example :
    (queryRawPools
      (fun n => if n = 1 then .ok (ascii (weightedText ++ "\",\"id\":\"1\"}}"))
        else if n = 2 then .ok (ascii "{\"pool\":{\"@type\":\"/osmosis.cosmwasmpool.v1beta1.CosmWasmPool\"}}")
        else .ok (ascii (concentratedText ++ "l\",\"id\":\"3\"}}")))
      (fun _ => true)
      (fun k _ => .ok (.queried (if k = .weighted then 1 else 3) (.ok 0))) [1, 2, 3]).map (·.map (·.id)) = .ok [1, 3] := by
  decide +kernel

end Ibcx.Props
