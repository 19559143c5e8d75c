import Verif.Proto.WireLemmas
import Verif.Storage.PlaceLemmas
import Verif.Props.Demo
/-!
# C109: messages and questions to the chain as bytes
-/

namespace Ibcx.Props
open Ibcx Ibcx.Spec.Proto
open Ibcx.Storage (Bytes textBytes)

/-- The numbers in a message are of their types: `u64` for pools. -/
def Proto.Small : Msg → Prop
  | .swapExactIn _ routes _ _ => ∀ r ∈ routes, r.poolId < 2 ^ 64
  | .swapExactOut _ routes _ _ => ∀ r ∈ routes, r.poolId < 2 ^ 64
  | _ => True

open Ibcx.Proto

theorem nat_text_inj {n m : Nat} (h : textBytes (toString n) = textBytes (toString m)) : n = m := by
  have h1 := Storage.textBytes_inj h
  have h2 : Nat.toDigits 10 n = Nat.toDigits 10 m := by
    have := congrArg String.toList h1
    simpa using this
  rw [← Nat.ofDigitChars_toDigits (b := 10) (n := n) (by norm_num) (by norm_num), h2,
    Nat.ofDigitChars_toDigits (by norm_num) (by norm_num)]

theorem coin_says {c : Coin} (h : (coinBytes c).length < 2 ^ 64) : IsCoin c (coinBytes c) := by
  simp only [coinBytes, List.length_append] at h
  refine ⟨_, fields_append (textField_fields (by norm_num) (by norm_num) (by omega))
    (textField_fields (by norm_num) (by norm_num) (by omega)), ?_, ?_⟩ <;>
  · refine field_text _ _ ?_
    rw [blocks_append, blocks_text, blocks_text]
    simp

theorem route_says {r : SwapRoute} (h : (routeBytes r).length < 2 ^ 64) (hp : r.poolId < 2 ^ 64) : IsRoute r (routeBytes r) := by
  simp only [routeBytes, List.length_append] at h
  refine ⟨_, fields_append (numField_fields (by norm_num) (by norm_num) hp)
    (textField_fields (by norm_num) (by norm_num) (by omega)), ?_, ?_⟩
  · rw [number, nums_append, nums_text, nums_num]
    by_cases e : r.poolId = 0 <;> simp [e]
  · refine field_text _ _ ?_
    rw [blocks_append, blocks_text, blocks_num]
    simp

theorem coin_unique {c c' : Coin} {b : Bytes} (h : IsCoin c b) (h' : IsCoin c' b) : c = c' := by
  obtain ⟨fs, f, h1, h2⟩ := h
  obtain ⟨gs, g, g1, g2⟩ := h'
  obtain rfl := fields_unique f g
  have e1 := Storage.textBytes_inj (h1.symm.trans g1)
  have e2 := nat_text_inj (h2.symm.trans g2)
  cases c
  cases c'
  exact congrArg₂ Coin.mk e1 e2

theorem route_unique {r r' : SwapRoute} {b : Bytes} (h : IsRoute r b) (h' : IsRoute r' b) : r = r' := by
  obtain ⟨fs, f, h1, h2⟩ := h
  obtain ⟨gs, g, g1, g2⟩ := h'
  obtain rfl := fields_unique f g
  have e1 := h1.symm.trans g1
  have e2 := Storage.textBytes_inj (h2.symm.trans g2)
  cases r
  cases r'
  exact congrArg₂ SwapRoute.mk e1 e2

theorem routes_unique {rs rs' : List SwapRoute} {bs : List Bytes} (h : List.Forall₂ IsRoute rs bs)
    (h' : List.Forall₂ IsRoute rs' bs) : rs = rs' := by
  induction h generalizing rs' with
  | nil => cases h'; rfl
  | cons h1 _ ih =>
    cases h' with
    | cons g1 g2 => rw [route_unique h1 g1, ih g2]

theorem says_unique {url : String} {b : Bytes} {m m' : Msg} (h : Says url b m) (h' : Says url b m') : m = m' := by
  obtain ⟨fs, f, h⟩ := h
  obtain ⟨gs, g, h'⟩ := h'
  obtain rfl := fields_unique f g
  have text : ∀ {x : Bytes} {s t : String}, x = textBytes s → x = textBytes t → s = t := fun h1 h2 =>
    Storage.textBytes_inj (h1.symm.trans h2)
  have num : ∀ {x : Bytes} {s t : Nat}, x = textBytes (toString s) → x = textBytes (toString t) → s = t := fun h1 h2 =>
    nat_text_inj (h1.symm.trans h2)
  cases m with
  | createDenom sender subdenom =>
    obtain ⟨rfl, h1, h2⟩ := h
    cases m' <;> simp at h'
    obtain ⟨g1, g2⟩ := h'
    rw [text h1 g1, text h2 g2]
  | tfMint sender mintTo amount =>
    obtain ⟨rfl, h1, h2, h3⟩ := h
    cases m' <;> simp at h'
    obtain ⟨g1, g2, g3⟩ := h'
    rw [text h1 g1, coin_unique h2 g2, text h3 g3]
  | tfBurn sender mintTo amount =>
    obtain ⟨rfl, h1, h2, h3⟩ := h
    cases m' <;> simp at h'
    obtain ⟨g1, g2, g3⟩ := h'
    rw [text h1 g1, coin_unique h2 g2, text h3 g3]
  | send to_ coins => exact h.elim
  | swapExactIn sender routes tokenIn minOut =>
    obtain ⟨rfl, h1, h2, h3, h4⟩ := h
    cases m' <;> simp only [String.reduceEq, false_and] at h'
    obtain ⟨_, g1, g2, g3, g4⟩ := h'
    rw [text h1 g1, routes_unique h2 g2, coin_unique h3 g3, num h4 g4]
  | swapExactOut sender routes tokenIn minOut =>
    obtain ⟨rfl, h1, h2, h3, h4⟩ := h
    cases m' <;> simp only [String.reduceEq, false_and] at h'
    obtain ⟨_, g1, g2, g3, g4⟩ := h'
    rw [text h1 g1, routes_unique h2 g2, num h3 g3, coin_unique h4 g4]

theorem routes_say {tag : Nat} {rs : List SwapRoute} (h : (routesBytes tag rs).length < 2 ^ 64) (hp : ∀ r ∈ rs, r.poolId < 2 ^ 64) :
    List.Forall₂ IsRoute rs (rs.map routeBytes) := by
  induction rs with
  | nil => exact .nil
  | cons r rs ih =>
    simp only [routesBytes, List.flatMap_cons, List.length_append] at h
    exact .cons (route_says (lt_of_le_of_lt (block_length (tag := tag)) (by omega)) (hp r (by simp)))
      (ih (by simp only [routesBytes]; omega) fun x hx => hp x (by simp [hx]))

/-- Everything sent is bytes. -/
theorem bytes_lt {m : Msg} {url : String} {b : Bytes} (h : stargate m = some (url, b)) : ∀ x ∈ b, x < 256 := by
  have hv : ∀ k n, n < 128 ^ (k + 1) → ∀ x ∈ varintF k n, x < 256 := by
    intro k
    induction k with
    | zero => intro n hn x hx; simp [varintF] at hx; omega
    | succ k ih =>
      intro n hn x hx
      rw [varintF] at hx
      split at hx
      · simp at hx; omega
      · rcases List.mem_cons.1 hx with rfl | hx
        · omega
        · exact ih _ (by rw [pow_succ] at hn; omega) x hx
  have hn : ∀ n, ∀ x ∈ varint n, x < 256 := fun n => hv n n (lt_of_lt_of_le (Nat.lt_pow_self (by norm_num)) (Nat.pow_le_pow_right (by norm_num) (by omega)))
  have hblock : ∀ tag b, (∀ x ∈ b, x < 256) → ∀ x ∈ block tag b, x < 256 := by
    intro tag b hb x hx
    simp only [block, key, List.mem_append] at hx
    rcases hx with (hx | hx) | hx
    exacts [hn _ x hx, hn _ x hx, hb x hx]
  have htext : ∀ tag s, ∀ x ∈ textField tag s, x < 256 := by
    intro tag s x hx
    unfold textField at hx
    split at hx
    · cases hx
    · exact hblock _ _ (Storage.text_lt_256 s) x hx
  have hnum : ∀ tag n, ∀ x ∈ numField tag n, x < 256 := by
    intro tag n x hx
    unfold numField at hx
    split at hx
    · cases hx
    · rcases List.mem_append.1 hx with hx | hx
      exacts [hn _ x hx, hn _ x hx]
  have hcoin : ∀ c, ∀ x ∈ coinBytes c, x < 256 := by
    intro c x hx
    rcases List.mem_append.1 hx with hx | hx
    exacts [htext _ _ x hx, htext _ _ x hx]
  have hroute : ∀ tag rs, ∀ x ∈ routesBytes tag rs, x < 256 := by
    intro tag rs x hx
    obtain ⟨r, _, hx⟩ := List.mem_flatMap.1 hx
    refine hblock _ _ (fun y hy => ?_) x hx
    rcases List.mem_append.1 hy with hy | hy
    exacts [hnum _ _ y hy, htext _ _ y hy]
  intro x hx
  cases m <;> cases h <;> simp only [List.mem_append] at hx
  · rcases hx with hx | hx
    exacts [htext _ _ x hx, htext _ _ x hx]
  · rcases hx with (hx | hx) | hx
    exacts [htext _ _ x hx, hblock _ _ (hcoin _) x hx, htext _ _ x hx]
  · rcases hx with (hx | hx) | hx
    exacts [htext _ _ x hx, hblock _ _ (hcoin _) x hx, htext _ _ x hx]
  · rcases hx with ((hx | hx) | hx) | hx
    exacts [htext _ _ x hx, hroute _ _ x hx, hblock _ _ (hcoin _) x hx, htext _ _ x hx]
  · rcases hx with ((hx | hx) | hx) | hx
    exacts [htext _ _ x hx, hroute _ _ x hx, htext _ _ x hx, hblock _ _ (hcoin _) x hx]

/-- **C109 (messages).** Every message to the token factory or the pool manager is sent as bytes that say that message and no
other, whatever reader of the format is used; only a bank transfer is sent otherwise. -/
theorem C109_messages (m : Msg) :
    (stargate m = none ↔ ∃ to_ coins, m = .send to_ coins) ∧
    ∀ url b, stargate m = some (url, b) → (∀ x ∈ b, x < 256) ∧
      (b.length < 2 ^ 64 → Proto.Small m → Says url b m ∧ ∀ m', Says url b m' → m' = m) := by
  refine ⟨by cases m <;> simp [stargate], fun url b hm => ⟨bytes_lt hm, fun hl hp => ?_⟩⟩
  suffices h : Says url b m from ⟨h, fun m' h' => says_unique h' h⟩
  cases m with
  | createDenom sender subdenom =>
    cases hm
    simp only [List.length_append] at hl
    refine ⟨_, fields_append (textField_fields (by norm_num) (by norm_num) (by omega))
      (textField_fields (by norm_num) (by norm_num) (by omega)), rfl, ?_, ?_⟩ <;>
    · refine field_text _ _ ?_
      rw [blocks_append, blocks_text, blocks_text]
      simp
  | tfMint sender mintTo amount =>
    cases hm
    simp only [List.length_append] at hl
    have hc : (coinBytes amount).length < 2 ^ 64 := lt_of_le_of_lt (block_length (tag := 2)) (by omega)
    refine ⟨_, fields_append (fields_append (textField_fields (by norm_num) (by norm_num) (by omega))
      (block_fields (by norm_num) (by norm_num) hc)) (textField_fields (by norm_num) (by norm_num) (by omega)), rfl, ?_, ?_, ?_⟩
    · refine field_text _ _ ?_
      simp [blocks_append, blocks_text, blocks_cons, blocks_nil]
    · simpa [field, blocks_append, blocks_text, blocks_cons, blocks_nil] using coin_says hc
    · refine field_text _ _ ?_
      simp [blocks_append, blocks_text, blocks_cons, blocks_nil]
  | tfBurn sender burnFrom amount =>
    cases hm
    simp only [List.length_append] at hl
    have hc : (coinBytes amount).length < 2 ^ 64 := lt_of_le_of_lt (block_length (tag := 2)) (by omega)
    refine ⟨_, fields_append (fields_append (textField_fields (by norm_num) (by norm_num) (by omega))
      (block_fields (by norm_num) (by norm_num) hc)) (textField_fields (by norm_num) (by norm_num) (by omega)), rfl, ?_, ?_, ?_⟩
    · refine field_text _ _ ?_
      simp [blocks_append, blocks_text, blocks_cons, blocks_nil]
    · simpa [field, blocks_append, blocks_text, blocks_cons, blocks_nil] using coin_says hc
    · refine field_text _ _ ?_
      simp [blocks_append, blocks_text, blocks_cons, blocks_nil]
  | send to_ coins => cases hm
  | swapExactIn sender routes tokenIn minOut =>
    cases hm
    simp only [List.length_append] at hl
    have hc : (coinBytes tokenIn).length < 2 ^ 64 := lt_of_le_of_lt (block_length (tag := 3)) (by omega)
    refine ⟨_, fields_append (fields_append (fields_append (textField_fields (by norm_num) (by norm_num) (by omega))
      (routes_fields (by norm_num) (by norm_num) _ (by omega))) (block_fields (by norm_num) (by norm_num) hc))
      (textField_fields (by norm_num) (by norm_num) (by omega)), rfl, ?_, ?_, ?_, ?_⟩
    · refine field_text _ _ ?_
      simp [blocks_append, blocks_text, blocks_cons, blocks_nil, blocks_routes]
    · rw [show blocks 2 _ = routes.map routeBytes by simp [blocks_append, blocks_text, blocks_cons, blocks_nil, blocks_routes]]
      exact routes_say (tag := 2) (by omega) hp
    · simpa [field, blocks_append, blocks_text, blocks_cons, blocks_nil, blocks_routes] using coin_says hc
    · refine field_text _ _ ?_
      simp [blocks_append, blocks_text, blocks_cons, blocks_nil, blocks_routes]
  | swapExactOut sender routes tokenOut maxIn =>
    cases hm
    simp only [List.length_append] at hl
    have hc : (coinBytes tokenOut).length < 2 ^ 64 := lt_of_le_of_lt (block_length (tag := 4)) (by omega)
    refine ⟨_, fields_append (fields_append (fields_append (textField_fields (by norm_num) (by norm_num) (by omega))
      (routes_fields (by norm_num) (by norm_num) _ (by omega))) (textField_fields (by norm_num) (by norm_num) (by omega)))
      (block_fields (by norm_num) (by norm_num) hc), rfl, ?_, ?_, ?_, ?_⟩
    · refine field_text _ _ ?_
      simp [blocks_append, blocks_text, blocks_cons, blocks_nil, blocks_routes]
    · rw [show blocks 2 _ = routes.map routeBytes by simp [blocks_append, blocks_text, blocks_cons, blocks_nil, blocks_routes]]
      exact routes_say (tag := 2) (by omega) hp
    · refine field_text _ _ ?_
      simp [blocks_append, blocks_text, blocks_cons, blocks_nil, blocks_routes]
    · simpa [field, blocks_append, blocks_text, blocks_cons, blocks_nil, blocks_routes] using coin_says hc

/-- A swap through two pools, one of them with a number of two bytes: the bytes that are sent. -/
def Proto.swap : Msg := .swapExactIn "ab" [⟨1, "x"⟩, ⟨300, "y"⟩] ⟨"z", 25⟩ 7

example : stargate Proto.swap = some ("/osmosis.poolmanager.v1beta1.MsgSwapExactAmountIn",
    [10, 2, 97, 98, 18, 5, 8, 1, 18, 1, 120, 18, 6, 8, 172, 2, 18, 1, 121, 26, 7, 10, 1, 122, 18, 2, 50, 53, 34, 1, 55]) ∧
    Proto.Small Proto.swap := ⟨by decide +kernel, by unfold Proto.Small Proto.swap; simp⟩

/-- **C109 (questions).** The question for a pool says its number.  A question for what a swap would give or cost cannot be asked
of an empty route; otherwise its bytes say the first pool, the coin and every hop in order. -/
theorem C109_questions :
    (∀ id, id < 2 ^ 64 → (poolQuestion id).1 = "/osmosis.poolmanager.v1beta1.Query/Pool" ∧ AsksPool (poolQuestion id).2 id) ∧
    ∀ (routes : List SwapRoute) (coin : Coin), (∀ r ∈ routes, r.poolId < 2 ^ 64) →
      ((∃ q, estimateIn routes coin = .ok q) ↔ routes ≠ []) ∧ ((∃ q, estimateOut routes coin = .ok q) ↔ routes ≠ []) ∧
      (∀ path b, estimateIn routes coin = .ok (path, b) → b.length < 2 ^ 64 →
        path = "/osmosis.poolmanager.v1beta1.Query/EstimateSwapExactAmountIn" ∧ AsksOut b routes coin) ∧
      ∀ path b, estimateOut routes coin = .ok (path, b) → b.length < 2 ^ 64 →
        path = "/osmosis.poolmanager.v1beta1.Query/EstimateSwapExactAmountOut" ∧ AsksIn b routes coin := by
  have ht : ∀ c : Coin, textBytes (coinText c) = textBytes (toString c.amount) ++ textBytes c.denom := fun c => by
    simp [coinText, textBytes]
  refine ⟨fun id hid => ⟨rfl, _, numField_fields (by norm_num) (by norm_num) hid, ?_⟩, fun routes coin hp => ?_⟩
  · rw [number, nums_num]
    by_cases e : id = 0 <;> simp [e]
  cases routes with
  | nil => exact ⟨by simp [estimateIn], by simp [estimateOut], fun _ _ h => (nomatch h), fun _ _ h => (nomatch h)⟩
  | cons r rs =>
    refine ⟨by simp [estimateIn], by simp [estimateOut], fun path b h hl => ?_, fun path b h hl => ?_⟩
    · cases h
      simp only [List.length_append] at hl
      refine ⟨rfl, _, fields_append (fields_append (numField_fields (by norm_num) (by norm_num) (hp r (by simp)))
        (textField_fields (by norm_num) (by norm_num) (by omega))) (routes_fields (by norm_num) (by norm_num) _ (by omega)),
        ?_, ?_, ?_⟩
      · rw [number, nums_append, nums_append, nums_num, nums_text, nums_routes]
        by_cases e : r.poolId = 0 <;> simp [e]
      · rw [← ht]
        refine field_text _ _ ?_
        simp only [blocks_append, blocks_text, blocks_num, blocks_routes]; simp
      · rw [show blocks 4 _ = (r :: rs).map routeBytes by simp only [blocks_append, blocks_text, blocks_num, blocks_routes]; simp]
        exact routes_say (tag := 4) (by omega) hp
    · cases h
      simp only [List.length_append] at hl
      refine ⟨rfl, _, fields_append (fields_append (numField_fields (by norm_num) (by norm_num) (hp r (by simp)))
        (routes_fields (by norm_num) (by norm_num) _ (by omega))) (textField_fields (by norm_num) (by norm_num) (by omega)),
        ?_, ?_, ?_⟩
      · rw [number, nums_append, nums_append, nums_num, nums_text, nums_routes]
        by_cases e : r.poolId = 0 <;> simp [e]
      · rw [show blocks 3 _ = (r :: rs).map routeBytes by simp only [blocks_append, blocks_text, blocks_num, blocks_routes]; simp]
        exact routes_say (tag := 3) (by omega) hp
      · rw [← ht]
        refine field_text _ _ ?_
        simp only [blocks_append, blocks_text, blocks_num, blocks_routes]; simp

example : poolQuestion 300 = ("/osmosis.poolmanager.v1beta1.Query/Pool", [8, 172, 2]) ∧
    estimateIn [⟨300, "y"⟩] ⟨"z", 25⟩ = .ok ("/osmosis.poolmanager.v1beta1.Query/EstimateSwapExactAmountIn",
      [16, 172, 2, 26, 3, 50, 53, 122, 34, 6, 8, 172, 2, 18, 1, 121]) ∧
    estimateOut [⟨300, "y"⟩] ⟨"z", 25⟩ = .ok ("/osmosis.poolmanager.v1beta1.Query/EstimateSwapExactAmountOut",
      [16, 172, 2, 26, 6, 8, 172, 2, 18, 1, 121, 34, 3, 50, 53, 122]) := ⟨by decide +kernel, by decide +kernel, by decide +kernel⟩

/-- **C109 (reply).** The core contract learns the denom of its token from bytes: it accepts the reply, to its only numbered message,
exactly when the bytes are a response naming a denom, changes nothing but the denom of its token, and sends nothing. -/
theorem C109_reply (s s' : Core.State) (id : Nat) (data : Option Bytes) (ms : List Msg) (hb : ∀ b, data = some b → ∀ x ∈ b, x < 256) :
    Ibcx.Proto.reply s id data = .ok (s', ms) ↔
      id = 0 ∧ ms = [] ∧ ∃ b d, data = some b ∧ Created b d ∧ s' = { s with config := { s.config with indexDenom := d } } := by
  unfold Ibcx.Proto.reply Core.reply
  constructor
  · intro h
    split at h
    · rename_i hid
      split at h
      · cases h
      · rename_i d hd
        cases h
        obtain ⟨b, rfl, h1⟩ := Option.bind_eq_some_iff.1 hd
        exact ⟨hid, rfl, b, d, rfl, (readDenom_iff (hb b rfl)).1 h1, rfl⟩
    · cases h
  · rintro ⟨rfl, rfl, b, d, rfl, h1, rfl⟩
    rw [if_pos rfl, Option.bind_some, (readDenom_iff (hb b rfl)).2 h1]

/-- What a chain sends back: an unknown field is passed over, the last denom counts, and broken text is refused. -/
example : readDenom (textField 1 "factory/core/x") = some "factory/core/x" ∧ readDenom [10, 1, 97, 16, 172, 2, 10, 1, 98] = some "b" ∧
    readDenom [10, 2, 97] = none ∧ readDenom [10, 1, 255] = none ∧ readDenom [8, 1] = none := by decide +kernel

example : (Ibcx.Proto.reply Demo.s0 0 (some (textField 1 "factory/core/x"))).toOption.map (·.1.config.indexDenom) = some "factory/core/x" := by
  decide +kernel

/-- **C109 (reply, one reading).** A response names one denom. -/
theorem C109_created_unique (b : Bytes) (d d' : String) (h : Created b d) (h' : Created b d') : d = d' := by
  obtain ⟨fs, h1, _, h2⟩ := h
  obtain ⟨fs', h1', _, h2'⟩ := h'
  cases fields_unique h1 h1'
  exact Storage.textBytes_inj (h2.symm.trans h2')

example : Created [10, 1, 97, 16, 172, 2, 10, 1, 98] "b" := (readDenom_iff (by decide)).1 (by decide +kernel)

end Ibcx.Props
