import Verif.Spec.ConstantProduct
import Verif.Props.WeightedPool
import Mathlib.Tactic.Ring
import Mathlib.Tactic.Linarith
/-!
# C128: pools of equal weights give nothing away but rounding
-/

namespace Ibcx.Props
open Ibcx Ibcx.Pool Ibcx.Spec Ibcx.Math

/-- The exact value of a sale between equal weights. -/
private theorem equal_out {R U w : Nat} {din dout : Denom} {x spread out : Nat} {assets : List Asset}
    (hi : assets.find? (fun a => decide (a.denom = din)) = some ⟨din, R, w⟩)
    (ho : assets.find? (fun a => decide (a.denom = dout)) = some ⟨dout, U, w⟩)
    (h : calcOutGivenIn assets ⟨din, x⟩ dout spread = .ok out) :
    spread ≤ 10 ^ 18 ∧ 0 < R + afterFee spread x ∧ out = constantProduct R U (afterFee spread x) := by
  have hp := Math.one_pos
  have e18 : (10 : Nat) ^ 18 = ONE := rfl
  simp only [calcOutGivenIn, solveInvariants, getAsset_find hi, getAsset_find ho, ok_bind, bind_eq_ok, dadd_eq_ok, dsub_eq_ok,
    toDec_eq_ok, dmul_eq_ok, ddiv_eq_ok, require_eq_ok, Except.ok.injEq] at h
  obtain ⟨keep, ⟨hs, rfl⟩, a, ⟨_, ha⟩, post, ⟨_, rfl⟩, d1, ⟨_, rfl⟩, d2, ⟨_, rfl⟩, d3, ⟨_, rfl⟩, d4, ⟨_, rfl⟩, d5, ⟨_, rfl⟩,
    r, ⟨wr, ⟨hw0, _, hwr⟩, y, ⟨hy0, _, hy⟩, yw, hyw, am, ⟨_, rfl⟩, rfl⟩, _, hneg, rfl⟩ := h
  unfold constantProduct afterFee
  rw [e18, ← ha]
  have hw : 0 < ONE * w := Nat.pos_of_ne_zero hw0
  have hwr1 : wr = ONE := by rw [hwr]; exact Nat.mul_div_cancel _ hw
  have hyy : y = ONE * R / (R + a) := by
    rw [hy, Nat.mul_left_comm, Nat.mul_div_mul_left _ _ hp]
  have hpos : 0 < R + a := by
    rcases Nat.eq_zero_or_pos (R + a) with h | h
    · rw [h] at hy0; simp at hy0
    · exact h
  have hyw1 : yw = y := by
    rw [hwr1] at hyw
    unfold pow at hyw
    split at hyw
    · cases hyw
    split at hyw
    · cases hyw
    rw [if_pos rfl] at hyw
    cases hyw
    rfl
  subst hyw1
  refine ⟨hs, hpos, ?_⟩
  simp only [absDiffWithSign, decide_eq_true_eq] at hneg ⊢
  rw [if_neg (by omega)]
  unfold toUintFloor
  have e2 : ONE * U * (ONE - yw) / ONE = U * (ONE - yw) := by
    rw [Nat.mul_assoc, Nat.mul_div_cancel_left _ hp]
  rw [e2, hyy]

theorem find_map_hit {d : Denom} {f : Asset → Asset} {a : Asset} : ∀ {as : List Asset},
    (∀ b, (f b).denom = b.denom) → as.find? (fun b => decide (b.denom = d)) = some a →
    (as.map f).find? (fun b => decide (b.denom = d)) = some (f a)
  | [], _, h => by cases h
  | b :: as, hf, h => by
    rw [List.map_cons, List.find?_cons]
    rw [List.find?_cons] at h
    rw [hf b]
    cases hb : decide (b.denom = d) with
    | true => rw [hb] at h; cases h; rfl
    | false =>
      rw [hb] at h
      exact find_map_hit hf h

/-- **C128 (the price).** A sale between two denoms of equal weight brings exactly the constant product of the balances,
with one rounding to 18 digits and one to whole units; it takes no more than there is, and then the pool holds the whole
payment more and what it paid less. -/
theorem C128_sale {p p' : WeightedPool} {d d' : Denom} {R U x fee out : Nat} (hp : EqualPair p d d' R U) (hd : d ≠ d')
    (h : p.swapExactIn ⟨d, x⟩ d' fee = .ok (out, p')) :
    out = constantProduct R U (afterFee fee x) ∧ out ≤ U ∧ EqualPair p' d d' (R + x) (U - out) := by
  obtain ⟨w, hi, ho⟩ := hp
  simp only [WeightedPool.swapExactIn, applyNewAssets, bind_eq_ok, Except.ok.injEq, Prod.mk.injEq, getAsset_find hi,
    getAsset_find ho, dadd_eq_ok, dsub_eq_ok] at h
  obtain ⟨o, hout, bs, ⟨_, rfl, _, rfl, _, ⟨_, rfl⟩, _, ⟨hle, rfl⟩, rfl⟩, rfl, rfl⟩ := h
  refine ⟨(equal_out hi ho hout).2.2, hle, w, ?_, ?_⟩
  · have := find_map_hit (f := fun a => if a.denom = d then { a with amount := R + x }
      else if a.denom = d' then { a with amount := U - o } else a) (fun b => by split <;> (try split) <;> rfl) hi
    rw [if_pos rfl] at this
    exact this
  · have := find_map_hit (f := fun a => if a.denom = d then { a with amount := R + x }
      else if a.denom = d' then { a with amount := U - o } else a) (fun b => by split <;> (try split) <;> rfl) ho
    rw [if_neg (fun e => hd e.symm), if_pos rfl] at this
    exact this

/-- Ten million of each and one thousand in, with a fee of 0.3%. -/
example : let p : WeightedPool := ⟨1, 0, [⟨"a", 10000000, 3⟩, ⟨"b", 10000000, 3⟩]⟩
    EqualPair p "a" "b" 10000000 10000000 ∧
    ((p.swapExactIn ⟨"a", 1000⟩ "b" 3000000000000000).map fun r => (r.1, r.2.assets)) =
      .ok (996, [⟨"a", 10001000, 3⟩, ⟨"b", 9999004, 3⟩]) ∧
    constantProduct 10000000 10000000 997 = 996 :=
  ⟨⟨3, rfl, rfl⟩, by decide +kernel, by decide +kernel⟩

private theorem afterFee_le (fee x : Nat) : afterFee fee x ≤ x := by
  have hp := Math.one_pos
  have e18 : (10 : Nat) ^ 18 = ONE := rfl
  unfold afterFee
  rw [e18]
  refine Nat.div_le_of_le_mul ?_
  rw [Nat.mul_comm]
  exact Nat.mul_le_mul_right _ (Nat.sub_le _ _)

private theorem afterFee_mono {fee fee' x x' : Nat} (hf : fee' ≤ fee) (hx : x ≤ x') : afterFee fee x ≤ afterFee fee' x' :=
  Nat.div_le_div_right (Nat.mul_le_mul hx (Nat.sub_le_sub_left hf _))

private theorem share_anti {P R R' a a' : Nat} (hR : R' ≤ R) (ha : a ≤ a') (h0 : 0 < R' + a') :
    P * R' / (R' + a') ≤ P * R / (R + a) := by
  rcases Nat.eq_zero_or_pos R with h | h
  · have : R' = 0 := by omega
    subst this
    simp
  · rw [Nat.le_div_iff_mul_le (by omega)]
    have h1 := Nat.div_mul_le_self (P * R') (R' + a')
    generalize P * R' / (R' + a') = q at h1
    have h2 : q * (R' + a') * (R + a) ≤ P * R' * (R + a) := Nat.mul_le_mul_right _ h1
    have h3 : R' * (R + a) ≤ R * (R' + a') := by nlinarith
    have h4 : q * (R + a) * (R' + a') ≤ P * R * (R' + a') := by
      calc q * (R + a) * (R' + a') = q * (R' + a') * (R + a) := by ring
        _ ≤ P * R' * (R + a) := h2
        _ = P * (R' * (R + a)) := by ring
        _ ≤ P * (R * (R' + a')) := Nat.mul_le_mul_left _ h3
        _ = P * R * (R' + a') := by ring
    exact Nat.le_of_mul_le_mul_right h4 h0

/-- **C128 (more for more).** Whoever sells more, at a smaller fee, into a pool with less of the denom sold and more of the
denom bought, gets no less. -/
theorem C128_more_for_more {p p' q q' : WeightedPool} {d d' : Denom} {R U R' U' x x' fee fee' out out' : Nat}
    (hp : EqualPair p d d' R U) (hq : EqualPair q d d' R' U') (hd : d ≠ d')
    (hx : x ≤ x') (hf : fee' ≤ fee) (hR : R' ≤ R) (hU : U ≤ U')
    (h : p.swapExactIn ⟨d, x⟩ d' fee = .ok (out, p')) (h' : q.swapExactIn ⟨d, x'⟩ d' fee' = .ok (out', q')) :
    out ≤ out' := by
  have h0 : 0 < R' + afterFee fee' x' := by
    obtain ⟨w, hi, ho⟩ := hq
    simp only [WeightedPool.swapExactIn, bind_eq_ok] at h'
    obtain ⟨_, h', _⟩ := h'
    exact (equal_out hi ho h').2.1
  rw [(C128_sale hp hd h).1, (C128_sale hq hd h').1]
  exact Nat.div_le_div_right (Nat.mul_le_mul hU (Nat.sub_le_sub_left (share_anti hR (afterFee_mono hf hx) h0) _))

/-- One unit more, and more comes out. -/
example : let p : WeightedPool := ⟨1, 0, [⟨"a", 1000, 3⟩, ⟨"b", 2000000, 3⟩]⟩
    ((p.swapExactIn ⟨"a", 1000⟩ "b" 0).map (·.1)) = .ok 1000000 ∧
    ((p.swapExactIn ⟨"a", 1001⟩ "b" 0).map (·.1)) = .ok 1000499 := by decide +kernel

/-- The bounds of C60 for the exact value. -/
private theorem sale_bounds {p p' : WeightedPool} {d d' : Denom} {R U x fee out : Nat} (hp : EqualPair p d d' R U)
    (h : p.swapExactIn ⟨d, x⟩ d' fee = .ok (out, p')) :
    0 < R + afterFee fee x ∧ U * afterFee fee x / (R + afterFee fee x) ≤ out ∧
      10 ^ 18 * (out * (R + afterFee fee x)) ≤ 10 ^ 18 * (U * afterFee fee x) + U * (R + afterFee fee x) := by
  obtain ⟨w, hi, ho⟩ := hp
  simp only [WeightedPool.swapExactIn, bind_eq_ok, Except.ok.injEq, Prod.mk.injEq] at h
  obtain ⟨_, hout, _, _, rfl, _⟩ := h
  obtain ⟨a, ha, _, h1, h2⟩ := C60_equal_weights_out hi ho hout
  have e : a = afterFee fee x := ha
  subst e
  exact ⟨(equal_out hi ho hout).2.1, h1, h2⟩

/-- The upper bound holds with a larger payment too. -/
private theorem bound_more {P R U a x o : Nat} (ha : a ≤ x) (ho : o ≤ U)
    (h : P * (o * (R + a)) ≤ P * (U * a) + U * (R + a)) : P * (o * (R + x)) ≤ P * (U * x) + U * (R + x) := by
  obtain ⟨k, rfl⟩ := Nat.exists_eq_add_of_le ha
  obtain ⟨m, rfl⟩ := Nat.exists_eq_add_of_le ho
  have h1 : P * (o * (R + (a + k))) = P * (o * (R + a)) + P * (o * k) := by ring
  have h2 : P * ((o + m) * (a + k)) + (o + m) * (R + (a + k)) =
      P * ((o + m) * a) + (o + m) * (R + a) + (P * (o * k) + P * (m * k) + (o + m) * k) := by ring
  rw [h1, h2]
  have := Nat.zero_le (P * (m * k) + (o + m) * k)
  omega

/-- **C128 (the product).** The product of the balances falls by no more than one 10^18-th of the balance sold from times
the new balance of the denom sold. -/
theorem C128_product {p p' : WeightedPool} {d d' : Denom} {R U x fee out : Nat} (hp : EqualPair p d d' R U) (hd : d ≠ d')
    (h : p.swapExactIn ⟨d, x⟩ d' fee = .ok (out, p')) :
    10 ^ 18 * (R * U) ≤ 10 ^ 18 * ((R + x) * (U - out)) + U * (R + x) := by
  obtain ⟨_, hle, _⟩ := C128_sale hp hd h
  obtain ⟨_, _, h2⟩ := sale_bounds hp h
  have h3 := bound_more (afterFee_le fee x) hle h2
  revert h3
  generalize (10 : Nat) ^ 18 = P
  intro h3
  obtain ⟨m, rfl⟩ := Nat.exists_eq_add_of_le hle
  rw [Nat.add_sub_cancel_left]
  have e1 : P * (out * (R + x)) + P * ((R + x) * m) = P * (R * (out + m)) + P * ((out + m) * x) := by ring
  omega

/-- The product does fall: in a pool with 10^21 of each, which is a thousand tokens of 18 digits, one unit is simulated to
bring a thousand. -/
example : let p : WeightedPool := ⟨1, 0, [⟨"a", 1000000000000000000000, 1⟩, ⟨"b", 1000000000000000000000, 1⟩]⟩
    ((p.swapExactIn ⟨"a", 1⟩ "b" 0).map (·.1)) = .ok 1000 ∧
    1000000000000000000001 * (1000000000000000000000 - 1000) < 1000000000000000000000 * 1000000000000000000000 := by
  decide +kernel

/-- **C128 (there and back).** Selling a coin and selling the proceeds back brings no more than the coin and two 10^18-th
of what the pool then has of it; nothing is won in a pool with less than half of 10^18 of the denom. -/
theorem C128_there_and_back {p p' p'' : WeightedPool} {d d' : Denom} {R U x fee fee' out back : Nat}
    (hp : EqualPair p d d' R U) (hd : d ≠ d') (h : p.swapExactIn ⟨d, x⟩ d' fee = .ok (out, p'))
    (h' : p'.swapExactIn ⟨d', out⟩ d fee' = .ok (back, p'')) :
    10 ^ 18 * back ≤ 10 ^ 18 * x + 2 * (R + x) ∧ (2 * (R + x) < 10 ^ 18 → back ≤ x) := by
  obtain ⟨_, hle, hp'⟩ := C128_sale hp hd h
  obtain ⟨w, hi, ho⟩ := hp'
  have hq : EqualPair p' d' d (U - out) (R + x) := ⟨w, ho, hi⟩
  obtain ⟨_, hle', _⟩ := C128_sale hq (fun e => hd e.symm) h'
  obtain ⟨_, _, h2⟩ := sale_bounds hp h
  obtain ⟨hpos, _, h2'⟩ := sale_bounds hq h'
  have h3 := bound_more (afterFee_le fee x) hle h2
  have h3' := bound_more (afterFee_le fee' out) hle' h2'
  have hU : 0 < U := by have := afterFee_le fee' out; omega
  rw [Nat.sub_add_cancel hle] at h3'
  have key : 10 ^ 18 * back ≤ 10 ^ 18 * x + 2 * (R + x) := by
    revert h3 h3'
    generalize (10 : Nat) ^ 18 = P
    intro h3 h3'
    refine Nat.le_of_mul_le_mul_right ?_ hU
    have e1 : P * back * U = P * (back * U) := by ring
    have e2 : P * ((R + x) * out) = P * (out * (R + x)) := by ring
    have e3 : (P * x + 2 * (R + x)) * U = P * (U * x) + U * (R + x) + (R + x) * U := by ring
    omega
  refine ⟨key, fun hs => ?_⟩
  have e18 : (10 : Nat) ^ 18 = ONE := rfl
  rw [e18] at key hs
  have hone := Math.one_pos
  revert key hs hone
  generalize ONE = P
  intro key hs hone
  by_contra hlt
  have h5 : x + 1 ≤ back := by omega
  have h6 : P * (x + 1) ≤ P * back := Nat.mul_le_mul_left _ h5
  rw [Nat.mul_add, Nat.mul_one] at h6
  omega

/-- In a pool of ten million, a thousand come back as a thousand less one.  With 10^21 of each, one unit comes back as a
thousand. -/
example : let p : WeightedPool := ⟨1, 0, [⟨"a", 10000000, 3⟩, ⟨"b", 10000000, 3⟩]⟩
    let q : WeightedPool := ⟨1, 0, [⟨"a", 1000000000000000000000, 1⟩, ⟨"b", 1000000000000000000000, 1⟩]⟩
    ((p.swapExactIn ⟨"a", 1000⟩ "b" 0) >>= fun r => (r.2.swapExactIn ⟨"b", r.1⟩ "a" 0).map fun s => (r.1, s.1)) =
        .ok (999, 999) ∧
      ((q.swapExactIn ⟨"a", 1⟩ "b" 0) >>= fun r => (r.2.swapExactIn ⟨"b", r.1⟩ "a" 0).map fun s => (r.1, s.1)) =
        .ok (1000, 1000) := by
  decide +kernel

/-- **C128 (buying and selling back).** A purchase between equal weights leaves the pool with the payment more and the coin
less, and selling the coin back brings no more than was paid and two 10^18-th of the balance, a 10^18-th of the payment
and of one unit; nothing is won while these are less than a unit. -/
theorem C128_buy_and_sell {p p' p'' : WeightedPool} {d d' : Denom} {R U b fee fee' inp back : Nat}
    (hp : EqualPair p d d' R U) (hd : d ≠ d') (h : p.swapExactOut d ⟨d', b⟩ fee = .ok (inp, p'))
    (h' : p'.swapExactIn ⟨d', b⟩ d fee' = .ok (back, p'')) :
    EqualPair p' d d' (R + inp) (U - b) ∧ b < U ∧
      10 ^ 18 * back ≤ 10 ^ 18 * inp + (2 * R + inp + 1) ∧ (2 * R + inp + 1 < 10 ^ 18 → back ≤ inp) := by
  obtain ⟨w, hi, ho⟩ := hp
  simp only [WeightedPool.swapExactOut, applyNewAssets, bind_eq_ok, Except.ok.injEq, Prod.mk.injEq, getAsset_find hi,
    getAsset_find ho, dadd_eq_ok, dsub_eq_ok] at h
  obtain ⟨o, hin, bs, ⟨_, rfl, _, rfl, _, ⟨_, rfl⟩, _, ⟨hle, rfl⟩, rfl⟩, rfl, rfl⟩ := h
  have hle : b ≤ U := hle
  obtain ⟨keep, hk, hb, h1, _⟩ := C60_equal_weights_in hi ho hin
  have hq : EqualPair ⟨p.id, p.swapFee, p.assets.map fun a => if a.denom = d then { a with amount := R + o }
      else if a.denom = d' then { a with amount := U - b } else a⟩ d d' (R + o) (U - b) := by
    refine ⟨w, ?_, ?_⟩
    · have := find_map_hit (f := fun a => if a.denom = d then { a with amount := R + o }
        else if a.denom = d' then { a with amount := U - b } else a) (fun b => by split <;> (try split) <;> rfl) hi
      rw [if_pos rfl] at this
      exact this
    · have := find_map_hit (f := fun a => if a.denom = d then { a with amount := R + o }
        else if a.denom = d' then { a with amount := U - b } else a) (fun b => by split <;> (try split) <;> rfl) ho
      rw [if_neg (fun e => hd e.symm), if_pos rfl] at this
      exact this
  have hq' := hq
  obtain ⟨w', hi', ho'⟩ := hq'
  have hr : EqualPair ⟨p.id, p.swapFee, p.assets.map fun a => if a.denom = d then { a with amount := R + o }
      else if a.denom = d' then { a with amount := U - b } else a⟩ d' d (U - b) (R + o) := ⟨w', ho', hi'⟩
  obtain ⟨_, hle', _⟩ := C128_sale hr (fun e => hd e.symm) h'
  obtain ⟨_, _, h2'⟩ := sale_bounds hr h'
  have h3' := bound_more (afterFee_le fee' b) hle' h2'
  rw [Nat.sub_add_cancel hle] at h3'
  have hone := Math.one_pos
  have e18 : (10 : Nat) ^ 18 = ONE := rfl
  have key : 10 ^ 18 * back ≤ 10 ^ 18 * o + (2 * R + o + 1) := by
    rw [e18] at h1 h3' hk ⊢
    revert h1 h3' hk hone
    generalize ONE = P
    intro hk h1 h3' hone
    have hU : 0 < U := by omega
    refine Nat.le_of_mul_le_mul_right ?_ hU
    have hkP : keep ≤ P := by omega
    obtain ⟨V, rfl⟩ := Nat.exists_eq_add_of_le hle
    rw [Nat.add_sub_cancel_left] at h1
    have h4 : P * (P * (R * b)) ≤ P * ((P * o + 1) * V + R * V) := by
      calc P * (P * (R * b)) ≤ keep * (P * o + 1) * V + P * (R * V) := h1
        _ ≤ P * (P * o + 1) * V + P * (R * V) :=
          Nat.add_le_add_right (Nat.mul_le_mul_right _ (Nat.mul_le_mul_right _ hkP)) _
        _ = P * ((P * o + 1) * V + R * V) := by ring
    have h5 := Nat.le_of_mul_le_mul_left h4 hone
    have e1 : P * back * (b + V) = P * (back * (b + V)) := by ring
    have e2 : P * ((R + o) * b) = P * (R * b) + P * (o * b) := by ring
    have e3 : (P * o + (2 * R + o + 1)) * (b + V) =
        P * (o * b) + ((P * o + 1) * V + R * V) + (R + o) * (b + V) + (R + 1) * b := by ring
    omega
  refine ⟨hq, hb, key, fun hs => ?_⟩
  rw [e18] at key hs
  revert key hs hone
  generalize ONE = P
  intro hone key hs
  by_contra hlt
  have h5 : o + 1 ≤ back := by omega
  have h6 : P * (o + 1) ≤ P * back := Nat.mul_le_mul_left _ h5
  rw [Nat.mul_add, Nat.mul_one] at h6
  omega

/-- In a pool of ten million, a thousand are bought for 1001 and bring 1000. -/
example : let p : WeightedPool := ⟨1, 0, [⟨"a", 10000000, 3⟩, ⟨"b", 10000000, 3⟩]⟩
    EqualPair p "a" "b" 10000000 10000000 ∧
    ((p.swapExactOut "a" ⟨"b", 1000⟩ 0) >>= fun r => (r.2.swapExactIn ⟨"b", 1000⟩ "a" 0).map fun s => (r.1, s.1)) =
      .ok (1001, 1000) :=
  ⟨⟨3, rfl, rfl⟩, by decide +kernel⟩

private theorem afterFee_add (fee x y : Nat) : afterFee fee x + afterFee fee y ≤ afterFee fee (x + y) := by
  have hp := Math.one_pos
  have e18 : (10 : Nat) ^ 18 = ONE := rfl
  unfold afterFee
  rw [e18, Nat.add_mul]
  exact Nat.div_add_div_le_add_div

private theorem split_bound {P R U a1 a2 a R' o1 o2 o : Nat} (ho : o1 ≤ U) (hR : R + a1 ≤ R') (ha : a1 + a2 ≤ a)
    (hpos : 0 < R + a) (hpos' : 0 < R + a1)
    (h1 : P * (o1 * (R + a1)) ≤ P * (U * a1) + U * (R + a1))
    (h2 : P * (o2 * (R' + a2)) ≤ P * ((U - o1) * a2) + (U - o1) * (R' + a2))
    (h : U * a / (R + a) ≤ o) : P * (o1 + o2) ≤ P * (o + 1) + 2 * U := by
  obtain ⟨V, rfl⟩ := Nat.exists_eq_add_of_le ho
  rw [Nat.add_sub_cancel_left] at h2
  have hS : 0 < R + a1 + a2 := by omega
  refine Nat.le_of_mul_le_mul_right ?_ hS
  have h3 : P * o2 * (R + a1 + a2) ≤ P * (V * a2) + V * (R + a1 + a2) := by
    obtain ⟨k, rfl⟩ := Nat.exists_eq_add_of_le hR
    rcases Nat.le_total (P * o2) V with hc | hc
    · have := Nat.mul_le_mul_right (R + a1 + a2) hc
      omega
    · obtain ⟨m, hm⟩ := Nat.exists_eq_add_of_le hc
      have e1 : P * (o2 * (R + a1 + k + a2)) = (V + m) * (R + a1 + a2) + (V + m) * k := by rw [← hm]; ring
      have e2 : V * (R + a1 + k + a2) = V * (R + a1 + a2) + V * k := by ring
      have e3 : (V + m) * k = V * k + m * k := by ring
      rw [e1, e2, e3] at h2
      rw [hm]
      omega
  have h4 : (o1 + V) * (a1 + a2) ≤ (o + 1) * (R + a1 + a2) := by
    have h5 : (o1 + V) * a < (o + 1) * (R + a) := by
      have := Nat.lt_mul_div_succ ((o1 + V) * a) hpos
      calc (o1 + V) * a < (R + a) * ((o1 + V) * a / (R + a) + 1) := this
        _ ≤ (R + a) * (o + 1) := Nat.mul_le_mul_left _ (by omega)
        _ = (o + 1) * (R + a) := Nat.mul_comm _ _
    have h6 : (a1 + a2) * (R + a) ≤ a * (R + a1 + a2) := by
      obtain ⟨k, rfl⟩ := Nat.exists_eq_add_of_le ha
      have : (a1 + a2 + k) * (R + a1 + a2) = (a1 + a2) * (R + (a1 + a2 + k)) + k * R := by ring
      omega
    refine Nat.le_of_mul_le_mul_right (c := R + a) ?_ hpos
    calc (o1 + V) * (a1 + a2) * (R + a) = (o1 + V) * ((a1 + a2) * (R + a)) := by ring
      _ ≤ (o1 + V) * (a * (R + a1 + a2)) := Nat.mul_le_mul_left _ h6
      _ = (o1 + V) * a * (R + a1 + a2) := by ring
      _ ≤ (o + 1) * (R + a) * (R + a1 + a2) := Nat.mul_le_mul_right _ h5.le
      _ = (o + 1) * (R + a1 + a2) * (R + a) := by ring
  have h7 : P * ((o1 + V) * (a1 + a2)) ≤ P * ((o + 1) * (R + a1 + a2)) := Nat.mul_le_mul_left _ h4
  have e1 : P * (o1 + o2) * (R + a1 + a2) = P * (o1 * (R + a1)) + P * (o1 * a2) + P * o2 * (R + a1 + a2) := by ring
  have e2 : P * ((o1 + V) * (a1 + a2)) = P * ((o1 + V) * a1) + P * (o1 * a2) + P * (V * a2) := by ring
  have e3 : (P * (o + 1) + 2 * (o1 + V)) * (R + a1 + a2) =
      P * ((o + 1) * (R + a1 + a2)) + (o1 + V) * (R + a1) + (o1 + V) * a2 + o1 * (R + a1 + a2) + V * (R + a1 + a2) := by ring
  omega

/-- **C128 (in parts).** Selling in two parts brings at most one unit and two 10^18-th of the balance more than selling at
once. -/
theorem C128_in_parts {p p' p'' q : WeightedPool} {d d' : Denom} {R U x y fee out1 out2 out : Nat}
    (hp : EqualPair p d d' R U) (hd : d ≠ d') (h1 : p.swapExactIn ⟨d, x⟩ d' fee = .ok (out1, p'))
    (h2 : p'.swapExactIn ⟨d, y⟩ d' fee = .ok (out2, p'')) (h : p.swapExactIn ⟨d, x + y⟩ d' fee = .ok (out, q)) :
    10 ^ 18 * (out1 + out2) ≤ 10 ^ 18 * (out + 1) + 2 * U := by
  obtain ⟨_, hle, hp'⟩ := C128_sale hp hd h1
  obtain ⟨hpos1, _, b1⟩ := sale_bounds hp h1
  obtain ⟨_, _, b2⟩ := sale_bounds hp' h2
  obtain ⟨hpos, b, _⟩ := sale_bounds hp h
  exact split_bound hle (Nat.add_le_add_left (afterFee_le fee x) R) (afterFee_add fee x y) hpos hpos1 b1 b2 b

/-- In a pool of a million, two thousand bring the same in parts and at once.  With 10^21 of each, two units bring 1999 in
parts and 1000 at once. -/
example : let p : WeightedPool := ⟨1, 0, [⟨"a", 1000000, 3⟩, ⟨"b", 1000000, 3⟩]⟩
    let q : WeightedPool := ⟨1, 0, [⟨"a", 1000000000000000000000, 1⟩, ⟨"b", 1000000000000000000000, 1⟩]⟩
    ((p.swapExactIn ⟨"a", 1000⟩ "b" 0) >>= fun r => (r.2.swapExactIn ⟨"a", 1000⟩ "b" 0).map fun s => (r.1, s.1)) =
        .ok (999, 997) ∧
      ((p.swapExactIn ⟨"a", 2000⟩ "b" 0).map (·.1)) = .ok 1996 ∧
      ((q.swapExactIn ⟨"a", 1⟩ "b" 0) >>= fun r => (r.2.swapExactIn ⟨"a", 1⟩ "b" 0).map fun s => (r.1, s.1)) =
        .ok (1000, 999) ∧
      ((q.swapExactIn ⟨"a", 2⟩ "b" 0).map (·.1)) = .ok 1000 := by
  decide +kernel

end Ibcx.Props
