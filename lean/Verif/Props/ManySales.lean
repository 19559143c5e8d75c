import Verif.Props.WeightedPair
import Mathlib.Algebra.Order.Ring.Pow
/-!
# C132: no sequence of sales takes anything out of a weighted pool but rounding
-/

namespace Ibcx.Props
open Ibcx Ibcx.Pool Ibcx.Spec Ibcx.Math

/-- One sale keeps the weighted product, in real numbers. -/
private theorem product_kept {R x U V e η : ℝ} {w w' k : ℕ} (hR : 0 < R) (hx : 0 ≤ x) (hxR : x ≤ R) (hU : 0 < U)
    (hw' : 0 < w') (hwK : (w : ℝ) / w' ≤ k) (he : 0 ≤ e) (hη : η = 2 ^ k * (2 * k + 3) * e) (hη1 : η < 1)
    (h : U * ((R / (R + x)) ^ ((w : ℝ) / w') - e * (2 * ((w : ℝ) / w') + 1 + (R + x) / R)) ≤ V) :
    R ^ w * U ^ w' * (1 - η) ^ w' ≤ (R + x) ^ w * V ^ w' := by
  have hRx : 0 < R + x := by linarith
  have hw0 : (0 : ℝ) < w' := by exact_mod_cast hw'
  have hρ : 0 < R / (R + x) := div_pos hR hRx
  have hρ1 : R / (R + x) ≤ 1 := (div_le_one hRx).2 (by linarith)
  have hρ2 : 1 / 2 ≤ R / (R + x) := by rw [div_le_div_iff₀ (by norm_num) hRx]; linarith
  have hg : (R + x) / R ≤ 2 := by rw [div_le_iff₀ hR]; linarith
  set t : ℝ := (R / (R + x)) ^ ((w : ℝ) / w') with ht
  have ht0 : 0 < t := Real.rpow_pos_of_pos hρ _
  set T : ℝ := 2 ^ k with hT
  have hT0 : 0 < T := by positivity
  have htT : 1 ≤ T * t := by
    rw [← div_le_iff₀' hT0]
    calc 1 / T = (1 / 2 : ℝ) ^ ((k : ℕ) : ℝ) := by rw [hT, Real.rpow_natCast, one_div_pow]
      _ ≤ (R / (R + x)) ^ ((k : ℕ) : ℝ) := Real.rpow_le_rpow (by norm_num) hρ2 (Nat.cast_nonneg _)
      _ ≤ t := Real.rpow_le_rpow_of_exponent_ge hρ hρ1 hwK
  have h1 : U * (t * (1 - η)) ≤ V := by
    refine le_trans (mul_le_mul_of_nonneg_left ?_ hU.le) h
    have h2 : e * (2 * ((w : ℝ) / w') + 1 + (R + x) / R) ≤ e * (2 * k + 3) := mul_le_mul_of_nonneg_left (by linarith) he
    have h3 : e * (2 * k + 3) * 1 ≤ e * (2 * k + 3) * (T * t) := mul_le_mul_of_nonneg_left htT (by positivity)
    have h4 : t * (1 - η) = t - e * (2 * k + 3) * (T * t) := by rw [hη]; ring
    linarith
  have hη0 : 0 < 1 - η := by linarith
  have h2 : (U * (t * (1 - η))) ^ w' ≤ V ^ w' := pow_le_pow_left₀ (by positivity) h1 w'
  have h3 : t ^ w' = (R / (R + x)) ^ w := by
    rw [ht, ← Real.rpow_natCast, ← Real.rpow_mul hρ.le, div_mul_cancel₀ _ hw0.ne', Real.rpow_natCast]
  have h4 : (R + x) ^ w * (U * (t * (1 - η))) ^ w' ≤ (R + x) ^ w * V ^ w' := mul_le_mul_of_nonneg_left h2 (by positivity)
  have h5 : (R + x) ^ w * (U * (t * (1 - η))) ^ w' = R ^ w * U ^ w' * (1 - η) ^ w' := by
    rw [mul_pow, mul_pow, h3, div_pow]
    field_simp
  linarith

/-- The rounding of one sale. -/
private noncomputable def rounding (K : ℕ) : ℝ := 2 ^ K * (2 * K + 3) * (1 / 10 ^ 18)

private theorem rounding_nonneg (K : ℕ) : 0 ≤ rounding K := by unfold rounding; positivity

/-- One sale keeps the weighted product. -/
private theorem sale_product {p p' : WeightedPool} {d d' : Denom} {R U w w' K x fee out : Nat}
    (hp : WeightedPair p d d' R U w w') (hd : d ≠ d') (hR : 0 < R) (hU : 0 < U) (hw : WithinRatio K w w') (hx : x ≤ R)
    (hη : rounding K < 1) (h : p.swapExactIn ⟨d, x⟩ d' fee = .ok (out, p')) :
    WeightedPair p' d d' (R + x) (U - out) w w' ∧
      (R : ℝ) ^ w * (U : ℝ) ^ w' * (1 - rounding K) ^ w' ≤ ((R + x : ℕ) : ℝ) ^ w * ((U - out : ℕ) : ℝ) ^ w' := by
  obtain ⟨w0, w0', hwK, _⟩ := hw
  obtain ⟨hle, hp', h1⟩ := C131_sale hp hd hR w0 w0' h
  refine ⟨hp', ?_⟩
  have c0' : (0 : ℝ) < w' := by exact_mod_cast w0'
  have eV : ((U - out : ℕ) : ℝ) = (U : ℝ) - out := Nat.cast_sub hle
  rw [Nat.cast_add]
  refine product_kept (e := 1 / 10 ^ 18) (k := K) (by exact_mod_cast hR) (Nat.cast_nonneg x) (by exact_mod_cast hx)
    (by exact_mod_cast hU) w0' (by rw [div_le_iff₀ c0']; exact_mod_cast hwK) (by positivity) rfl hη ?_
  rw [one_div_mul_eq_div, eV]
  exact h1

private theorem pair_unique {p : WeightedPool} {d d' : Denom} {R U w w' R1 U1 w1 w1' : Nat} (h : WeightedPair p d d' R U w w')
    (h' : WeightedPair p d d' R1 U1 w1 w1') : R = R1 ∧ U = U1 := by
  have e1 := h.1.symm.trans h'.1
  have e2 := h.2.symm.trans h'.2
  simp only [Option.some.injEq, Asset.mk.injEq] at e1 e2
  exact ⟨e1.2.1, e2.2.1⟩

/-- Any number of sales keeps the weighted product. -/
private theorem sales_product {p q : WeightedPool} {d d' : Denom} {R U w w' K n : Nat}
    (hp : WeightedPair p d d' R U w w') (hd : d ≠ d') (hR : 0 < R) (hU : 0 < U) (hw : WithinRatio K w w')
    (hη : rounding K < 1) (h : Sales d d' n p q) :
    ∃ R' U', WeightedPair q d d' R' U' w w' ∧
      (R : ℝ) ^ w * (U : ℝ) ^ w' * (1 - rounding K) ^ (max w w' * n) ≤ (R' : ℝ) ^ w * (U' : ℝ) ^ w' := by
  have h0 : 0 < 1 - rounding K := by linarith
  have h1 : 1 - rounding K ≤ 1 := by linarith [rounding_nonneg K]
  have hRr : (0 : ℝ) < R := by exact_mod_cast hR
  have hUr : (0 : ℝ) < U := by exact_mod_cast hU
  have hpos : ∀ {m R' U' : ℕ}, (R : ℝ) ^ w * (U : ℝ) ^ w' * (1 - rounding K) ^ m ≤ (R' : ℝ) ^ w * (U' : ℝ) ^ w' →
      0 < R' ∧ 0 < U' := by
    intro m R' U' hm
    have h2 : (0 : ℝ) < (R' : ℝ) ^ w * (U' : ℝ) ^ w' := lt_of_lt_of_le (by positivity) hm
    constructor
    · rcases Nat.eq_zero_or_pos R' with e | e
      · rw [e, Nat.cast_zero, zero_pow hw.1.ne', zero_mul] at h2
        exact absurd h2 (lt_irrefl _)
      · exact e
    · rcases Nat.eq_zero_or_pos U' with e | e
      · rw [e, Nat.cast_zero, zero_pow hw.2.1.ne', mul_zero] at h2
        exact absurd h2 (lt_irrefl _)
      · exact e
  have step : ∀ {a b c : ℝ} {m v n : ℕ}, 0 ≤ a → a * (1 - rounding K) ^ (m * n) ≤ b → b * (1 - rounding K) ^ v ≤ c → v ≤ m →
      a * (1 - rounding K) ^ (m * (n + 1)) ≤ c := by
    intro a b c m v n ha h2 h3 hv
    have hb : 0 ≤ b := le_trans (by positivity) h2
    have h4 : (1 - rounding K) ^ m ≤ (1 - rounding K) ^ v := pow_le_pow_of_le_one h0.le h1 hv
    calc a * (1 - rounding K) ^ (m * (n + 1)) = a * (1 - rounding K) ^ (m * n) * (1 - rounding K) ^ m := by
          rw [Nat.mul_succ, pow_add, mul_assoc]
      _ ≤ b * (1 - rounding K) ^ m := mul_le_mul_of_nonneg_right h2 (by positivity)
      _ ≤ b * (1 - rounding K) ^ v := mul_le_mul_of_nonneg_left h4 hb
      _ ≤ c := h3
  induction h with
  | none p =>
    refine ⟨R, U, hp, ?_⟩
    rw [Nat.mul_zero, pow_zero, mul_one]
  | there h hq hx hs ih =>
    obtain ⟨R1, U1, hq1, hm⟩ := ih hp
    obtain ⟨rfl, rfl⟩ := pair_unique hq hq1
    obtain ⟨p1, p2⟩ := hpos hm
    obtain ⟨hq', hm'⟩ := sale_product hq1 hd p1 p2 hw hx hη hs
    exact ⟨_, _, hq', step (by positivity) hm hm' (le_max_right _ _)⟩
  | back h hq hx hs ih =>
    obtain ⟨R1, U1, hq1, hm⟩ := ih hp
    obtain ⟨rfl, rfl⟩ := pair_unique hq hq1
    obtain ⟨p1, p2⟩ := hpos hm
    obtain ⟨hq', hm'⟩ := sale_product (p := _) (d := d') (d' := d) ⟨hq1.2, hq1.1⟩ (fun e => hd e.symm) p2 p1
      ⟨hw.2.1, hw.1, hw.2.2.2, hw.2.2.1⟩ hx hη hs
    refine ⟨_, _, ⟨hq'.2, hq'.1⟩, step (by positivity) hm ?_ (le_max_left _ _)⟩
    rw [mul_comm ((_ : ℝ) ^ w) ((_ : ℝ) ^ w'), mul_comm ((_ : ℝ) ^ w) ((_ : ℝ) ^ w')]
    exact hm'

/-- What is left of one balance when the other has not grown, in real numbers. -/
private theorem balance_kept {R U R' U' η : ℝ} {w w' m K n : ℕ} (hR : 0 ≤ R) (hU : 0 < U) (hR' : 0 ≤ R') (hU' : 0 ≤ U') (hUU : U' ≤ U)
    (hη0 : 0 ≤ η) (hη1 : η < 1) (hw : 0 < w) (hm : m ≤ K * w)
    (h : R ^ w * U ^ w' * (1 - η) ^ (m * n) ≤ R' ^ w * U' ^ w') : R * (1 - K * n * η) ≤ R' := by
  have h0 : 0 < 1 - η := by linarith
  have hUw : 0 < U ^ w' := by positivity
  have h1 : R ^ w * U ^ w' * (1 - η) ^ (m * n) ≤ R' ^ w * U ^ w' :=
    h.trans (mul_le_mul_of_nonneg_left (pow_le_pow_left₀ hU' hUU w') (by positivity))
  have h2 : R ^ w * (1 - η) ^ (m * n) ≤ R' ^ w := by
    refine le_of_mul_le_mul_right ?_ hUw
    calc R ^ w * (1 - η) ^ (m * n) * U ^ w' = R ^ w * U ^ w' * (1 - η) ^ (m * n) := by ring
      _ ≤ _ := h1
  have h3 : (1 - η) ^ (K * n * w) ≤ (1 - η) ^ (m * n) := by
    refine pow_le_pow_of_le_one h0.le (by linarith) ?_
    calc m * n ≤ K * w * n := Nat.mul_le_mul_right n hm
      _ = K * n * w := by ring
  have h4 : (R * (1 - η) ^ (K * n)) ^ w ≤ R' ^ w := by
    rw [mul_pow, ← pow_mul]
    exact (mul_le_mul_of_nonneg_left h3 (by positivity)).trans h2
  have h5 : R * (1 - η) ^ (K * n) ≤ R' := (pow_le_pow_iff_left₀ (by positivity) hR' hw.ne').1 h4
  have h6 := one_add_mul_le_pow (a := -η) (by linarith) (K * n)
  have e1 : (1 : ℝ) + -η = 1 - η := by ring
  rw [e1] at h6
  have h7 : 1 - K * n * η ≤ (1 - η) ^ (K * n) := by
    have : (1 : ℝ) + ((K * n : ℕ) : ℝ) * -η = 1 - K * n * η := by push_cast; ring
    linarith
  exact (mul_le_mul_of_nonneg_left h7 hR).trans h5

private theorem to_nat {R R' K n : ℕ} (h : (R : ℝ) * (1 - K * n * rounding K) ≤ R') :
    10 ^ 18 * R ≤ 10 ^ 18 * R' + n * (K * 2 ^ K * (2 * K + 3)) * R := by
  have hP : (0 : ℝ) < 10 ^ 18 := by positivity
  have h3 := mul_le_mul_of_nonneg_left h hP.le
  have h4 : (10 : ℝ) ^ 18 * (R * (1 - K * n * rounding K)) = 10 ^ 18 * R - n * (K * 2 ^ K * (2 * K + 3)) * R := by
    unfold rounding
    generalize (10 : ℝ) ^ 18 = P at hP
    have : P * (1 / P) = 1 := mul_one_div_cancel hP.ne'
    have h5 : P * (R * (1 - K * n * (2 ^ K * (2 * K + 3) * (1 / P)))) =
        P * R - n * (K * 2 ^ K * (2 * K + 3)) * R * (P * (1 / P)) := by ring
    rw [h5, this, mul_one]
  rw [h4] at h3
  have h6 : (10 : ℝ) ^ 18 * R ≤ 10 ^ 18 * R' + n * (K * 2 ^ K * (2 * K + 3)) * R := by linarith
  exact_mod_cast h6

/-- **C132.** However many sales between two denoms of a weighted pool follow one another, by whomever, in either direction and at
any fees, each of at most as much as the pool has: if in the end the pool has no more of one denom than at first, it has of
the other no less, but for `K * 2^K * (2K + 3)` 10^18-th of the balance for each sale, where `K` bounds the ratio of the
weights. -/
theorem C132_many_sales {p q : WeightedPool} {d d' : Denom} {R U w w' K n : Nat}
    (hp : WeightedPair p d d' R U w w') (hd : d ≠ d') (hR : 0 < R) (hU : 0 < U) (hw : WithinRatio K w w')
    (h : Sales d d' n p q) :
    ∃ R' U', WeightedPair q d d' R' U' w w' ∧
      (U' ≤ U → 10 ^ 18 * R ≤ 10 ^ 18 * R' + n * (K * 2 ^ K * (2 * K + 3)) * R) ∧
      (R' ≤ R → 10 ^ 18 * U ≤ 10 ^ 18 * U' + n * (K * 2 ^ K * (2 * K + 3)) * U) := by
  have hK : 1 ≤ K := by
    rcases Nat.eq_zero_or_pos K with e | e
    · have := hw.2.2.1
      rw [e, Nat.zero_mul] at this
      have := hw.1
      omega
    · exact e
  have hmw : max w w' ≤ K * w := max_le (Nat.le_mul_of_pos_left _ hK) hw.2.2.2
  have hmw' : max w w' ≤ K * w' := max_le hw.2.2.1 (Nat.le_mul_of_pos_left _ hK)
  rcases lt_or_ge (rounding K) 1 with hη | hη
  · obtain ⟨R', U', hq, hm⟩ := sales_product hp hd hR hU hw hη h
    refine ⟨R', U', hq, fun hle => to_nat ?_, fun hle => to_nat ?_⟩
    · exact balance_kept (Nat.cast_nonneg R) (by exact_mod_cast hU) (Nat.cast_nonneg R') (Nat.cast_nonneg U')
        (by exact_mod_cast hle) (rounding_nonneg K) hη hw.1 hmw hm
    · rw [mul_comm ((R : ℝ) ^ w), mul_comm ((R' : ℝ) ^ w)] at hm
      exact balance_kept (Nat.cast_nonneg U) (by exact_mod_cast hR) (Nat.cast_nonneg U') (Nat.cast_nonneg R')
        (by exact_mod_cast hle) (rounding_nonneg K) hη hw.2.1 hmw' hm
  · have hq : ∃ R' U', WeightedPair q d d' R' U' w w' ∧ (n = 0 → R' = R ∧ U' = U) := by
      clear hR hU
      induction h with
      | none p => exact ⟨R, U, hp, fun _ => ⟨rfl, rfl⟩⟩
      | there h hq hx hs ih =>
        obtain ⟨R1, U1, hq1, _⟩ := ih hp
        exact ⟨_, _, (afterSale hq1 hd hs).2.2, fun e => (by cases e)⟩
      | back h hq hx hs ih =>
        obtain ⟨R1, U1, hq1, _⟩ := ih hp
        have := (afterSale (d := d') (d' := d) ⟨hq1.2, hq1.1⟩ (fun e => hd e.symm) hs).2.2
        exact ⟨_, _, ⟨this.2, this.1⟩, fun e => (by cases e)⟩
    obtain ⟨R', U', hq, h0⟩ := hq
    have big : ∀ {A A' : ℕ}, (n = 0 → A' = A) → (A : ℝ) * (1 - K * n * rounding K) ≤ A' := by
      intro A A' hA
      rcases Nat.eq_zero_or_pos n with e | e
      · rw [hA e, e, Nat.cast_zero, mul_zero, zero_mul, sub_zero, mul_one]
      · have h1 : (1 : ℝ) ≤ K * n := by exact_mod_cast Nat.mul_pos hK e
        have h2 : (1 : ℝ) * 1 ≤ K * n * rounding K := mul_le_mul h1 hη zero_le_one (by linarith)
        have h3 : (A : ℝ) * (1 - K * n * rounding K) ≤ 0 :=
          mul_nonpos_of_nonneg_of_nonpos (Nat.cast_nonneg A) (by linarith)
        exact h3.trans (Nat.cast_nonneg A')
    exact ⟨R', U', hq, fun _ => to_nat (big fun e => (h0 e).1), fun _ => to_nat (big fun e => (h0 e).2)⟩

/-- Eighty to twenty: a sale and a sale back of the proceeds. -/
example : let p : WeightedPool := ⟨1, 0, [⟨"a", 10000000, 8⟩, ⟨"b", 10000000, 2⟩]⟩
    let q : WeightedPool := ⟨1, 0, [⟨"a", 10000001, 8⟩, ⟨"b", 10000000, 2⟩]⟩
    WeightedPair p "a" "b" 10000000 10000000 8 2 ∧ WithinRatio 4 8 2 ∧ Sales "a" "b" 2 p q ∧
      2 * (4 * 2 ^ 4 * (2 * 4 + 3)) * 10000000 < 10 ^ 18 := by
  refine ⟨⟨rfl, rfl⟩, by unfold WithinRatio; decide, ?_, by decide⟩
  refine .back (q := ⟨1, 0, [⟨"a", 11000000, 8⟩, ⟨"b", 6830135, 2⟩]⟩) (R := 11000000) (U := 6830135) (w := 8) (w' := 2) (x := 3169865)
    (fee := 0) (out := 999999) ?_ ⟨rfl, rfl⟩ (by decide) (by decide +kernel)
  exact .there (R := 10000000) (U := 10000000) (w := 8) (w' := 2) (x := 1000000) (fee := 0) (out := 3169865) (.none _) ⟨rfl, rfl⟩
    (by decide) (by decide +kernel)

/-- **C132 (nothing is won).** While the rounding of all sales together is less than a unit, whoever takes something of one denom out
of the pool by sales leaves something of the other: if both balances are no more than at first, both are as at first. -/
theorem C132_nothing_won {p q : WeightedPool} {d d' : Denom} {R U R' U' w w' K n : Nat}
    (hp : WeightedPair p d d' R U w w') (hd : d ≠ d') (hR : 0 < R) (hU : 0 < U) (hw : WithinRatio K w w')
    (h : Sales d d' n p q) (hq : WeightedPair q d d' R' U' w w')
    (h1 : n * (K * 2 ^ K * (2 * K + 3)) * R < 10 ^ 18) (h2 : n * (K * 2 ^ K * (2 * K + 3)) * U < 10 ^ 18)
    (hR' : R' ≤ R) (hU' : U' ≤ U) : R' = R ∧ U' = U := by
  obtain ⟨R1, U1, hq1, h3, h4⟩ := C132_many_sales hp hd hR hU hw h
  obtain ⟨rfl, rfl⟩ := pair_unique hq hq1
  have g : ∀ {P E A B : ℕ}, P * A ≤ P * B + E → E < P → B ≤ A → B = A := by
    intro P E A B a b c
    by_contra hne
    have h5 : P * (B + 1) ≤ P * A := Nat.mul_le_mul_left _ (by omega)
    rw [Nat.mul_add, Nat.mul_one] at h5
    omega
  exact ⟨g (h3 hU') h1 hR', g (h4 hR') h2 hU'⟩

/-- A sale and a sale back after which the pool is as before. -/
example : let p : WeightedPool := ⟨1, 0, [⟨"a", 1000000, 3⟩, ⟨"b", 1000000, 3⟩]⟩
    WeightedPair p "a" "b" 1000000 1000000 3 3 ∧ WithinRatio 1 3 3 ∧ Sales "a" "b" 2 p p ∧
      2 * (1 * 2 ^ 1 * (2 * 1 + 3)) * 1000000 < 10 ^ 18 := by
  refine ⟨⟨rfl, rfl⟩, by unfold WithinRatio; decide, ?_, by decide⟩
  refine .back (q := ⟨1, 0, [⟨"a", 2000000, 3⟩, ⟨"b", 500000, 3⟩]⟩) (R := 2000000) (U := 500000) (w := 3) (w' := 3) (x := 500000)
    (fee := 0) (out := 1000000) ?_ ⟨rfl, rfl⟩ (by decide) (by decide +kernel)
  exact .there (R := 1000000) (U := 1000000) (w := 3) (w' := 3) (x := 1000000) (fee := 0) (out := 500000) (.none _) ⟨rfl, rfl⟩
    (by decide) (by decide +kernel)

/-- In large pools rounding can be won: of 10^21 of each, two sales of one unit leave less of both. -/
example : Sales "a" "b" 2 ⟨1, 0, [⟨"a", 1000000000000000000000, 3⟩, ⟨"b", 1000000000000000000000, 3⟩]⟩
    ⟨1, 0, [⟨"a", 999999999999999999001, 3⟩, ⟨"b", 999999999999999999001, 3⟩]⟩ := by
  refine .back (q := ⟨1, 0, [⟨"a", 1000000000000000000001, 3⟩, ⟨"b", 999999999999999999000, 3⟩]⟩) (R := 1000000000000000000001)
    (U := 999999999999999999000) (w := 3) (w' := 3) (x := 1) (fee := 0) (out := 1000) ?_ ⟨rfl, rfl⟩ (by decide) (by decide +kernel)
  exact .there (R := 1000000000000000000000) (U := 1000000000000000000000) (w := 3) (w' := 3) (x := 1) (fee := 0) (out := 1000)
    (.none _) ⟨rfl, rfl⟩ (by decide) (by decide +kernel)

end Ibcx.Props
