import Verif.Spec.Series
import Verif.Math.Accuracy
/-!
# C53: the sum that the power function computes
-/

namespace Ibcx.Props
open Ibcx Ibcx.Math Ibcx.Spec

private theorem apart_eq (a b : Nat) : apart a b = (absDiffWithSign a b).1 := by
  unfold apart absDiffWithSign
  simp only
  split
  · rw [max_eq_right (by assumption), min_eq_left (by assumption)]
  · rw [max_eq_left (by omega), min_eq_right (by omega)]

private theorem term_eq (base exp : Nat) (k : Nat) : seriesTerm base exp k = termAt exp (absDiffWithSign base ONE).1 k := by
  have e18 : (10 : Nat) ^ 18 = ONE := rfl
  induction k with
  | zero => exact e18
  | succ k ih => rw [seriesTerm, termAt, nextTerm, Nat.add_sub_cancel, ih, e18, apart_eq, apart_eq]

private theorem sign_eq (base k : Nat) : ((seriesSign base k : ℤ) : ℝ) = sg (decide (ONE < base)) k := by
  have e18 : (10 : Nat) ^ 18 = ONE := rfl
  unfold seriesSign sg flag
  rw [e18]
  rcases Nat.eq_zero_or_pos k with h | h
  · subst h
    by_cases hb : ONE < base
    · rw [decide_eq_true hb]; simp
    · rw [decide_eq_false hb]; simp
  · rw [if_neg (by omega)]
    by_cases hb : ONE < base
    · rw [decide_eq_true hb, if_neg (by omega)]
      by_cases h2 : k % 2 = 0
      · simp [h2]; omega
      · simp [h2]
    · rw [decide_eq_false hb, if_pos (by omega)]
      have : 1 ≤ k := h
      simp [this]

private theorem sum_eq (base exp : Nat) (n : Nat) :
    sumAt (decide (ONE < base)) exp (absDiffWithSign base ONE).1 n =
      ((∑ k ∈ Finset.range (n + 1), seriesSign base k * (seriesTerm base exp k : ℤ) : ℤ) : ℝ) / (ONE : ℝ) := by
  have hp := oneR_pos
  induction n with
  | zero =>
    have e0 : seriesTerm base exp 0 = ONE := rfl
    rw [Finset.sum_range_one, e0]
    have e1 : seriesSign base 0 = 1 := rfl
    rw [e1, one_mul, Int.cast_natCast, div_self hp.ne', sumAt]
  | succ n ih =>
    rw [Finset.sum_range_succ, Int.cast_add, add_div, ← ih, sumAt, Int.cast_mul, sign_eq, Int.cast_natCast, term_eq]
    unfold val
    rw [mul_div_assoc]

/-- **C53 (the sum).** The value computed for a base strictly between zero and two and an exponent strictly between zero and one
is exactly the sum of the terms of the binomial series, each rounded down to 18 digits, up to and with the first term
below 10^-8. -/
theorem C53_exact_sum {base exp r : Nat} (hb0 : 0 < base) (hb : base < 2 * 10 ^ 18) (he0 : 0 < exp) (he : exp < 10 ^ 18)
    (h : powApprox base exp POW_PRECISION = .ok r) :
    ∃ m, seriesTerm base exp m < 10 ^ 10 ∧ (∀ k < m, 10 ^ 10 ≤ seriesTerm base exp k) ∧
      (r : ℤ) = ∑ k ∈ Finset.range (m + 1), seriesSign base k * (seriesTerm base exp k : ℤ) := by
  have e18 : (10 : Nat) ^ 18 = ONE := rfl
  have e10 : (10 : Nat) ^ 10 = POW_PRECISION := rfl
  rw [e18] at hb he
  rw [e10]
  have hp := Math.one_pos
  have hpR := oneR_pos
  have hx : (absDiffWithSign base ONE).1 < ONE := by
    unfold absDiffWithSign
    simp only
    split <;> omega
  have hup : (absDiffWithSign base ONE).2 = decide (ONE < base) := rfl
  unfold powApprox powApproxN at h
  rw [if_neg (by omega)] at h
  simp only [hup] at h
  obtain ⟨n, _, h1, h2, h3⟩ := loop_trace he0 he hx (decide (ONE < base)) (ONE + 1) 0 ONE r (by simp [termAt])
    (by simpa [termAt, flag] using h)
  rw [val_one, sumAt, sum_eq] at h1
  have h4 : (r : ℤ) = ∑ k ∈ Finset.range (n + 1), seriesSign base k * (seriesTerm base exp k : ℤ) := by
    have h5 : val r = ((∑ k ∈ Finset.range (n + 1), seriesSign base k * (seriesTerm base exp k : ℤ) : ℤ) : ℝ) / (ONE : ℝ) := by
      rw [h1]; ring
    unfold val at h5
    rw [div_left_inj' hpR.ne'] at h5
    exact_mod_cast h5
  simp only [← term_eq] at h2 h3
  rcases Nat.lt_or_ge (seriesTerm base exp n) POW_PRECISION with hlt | hge
  · exact ⟨n, hlt, fun k hk => h3 k (Nat.zero_le k) hk, h4⟩
  · have hz : seriesTerm base exp (n + 1) = 0 := h2.resolve_left (by omega)
    refine ⟨n + 1, ?_, fun k hk => ?_, ?_⟩
    · rw [hz]; exact Nat.pos_of_ne_zero (by unfold POW_PRECISION; decide)
    · rcases Nat.lt_or_ge k n with hkn | hkn
      · exact h3 k (Nat.zero_le k) hkn
      · rw [show k = n by omega]
        exact hge
    · rw [Finset.sum_range_succ, hz, Nat.cast_zero, mul_zero, add_zero]
      exact h4

/-- The square root of 0.9: the terms fall below 10^-8 at the seventh after the leading one. -/
example : (powApprox 900000000000000000 500000000000000000 POW_PRECISION).toOption = some 948683298193359375 ∧
    seriesTerm 900000000000000000 500000000000000000 6 = 20507812500 ∧
    seriesTerm 900000000000000000 500000000000000000 7 = 1611328125 ∧
    (∑ k ∈ Finset.range 8, seriesSign 900000000000000000 k * (seriesTerm 900000000000000000 500000000000000000 k : ℤ)) =
      948683298193359375 := by decide +kernel

end Ibcx.Props
