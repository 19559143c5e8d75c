import Mathlib.Analysis.Convex.SpecificFunctions.Basic
import Verif.Math.Accuracy
import Verif.Props.Power
/-!
# Accuracy of the fractional power (C73)

`val n` is the number denoted by the atomics `n`, i.e. `n / 10^18`.  The code stops the series at the first term below
its precision constant, 10^-8.
-/

namespace Ibcx.Props
open Ibcx Ibcx.Math

/-! ### C73 -/

private theorem trace {base exp r : Nat} (hb0 : 0 < base) (hb : base < 2 * ONE) (he0 : 0 < exp) (he : exp < ONE)
    (h : powApprox base exp POW_PRECISION = .ok r) {x : Nat} {up : Bool} (hx : absDiffWithSign base ONE = (x, up)) :
    ∃ n : ℕ, val r = sumAt up exp x n ∧ |bterm (val exp) (arg up x) (n + 1)| ≤ 1 / 10 ^ 8 + (n + 3) * (1 / (ONE : ℝ)) ∧
      n * (1 / (ONE : ℝ)) ≤ 11 / 10 ^ 11 ∧ x < ONE := by
  have hp := Math.one_pos
  have hpR := oneR_pos
  have hxl : x < ONE := by
    have e : (absDiffWithSign base ONE).1 = x := by rw [hx]
    unfold absDiffWithSign at e
    simp only at e
    split at e <;> omega
  have hA0 : 0 < val exp := by rw [← val_zero]; exact val_lt.2 he0
  have hA1 : val exp < 1 := by rw [← val_one]; exact val_lt.2 he
  have hX : |arg up x| < 1 := by rw [arg_abs, ← val_one]; exact val_lt.2 hxl
  unfold powApprox powApproxN at h
  rw [if_neg (by omega), hx] at h
  simp only at h
  obtain ⟨n, _, h1, h2, h3⟩ := loop_trace he0 he hxl up (ONE + 1) 0 ONE r (by simp [termAt])
    (by simpa [termAt, flag] using h)
  have hu : (1 : ℝ) / (ONE : ℝ) = 1 / 10 ^ 18 := by
    have : ONE = 10 ^ 18 := rfl
    rw [this]; norm_num
  have hprec : val POW_PRECISION = 1 / 10 ^ 8 := by
    unfold val
    rw [div_eq_mul_one_div, hu, show POW_PRECISION = 10 ^ 10 from rfl]; norm_num
  refine ⟨n, ?_, ?_, ?_, hxl⟩
  · rw [h1, val_one]; simp [sumAt]
  · have hd := (below_gap (up := up) he0 he hxl n).1
    have hd' := (below_gap (up := up) he0 he hxl (n + 1)).1
    rcases h2 with h2 | h2
    · have hlt := val_lt.2 h2
      rw [hprec] at hlt
      have := bterm_abs_le (y := arg up x) hA0 hA1 n
      have h5 : |arg up x| * |bterm (val exp) (arg up x) n| ≤ |bterm (val exp) (arg up x) n| :=
        mul_le_of_le_one_left (abs_nonneg _) hX.le
      have hu0 : 0 ≤ (1 : ℝ) / (ONE : ℝ) := by positivity
      unfold deficit at hd
      linarith
    · unfold deficit at hd'
      rw [h2, val_zero] at hd'
      push_cast at hd'
      have : (0 : ℝ) ≤ 1 / 10 ^ 8 := by norm_num
      linarith
  · rw [hu]
    rcases Nat.lt_or_ge n 2 with h4 | h4
    · have : (n : ℝ) ≤ 2 := by exact_mod_cast h4.le
      nlinarith
    · obtain ⟨m, rfl⟩ : ∃ m, n = m + 1 := ⟨n - 1, by omega⟩
      have h5 := val_le.2 (h3 m (by omega) (by omega))
      rw [hprec] at h5
      have h6 := deficit_nonneg (up := up) he hxl m
      unfold deficit at h6
      have h7 := bterm_le_inv (y := arg up x) hA0 hA1 hX.le (k := m) (by omega)
      have h8 : 1 / 10 ^ 8 * (m : ℝ) ≤ 1 := le_trans (mul_le_mul_of_nonneg_right (by linarith) (Nat.cast_nonneg m)) h7
      push_cast
      linarith

/-- **C73 (base from one on).** For a base in [1,2) and an exponent strictly between zero and one, the computed power
is within 1.1 units of the eighth decimal place of the exact power. -/
theorem C73_series_accuracy_above {base exp : Nat} (hb1 : ONE ≤ base) (hb : base < 2 * ONE) (he0 : 0 < exp)
    (he : exp < ONE) :
    ∃ r, powApprox base exp POW_PRECISION = .ok r ∧ |val r - val base ^ val exp| ≤ 11 / 10 ^ 9 := by
  have hp := Math.one_pos
  obtain ⟨r, h, _⟩ := C53_series_stops_in_range POW_PRECISION (by omega) hb he0 he
  have h : powApprox base exp POW_PRECISION = .ok r := h (ONE + 1) (Nat.lt_succ_self _)
  refine ⟨r, h, ?_⟩
  have hA0 : 0 < val exp := by rw [← val_zero]; exact val_lt.2 he0
  have hA1 : val exp < 1 := by rw [← val_one]; exact val_lt.2 he
  rcases Nat.eq_or_lt_of_le hb1 with heq | hgt
  · -- base one
    obtain ⟨r', g1, g2, _⟩ := C53_series_stops_in_range POW_PRECISION (base := ONE) hp (by omega) he0 he
    have g1 : powApprox ONE exp POW_PRECISION = .ok r' := g1 (ONE + 1) (Nat.lt_succ_self _)
    rw [← heq] at h ⊢
    rw [h] at g1
    cases g1
    obtain ⟨g3, g4⟩ := g2 le_rfl
    have g5 := val_le.2 g4
    rw [val_one, Real.one_rpow] at g3
    rw [val_one] at g5
    rw [val_one, Real.one_rpow, abs_le]
    constructor <;> linarith
  have hx : absDiffWithSign base ONE = (base - ONE, true) := by
    simp only [absDiffWithSign, if_neg (by omega : ¬ base ≤ ONE)]
    rw [decide_eq_true (by omega)]
  obtain ⟨n, h1, h2, h3, hxl⟩ := trace (by omega) hb he0 he h hx
  have hbase : val base = 1 + arg true (base - ONE) := by
    have : arg true (base - ONE) = val (base - ONE) := rfl
    rw [this, val_sub hgt.le, val_one]; ring
  have hX : arg true (base - ONE) < 1 := by
    rw [← val_one]; exact val_lt.2 hxl
  have hX0 : 0 ≤ arg true (base - ONE) := val_nonneg _
  have htail : |bsum (val exp) (arg true (base - ONE)) n - (1 + arg true (base - ONE)) ^ val exp| ≤
      |bterm (val exp) (arg true (base - ONE)) (n + 1)| := by
    rcases Nat.eq_zero_or_pos n with rfl | hn
    · have hB := _root_.rpow_one_add_le_one_add_mul_self (s := arg true (base - ONE)) (by linarith) hA0.le hA1.le
      have hB1 : 1 ≤ (1 + arg true (base - ONE)) ^ val exp := Real.one_le_rpow (by linarith) hA0.le
      have e : bterm (val exp) (arg true (base - ONE)) (0 + 1) = val exp * arg true (base - ONE) := by
        simp [bterm]
      rw [e, abs_of_nonneg (mul_nonneg hA0.le hX0)]
      simp only [bsum]
      rw [abs_le]
      constructor <;> linarith
    · exact above_tail hA0 hA1 hX0 hX hn
  have hu0 : (1 : ℝ) / (ONE : ℝ) = 1 / 10 ^ 18 := by
    have : ONE = 10 ^ 18 := rfl
    rw [this]; norm_num
  have hgap : |bsum (val exp) (arg true (base - ONE)) n - sumAt true exp (base - ONE) n| ≤
      3 * n * (1 / (ONE : ℝ)) + (n + 2) * (1 / (ONE : ℝ)) := by
    rcases Nat.eq_zero_or_pos n with rfl | hn
    · simp only [bsum, sumAt, sub_self, abs_zero]
      rw [hu0]; norm_num
    · have g := above_gap he0 he hxl hn
      have d := (below_gap (up := true) he0 he hxl n).1
      have d0 := deficit_nonneg (up := true) he hxl n
      have e : bsum (val exp) (arg true (base - ONE)) n - sumAt true exp (base - ONE) n =
          (bsum (val exp) (arg true (base - ONE)) n - sumAt true exp (base - ONE) n -
            sg true n * deficit true exp (base - ONE) n / 2) + sg true n * (deficit true exp (base - ONE) n / 2) := by
        ring
      rw [e]
      refine (abs_add_le _ _).trans (add_le_add g ?_)
      rw [abs_mul, sg_abs, one_mul, abs_of_nonneg (by linarith)]
      linarith
  rw [h1, hbase]
  rw [hu0] at h2 h3 hgap
  rw [abs_le] at htail hgap ⊢
  generalize (1 + arg true (base - ONE)) ^ val exp = L at *
  generalize bsum (val exp) (arg true (base - ONE)) n = S at *
  generalize sumAt true exp (base - ONE) n = V at *
  constructor <;> linarith [htail.1, htail.2, hgap.1, hgap.2]

/-- The square root of 1.21. -/
example : ONE ≤ 1210000000000000000 ∧ 1210000000000000000 < 2 * ONE ∧ 500000000000000000 < ONE ∧
    (powApprox 1210000000000000000 500000000000000000 POW_PRECISION).toOption = some 1100000001309760575 := by
  decide +kernel

/-- **C73 (base up to one).** For a base in (0,1] and an exponent strictly between zero and one, the computed power is
within 1.1 units of the eighth decimal place, divided by the base, of the exact power. -/
theorem C73_series_accuracy_below {base exp : Nat} (hb0 : 0 < base) (hb : base ≤ ONE) (he0 : 0 < exp)
    (he : exp < ONE) :
    ∃ r, powApprox base exp POW_PRECISION = .ok r ∧ |val r - val base ^ val exp| * val base ≤ 11 / 10 ^ 9 := by
  have hp := Math.one_pos
  obtain ⟨r, h, _⟩ := C53_series_stops_in_range POW_PRECISION hb0 (by omega) he0 he
  have h : powApprox base exp POW_PRECISION = .ok r := h (ONE + 1) (Nat.lt_succ_self _)
  refine ⟨r, h, ?_⟩
  have hA0 : 0 < val exp := by rw [← val_zero]; exact val_lt.2 he0
  have hA1 : val exp < 1 := by rw [← val_one]; exact val_lt.2 he
  have hx : absDiffWithSign base ONE = (ONE - base, false) := by
    simp only [absDiffWithSign, if_pos hb]
    rw [decide_eq_false (by omega)]
  obtain ⟨n, h1, h2, h3, hxl⟩ := trace hb0 (by omega) he0 he h hx
  have hv : val (ONE - base) = 1 - val base := by rw [val_sub hb, val_one]
  have harg : arg false (ONE - base) = - (1 - val base) := by
    have : arg false (ONE - base) = - val (ONE - base) := rfl
    rw [this, hv]
  have habs : |arg false (ONE - base)| = 1 - val base := by rw [arg_abs, hv]
  have hB0 : 0 < val base := by rw [← val_zero]; exact val_lt.2 hb0
  have htail := geometric_tail hA0 hA1 (y := arg false (ONE - base)) (by rw [habs]; linarith) n
  rw [habs] at htail
  have hgap := (below_gap (up := false) he0 he hxl n).2.2
  rw [hv] at hgap
  have e1 : 1 + arg false (ONE - base) = val base := by rw [harg]; ring
  rw [e1] at htail
  rw [sub_sub_cancel] at htail hgap
  have hu0 : (1 : ℝ) / (ONE : ℝ) = 1 / 10 ^ 18 := by
    have : ONE = 10 ^ 18 := rfl
    rw [this]; norm_num
  rw [h1]
  rw [hu0] at h2 h3 hgap
  generalize val base ^ val exp = L at *
  have h4 : |sumAt false exp (ONE - base) n - L| ≤
      |bsum (val exp) (arg false (ONE - base)) n - sumAt false exp (ONE - base) n| +
      |bsum (val exp) (arg false (ONE - base)) n - L| := by
    rw [abs_sub_comm (bsum (val exp) (arg false (ONE - base)) n) (sumAt false exp (ONE - base) n)]
    exact abs_sub_le _ _ _
  have h5 := mul_le_mul_of_nonneg_right h4 hB0.le
  rw [add_mul] at h5
  linarith

/-- The square root of 0.25. -/
example : 250000000000000000 ≤ ONE ∧ 500000000000000000 < ONE ∧
    (powApprox 250000000000000000 500000000000000000 POW_PRECISION).toOption = some 500000021531523965 := by
  decide +kernel

/-- **C73 (base in [1/2, 1]).** There the absolute error is at most 2.2 units of the eighth decimal place. -/
theorem C73_series_accuracy_half_partial {base exp : Nat} (hb0 : ONE ≤ 2 * base) (hb : base < 2 * ONE) (he0 : 0 < exp)
    (he : exp < ONE) :
    ∃ r, powApprox base exp POW_PRECISION = .ok r ∧ |val r - val base ^ val exp| ≤ 22 / 10 ^ 9 := by
  have hp := Math.one_pos
  rcases Nat.lt_or_ge base ONE with h | h
  · obtain ⟨r, h1, h2⟩ := C73_series_accuracy_below (by omega) h.le he0 he
    refine ⟨r, h1, ?_⟩
    have : 1 ≤ 2 * val base := by
      rw [← val_one, two_mul, ← val_add]; exact val_le.2 (by omega)
    have := mul_le_mul_of_nonneg_left this (abs_nonneg (val r - val base ^ val exp))
    linarith
  · obtain ⟨r, h1, h2⟩ := C73_series_accuracy_above h hb he0 he
    exact ⟨r, h1, h2.trans (by norm_num)⟩

/-- The square root of 0.81. -/
example : ONE ≤ 2 * 810000000000000000 ∧ 810000000000000000 < 2 * ONE ∧ 500000000000000000 < ONE ∧
    (powApprox 810000000000000000 500000000000000000 POW_PRECISION).toOption = some 900000000680513907 := by
  decide +kernel

/-- The full expectation: for every base the function accepts the error is at most 2.2 units of the eighth decimal
place. -/
def C73_full : Prop :=
  ∀ base exp r : Nat, 0 < base → base < 2 * ONE → 0 < exp → exp < ONE → powApprox base exp POW_PRECISION = .ok r →
    |val r - val base ^ val exp| ≤ 22 / 10 ^ 9

/-- It fails: the computed square root of 0.01 is 0.1000008. -/
theorem C73_full_false : ¬ C73_full := by
  intro h
  have h1 : powApprox 10000000000000000 500000000000000000 POW_PRECISION = .ok 100000825557889451 := by decide +kernel
  have h2 := h _ _ _ (by decide) (by decide) (by decide) (by decide) h1
  have e1 : val 10000000000000000 = (1 / 10) ^ (2 : ℕ) := by unfold val ONE; norm_num
  have e2 : val 500000000000000000 = 1 / 2 := by unfold val ONE; norm_num
  have e3 : val 100000825557889451 = 100000825557889451 / 10 ^ 18 := by unfold val ONE; norm_num
  have e4 : (((1 : ℝ) / 10) ^ (2 : ℕ)) ^ ((1 : ℝ) / 2) = 1 / 10 := by
    rw [← Real.sqrt_eq_rpow, Real.sqrt_sq (by norm_num)]
  rw [e1, e2, e3, e4, abs_le] at h2
  norm_num at h2

/-- The hypotheses hold for the square root of 0.81 and of 1.21. -/
example : (powApprox 810000000000000000 500000000000000000 POW_PRECISION).toOption = some 900000000680513907 ∧
    (powApprox 1210000000000000000 500000000000000000 POW_PRECISION).toOption = some 1100000001309760575 := by decide +kernel

/-! ### C52, all exponents -/

private theorem split_exp (exp : Nat) : val exp = (exp / ONE : ℕ) + val (exp - ONE * (exp / ONE)) ∧
    exp - ONE * (exp / ONE) < ONE := by
  have hp := Math.one_pos
  have hpR := oneR_pos
  constructor
  · rw [val_sub (Nat.mul_div_le _ _)]
    have : val (ONE * (exp / ONE)) = (exp / ONE : ℕ) := by
      unfold val
      rw [Nat.cast_mul, mul_div_assoc, mul_div_cancel₀ _ hpR.ne']
    rw [this]; ring
  · have := Nat.lt_mul_div_succ exp hp
    rw [Nat.mul_add, Nat.mul_one] at this
    omega

private theorem pow_unfold {base exp : Nat} (hb0 : 0 < base) (hb : base < 2 * ONE) (he : exp ≠ ONE) :
    pow base exp = (powInt base (exp / ONE) >>= fun ip =>
      if exp - ONE * (exp / ONE) = 0 then .ok ip
      else powApprox base (exp - ONE * (exp / ONE)) POW_PRECISION >>= fun fp => dmul ip fp) := by
  unfold pow
  rw [if_neg (by omega), if_neg (by omega), if_neg he]

private theorem whole_ne_one {exp : Nat} (he : exp < ONE ∨ 2 * ONE ≤ exp) : exp / ONE ≠ 1 := by
  have hp := Math.one_pos
  rcases he with h | h
  · rw [Nat.div_eq_of_lt h]; decide
  · have := (Nat.le_div_iff_mul_le hp).2 h
    omega

/-- **C52 (any exponent outside (1,2), base up to one).** The power is computed without abort and is within 1.1 units
of the eighth decimal place, divided by the base, of the exact power, plus `exp + 1` units of the last place. -/
theorem C52_power_accuracy_below {base exp : Nat} (hb0 : 0 < base) (hb : base ≤ ONE)
    (he : exp ≤ ONE ∨ 2 * ONE ≤ exp) :
    ∃ r, pow base exp = .ok r ∧
      |val r - val base ^ val exp| * val base ≤ 11 / 10 ^ 9 + (val exp + 1) / (ONE : ℝ) := by
  have hp := Math.one_pos
  have hpR := oneR_pos
  have hB0 : 0 < val base := by rw [← val_zero]; exact val_lt.2 hb0
  have hB1 : val base ≤ 1 := by rw [← val_one]; exact val_le.2 hb
  have hE0 := val_nonneg exp
  have hu : (0 : ℝ) ≤ 1 / (ONE : ℝ) := by positivity
  have hrhs : (0 : ℝ) ≤ 11 / 10 ^ 9 + (val exp + 1) / (ONE : ℝ) := by positivity
  by_cases h1 : exp = ONE
  · refine ⟨base, ?_, ?_⟩
    · unfold pow
      rw [if_neg (by omega), if_neg (by omega), if_pos h1]
    · rw [h1] at hrhs ⊢
      rw [val_one, Real.rpow_one, sub_self, abs_zero, zero_mul]
      rw [val_one] at hrhs
      exact hrhs
  have hn := whole_ne_one (exp := exp) (by omega)
  rw [pow_unfold hb0 (by omega) h1]
  obtain ⟨hs, hfl⟩ := split_exp exp
  generalize exp / ONE = n at *
  generalize exp - ONE * n = f at *
  obtain ⟨ip, i1, i2, i3⟩ := C52_integer_power_below_one hb0 hb n
  rw [pow_int_eq hb0 (by omega) hn] at i1
  simp only [i1, ok_bind]
  have hBn : val base ^ n ≤ 1 := pow_le_one₀ hB0.le hB1
  have hBn0 : 0 < val base ^ n := by positivity
  have hn0 : (0 : ℝ) ≤ n / (ONE : ℝ) := by positivity
  have hf0 := val_nonneg f
  have hsum : (val exp + 1) / (ONE : ℝ) = n / (ONE : ℝ) + val f / ONE + 1 / ONE := by
    rw [hs]; ring
  have hff : 0 ≤ val f / (ONE : ℝ) := by positivity
  have hip : |val ip - val base ^ n| ≤ n / (ONE : ℝ) := by
    rw [abs_le]; constructor <;> linarith
  split
  · rename_i hf
    refine ⟨ip, rfl, ?_⟩
    rw [hs, hf, val_zero, add_zero, Real.rpow_natCast]
    have h2 : |val ip - val base ^ n| * val base ≤ n / (ONE : ℝ) :=
      (mul_le_of_le_one_right (abs_nonneg _) hB1).trans hip
    have h3 : ((n : ℝ) + 1) / (ONE : ℝ) = n / ONE + 1 / ONE := add_div _ _ _
    have h4 : (0 : ℝ) ≤ 11 / 10 ^ 9 := by norm_num
    linarith
  · rename_i hf
    obtain ⟨fp, f1, f2⟩ := C73_series_accuracy_below hb0 hb (Nat.pos_of_ne_zero hf) hfl
    obtain ⟨fp', g1, g2, _⟩ := C53_series_stops_in_range POW_PRECISION hb0 (by omega) (Nat.pos_of_ne_zero hf) hfl
    have g1 : powApprox base f POW_PRECISION = .ok fp' := g1 (ONE + 1) (Nat.lt_succ_self _)
    rw [f1] at g1
    cases g1
    have hfp := (g2 hb).2
    have hipl : ip ≤ ONE := by rw [← val_le, val_one]; exact i2.trans hBn
    have hfit : ip * fp / ONE ≤ ONE := Nat.div_le_of_le_mul (Nat.mul_le_mul hipl hfp)
    have hU := one_two
    refine ⟨ip * fp / ONE, ?_, ?_⟩
    · simp only [f1, ok_bind]
      exact dmul_eq_ok.2 ⟨by omega, rfl⟩
    · rw [hs, Real.rpow_add hB0, Real.rpow_natCast]
      have m1 := val_mul_le ip fp
      have m2 := val_mul_ge ip fp
      have hfv : val fp ≤ 1 := by rw [← val_one]; exact val_le.2 hfp
      have hfv0 := val_nonneg fp
      generalize val base ^ val f = L at *
      have t1 : |val (ip * fp / ONE) - val ip * val fp| ≤ 1 / (ONE : ℝ) := by
        rw [abs_le]; constructor <;> linarith
      have t2 : |val ip * val fp - val base ^ n * L| ≤ n / (ONE : ℝ) + val base ^ n * |val fp - L| := by
        have e : val ip * val fp - val base ^ n * L = (val ip - val base ^ n) * val fp + val base ^ n * (val fp - L) := by
          ring
        rw [e]
        refine (abs_add_le _ _).trans ?_
        rw [abs_mul, abs_mul, abs_of_nonneg hfv0, abs_of_pos hBn0]
        have := mul_le_mul hip hfv hfv0 hn0
        linarith
      have t3 := abs_sub_le (val (ip * fp / ONE)) (val ip * val fp) (val base ^ n * L)
      have t4 : |val (ip * fp / ONE) - val base ^ n * L| ≤ 1 / (ONE : ℝ) + n / (ONE : ℝ) + val base ^ n * |val fp - L| := by
        linarith
      have t5 := mul_le_mul_of_nonneg_right t4 hB0.le
      have t6 : (1 / (ONE : ℝ) + n / (ONE : ℝ)) * val base ≤ 1 / (ONE : ℝ) + n / (ONE : ℝ) :=
        mul_le_of_le_one_right (by linarith) hB1
      have t7 : val base ^ n * (|val fp - L| * val base) ≤ 1 * (11 / 10 ^ 9) :=
        mul_le_mul hBn f2 (mul_nonneg (abs_nonneg _) hB0.le) zero_le_one
      rw [add_mul] at t5
      have h3 : ((n : ℝ) + val f + 1) / (ONE : ℝ) = n / ONE + val f / ONE + 1 / ONE := by ring
      rw [h3]
      nlinarith

/-- The power of 0.9 to 2.4. -/
example : 900000000000000000 ≤ ONE ∧ 2 * ONE ≤ 2400000000000000000 ∧
    (pow 900000000000000000 2400000000000000000).toOption = some 776572527700592640 := by decide +kernel

/-- **C52 (any exponent outside (1,2), base from one on).** A result (the computation aborts when it does not fit 256
bits) is within 1.1 units of the eighth decimal place of the exact power, relatively, plus `exp + 1` units of the last
place, relatively. -/
theorem C52_power_accuracy_above {base exp r : Nat} (hb1 : ONE ≤ base) (hb : base < 2 * ONE)
    (he : exp ≤ ONE ∨ 2 * ONE ≤ exp) (h : pow base exp = .ok r) :
    |val r - val base ^ val exp| ≤ val base ^ val exp * (11 / 10 ^ 9 + (val exp + 1) / (ONE : ℝ)) := by
  have hp := Math.one_pos
  have hpR := oneR_pos
  have hb0 : 0 < base := by omega
  have hB1 : 1 ≤ val base := by rw [← val_one]; exact val_le.2 hb1
  have hB0 : 0 < val base := by linarith
  have hE0 := val_nonneg exp
  have hu : (0 : ℝ) ≤ 1 / (ONE : ℝ) := by positivity
  by_cases h1 : exp = ONE
  · unfold pow at h
    rw [if_neg (by omega), if_neg (by omega), if_pos h1] at h
    cases h
    rw [h1, val_one, Real.rpow_one, sub_self, abs_zero]
    positivity
  have hn := whole_ne_one (exp := exp) (by omega)
  rw [pow_unfold hb0 (by omega) h1] at h
  simp only [bind_eq_ok] at h
  obtain ⟨hs, hfl⟩ := split_exp exp
  generalize exp / ONE = n at *
  generalize exp - ONE * n = f at *
  obtain ⟨ip, i1, h⟩ := h
  rw [← pow_int_eq hb0 (by omega) hn] at i1
  obtain ⟨i2, i3⟩ := C52_integer_power_above_one hb1 hb i1
  have hBn0 : 0 < val base ^ n := by positivity
  have hBn1 : 1 ≤ val base ^ n := one_le_pow₀ hB1
  have hf0 := val_nonneg f
  have hber : 1 - n * (1 / (ONE : ℝ)) ≤ (1 - 1 / (ONE : ℝ)) ^ n := by
    have hu1 : 1 / (ONE : ℝ) ≤ 1 := by rw [div_le_one hpR]; exact_mod_cast hp
    have := one_add_mul_le_pow (a := -(1 / (ONE : ℝ))) (by linarith) n
    rw [← sub_eq_add_neg] at this
    linarith
  have hip : |val ip - val base ^ n| ≤ val base ^ n * (n * (1 / (ONE : ℝ))) := by
    have := mul_le_mul_of_nonneg_left hber hBn0.le
    have hnn : 0 ≤ val base ^ n * (n * (1 / (ONE : ℝ))) := by positivity
    rw [abs_le]; constructor <;> linarith
  have h3 : ((n : ℝ) + val f + 1) / (ONE : ℝ) = n * (1 / (ONE : ℝ)) + val f * (1 / (ONE : ℝ)) + 1 / (ONE : ℝ) := by ring
  have hfu : 0 ≤ val f * (1 / (ONE : ℝ)) := by positivity
  split at h
  · rename_i hf
    cases h
    rw [hs, h3, hf, val_zero, add_zero, Real.rpow_natCast]
    refine hip.trans (mul_le_mul_of_nonneg_left ?_ hBn0.le)
    have h4 : (0 : ℝ) ≤ 11 / 10 ^ 9 := by norm_num
    linarith
  · rename_i hf
    simp only [bind_eq_ok, dmul_eq_ok] at h
    obtain ⟨fp, f1, _, rfl⟩ := h
    obtain ⟨fp', f1', f2⟩ := C73_series_accuracy_above hb1 hb (Nat.pos_of_ne_zero hf) hfl
    rw [f1] at f1'
    cases f1'
    rw [hs, h3, Real.rpow_add hB0, Real.rpow_natCast]
    have m1 := val_mul_le ip fp
    have m2 := val_mul_ge ip fp
    have hL1 : 1 ≤ val base ^ val f := Real.one_le_rpow hB1 hf0
    have hip0 := val_nonneg ip
    generalize val base ^ val f = L at *
    have t1 : |val (ip * fp / ONE) - val ip * val fp| ≤ 1 / (ONE : ℝ) := by
      rw [abs_le]; constructor <;> linarith
    have t2 : |val ip * val fp - val base ^ n * L| ≤
        val base ^ n * (11 / 10 ^ 9) + val base ^ n * (n * (1 / (ONE : ℝ))) * L := by
      have e : val ip * val fp - val base ^ n * L = val ip * (val fp - L) + (val ip - val base ^ n) * L := by
        ring
      rw [e]
      refine (abs_add_le _ _).trans ?_
      rw [abs_mul, abs_mul, abs_of_nonneg hip0, abs_of_nonneg (by linarith : 0 ≤ L)]
      exact add_le_add (mul_le_mul i2 f2 (abs_nonneg _) hBn0.le) (mul_le_mul_of_nonneg_right hip (by linarith))
    have t3 := abs_sub_le (val (ip * fp / ONE)) (val ip * val fp) (val base ^ n * L)
    have hBL : val base ^ n ≤ val base ^ n * L := le_mul_of_one_le_right hBn0.le hL1
    have hBL1 : 1 ≤ val base ^ n * L := hBn1.trans hBL
    generalize (1 : ℝ) / (ONE : ℝ) = u at *
    have s1 : val base ^ n * (11 / 10 ^ 9) ≤ val base ^ n * L * (11 / 10 ^ 9) :=
      mul_le_mul_of_nonneg_right hBL (by norm_num)
    have s2 : u ≤ val base ^ n * L * u := le_mul_of_one_le_left hu hBL1
    have s3 : 0 ≤ val base ^ n * L * (val f * u) := mul_nonneg (by linarith) hfu
    have e2 : val base ^ n * L * (11 / 10 ^ 9 + (n * u + val f * u + u)) =
      val base ^ n * L * (11 / 10 ^ 9) + val base ^ n * (n * u) * L + val base ^ n * L * (val f * u) +
        val base ^ n * L * u := by ring
    rw [e2]
    linarith

/-- The hypotheses hold for `0.9 ^ 2.4` and `1.2 ^ 0.25`. -/
example : (pow 900000000000000000 2400000000000000000).toOption = some 776572527700592640 ∧
    (pow 1200000000000000000 250000000000000000).toOption = some 1046635140406356812 := by decide +kernel

end Ibcx.Props
