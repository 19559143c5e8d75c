import Verif.Math.ApproxLemmas
/-!
# Properties of the power function (C52, C53)

`val n` is the number denoted by the atomics `n`, i.e. `n / 10^18`.
-/

namespace Ibcx.Props
open Ibcx Ibcx.Math

/-! ### C53 -/

/-- **C53.** For every base strictly between zero and two and every exponent strictly between zero and one the series
evaluation stops, without any abort, with the same result however large the bound on the number of terms above 10^18
is.  For a base up to one the result is at least the exact power and at most one; for a base from one on it is between
one and `1 + exp * (base - 1)`. -/
theorem C53_series_stops_in_range {base exp : Nat} (prec : Nat) (hb0 : 0 < base) (hb : base < 2 * ONE)
    (he0 : 0 < exp) (he : exp < ONE) :
    ∃ r, (∀ fuel, ONE < fuel → powApproxN fuel base exp prec = .ok r) ∧
      (base ≤ ONE → val base ^ val exp ≤ val r ∧ r ≤ ONE) ∧
      (ONE ≤ base → ONE ≤ r ∧ val r ≤ 1 + val exp * (val base - 1)) := by
  have hp := Math.one_pos
  have hA0 : 0 < val exp := by rw [← val_zero]; exact val_lt.2 he0
  have hA1 : val exp < 1 := by rw [← val_one]; exact val_lt.2 he
  have hne : exp ≠ 0 := by omega
  obtain ⟨F, hF⟩ : ∃ F, F = ONE := ⟨_, rfl⟩
  have key : ∃ r, powApproxN (F + 1) base exp prec = .ok r ∧
      (base ≤ ONE → val base ^ val exp ≤ val r ∧ r ≤ ONE) ∧
      (ONE ≤ base → ONE ≤ r ∧ val r ≤ 1 + val exp * (val base - 1)) := by
    unfold powApproxN
    rw [if_neg hne]
    simp only
    rcases Nat.lt_trichotomy base ONE with hlt | heq | hgt
    · -- below one
      have e : absDiffWithSign base ONE = (ONE - base, false) := by
        simp only [absDiffWithSign, if_pos hlt.le]
        rw [decide_eq_false (by omega)]
      rw [e]
      obtain ⟨r, h1, h2, n, h3⟩ := loop_below (prec := prec) he0 he (by omega : ONE - base < ONE) (F + 1) ONE ONE 0
        (by omega) (by omega) le_rfl (by simp [val_one, coef]) (by simp [val_one, part])
      refine ⟨r, h1, fun _ => ⟨?_, h2⟩, fun h => absurd h (by omega)⟩
      have hx : val (ONE - base) = 1 - val base := by rw [val_sub hlt.le, val_one]
      have hB0 : 0 < val base := by rw [← val_zero]; exact val_lt.2 hb0
      have := rpow_le_part hA0 hA1 (val_nonneg (ONE - base)) (by rw [hx]; linarith) n
      rw [hx, sub_sub_cancel] at this
      rw [hx] at h3
      exact this.trans h3
    · -- one
      subst heq
      have e : absDiffWithSign ONE ONE = (0, false) := by
        simp only [absDiffWithSign, le_refl, if_true, Nat.sub_self]
        rw [decide_eq_false (by omega)]
      rw [e]
      refine ⟨ONE, ?_, fun _ => ⟨by rw [val_one, Real.one_rpow], le_rfl⟩, fun _ => ⟨le_rfl, by rw [val_one]; simp⟩⟩
      rw [approx_step he hp (by omega) (by omega) le_rfl]
      split
      · rfl
      · rw [if_pos (by simp [nextTerm])]
    · -- above one
      have e : absDiffWithSign base ONE = (base - ONE, true) := by
        simp only [absDiffWithSign, if_neg (by omega : ¬ base ≤ ONE)]
        rw [decide_eq_true (by omega)]
      rw [e]
      have hx : base - ONE < ONE := by omega
      have hbase : val (base - ONE) = val base - 1 := by rw [val_sub hgt.le, val_one]
      have hB : 0 ≤ val base - 1 := by rw [← hbase]; exact val_nonneg _
      have htriv : val ONE ≤ 1 + val exp * (val base - 1) := by
        rw [val_one]; have := mul_nonneg hA0.le hB; linarith
      rw [approx_step he hx (by omega) (by omega) le_rfl]
      split
      · exact ⟨ONE, rfl, fun h => absurd h (by omega), fun _ => ⟨le_rfl, htriv⟩⟩
      split
      · exact ⟨ONE, rfl, fun h => absurd h (by omega), fun _ => ⟨le_rfl, htriv⟩⟩
      have hc : (absDiffWithSign exp (ONE * (1 - 1))).2 = true := by simp [absDiffWithSign, he0]
      have hlt : nextTerm exp (base - ONE) ONE 1 < ONE := nextTerm_lt he hx le_rfl hp
      have hval := nextTerm_val exp (base - ONE) ONE 0
      have e2 : add64 1 1 = .ok (1 + 1) := rfl
      simp only [hc, if_true, Bool.not_true, Bool.not_false, Bool.false_eq_true, if_false]
      simp only [val_one, Nat.cast_zero, sub_zero, abs_of_pos hA0, zero_add, div_one, one_mul, hbase] at hval
      generalize nextTerm exp (base - ONE) ONE 1 = t at *
      have hU := one_two
      have e1 : dadd ONE t = .ok (ONE + t) := dadd_eq_ok.2 ⟨by omega, rfl⟩
      simp only [e1, e2, ok_bind]
      obtain ⟨r, h1, h2, h3⟩ := loop_above (prec := prec) he hx (top := ONE + t) (by omega) F t (ONE + t) 1 false le_rfl
        (by omega) (by omega) (fun _ => ⟨le_rfl, le_rfl⟩) (by simp)
      refine ⟨r, h1, fun h => absurd h (by omega), fun _ => ⟨h2, ?_⟩⟩
      have := val_le.2 h3
      rw [val_add, val_one] at this
      linarith
  obtain ⟨r, h1, h2, h3⟩ := key
  refine ⟨r, fun fuel hf => ?_, h2, h3⟩
  unfold powApproxN at h1 ⊢
  rw [if_neg hne] at h1 ⊢
  exact approxLoop_mono (by omega) h1

/-- The hypotheses hold for base 0.9 and exponent 0.4. -/
example : 0 < 900000000000000000 ∧ 900000000000000000 < 2 * ONE ∧ 0 < 400000000000000000 ∧
    400000000000000000 < ONE ∧ (powApprox 900000000000000000 400000000000000000 POW_PRECISION).toOption.isSome := by
  decide +kernel

/-- **C53 (exponent zero).** Asked for the exponent zero, the series answers zero instead of one, for every base; the power
function does not ask it and answers one. -/
theorem C53_zero_exponent (base prec : Nat) : powApprox base 0 prec = .ok 0 ∧
    (0 < base → base < 2 * ONE → pow base 0 = .ok ONE) := by
  refine ⟨by unfold powApprox powApproxN; rw [if_pos rfl], fun h0 h1 => ?_⟩
  have hp := Math.one_pos
  unfold pow
  rw [if_neg (by omega), if_neg (by omega), if_neg (by omega), Nat.zero_div, Nat.mul_zero, Nat.sub_zero]
  rfl

example : (powApprox 900000000000000000 0 POW_PRECISION).toOption = some 0 ∧
    (pow 900000000000000000 0).toOption = some ONE := by decide +kernel

/-! ### C52 -/

/-- Close to `B` from below, by at most `k` atomics. -/
private def Near (p : Nat) (B : ℝ) (k : ℕ) : Prop := val p ≤ B ∧ B - k / (ONE : ℝ) ≤ val p

/-- Close to `B` from below, relatively, and at least one. -/
private def NearRel (p : Nat) (B : ℝ) (k : ℕ) : Prop :=
  ONE ≤ p ∧ val p ≤ B ∧ B * (1 - 1 / (ONE : ℝ)) ^ k ≤ val p

theorem val_mul_le (p q : Nat) : val (p * q / ONE) ≤ val p * val q := by
  unfold val
  have hp := oneR_pos
  generalize ONE = P at *
  have : ((p * q / P : ℕ) : ℝ) ≤ p * q / P := by refine Nat.cast_div_le.trans ?_; push_cast; exact le_rfl
  calc ((p * q / P : ℕ) : ℝ) / P ≤ (p * q / P) / P := by gcongr
    _ = p / P * (q / P) := by field_simp

theorem val_mul_ge (p q : Nat) : val p * val q - 1 / (ONE : ℝ) ≤ val (p * q / ONE) := by
  unfold val
  have hp := oneR_pos
  have hp' := Math.one_pos
  generalize ONE = P at *
  have h : p * q < (p * q / P + 1) * P := by
    have := Nat.lt_div_mul_add (a := p * q) hp'
    rw [Nat.add_mul, Nat.one_mul]; exact this
  have h' : (p : ℝ) * q ≤ ((p * q / P : ℕ) + 1) * P := by exact_mod_cast h.le
  rw [sub_le_iff_le_add, ← add_div, div_mul_div_comm, div_le_div_iff₀ (by positivity) hp]
  nlinarith

private theorem near_mul {p q : Nat} {B C : ℝ} {j k : ℕ} (h1 : Near p B j) (h2 : Near q C k) (hB : B ≤ 1) (hC : C ≤ 1)
    (hB0 : 0 ≤ B) : Near (p * q / ONE) (B * C) (j + k + 1) := by
  obtain ⟨a1, a2⟩ := h1
  obtain ⟨b1, b2⟩ := h2
  have hp0 := val_nonneg p
  have hq0 := val_nonneg q
  have hu : (0 : ℝ) ≤ 1 / (ONE : ℝ) := by have := oneR_pos; positivity
  constructor
  · exact (val_mul_le p q).trans (mul_le_mul a1 b1 hq0 hB0)
  · refine le_trans ?_ (val_mul_ge p q)
    push_cast
    rw [div_eq_mul_one_div] at a2 b2 ⊢
    generalize (1 : ℝ) / (ONE : ℝ) = u at *
    have hj : 0 ≤ (j : ℝ) * u := by positivity
    have hk : 0 ≤ (k : ℝ) * u := by positivity
    have h3 : B * C - (j * u + k * u) ≤ val p * val q := by
      have e1 : B * C - val p * val q = B * (C - val q) + (B - val p) * val q := by ring
      have e2 : B * (C - val q) ≤ 1 * (k * u) := mul_le_mul hB (by linarith) (by linarith) zero_le_one
      have e3 : (B - val p) * val q ≤ (j * u) * 1 :=
        mul_le_mul (by linarith) (b1.trans hC) hq0 hj
      linarith
    linarith [h3]

private theorem nearRel_mul {p q : Nat} {B C : ℝ} {j k : ℕ} (h1 : NearRel p B j) (h2 : NearRel q C k) :
    NearRel (p * q / ONE) (B * C) (j + k + 1) := by
  obtain ⟨p1, a1, a2⟩ := h1
  obtain ⟨q1, b1, b2⟩ := h2
  have hp0 := val_nonneg p
  have hq0 := val_nonneg q
  have hu : (0 : ℝ) ≤ 1 / (ONE : ℝ) := by have := oneR_pos; positivity
  have hu1 : 1 / (ONE : ℝ) ≤ 1 := by
    rw [div_le_one oneR_pos]; exact_mod_cast Math.one_pos
  have hpv : 1 ≤ val p := by rw [← val_one]; exact val_le.2 p1
  have hqv : 1 ≤ val q := by rw [← val_one]; exact val_le.2 q1
  refine ⟨?_, (val_mul_le p q).trans (mul_le_mul a1 b1 hq0 (hp0.trans a1)), ?_⟩
  · exact (Nat.le_div_iff_mul_le Math.one_pos).2 (Nat.mul_le_mul p1 q1)
  · have h3 := val_mul_ge p q
    have hpq : 1 ≤ val p * val q := one_le_mul_of_one_le_of_one_le hpv hqv
    generalize (1 : ℝ) / (ONE : ℝ) = u at *
    have h4 : val p * val q * (1 - u) ≤ val (p * q / ONE) := by nlinarith
    refine le_trans ?_ h4
    have e : B * C * (1 - u) ^ (j + k + 1) = (B * (1 - u) ^ j) * (C * (1 - u) ^ k) * (1 - u) := by ring
    rw [e]
    have hB : 0 ≤ B := hp0.trans a1
    have hC : 0 ≤ C := hq0.trans b1
    have h1u : 0 ≤ 1 - u := by linarith
    have : (B * (1 - u) ^ j) * (C * (1 - u) ^ k) ≤ val p * val q := by
      apply mul_le_mul a2 b2 (by positivity) hp0
    exact mul_le_mul_of_nonneg_right this h1u

/-- The loop of `powInt`: total exponent `n = m * i + t`, current base near `B^m`, product so far near `B^t`. -/
private theorem int_loop_below {B : ℝ} (hB0 : 0 ≤ B) (hB : B ≤ 1) :
    ∀ fuel base tmp i m t, i ≤ fuel → 1 ≤ i → 1 ≤ m → Near base (B ^ m) (m - 1) → Near tmp (B ^ t) t →
      ∃ r, powIntLoop fuel base tmp i = .ok r ∧ Near r (B ^ (m * i + t)) (m * i + t) := by
  have hfit : ∀ p k x, Near p (B ^ k) x → p ≤ ONE := by
    intro p k x h
    rw [← val_le, val_one]
    exact h.1.trans (pow_le_one₀ hB0 hB)
  have hU := one_two
  have hmul : ∀ p q, p ≤ ONE → q ≤ ONE → dmul p q = .ok (p * q / ONE) := by
    intro p q hp hq
    refine dmul_eq_ok.2 ⟨?_, rfl⟩
    have : p * q / ONE ≤ ONE := Nat.div_le_of_le_mul (Nat.mul_le_mul hp hq)
    omega
  intro fuel
  induction fuel with
  | zero => intro _ _ i _ _ h1 h2; omega
  | succ fuel ih =>
    intro base tmp i m t hf hi hm hb ht
    have b1 := hfit _ _ _ hb
    have t1 := hfit _ _ _ ht
    rw [powIntLoop]
    split
    · rename_i h
      have : i = 1 := by omega
      subst this
      refine ⟨_, hmul _ _ b1 t1, ?_⟩
      have := near_mul hb ht (pow_le_one₀ hB0 hB) (pow_le_one₀ hB0 hB) (pow_nonneg hB0 _)
      rw [← pow_add] at this
      rw [Nat.mul_one]
      convert this using 1
      omega
    · rename_i h
      have hsq : Near (base * base / ONE) (B ^ (2 * m)) (2 * m - 1) := by
        have := near_mul hb hb (pow_le_one₀ hB0 hB) (pow_le_one₀ hB0 hB) (pow_nonneg hB0 _)
        rw [← pow_add] at this
        convert this using 1
        · congr 1; omega
        · omega
      by_cases hodd : i % 2 ≠ 0
      · rw [if_pos hodd]
        simp only [hmul _ _ t1 b1, hmul _ _ b1 b1, ok_bind]
        have htm : Near (tmp * base / ONE) (B ^ (t + m)) (t + m) := by
          have := near_mul ht hb (pow_le_one₀ hB0 hB) (pow_le_one₀ hB0 hB) (pow_nonneg hB0 _)
          rw [← pow_add] at this
          convert this using 1
          omega
        obtain ⟨r, h1, h2⟩ := ih _ _ (i / 2) (2 * m) (t + m) (by omega) (by omega) (by omega) hsq htm
        refine ⟨r, h1, ?_⟩
        have e : 2 * m * (i / 2) + (t + m) = m * i + t := by
          have : i = 2 * (i / 2) + 1 := by omega
          calc 2 * m * (i / 2) + (t + m) = m * (2 * (i / 2) + 1) + t := by ring
            _ = m * i + t := by rw [← this]
        rwa [e] at h2
      · rw [if_neg hodd]
        simp only [hmul _ _ b1 b1, ok_bind]
        obtain ⟨r, h1, h2⟩ := ih _ _ (i / 2) (2 * m) t (by omega) (by omega) (by omega) hsq ht
        refine ⟨r, h1, ?_⟩
        have e : 2 * m * (i / 2) + t = m * i + t := by
          have : i = 2 * (i / 2) := by omega
          calc 2 * m * (i / 2) + t = m * (2 * (i / 2)) + t := by ring
            _ = m * i + t := by rw [← this]
        rwa [e] at h2

private theorem int_loop_above {B : ℝ} :
    ∀ fuel base tmp i m t r, 1 ≤ i → 1 ≤ m → NearRel base (B ^ m) (m - 1) → NearRel tmp (B ^ t) t →
      powIntLoop fuel base tmp i = .ok r → NearRel r (B ^ (m * i + t)) (m * i + t) := by
  intro fuel
  induction fuel with
  | zero => intro _ _ _ _ _ _ _ _ _ _ h; cases h
  | succ fuel ih =>
    intro base tmp i m t r hi hm hb ht hr
    rw [powIntLoop] at hr
    split at hr
    · rename_i h
      have : i = 1 := by omega
      subst this
      obtain ⟨_, rfl⟩ := dmul_eq_ok.1 hr
      have := nearRel_mul hb ht
      rw [← pow_add] at this
      rw [Nat.mul_one]
      convert this using 1
      omega
    · rename_i h
      have hsq : NearRel (base * base / ONE) (B ^ (2 * m)) (2 * m - 1) := by
        have := nearRel_mul hb hb
        rw [← pow_add] at this
        convert this using 1
        · congr 1; omega
        · omega
      by_cases hodd : i % 2 ≠ 0
      · rw [if_pos hodd] at hr
        simp only [bind_eq_ok, dmul_eq_ok] at hr
        obtain ⟨_, ⟨_, rfl⟩, _, ⟨_, rfl⟩, hr⟩ := hr
        have htm : NearRel (tmp * base / ONE) (B ^ (t + m)) (t + m) := by
          have := nearRel_mul ht hb
          rw [← pow_add] at this
          convert this using 1
          omega
        have h2 := ih _ _ (i / 2) (2 * m) (t + m) r (by omega) (by omega) hsq htm hr
        have e : 2 * m * (i / 2) + (t + m) = m * i + t := by
          have : i = 2 * (i / 2) + 1 := by omega
          calc 2 * m * (i / 2) + (t + m) = m * (2 * (i / 2) + 1) + t := by ring
            _ = m * i + t := by rw [← this]
        rwa [e] at h2
      · rw [if_neg hodd] at hr
        simp only [bind_eq_ok, dmul_eq_ok, Except.ok.injEq] at hr
        obtain ⟨_, rfl, _, ⟨_, rfl⟩, hr⟩ := hr
        have h2 := ih _ _ (i / 2) (2 * m) t r (by omega) (by omega) hsq ht hr
        have e : 2 * m * (i / 2) + t = m * i + t := by
          have : i = 2 * (i / 2) := by omega
          calc 2 * m * (i / 2) + t = m * (2 * (i / 2)) + t := by ring
            _ = m * i + t := by rw [← this]
        rwa [e] at h2

theorem intLoop_below {x n fuel : Nat} (hx : x ≤ ONE) (hn : 1 ≤ n) (hf : n ≤ fuel) :
    ∃ r, powIntLoop fuel x ONE n = .ok r ∧ val r ≤ val x ^ n ∧ val x ^ n - n / (ONE : ℝ) ≤ val r := by
  have hN : Near x (val x ^ 1) (1 - 1) := ⟨by simp, by simp⟩
  have hT : Near ONE (val x ^ 0) 0 := ⟨by simp [val_one], by simp [val_one]⟩
  obtain ⟨r, g1, g2, g3⟩ := int_loop_below (val_nonneg x) (by rw [← val_one]; exact val_le.2 hx) fuel x ONE n 1 0 hf hn
    le_rfl hN hT
  exact ⟨r, g1, by simpa using g2, by simpa using g3⟩

theorem intLoop_above {x n fuel r : Nat} (hx : ONE ≤ x) (hn : 1 ≤ n) (h : powIntLoop fuel x ONE n = .ok r) :
    val r ≤ val x ^ n ∧ val x ^ n * (1 - 1 / (ONE : ℝ)) ^ n ≤ val r := by
  have hN : NearRel x (val x ^ 1) (1 - 1) := ⟨hx, by simp, by simp⟩
  have hT : NearRel ONE (val x ^ 0) 0 := ⟨le_rfl, by simp [val_one], by simp [val_one]⟩
  obtain ⟨_, g2, g3⟩ := int_loop_above fuel x ONE n 1 0 r hn le_rfl hN hT h
  exact ⟨by simpa using g2, by simpa using g3⟩

theorem pow_int_eq {base n : Nat} (hb0 : 0 < base) (hb : base < 2 * ONE) (hn : n ≠ 1) :
    pow base (ONE * n) = powInt base n := by
  have hp := Math.one_pos
  unfold pow
  rw [if_neg (by omega), if_neg (by omega), if_neg, Nat.mul_div_cancel_left _ hp, Nat.sub_self]
  · simp only [if_true]
    generalize powInt base n = e
    cases e <;> rfl
  · intro h
    exact hn (Nat.eq_of_mul_eq_mul_left hp (by rw [h, Nat.mul_one]))

/-- **C52 (base up to one).** For a base in (0,1] and a whole exponent `n` the power is computed without abort; it is
at most the exact power and falls short of it by at most `n` units of the last decimal place. -/
theorem C52_integer_power_below_one {base : Nat} (hb0 : 0 < base) (hb : base ≤ ONE) (n : Nat) :
    ∃ r, pow base (ONE * n) = .ok r ∧ val r ≤ val base ^ n ∧ val base ^ n - n / (ONE : ℝ) ≤ val r := by
  have hp := Math.one_pos
  have hB0 := val_nonneg base
  have hB1 : val base ≤ 1 := by rw [← val_one]; exact val_le.2 hb
  by_cases h1 : n = 1
  · subst h1
    refine ⟨base, ?_, by simp, ?_⟩
    · unfold pow
      rw [if_neg (by omega), if_neg (by omega), if_pos (Nat.mul_one _)]
    · have := oneR_pos
      have h : (0 : ℝ) ≤ ((1 : ℕ) : ℝ) / (ONE : ℝ) := by positivity
      rw [pow_one]; linarith
  · rw [pow_int_eq hb0 (by omega) h1]
    unfold powInt
    split
    · have : n = 0 := by omega
      subst this
      exact ⟨ONE, rfl, by simp [val_one], by simp [val_one]⟩
    · have hN : Near base (val base ^ 1) (1 - 1) := ⟨by simp, by simp⟩
      have hT : Near ONE (val base ^ 0) 0 := ⟨by simp [val_one], by simp [val_one]⟩
      obtain ⟨r, g1, g2, g3⟩ := int_loop_below hB0 hB1 n base ONE n 1 0 le_rfl (by omega) le_rfl hN hT
      refine ⟨r, g1, ?_, ?_⟩
      · simpa using g2
      · simpa using g3

/-- The square of a third, rounded down. -/
example : 333333333333333333 ≤ ONE ∧ (pow 333333333333333333 (ONE * 2)).toOption = some 111111111111111110 := by
  decide +kernel

/-- **C52 (base above one).** For a base in [1,2) and a whole exponent `n`, a result (the computation aborts when it
does not fit 256 bits) is at most the exact power and short of it by at most the factor `(1 - 10^-18)^n`. -/
theorem C52_integer_power_above_one {base : Nat} (hb1 : ONE ≤ base) (hb : base < 2 * ONE) {n r : Nat}
    (h : pow base (ONE * n) = .ok r) :
    val r ≤ val base ^ n ∧ val base ^ n * (1 - 1 / (ONE : ℝ)) ^ n ≤ val r := by
  have hp := Math.one_pos
  have hu : (0 : ℝ) ≤ 1 / (ONE : ℝ) := by have := oneR_pos; positivity
  have hB0 := val_nonneg base
  by_cases h1 : n = 1
  · subst h1
    unfold pow at h
    rw [if_neg (by omega), if_neg (by omega), if_pos (Nat.mul_one _)] at h
    cases h
    refine ⟨by simp, ?_⟩
    rw [pow_one, pow_one]
    nlinarith
  · rw [pow_int_eq (by omega) hb h1] at h
    unfold powInt at h
    split at h
    · have : n = 0 := by omega
      subst this
      cases h
      exact ⟨by simp [val_one], by simp [val_one]⟩
    · have hN : NearRel base (val base ^ 1) (1 - 1) := ⟨hb1, by simp, by simp⟩
      have hT : NearRel ONE (val base ^ 0) 0 := ⟨le_rfl, by simp [val_one], by simp [val_one]⟩
      obtain ⟨_, g2, g3⟩ := int_loop_above n base ONE n 1 0 r (by omega) le_rfl hN hT h
      exact ⟨by simpa using g2, by simpa using g3⟩

/-- Squares and cubes, with their last digits. -/
example : (pow 333333333333333333 (ONE * 2)).toOption = some 111111111111111110 ∧
    (pow 1500000000000000001 (ONE * 3)).toOption = some 3375000000000000006 := by decide +kernel

/-- **C52 (dropped factor).** For an exponent `1 + f` strictly between one and two the computation returns the power
for the exponent `f`: the factor `base` is lost. -/
theorem C52_exponent_between_one_and_two (base f : Nat) (hf0 : 0 < f) (hf : f < ONE) :
    pow base (ONE + f) = pow base f := by
  have hp := Math.one_pos
  unfold pow
  have e1 : (ONE + f) / ONE = 1 := by
    rw [Nat.add_div_left _ hp, Nat.div_eq_of_lt hf]
  have e2 : f / ONE = 0 := Nat.div_eq_of_lt hf
  rw [e1, e2, Nat.mul_one, Nat.mul_zero, Nat.sub_zero, Nat.add_sub_cancel_left, if_neg (by omega : ¬ ONE + f = ONE),
    if_neg (by omega : ¬ f = ONE)]
  simp only [powInt, le_refl, Nat.zero_le, if_true]

/-- The power 0.25 ^ 1.5 is computed as 0.25 ^ 0.5. -/
example : 500000000000000000 < ONE ∧
    (pow 250000000000000000 (ONE + 500000000000000000)).toOption = some 500000021531523965 := by
  decide +kernel

/-- **C52 (all exponents, base up to one).** Whatever the exponent, the result is at most one, and below the exact
power by at most `exp + 1` units of the last decimal place.  (It may be far above, see above.) -/
theorem C52_power_lower_bound {base exp r : Nat} (hb0 : 0 < base) (hb : base ≤ ONE) (h : pow base exp = .ok r) :
    val base ^ val exp ≤ val r + (val exp + 1) / (ONE : ℝ) ∧ r ≤ ONE := by
  have hp := Math.one_pos
  have hpR := oneR_pos
  have hB0 : 0 < val base := by rw [← val_zero]; exact val_lt.2 hb0
  have hB1 : val base ≤ 1 := by rw [← val_one]; exact val_le.2 hb
  have hE0 := val_nonneg exp
  have hu : (0 : ℝ) ≤ 1 / (ONE : ℝ) := by positivity
  have hint : ∀ n ip, powInt base n = .ok ip → val base ^ n - n / (ONE : ℝ) ≤ val ip ∧ ip ≤ ONE := by
    intro n ip hi
    have hn0 : (0 : ℝ) ≤ n / (ONE : ℝ) := by positivity
    by_cases hn : n ≤ 1
    · unfold powInt at hi
      rw [if_pos hn] at hi
      cases hi
      rw [val_one]
      have := pow_le_one₀ hB0.le hB1 (n := n)
      exact ⟨by linarith, le_rfl⟩
    · obtain ⟨r', h1, h2, h3⟩ := C52_integer_power_below_one hb0 hb n
      rw [pow_int_eq hb0 (by omega) (by omega), hi] at h1
      cases h1
      refine ⟨h3, ?_⟩
      rw [← val_le, val_one]
      exact h2.trans (pow_le_one₀ hB0.le hB1)
  unfold pow at h
  rw [if_neg (by omega), if_neg (by omega)] at h
  split at h
  · rename_i he
    cases h
    rw [he, val_one, Real.rpow_one]
    refine ⟨?_, hb⟩
    have : (0 : ℝ) ≤ (1 + 1) / (ONE : ℝ) := by positivity
    linarith
  · simp only [bind_eq_ok] at h
    obtain ⟨ip, hip, h⟩ := h
    obtain ⟨i1, i2⟩ := hint _ _ hip
    have hsplit : val exp = (exp / ONE : ℕ) + val (exp - ONE * (exp / ONE)) := by
      rw [val_sub (Nat.mul_div_le _ _)]
      have : val (ONE * (exp / ONE)) = (exp / ONE : ℕ) := by
        unfold val
        rw [Nat.cast_mul, mul_div_assoc, mul_div_cancel₀ _ hpR.ne']
      rw [this]; ring
    have hfl : exp - ONE * (exp / ONE) < ONE := by
      have := Nat.lt_mul_div_succ exp hp
      rw [Nat.mul_add, Nat.mul_one] at this
      omega
    generalize exp / ONE = n at *
    generalize exp - ONE * n = f at *
    split at h
    · rename_i hf
      cases h
      rw [hf, val_zero, add_zero] at hsplit
      refine ⟨?_, i2⟩
      rw [hsplit, Real.rpow_natCast]
      have : ((n : ℝ) + 1) / ONE = n / ONE + 1 / ONE := add_div _ _ _
      linarith
    · rename_i hf
      simp only [bind_eq_ok, dmul_eq_ok] at h
      obtain ⟨fp, hfp, _, rfl⟩ := h
      obtain ⟨r', g1, g2, _⟩ := C53_series_stops_in_range POW_PRECISION hb0 (by omega) (Nat.pos_of_ne_zero hf) hfl
      have g3 := g1 (ONE + 1) (Nat.lt_succ_self _)
      unfold powApprox at hfp
      rw [g3] at hfp
      cases hfp
      obtain ⟨g4, g5⟩ := g2 hb
      refine ⟨?_, Nat.div_le_of_le_mul (Nat.mul_le_mul i2 g5)⟩
      have h1 := val_mul_ge ip fp
      have hq0 : 0 < val base ^ val f := Real.rpow_pos_of_pos hB0 _
      have hq1 : val base ^ val f ≤ 1 := Real.rpow_le_one hB0.le hB1 (val_nonneg _)
      have h2 : (val base ^ n - n / (ONE : ℝ)) * val base ^ val f ≤ val ip * val fp :=
        (mul_le_mul_of_nonneg_right i1 hq0.le).trans (mul_le_mul_of_nonneg_left g4 (val_nonneg _))
      have h3 : val base ^ val exp = val base ^ n * val base ^ val f := by
        rw [hsplit, Real.rpow_add hB0, Real.rpow_natCast]
      have hn0 : (0 : ℝ) ≤ n / (ONE : ℝ) := by positivity
      have h4 : (n : ℝ) / ONE * val base ^ val f ≤ n / ONE := mul_le_of_le_one_right hn0 hq1
      have h5 : (n : ℝ) / ONE ≤ val exp / ONE := by
        rw [hsplit]; gcongr; have := val_nonneg f; linarith
      have h6 : (val exp + 1) / (ONE : ℝ) = val exp / ONE + 1 / ONE := add_div _ _ _
      rw [h3, h6]
      nlinarith

/-- The hypotheses hold for `0.9 ^ 2.4`. -/
example : (pow 900000000000000000 2400000000000000000).toOption.isSome := by decide +kernel

/-- The full expectation on the power function, for all exponents: within one millionth of the exact power. -/
def C52_full : Prop :=
  ∀ base exp r : Nat, 0 < base → base ≤ ONE → pow base exp = .ok r → |val r - val base ^ val exp| ≤ 1 / 1000000

/-- It fails: the result for `0.5 ^ 1.5` is above 0.7 while the exact power is below 0.5. -/
theorem C52_full_false : ¬ C52_full := by
  intro h
  have h1 : pow 500000000000000000 1500000000000000000 = .ok 707106786923378092 := by decide +kernel
  have h2 := h _ _ _ (by decide) (by decide) h1
  have e1 : val 500000000000000000 = 1 / 2 := by unfold val ONE; norm_num
  have e2 : val 1500000000000000000 = 3 / 2 := by unfold val ONE; norm_num
  have e3 : (7 : ℝ) / 10 ≤ val 707106786923378092 := by unfold val ONE; norm_num
  have e4 : ((1 : ℝ) / 2) ^ ((3 : ℝ) / 2) ≤ (1 / 2) ^ (1 : ℝ) :=
    Real.rpow_le_rpow_of_exponent_ge (by norm_num) (by norm_num) (by norm_num)
  rw [Real.rpow_one] at e4
  rw [e1, e2, abs_le] at h2
  linarith [h2.2]

end Ibcx.Props
