import Mathlib.Analysis.Analytic.Binomial
import Verif.Math.Series
/-!
# The binomial series

Distance of the partial sums from the power.  Not part of the model.
-/

namespace Ibcx.Math
open Finset

/-- The `k`-th term of the series of `(1 + y)^a`.  Proof device for `/repo/packages/math/src/pow.rs:71-122`. -/
noncomputable def bterm (a y : ℝ) : ℕ → ℝ
  | 0 => 1
  | k + 1 => bterm a y k * ((a - k) * y) / (k + 1)

/-- The partial sum up to the `n`-th term.  Proof device for `/repo/packages/math/src/pow.rs:71-122`. -/
noncomputable def bsum (a y : ℝ) : ℕ → ℝ
  | 0 => 1
  | n + 1 => bsum a y n + bterm a y (n + 1)

theorem bterm_eq (a y : ℝ) (k : ℕ) : bterm a y k = Ring.choose a k * y ^ k := by
  induction k with
  | zero => simp [bterm]
  | succ k ih =>
    rw [bterm, ih, Ring.choose_eq_smul, Ring.choose_eq_smul, descPochhammer_succ_right, Nat.factorial_succ]
    simp only [Polynomial.smeval_mul, Polynomial.smeval_sub, Polynomial.smeval_X, Polynomial.smeval_natCast, smul_eq_mul]
    have hk : (k : ℝ) + 1 ≠ 0 := by positivity
    have hf : ((k.factorial : ℕ) : ℝ) ≠ 0 := by positivity
    push_cast
    field_simp
    simp
    ring

theorem bsum_tendsto {a y : ℝ} (hy : |y| < 1) : Filter.Tendsto (bsum a y) Filter.atTop (nhds ((1 + y) ^ a)) := by
  have h := (Real.one_add_rpow_hasFPowerSeriesOnBall_zero (a := a)).hasSum (y := y) (by
    rw [← ENNReal.ofReal_one, Metric.eball_ofReal]
    simpa using hy)
  simp only [zero_add, binomialSeries_apply, List.ofFn_const, List.prod_replicate, smul_eq_mul] at h
  have h2 := h.tendsto_sum_nat
  have h3 := (Filter.tendsto_add_atTop_iff_nat 1).2 h2
  refine h3.congr ?_
  intro n
  induction n with
  | zero => simp [bsum]
  | succ n ih => rw [Finset.sum_range_succ, ih, bsum, bterm_eq]

theorem bterm_abs (a y : ℝ) (k : ℕ) : |bterm a y k| = coef a k * |y| ^ k := by
  induction k with
  | zero => simp [bterm, coef]
  | succ k ih =>
    rw [bterm, abs_div, abs_mul, abs_mul, ih, coef, pow_succ, abs_of_pos (by positivity : (0 : ℝ) < k + 1)]
    ring

/-- The terms from the first on fall at least like the powers of `y`. -/
theorem bterm_abs_succ {a y : ℝ} (h0 : 0 < a) (h1 : a < 1) {k : ℕ} (hk : 1 ≤ k) :
    |bterm a y (k + 1)| = |bterm a y k| * ((k - a) * |y|) / (k + 1) := by
  have hk' : (1 : ℝ) ≤ k := by exact_mod_cast hk
  rw [bterm, abs_div, abs_mul, abs_mul, abs_of_pos (by positivity : (0 : ℝ) < k + 1), abs_of_neg (by linarith : a - k < 0)]
  ring

theorem bterm_abs_le {a y : ℝ} (h0 : 0 < a) (h1 : a < 1) (k : ℕ) : |bterm a y (k + 1)| ≤ |y| * |bterm a y k| := by
  rw [bterm, abs_div, abs_mul, abs_mul, abs_of_pos (by positivity : (0 : ℝ) < k + 1), div_le_iff₀ (by positivity)]
  have hk : (0 : ℝ) ≤ k := Nat.cast_nonneg k
  have : |a - k| ≤ k + 1 := by rw [abs_le]; constructor <;> linarith
  calc |bterm a y k| * (|a - k| * |y|) ≤ |bterm a y k| * ((k + 1) * |y|) := by gcongr
    _ = |y| * |bterm a y k| * (k + 1) := by ring

theorem bterm_le_inv {a y : ℝ} (h0 : 0 < a) (h1 : a < 1) (hy : |y| ≤ 1) {k : ℕ} (hk : 1 ≤ k) : |bterm a y k| * k ≤ 1 := by
  induction k, hk using Nat.le_induction with
  | base =>
    simp only [bterm, Nat.cast_zero, sub_zero, one_mul, zero_add, div_one, Nat.cast_one, mul_one, abs_mul, abs_of_pos h0]
    have := abs_nonneg y
    nlinarith
  | succ k hk ih =>
    have hk' : (1 : ℝ) ≤ k := by exact_mod_cast hk
    rw [bterm_abs_succ h0 h1 hk]
    push_cast
    rw [div_mul_cancel₀ _ (by positivity)]
    refine le_trans ?_ ih
    apply mul_le_mul_of_nonneg_left _ (abs_nonneg _)
    have := abs_nonneg y
    nlinarith

/-- Above one the signs alternate from the first term on. -/
theorem above_tail {a y : ℝ} (h0 : 0 < a) (h1 : a < 1) (hy0 : 0 ≤ y) (hy : y < 1) {n : ℕ} (hn : 1 ≤ n) :
    |bsum a y n - (1 + y) ^ a| ≤ |bterm a y (n + 1)| := by
  have alt : ∀ k, 1 ≤ k → bterm a y k * bterm a y (k + 1) ≤ 0 := by
    intro k hk
    have hk' : (1 : ℝ) ≤ k := by exact_mod_cast hk
    rw [bterm, show bterm a y k * (bterm a y k * ((a - k) * y) / (k + 1)) =
      -((bterm a y k) ^ 2 * ((k - a) * y) / (k + 1)) by ring]
    have : 0 ≤ (bterm a y k) ^ 2 * ((k - a) * y) / (k + 1) := by
      have : 0 ≤ (k : ℝ) - a := by linarith
      positivity
    linarith
  -- partial sums stay between
  have key : ∀ d n, 1 ≤ n → 0 ≤ bterm a y (n + 1) * (bsum a y (n + d) - bsum a y n) ∧
      |bsum a y (n + d) - bsum a y n| ≤ |bterm a y (n + 1)| := by
    intro d
    induction d with
    | zero => intro n _; simp
    | succ d ih =>
      intro n hn
      have e : n + (d + 1) = n + 1 + d := by omega
      obtain ⟨i1, i2⟩ := ih (n + 1) (by omega)
      rw [e]
      have e2 : bsum a y (n + 1 + d) - bsum a y n = bterm a y (n + 1) + (bsum a y (n + 1 + d) - bsum a y (n + 1)) := by
        rw [show bsum a y (n + 1) = bsum a y n + bterm a y (n + 1) from rfl]; ring
      rw [e2]
      generalize bsum a y (n + 1 + d) - bsum a y (n + 1) = z at *
      have h3 := alt (n + 1) (by omega)
      have h4 : |bterm a y (n + 1 + 1)| ≤ |bterm a y (n + 1)| := by
        refine (bterm_abs_le h0 h1 _).trans ?_
        rw [abs_of_nonneg hy0]
        exact mul_le_of_le_one_left (abs_nonneg _) hy.le
      generalize bterm a y (n + 1 + 1) = q at *
      generalize bterm a y (n + 1) = p at *
      -- z has the sign of q, opposite to p
      have hpz : p * z ≤ 0 := by
        rcases eq_or_ne q 0 with rfl | hq
        · have : z = 0 := by
            have : |z| ≤ 0 := by simpa using i2
            exact abs_nonpos_iff.1 this
          simp [this]
        · by_contra hc
          push Not at hc
          have hz0 : z ≠ 0 := by rintro rfl; simp at hc
          have h5 : 0 < q * z := lt_of_le_of_ne i1 (mul_ne_zero hq hz0).symm
          have h6 : 0 < q * z * (p * z) := mul_pos h5 hc
          have h7 : q * z * (p * z) = p * q * (z * z) := by ring
          have h8 : p * q * (z * z) ≤ 0 := mul_nonpos_of_nonpos_of_nonneg h3 (mul_self_nonneg z)
          linarith
      have hz : |z| ≤ |p| := i2.trans h4
      constructor
      · rcases abs_cases p with ⟨hp, hp'⟩ | ⟨hp, hp'⟩ <;> rcases abs_cases z with ⟨hz1, hz'⟩ | ⟨hz1, hz'⟩ <;> nlinarith
      · rcases abs_cases p with ⟨hp, hp'⟩ | ⟨hp, hp'⟩ <;> rcases abs_cases z with ⟨hz1, hz'⟩ | ⟨hz1, hz'⟩ <;>
          rw [abs_le] <;> constructor <;> nlinarith
  have ht : Filter.Tendsto (fun d => |bsum a y (n + d) - bsum a y n|) Filter.atTop (nhds |(1 + y) ^ a - bsum a y n|) := by
    have h2 : Filter.Tendsto (fun d => bsum a y (n + d)) Filter.atTop (nhds ((1 + y) ^ a)) := by
      have := (Filter.tendsto_add_atTop_iff_nat n).2 (bsum_tendsto (a := a) (y := y) (by rwa [abs_of_nonneg hy0]))
      simpa [Nat.add_comm] using this
    exact (h2.sub_const _).abs
  rw [abs_sub_comm]
  exact le_of_tendsto' ht fun d => (key d n hn).2

/-- The tail is at most a geometric series. -/
theorem geometric_tail {a y : ℝ} (h0 : 0 < a) (h1 : a < 1) (hy : |y| < 1) (n : ℕ) :
    |bsum a y n - (1 + y) ^ a| * (1 - |y|) ≤ |bterm a y (n + 1)| := by
  have key : ∀ d n, |bsum a y (n + d) - bsum a y n| * (1 - |y|) ≤ |bterm a y (n + 1)| := by
    intro d
    induction d with
    | zero => intro n; simp
    | succ d ih =>
      intro n
      have e : n + (d + 1) = n + 1 + d := by omega
      have i2 := ih (n + 1)
      rw [e]
      have e2 : bsum a y (n + 1 + d) - bsum a y n = bterm a y (n + 1) + (bsum a y (n + 1 + d) - bsum a y (n + 1)) := by
        rw [show bsum a y (n + 1) = bsum a y n + bterm a y (n + 1) from rfl]; ring
      rw [e2]
      have h4 : |bterm a y (n + 1 + 1)| ≤ |y| * |bterm a y (n + 1)| := bterm_abs_le h0 h1 _
      have h5 := mul_le_mul_of_nonneg_right (abs_add_le (bterm a y (n + 1)) (bsum a y (n + 1 + d) - bsum a y (n + 1)))
        (by linarith : 0 ≤ 1 - |y|)
      refine h5.trans ?_
      rw [add_mul]
      linarith
  have ht : Filter.Tendsto (fun d => |bsum a y (n + d) - bsum a y n| * (1 - |y|)) Filter.atTop
      (nhds (|(1 + y) ^ a - bsum a y n| * (1 - |y|))) := by
    have h2 : Filter.Tendsto (fun d => bsum a y (n + d)) Filter.atTop (nhds ((1 + y) ^ a)) := by
      have := (Filter.tendsto_add_atTop_iff_nat n).2 (bsum_tendsto (a := a) (y := y) hy)
      simpa [Nat.add_comm] using this
    exact ((h2.sub_const _).abs).mul_const _
  rw [abs_sub_comm]
  exact le_of_tendsto' ht fun d => key d n

end Ibcx.Math
