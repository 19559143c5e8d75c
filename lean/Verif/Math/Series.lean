import Mathlib.Analysis.SpecialFunctions.Pow.Deriv
import Mathlib.Analysis.Calculus.Deriv.MeanValue
import Mathlib.Tactic.Linarith
import Mathlib.Tactic.FieldSimp
import Mathlib.Tactic.Ring
/-!
# The binomial series below one

Partial sums of `(1 - x)^a = 1 - a x - a (1 - a) / 2 x² - …` for `0 < a < 1`.  Not part of the model.
-/

namespace Ibcx.Math

/-- Absolute value of the `k`-th coefficient: `coef a (k+1) = coef a k * |a - k| / (k + 1)`.  Proof device for
`/repo/packages/math/src/pow.rs:71-122`. -/
noncomputable def coef (a : ℝ) : ℕ → ℝ
  | 0 => 1
  | k + 1 => coef a k * |a - k| / (k + 1)

/-- Partial sum `1 - coef 1 x - … - coef n x^n`.  Proof device for `/repo/packages/math/src/pow.rs:71-122`. -/
noncomputable def part (a x : ℝ) : ℕ → ℝ
  | 0 => 1
  | n + 1 => part a x n - coef a (n + 1) * x ^ (n + 1)

theorem coef_nonneg (a : ℝ) (k : ℕ) : 0 ≤ coef a k := by
  induction k with
  | zero => simp [coef]
  | succ k ih => simp only [coef]; positivity

theorem coef_succ_eq {a : ℝ} (h0 : 0 < a) (h1 : a < 1) (n : ℕ) :
    coef a (n + 1) = a / (n + 1) * part a 1 n ∧ 0 < part a 1 n := by
  induction n with
  | zero => simp [coef, part, abs_of_pos h0]
  | succ n ih =>
    obtain ⟨h2, h3⟩ := ih
    have hn : (0 : ℝ) ≤ n := Nat.cast_nonneg n
    have e1 : part a 1 (n + 1) = part a 1 n * (1 - a / (n + 1)) := by
      simp only [part, h2, one_pow]; ring
    have habs : |a - ((n + 1 : ℕ) : ℝ)| = (n : ℝ) + 1 - a := by
      push_cast
      rw [abs_of_neg (by linarith)]; ring
    refine ⟨?_, ?_⟩
    · rw [coef, habs, h2, e1]
      push_cast
      field_simp
    · rw [e1]
      apply mul_pos h3
      have : a / (n + 1) < 1 := by rw [div_lt_one (by linarith)]; linarith
      linarith

theorem part_ge_part_one {a x : ℝ} (hx0 : 0 ≤ x) (hx1 : x ≤ 1) (n : ℕ) : part a 1 n ≤ part a x n := by
  induction n with
  | zero => simp [part]
  | succ n ih =>
    simp only [part, one_pow, mul_one]
    have := mul_le_mul_of_nonneg_left (pow_le_one₀ hx0 hx1 (n := n + 1)) (coef_nonneg a (n + 1))
    linarith

theorem part_pos {a x : ℝ} (h0 : 0 < a) (h1 : a < 1) (hx0 : 0 ≤ x) (hx1 : x ≤ 1) (n : ℕ) : 0 < part a x n :=
  (coef_succ_eq h0 h1 n).2.trans_le (part_ge_part_one hx0 hx1 n)

/-- Derivative of the partial sums.  Proof device for `/repo/packages/math/src/pow.rs:71-122`. -/
noncomputable def dpart (a x : ℝ) : ℕ → ℝ
  | 0 => 0
  | n + 1 => dpart a x n - coef a (n + 1) * ((n + 1 : ℕ) * x ^ n)

theorem hasDerivAt_part (a x : ℝ) (n : ℕ) : HasDerivAt (fun y => part a y n) (dpart a x n) x := by
  induction n with
  | zero => simpa [part, dpart] using hasDerivAt_const x (1 : ℝ)
  | succ n ih =>
    simp only [part, dpart]
    exact ih.sub ((hasDerivAt_pow (n + 1) x).const_mul _)

/-- The partial sums satisfy the differential inequality of `(1 - x)^a`. -/
theorem part_ode {a x : ℝ} (h0 : 0 < a) (h1 : a < 1) (n : ℕ) :
    (1 - x) * dpart a x (n + 1) + a * part a x (n + 1) = (n + 1 - a) * coef a (n + 1) * x ^ (n + 1) := by
  induction n with
  | zero => simp [part, dpart, coef, abs_of_pos h0]; ring
  | succ n ih =>
    have hn : (0 : ℝ) ≤ n := Nat.cast_nonneg n
    have habs : |a - ((n + 1 : ℕ) : ℝ)| = (n : ℝ) + 1 - a := by
      push_cast
      rw [abs_of_neg (by linarith)]; ring
    have hc : coef a (n + 1 + 1) * ((n : ℝ) + 2) = coef a (n + 1) * ((n : ℝ) + 1 - a) := by
      rw [coef, habs]
      push_cast
      field_simp
      ring
    rw [dpart, part]
    push_cast at *
    linear_combination ih - x ^ (n + 1) * hc

theorem rpow_le_part {a x : ℝ} (h0 : 0 < a) (h1 : a < 1) (hx0 : 0 ≤ x) (hx1 : x < 1) (n : ℕ) :
    (1 - x) ^ a ≤ part a x n := by
  cases n with
  | zero => simpa [part] using Real.rpow_le_one (by linarith) (by linarith) h0.le
  | succ n =>
    have hmono : MonotoneOn (fun y => part a y (n + 1) * (1 - y) ^ (-a)) (Set.Icc 0 x) := by
      have hd : ∀ y ∈ Set.Icc (0 : ℝ) x, HasDerivAt (fun y => part a y (n + 1) * (1 - y) ^ (-a))
          (dpart a y (n + 1) * (1 - y) ^ (-a) + part a y (n + 1) * (a * (1 - y) ^ (-a - 1))) y := by
        intro y hy
        have hy1 : 0 < 1 - y := by have := hy.2; linarith
        have h2 : HasDerivAt (fun y : ℝ => 1 - y) (-1) y := by
          simpa using (hasDerivAt_id y).const_sub 1
        have h3 := h2.rpow_const (p := -a) (.inl hy1.ne')
        have h4 := (hasDerivAt_part a y (n + 1)).mul h3
        exact h4.congr_deriv (by ring)
      apply monotoneOn_of_deriv_nonneg (convex_Icc 0 x)
      · exact fun y hy => (hd y hy).continuousAt.continuousWithinAt
      · exact fun y hy => (hd y (interior_subset hy)).differentiableAt.differentiableWithinAt
      · intro y hy
        have hy' := interior_subset hy
        rw [(hd y hy').deriv]
        have hy1 : 0 < 1 - y := by have := hy'.2; linarith
        have e : (1 - y) ^ (-a) = (1 - y) ^ (-a - 1) * (1 - y) := by
          rw [← Real.rpow_add_one hy1.ne']; congr 1; ring
        have e2 : dpart a y (n + 1) * (1 - y) ^ (-a) + part a y (n + 1) * (a * (1 - y) ^ (-a - 1)) =
            (1 - y) ^ (-a - 1) * ((1 - y) * dpart a y (n + 1) + a * part a y (n + 1)) := by
          rw [e]; ring
        rw [e2, part_ode h0 h1]
        have hn : (0 : ℝ) ≤ n := Nat.cast_nonneg n
        have hy0 : 0 ≤ y := hy'.1
        have hc := coef_nonneg a (n + 1)
        have hna : 0 ≤ (n : ℝ) + 1 - a := by linarith
        positivity
    have h2 := hmono (Set.left_mem_Icc.2 hx0) (Set.right_mem_Icc.2 hx0) hx0
    have hx1' : 0 < 1 - x := by linarith
    have h3 : part a 0 (n + 1) = 1 := by
      clear hmono h2
      induction n + 1 with
      | zero => rfl
      | succ k ih => simp [part, ih]
    simp only [h3, sub_zero, Real.one_rpow, mul_one] at h2
    rw [Real.rpow_neg hx1'.le, ← div_eq_mul_inv, le_div_iff₀ (Real.rpow_pos_of_pos hx1' a)] at h2
    linarith

end Ibcx.Math
