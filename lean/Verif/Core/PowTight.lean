import Verif.NumLemmas
import Mathlib.Algebra.Order.Ring.Pow
import Mathlib.Data.Rat.Cast.Order
import Mathlib.Algebra.Order.Field.Basic
import Mathlib.Tactic.Linarith
import Mathlib.Tactic.FieldSimp
import Mathlib.Tactic.Positivity
import Mathlib.Tactic.Ring
/-!
# Accuracy of the truncating power

Each truncated product of decimals that are at least one loses less than a `10^-18` part.  Not part of the model.
-/

namespace Ibcx

/-- A truncated product keeps all but one part in `P`. -/
private theorem trunc_prod {P x y : ℕ} (hP : 0 < P) (hx : P ≤ x) (hy : P ≤ y) :
    (x : ℚ) / P * ((y : ℚ) / P) * (1 - 1 / P) ≤ ((x * y / P : ℕ) : ℚ) / P := by
  have hP' : (0 : ℚ) < P := by exact_mod_cast hP
  have h1 : x * y < P * (x * y / P + 1) := by
    have := Nat.div_add_mod (x * y) P
    have := Nat.mod_lt (x * y) hP
    rw [Nat.mul_add]; omega
  have h2 : (x : ℚ) * y < P * (((x * y / P : ℕ) : ℚ) + 1) := by exact_mod_cast h1
  have h3 : (P : ℚ) * P ≤ x * y := by exact_mod_cast Nat.mul_le_mul hx hy
  generalize ((x * y / P : ℕ) : ℚ) = q at *
  have e : (x : ℚ) / P * ((y : ℚ) / P) * (1 - 1 / P) = (x * y * (P - 1)) / (P * P * P) := by field_simp
  rw [e, div_le_div_iff₀ (by positivity) hP']
  have h4 : (x : ℚ) * y * (P - 1) ≤ q * (P * P) := by
    have : (x : ℚ) * y * P < P * (q + 1) * P := by nlinarith
    nlinarith
  nlinarith

private theorem one_le_prod {P x y : ℕ} (hP : 0 < P) (hx : P ≤ x) (hy : P ≤ y) : P ≤ x * y / P := by
  rw [Nat.le_div_iff_mul_le hP]
  exact Nat.mul_le_mul hx hy

theorem powLoop_tight {f x y n p : ℕ} (hn : 0 < n) (hx : ONE ≤ x) (hy : ONE ≤ y) (h : powLoop f x y n = .ok p) :
    ((x : ℚ) / ONE) ^ n * ((y : ℚ) / ONE) * (1 - 1 / ONE) ^ n ≤ (p : ℚ) / ONE := by
  have hO := ONE_pos
  have hc0 : (0 : ℚ) ≤ 1 - 1 / ONE := by
    have : (1 : ℚ) ≤ ONE := by exact_mod_cast hO
    have : (1 : ℚ) / ONE ≤ 1 := by rw [div_le_one (by positivity)]; exact this
    linarith
  induction f generalizing x y n with
  | zero => simp [powLoop] at h
  | succ f ih =>
    simp only [powLoop, decMul] at h
    have px := trunc_prod hO hx hx
    have pxy := trunc_prod hO hx hy
    have ox := one_le_prod hO hx hx
    have oxy := one_le_prod hO hx hy
    revert h px pxy ox oxy ih
    have hx0 : (0 : ℚ) ≤ (x : ℚ) / ONE := by positivity
    have hy0 : (0 : ℚ) ≤ (y : ℚ) / ONE := by positivity
    generalize (1 : ℚ) - 1 / ONE = c at *
    intro ih h px pxy ox oxy
    split at h
    · have : n = 1 := by omega
      subst this
      unfold chk at h
      split at h
      · cases h; simpa using pxy
      · cases h
    · split at h
      · simp only [bind_eq_ok] at h
        obtain ⟨x2, h2, h⟩ := h
        unfold chk at h2
        split at h2 <;> cases h2
        have := ih (by omega) ox hy h
        have hm : n = n / 2 + n / 2 := by omega
        refine le_trans ?_ this
        have e : ((x : ℚ) / ONE) ^ n * ((y : ℚ) / ONE) * c ^ n
            = ((x : ℚ) / ONE * ((x : ℚ) / ONE) * c) ^ (n / 2) * ((y : ℚ) / ONE) * c ^ (n / 2) := by
          conv_lhs => rw [hm]
          ring
        rw [e]
        gcongr
      · simp only [bind_eq_ok] at h
        obtain ⟨y2, h2, x2, h3, h⟩ := h
        unfold chk at h2 h3
        split at h2 <;> cases h2
        split at h3 <;> cases h3
        have := ih (by omega) ox oxy h
        have hm : n = (n - 1) / 2 + (n - 1) / 2 + 1 := by omega
        refine le_trans ?_ this
        have e : ((x : ℚ) / ONE) ^ n * ((y : ℚ) / ONE) * c ^ n
            = ((x : ℚ) / ONE * ((x : ℚ) / ONE) * c) ^ ((n - 1) / 2) * ((x : ℚ) / ONE * ((y : ℚ) / ONE) * c) *
              c ^ ((n - 1) / 2) := by
          conv_lhs => rw [hm]
          ring
        rw [e]
        gcongr

theorem checkedPow_tight {x n p : ℕ} (hx : ONE ≤ x) (h : checkedPow x n = .ok p) :
    ((x : ℚ) / ONE) ^ n * (1 - 1 / ONE) ^ n ≤ (p : ℚ) / ONE := by
  have hO : (ONE : ℚ) ≠ 0 := by have := ONE_pos; positivity
  unfold checkedPow at h
  split at h
  · rename_i hn
    subst hn
    cases h
    simp [hO]
  · have := powLoop_tight (by omega) hx (le_refl _) h
    rw [div_self hO, mul_one] at this
    exact this

/-- The truncating power of `n` factors loses at most an `n · 10^-18` part. -/
theorem checkedPow_accurate {x n p : ℕ} (hx : ONE ≤ x) (h : checkedPow x n = .ok p) :
    x ^ n * (ONE - n) ≤ p * ONE ^ n := by
  have hO := ONE_pos
  by_cases hn : n ≤ ONE
  · have h1 := checkedPow_tight hx h
    have hb : 1 - (n : ℚ) / ONE ≤ (1 - 1 / ONE) ^ n := by
      have hle : (-2 : ℚ) ≤ -(1 / ONE) := by
        have : (1 : ℚ) / ONE ≤ 1 := by
          rw [div_le_one (by exact_mod_cast hO)]; exact_mod_cast hO
        linarith
      have := one_add_mul_le_pow hle n
      have e : 1 - (n : ℚ) / ONE = 1 + n * -(1 / ONE) := by ring
      rw [e]
      simpa [sub_eq_add_neg] using this
    have hxp : (0 : ℚ) ≤ ((x : ℚ) / ONE) ^ n := by positivity
    have h2 : ((x : ℚ) / ONE) ^ n * (1 - (n : ℚ) / ONE) ≤ (p : ℚ) / ONE :=
      le_trans (mul_le_mul_of_nonneg_left hb hxp) h1
    have hO' : (0 : ℚ) < ONE := by exact_mod_cast hO
    have e : ((x : ℚ) / ONE) ^ n * (1 - (n : ℚ) / ONE) = (x : ℚ) ^ n * (ONE - n) / (ONE ^ n * ONE) := by
      rw [div_pow]; field_simp
    rw [e, div_le_div_iff₀ (by positivity) hO'] at h2
    have h3 : (x : ℚ) ^ n * (ONE - n) ≤ p * ONE ^ n := by
      have : (x : ℚ) ^ n * (ONE - n) * ONE ≤ p * ONE ^ n * ONE := by linarith
      exact le_of_mul_le_mul_right this hO'
    have h4 : ((x ^ n * (ONE - n) : ℕ) : ℚ) ≤ ((p * ONE ^ n : ℕ) : ℚ) := by
      push_cast [Nat.cast_sub hn]
      exact h3
    exact_mod_cast h4
  · rw [Nat.sub_eq_zero_of_le (by omega)]
    simp

end Ibcx
