import Verif.Math.Binomial
import Verif.Math.ApproxLemmas
/-!
# Accuracy of the series loop

The computed terms and sums against the exact series.  Not part of the model.
-/

namespace Ibcx.Math
open Ibcx

/-- The computed terms.  Proof device for `/repo/packages/math/src/pow.rs:71-122`. -/
def termAt (a x : Nat) : Nat → Nat
  | 0 => ONE
  | j + 1 => nextTerm a x (termAt a x j) (j + 1)

/-- Whether the `j`-th term is subtracted; `up` is set for bases above one.  Proof device for
`/repo/packages/math/src/pow.rs:71-122`. -/
def flag (up : Bool) (j : Nat) : Bool := if up then decide (1 ≤ j ∧ j % 2 = 0) else decide (1 ≤ j)

/-- The sign of the `j`-th term.  Proof device for `/repo/packages/math/src/pow.rs:71-122`. -/
noncomputable def sg (up : Bool) (j : Nat) : ℝ := if flag up j then -1 else 1

/-- The computed sums.  Proof device for `/repo/packages/math/src/pow.rs:71-122`. -/
noncomputable def sumAt (up : Bool) (a x : Nat) : Nat → ℝ
  | 0 => 1
  | j + 1 => sumAt up a x j + sg up (j + 1) * val (termAt a x (j + 1))

theorem termAt_le {a x : Nat} (ha : a < ONE) (hx : x < ONE) (j : Nat) : termAt a x j ≤ ONE := by
  induction j with
  | zero => exact le_rfl
  | succ j ih => exact (nextTerm_le ha hx (by omega)).trans ih

theorem sg_abs (up : Bool) (j : Nat) : |sg up j| = 1 := by unfold sg; split <;> simp

theorem flag_next {a : Nat} (ha0 : 0 < a) (ha : a < ONE) (up : Bool) (j : Nat) :
    (if (absDiffWithSign a (ONE * (j + 1 - 1))).2 then !(if up then !(flag up j) else flag up j)
      else (if up then !(flag up j) else flag up j)) = flag up (j + 1) := by
  have hc : (absDiffWithSign a (ONE * (j + 1 - 1))).2 = decide (j = 0) := by
    simp only [Nat.add_sub_cancel, absDiffWithSign]
    rcases Nat.eq_zero_or_pos j with rfl | h
    · simp [ha0]
    · have : ¬ ONE * j < a := by
        have := Nat.le_mul_of_pos_right ONE h
        omega
      simp [this]; omega
  rw [hc]
  cases up with
  | false => rcases Nat.eq_zero_or_pos j with rfl | h <;> simp [flag] ; omega
  | true =>
    rcases Nat.eq_zero_or_pos j with rfl | h
    · simp [flag]
    · have hj : j ≠ 0 := by omega
      simp only [hj, decide_false, Bool.false_eq_true, if_false, if_true, flag]
      rw [← decide_not]
      congr 1
      apply propext
      omega

/-- Where the loop ends. -/
theorem loop_trace {a x prec : Nat} (ha0 : 0 < a) (ha : a < ONE) (hx : x < ONE) (up : Bool) :
    ∀ fuel j sum r, j + termAt a x j ≤ ONE →
      approxLoop a x up prec fuel (termAt a x j) sum (flag up j) (j + 1) = .ok r →
      ∃ n, j ≤ n ∧ val r = val sum + (sumAt up a x n - sumAt up a x j) ∧
        (termAt a x n < prec ∨ termAt a x (n + 1) = 0) ∧ ∀ k, j ≤ k → k < n → prec ≤ termAt a x k := by
  intro fuel
  induction fuel with
  | zero => intro j sum r _ h; cases h
  | succ fuel ih =>
    intro j sum r hj h
    have hstep := approx_step (prec := prec) (fuel := fuel) (sum := sum) (xNeg := up) (negative := flag up j) ha hx
      (by omega : 1 ≤ j + 1) (by omega) (termAt_le ha hx j)
    rw [hstep] at h
    split at h
    · rename_i hp
      cases h
      exact ⟨j, le_rfl, by simp, .inl hp, fun k h1 h2 => by omega⟩
    rename_i hp
    split at h
    · rename_i hz
      cases h
      exact ⟨j, le_rfl, by simp, .inr hz, fun k h1 h2 => by omega⟩
    rename_i hz
    have hpos : 0 < termAt a x j := by
      rcases Nat.eq_zero_or_pos (termAt a x j) with h0 | h0
      · rw [h0, nextTerm_zero] at hz; exact absurd rfl hz
      · exact h0
    have hlt : nextTerm a x (termAt a x j) (j + 1) < termAt a x j := nextTerm_lt ha hx (by omega) hpos
    have e2 : add64 (j + 1) 1 = .ok (j + 1 + 1) := add64_eq_ok'.2 ⟨by have := one_64; omega, rfl⟩
    simp only [flag_next ha0 ha, e2, ok_bind] at h
    have key : ∃ sum', val sum' = val sum + sg up (j + 1) * val (termAt a x (j + 1)) ∧
        approxLoop a x up prec fuel (termAt a x (j + 1)) sum' (flag up (j + 1)) (j + 1 + 1) = .ok r := by
      unfold sg
      split at h
      · rename_i hf
        simp only [bind_eq_ok] at h
        obtain ⟨sum', h1, h2⟩ := h
        obtain ⟨h3, rfl⟩ := dsub_eq_ok.1 h1
        refine ⟨_, ?_, h2⟩
        rw [if_pos hf, val_sub h3, termAt]; ring
      · rename_i hf
        simp only [bind_eq_ok] at h
        obtain ⟨sum', h1, h2⟩ := h
        obtain ⟨_, rfl⟩ := dadd_eq_ok.1 h1
        refine ⟨_, ?_, h2⟩
        rw [if_neg hf, val_add, termAt]; ring
    obtain ⟨sum', h1, h2⟩ := key
    obtain ⟨n, i1, i2, i3, i4⟩ := ih (j + 1) sum' r (by
      show j + 1 + nextTerm a x (termAt a x j) (j + 1) ≤ ONE
      omega) h2
    refine ⟨n, by omega, ?_, i3, ?_⟩
    · rw [i2, h1, sumAt]; ring
    · intro k hk1 hk2
      rcases Nat.eq_or_lt_of_le hk1 with rfl | hk
      · omega
      · exact i4 k hk hk2

/-- A computed term is below the exact product by at most three atomics. -/
theorem nextTerm_ge (a x term j : Nat) (ht : term ≤ ONE) :
    (val term * |val a - j| * val x - 2 * (1 / (ONE : ℝ))) / (j + 1) - 1 / (ONE : ℝ) ≤ val (nextTerm a x term (j + 1)) := by
  have hp := oneR_pos
  have hp' := one_pos
  have ht' : (term : ℝ) ≤ ONE := by exact_mod_cast ht
  rw [← absDiff_val]
  unfold nextTerm
  rw [Nat.add_sub_cancel]
  generalize (absDiffWithSign a (ONE * j)).1 = c
  unfold val
  generalize ONE = P at *
  have fl : ∀ p q : ℕ, 0 < q → (p : ℝ) / q - 1 ≤ ((p / q : ℕ) : ℝ) := by
    intro p q hq
    have hq' : (0 : ℝ) < q := by exact_mod_cast hq
    have h : p < (p / q + 1) * q := by
      have := Nat.lt_div_mul_add (a := p) hq
      rw [Nat.add_mul, Nat.one_mul]; exact this
    have h' : (p : ℝ) ≤ ((p / q : ℕ) + 1) * q := by exact_mod_cast h.le
    rw [sub_le_iff_le_add, div_le_iff₀ hq']
    exact h'
  have h1 := fl (c * x) P hp'
  have h2 := fl (term * (c * x / P)) P hp'
  have h3 := fl (term * (c * x / P) / P) (j + 1) (by omega)
  push_cast at h1 h2 h3
  generalize ((c * x / P : ℕ) : ℝ) = A at *
  generalize ((term * (c * x / P) / P : ℕ) : ℝ) = B at *
  generalize ((term * (c * x / P) / P / (j + 1) : ℕ) : ℝ) = C at *
  have hj : (0 : ℝ) < j + 1 := by positivity
  have ht0 : (0 : ℝ) ≤ term := Nat.cast_nonneg _
  have h4 : (term : ℝ) * (c * x / P) / P - 1 - 1 ≤ B := by
    refine le_trans ?_ h2
    have : (term : ℝ) * (c * x / P - 1) / P ≤ term * A / P := by gcongr
    have e : (term : ℝ) * (c * x / P - 1) / P = term * (c * x / P) / P - term / P := by ring
    have : (term : ℝ) / P ≤ 1 := by rw [div_le_one hp]; exact ht'
    linarith
  have h5 : ((term : ℝ) * (c * x / P) / P - 2) / (j + 1) - 1 ≤ C := by
    refine le_trans ?_ h3
    have : ((term : ℝ) * (c * x / P) / P - 2) / (j + 1) ≤ B / (j + 1) := by gcongr; linarith
    linarith
  have h6 : (((term : ℝ) * (c * x / P) / P - 2) / (j + 1) - 1) / P ≤ C / P := by gcongr
  refine le_trans (le_of_eq ?_) h6
  field_simp

section
variable {a x : Nat} {up : Bool}

/-- The exact argument of the series.  Proof device for `/repo/packages/math/src/pow.rs:71-122`. -/
noncomputable def arg (up : Bool) (x : Nat) : ℝ := if up then val x else -val x

theorem arg_abs : |arg up x| = val x := by
  unfold arg
  have := val_nonneg x
  split
  · exact abs_of_nonneg this
  · rw [abs_neg]; exact abs_of_nonneg this

/-- The deficit of the `k`-th computed term.  Proof device for `/repo/packages/math/src/pow.rs:71-122`. -/
noncomputable def deficit (up : Bool) (a x k : Nat) : ℝ := |bterm (val a) (arg up x) k| - val (termAt a x k)

theorem deficit_step (k : Nat) : ∃ d, deficit up a x (k + 1) = deficit up a x k * (|val a - k| * val x) / (k + 1) + d ∧
    (a < ONE → x < ONE → 0 ≤ d ∧ d ≤ 2 * (1 / (ONE : ℝ)) / (k + 1) + 1 / (ONE : ℝ)) := by
  refine ⟨val (termAt a x k) * (|val a - k| * val x) / (k + 1) - val (termAt a x (k + 1)), ?_, fun ha hx => ⟨?_, ?_⟩⟩
  · unfold deficit
    rw [bterm, abs_div, abs_mul, abs_mul, arg_abs, abs_of_pos (by positivity : (0 : ℝ) < k + 1)]
    ring
  · have := nextTerm_val a x (termAt a x k) k
    show 0 ≤ _ - val (nextTerm a x (termAt a x k) (k + 1))
    have e : val (termAt a x k) * (|val a - k| * val x) / (k + 1) = val (termAt a x k) * |val a - k| / (k + 1) * val x := by
      ring
    rw [e]; linarith
  · have := nextTerm_ge a x (termAt a x k) k (termAt_le ha hx k)
    show _ - val (nextTerm a x (termAt a x k) (k + 1)) ≤ _
    have e : (val (termAt a x k) * |val a - k| * val x - 2 * (1 / (ONE : ℝ))) / (k + 1) =
      val (termAt a x k) * (|val a - k| * val x) / (k + 1) - 2 * (1 / (ONE : ℝ)) / (k + 1) := by ring
    rw [e] at this
    linarith

theorem deficit_nonneg (ha : a < ONE) (hx : x < ONE) (k : Nat) : 0 ≤ deficit up a x k := by
  induction k with
  | zero => simp [deficit, bterm, termAt, val_one]
  | succ k ih =>
    obtain ⟨d, h1, h2⟩ := deficit_step (up := up) (a := a) (x := x) k
    rw [h1]
    have := (h2 ha hx).1
    have := val_nonneg x
    positivity

/-- The exact terms are the signed absolute values. -/
theorem bterm_sign (ha0 : 0 < a) (ha : a < ONE) (k : Nat) :
    bterm (val a) (arg up x) (k + 1) = sg up (k + 1) * |bterm (val a) (arg up x) (k + 1)| := by
  have hA0 : 0 < val a := by rw [← val_zero]; exact val_lt.2 ha0
  have hA1 : val a < 1 := by rw [← val_one]; exact val_lt.2 ha
  have hX := val_nonneg x
  induction k with
  | zero =>
    have e : bterm (val a) (arg up x) (0 + 1) = val a * arg up x := by simp [bterm]
    rw [e, abs_mul, arg_abs, abs_of_pos hA0]
    unfold sg flag arg
    cases up <;> simp
  | succ k ih =>
    rw [bterm_abs_succ hA0 hA1 (by omega : 1 ≤ k + 1), bterm, arg_abs]
    have hs : sg up (k + 1 + 1) * val x = -(sg up (k + 1) * arg up x) := by
      unfold sg flag arg
      cases up with
      | false => simp
      | true =>
        simp only [if_true, decide_eq_true_eq]
        rcases Nat.mod_two_eq_zero_or_one k with h | h
        · rw [if_pos (by omega), if_neg (by omega)]; ring
        · rw [if_neg (by omega), if_pos (by omega)]; ring
    generalize |bterm (val a) (arg up x) (k + 1)| = T at *
    rw [ih]
    push_cast
    calc sg up (k + 1) * T * ((val a - (k + 1)) * arg up x) / (k + 1 + 1)
        = T * (val a - (k + 1)) * (sg up (k + 1) * arg up x) / (k + 1 + 1) := by ring
      _ = T * (val a - (k + 1)) * (-(sg up (k + 1 + 1) * val x)) / (k + 1 + 1) := by rw [hs, neg_neg]
      _ = sg up (k + 1 + 1) * (T * ((k + 1 - val a) * val x) / (k + 1 + 1)) := by ring

/-- Sum of the exact series minus computed sum. -/
theorem sum_gap_step (ha0 : 0 < a) (ha : a < ONE) (k : Nat) :
    bsum (val a) (arg up x) (k + 1) - sumAt up a x (k + 1) =
      (bsum (val a) (arg up x) k - sumAt up a x k) + sg up (k + 1) * deficit up a x (k + 1) := by
  rw [bsum, sumAt, bterm_sign ha0 ha, deficit]; ring

/-- Below one: the deficits form at most a geometric series. -/
theorem below_gap (ha0 : 0 < a) (ha : a < ONE) (hx : x < ONE) (k : Nat) :
    deficit up a x k ≤ (k + 2) * (1 / (ONE : ℝ)) ∧ deficit up a x k * (1 - val x) ≤ 3 * (1 / (ONE : ℝ)) ∧
      |bsum (val a) (arg up x) k - sumAt up a x k| * (1 - val x) ≤ 3 * k * (1 / (ONE : ℝ)) := by
  have hA0 : 0 < val a := by rw [← val_zero]; exact val_lt.2 ha0
  have hA1 : val a < 1 := by rw [← val_one]; exact val_lt.2 ha
  have hX : val x < 1 := by rw [← val_one]; exact val_lt.2 hx
  have hX0 := val_nonneg x
  have hu : (0 : ℝ) ≤ 1 / (ONE : ℝ) := by have := oneR_pos; positivity
  induction k with
  | zero =>
    have e0 : deficit up a x 0 = 0 := by simp [deficit, bterm, termAt, val_one]
    refine ⟨by rw [e0]; positivity, by rw [e0, zero_mul]; positivity, by simp [bsum, sumAt]⟩
  | succ k ih =>
    obtain ⟨i1, i2, i3⟩ := ih
    obtain ⟨d, h1, h2⟩ := deficit_step (up := up) (a := a) (x := x) k
    obtain ⟨_, h3⟩ := h2 ha hx
    have hn := deficit_nonneg (up := up) ha hx k
    have hn' := deficit_nonneg (up := up) ha hx (k + 1)
    have hk : (0 : ℝ) ≤ k := Nat.cast_nonneg k
    have hk1 : (0 : ℝ) < k + 1 := by linarith
    have e0 : deficit up a x 0 = 0 := by simp [deficit, bterm, termAt, val_one]
    have hg := sum_gap_step (up := up) (x := x) ha0 ha k
    generalize (1 : ℝ) / (ONE : ℝ) = u at *
    have h4 : |val a - k| ≤ k + 1 := by rw [abs_le]; constructor <;> linarith
    have h5 : deficit up a x k * (|val a - k| * val x) / (k + 1) ≤ deficit up a x k * val x := by
      rw [div_le_iff₀ hk1]
      calc deficit up a x k * (|val a - k| * val x) ≤ deficit up a x k * ((k + 1) * val x) := by gcongr
        _ = deficit up a x k * val x * (k + 1) := by ring
    have h6 : 2 * u / (k + 1) ≤ 2 * u := div_le_self (by positivity) (by linarith)
    have b1 : deficit up a x (k + 1) ≤ ((k + 1 : ℕ) + 2) * u := by
      rcases Nat.eq_zero_or_pos k with rfl | hpos
      · rw [h1, e0]
        push_cast
        push_cast at h6 h3
        linarith
      · have hk' : (1 : ℝ) ≤ k := by exact_mod_cast hpos
        have h7 : |val a - k| * val x ≤ k := by
          rw [abs_of_neg (by linarith : val a - (k : ℝ) < 0)]
          nlinarith
        have h8 : deficit up a x k * (|val a - k| * val x) / (k + 1) ≤ (k + 2) * u * k / (k + 1) := by
          apply div_le_div_of_nonneg_right _ hk1.le
          exact mul_le_mul i1 h7 (by positivity) (by positivity)
        have h9 : (k + 2) * u * k / (k + 1) + (2 * u / (k + 1) + u) ≤ (k + 3) * u := by
          rw [← add_assoc, ← add_div, div_add' _ _ _ hk1.ne', div_le_iff₀ hk1]
          nlinarith
        rw [h1]
        push_cast
        linarith
    have b2 : deficit up a x (k + 1) * (1 - val x) ≤ 3 * u := by
      have : deficit up a x (k + 1) ≤ deficit up a x k * val x + 3 * u := by rw [h1]; linarith
      have h6 := mul_le_mul_of_nonneg_right this (by linarith : 0 ≤ 1 - val x)
      have h7 : deficit up a x k * (1 - val x) * val x ≤ 3 * u * val x := mul_le_mul_of_nonneg_right i2 hX0
      nlinarith
    refine ⟨b1, b2, ?_⟩
    rw [hg]
    have h8 := mul_le_mul_of_nonneg_right (abs_add_le (bsum (val a) (arg up x) k - sumAt up a x k)
      (sg up (k + 1) * deficit up a x (k + 1))) (by linarith : 0 ≤ 1 - val x)
    refine h8.trans ?_
    rw [abs_mul, sg_abs, one_mul, abs_of_nonneg hn', add_mul]
    push_cast
    linarith

/-- Above one: the deficits nearly cancel. -/
theorem above_gap (ha0 : 0 < a) (ha : a < ONE) (hx : x < ONE) {k : Nat} (hk : 1 ≤ k) :
    |bsum (val a) (arg true x) k - sumAt true a x k - sg true k * deficit true a x k / 2| ≤ 3 * k * (1 / (ONE : ℝ)) := by
  have hA0 : 0 < val a := by rw [← val_zero]; exact val_lt.2 ha0
  have hA1 : val a < 1 := by rw [← val_one]; exact val_lt.2 ha
  have hX : val x < 1 := by rw [← val_one]; exact val_lt.2 hx
  have hX0 := val_nonneg x
  have hu : (0 : ℝ) ≤ 1 / (ONE : ℝ) := by have := oneR_pos; positivity
  induction k, hk using Nat.le_induction with
  | base =>
    have hb := (below_gap (up := true) ha0 ha hx 1).1
    have hn := deficit_nonneg (up := true) ha hx 1
    have hg := sum_gap_step (up := true) (x := x) ha0 ha 0
    have e2 : bsum (val a) (arg true x) 0 - sumAt true a x 0 = 0 := by simp [bsum, sumAt]
    rw [e2, zero_add, zero_add] at hg
    rw [hg]
    generalize deficit true a x 1 = d at *
    have : sg true 1 * d - sg true 1 * d / 2 = sg true 1 * (d / 2) := by ring
    rw [this, abs_mul, sg_abs, one_mul, abs_of_nonneg (by linarith)]
    push_cast at hb ⊢
    linarith
  | succ k hk i3 =>
    obtain ⟨i1, i2, _⟩ := below_gap (up := true) ha0 ha hx k
    obtain ⟨d, h1, h2⟩ := deficit_step (up := true) (a := a) (x := x) k
    obtain ⟨h4, h3⟩ := h2 ha hx
    have hn := deficit_nonneg (up := true) ha hx k
    have hk' : (1 : ℝ) ≤ k := by exact_mod_cast hk
    have hg := sum_gap_step (up := true) (x := x) ha0 ha k
    have hs : sg true (k + 1) = - sg true k := by
      unfold sg flag
      simp only [if_true, decide_eq_true_eq]
      rcases Nat.mod_two_eq_zero_or_one k with h | h
      · rw [if_neg (by omega), if_pos (by omega)]; ring
      · rw [if_pos (by omega), if_neg (by omega)]
    have hsa := sg_abs true k
    rw [abs_of_neg (by linarith : val a - (k : ℝ) < 0)] at h1
    generalize (1 : ℝ) / (ONE : ℝ) = u at *
    generalize deficit true a x (k + 1) = E' at *
    generalize deficit true a x k = E at *
    have hk1 : (0 : ℝ) < k + 1 := by linarith
    have h5 : 2 * u / (k + 1) ≤ 2 * u := div_le_self (by positivity) (by linarith)
    have hratio : E * (-(val a - k) * val x) / (k + 1) ≤ E * val x := by
      rw [div_le_iff₀ hk1]
      have : -(val a - k) ≤ k + 1 := by linarith
      calc E * (-(val a - k) * val x) ≤ E * ((k + 1) * val x) := by gcongr
        _ = E * val x * (k + 1) := by ring
    -- neighbouring deficits are close
    have c1 : E' - E ≤ 6 * u := by
      have : E * val x ≤ E := mul_le_of_le_one_right hn hX.le
      rw [h1]; linarith
    have c2 : E - E' ≤ 6 * u := by
      have h6 : E - E * (-(val a - k) * val x) / (k + 1) = (E * (1 + val a * val x) + E * (1 - val x) * k) / (k + 1) := by
        field_simp; ring
      have h7 : E * (1 + val a * val x) ≤ (k + 2) * u * 2 := by
        have h8 : 1 + val a * val x ≤ 2 := by nlinarith
        have h8' : 0 ≤ 1 + val a * val x := by positivity
        exact mul_le_mul i1 h8 h8' (by positivity)
      have h9 : E * (1 - val x) * k ≤ 3 * u * k := mul_le_mul_of_nonneg_right i2 (by linarith)
      have h10 : (E * (1 + val a * val x) + E * (1 - val x) * k) / (k + 1) ≤ 6 * u := by
        rw [div_le_iff₀ hk1]
        nlinarith
      rw [h1]
      linarith
    have c3 : |E - E'| ≤ 6 * u := abs_le.2 ⟨by linarith, by linarith⟩
    rw [hg, hs]
    generalize bsum (val a) (arg true x) k - sumAt true a x k = D at *
    have e : D + -sg true k * E' - -sg true k * E' / 2 = (D - sg true k * E / 2) + sg true k * ((E - E') / 2) := by ring
    rw [e]
    refine (abs_add_le _ _).trans ?_
    rw [abs_mul, hsa, one_mul, abs_div, abs_of_pos (by norm_num : (0 : ℝ) < 2)]
    push_cast
    linarith

end

end Ibcx.Math
