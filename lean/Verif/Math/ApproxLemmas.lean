import Verif.Math.PowLemmas
import Verif.Math.Series
/-!
# The series loop of `pow_approx`

Not part of the model.
-/

namespace Ibcx.Math
open Ibcx

/-- The number denoted by atomics. -/
noncomputable def val (n : Nat) : ℝ := (n : ℝ) / (ONE : ℝ)

theorem oneR_pos : (0 : ℝ) < (ONE : ℝ) := by exact_mod_cast one_pos

theorem val_le {m n : Nat} : val m ≤ val n ↔ m ≤ n := by
  unfold val
  rw [div_le_div_iff_of_pos_right oneR_pos]
  exact_mod_cast Iff.rfl

theorem val_lt {m n : Nat} : val m < val n ↔ m < n := by
  unfold val
  rw [div_lt_div_iff_of_pos_right oneR_pos]
  exact_mod_cast Iff.rfl

theorem val_one : val ONE = 1 := div_self oneR_pos.ne'

theorem val_nonneg (n : Nat) : 0 ≤ val n := by unfold val; have := oneR_pos; positivity

theorem val_zero : val 0 = 0 := by simp [val]

theorem val_add (m n : Nat) : val (m + n) = val m + val n := by unfold val; push_cast; ring

theorem val_sub {m n : Nat} (h : n ≤ m) : val (m - n) = val m - val n := by
  unfold val; rw [Nat.cast_sub h]; ring

theorem absDiff_val (a j : Nat) : val (absDiffWithSign a (ONE * j)).1 = |val a - j| := by
  have hp := oneR_pos
  have e : val (ONE * j) = j := by
    unfold val
    push_cast
    rw [mul_div_assoc, mul_div_cancel₀ _ hp.ne']
  unfold absDiffWithSign
  simp only
  split
  · rename_i h
    rw [val_sub h, e]
    rw [← val_le, e] at h
    rw [abs_of_nonpos (by linarith)]; ring
  · rename_i h
    have h' : ONE * j ≤ a := by omega
    rw [val_sub h', e]
    rw [← val_le, e] at h'
    rw [abs_of_nonneg (by linarith)]

theorem nextTerm_val (a x term j : Nat) :
    val (nextTerm a x term (j + 1)) ≤ val term * |val a - j| / (j + 1) * val x := by
  have hp := oneR_pos
  rw [← absDiff_val]
  unfold nextTerm
  rw [Nat.add_sub_cancel]
  generalize (absDiffWithSign a (ONE * j)).1 = c
  unfold val
  generalize ONE = P at *
  have h1 : ((c * x / P : ℕ) : ℝ) ≤ c * x / P := by
    refine Nat.cast_div_le.trans ?_; push_cast; exact le_rfl
  have h2 : ((term * (c * x / P) / P : ℕ) : ℝ) ≤ term * (c * x / P) / P := by
    refine Nat.cast_div_le.trans ?_
    push_cast
    gcongr
  have h3 : ((term * (c * x / P) / P / (j + 1) : ℕ) : ℝ) ≤ term * (c * x / P) / P / (j + 1) := by
    refine Nat.cast_div_le.trans ?_
    push_cast
    gcongr
  calc ((term * (c * x / P) / P / (j + 1) : ℕ) : ℝ) / P ≤ term * (c * x / P) / P / (j + 1) / P := by gcongr
    _ = (term : ℝ) / P * (c / P) / (j + 1) * (x / P) := by
      field_simp

theorem loop_below {a x prec : Nat} (ha0 : 0 < a) (ha : a < ONE) (hx : x < ONE) :
    ∀ fuel term sum j, j + term ≤ ONE → term < fuel → sum ≤ ONE →
      val term ≤ coef (val a) j * val x ^ j → part (val a) (val x) j ≤ val sum →
      ∃ r, approxLoop a x false prec fuel term sum (decide (1 ≤ j)) (j + 1) = .ok r ∧ r ≤ ONE ∧
        ∃ n, part (val a) (val x) n ≤ val r := by
  have hA0 : 0 < val a := by rw [← val_zero]; exact val_lt.2 ha0
  have hA1 : val a < 1 := by rw [← val_one]; exact val_lt.2 ha
  have hX0 := val_nonneg x
  have hX1 : val x < 1 := by rw [← val_one]; exact val_lt.2 hx
  intro fuel
  induction fuel with
  | zero => intro term sum j _ h; omega
  | succ fuel ih =>
    intro term sum j hj hf hs ht hp
    rw [approx_step ha hx (by omega) (by omega) (by omega)]
    split
    · exact ⟨sum, rfl, hs, j, hp⟩
    split
    · exact ⟨sum, rfl, hs, j, hp⟩
    rename_i hnz
    have hterm : 0 < term := by
      rcases Nat.eq_zero_or_pos term with h | h
      · rw [h, nextTerm_zero] at hnz; exact absurd rfl hnz
      · exact h
    have hlt : nextTerm a x term (j + 1) < term := nextTerm_lt ha hx (by omega) hterm
    have hnext : val (nextTerm a x term (j + 1)) ≤ coef (val a) (j + 1) * val x ^ (j + 1) := by
      refine (nextTerm_val a x term j).trans ?_
      have e : coef (val a) (j + 1) * val x ^ (j + 1) =
          (coef (val a) j * val x ^ j) * |val a - j| / (j + 1) * val x := by
        rw [coef, pow_succ]; ring
      rw [e]
      gcongr
    have hpos : 0 < part (val a) (val x) (j + 1) := part_pos hA0 hA1 hX0 hX1.le _
    have hpart : part (val a) (val x) (j + 1) = part (val a) (val x) j - coef (val a) (j + 1) * val x ^ (j + 1) := rfl
    have hle : nextTerm a x term (j + 1) ≤ sum := by
      rw [← val_le]; linarith
    have hneg : (if (absDiffWithSign a (ONE * (j + 1 - 1))).2 then
        !(if false = true then !(decide (1 ≤ j)) else decide (1 ≤ j)) else
        (if false = true then !(decide (1 ≤ j)) else decide (1 ≤ j))) = true := by
      simp only [Nat.add_sub_cancel, absDiffWithSign, Bool.false_eq_true, if_false]
      rcases Nat.eq_zero_or_pos j with rfl | h
      · simp [ha0]
      · have : ¬ ONE * j < a := by
          have := Nat.le_mul_of_pos_right ONE h
          omega
        simp [this]; omega
    simp only [hneg, if_true]
    have e1 : dsub sum (nextTerm a x term (j + 1)) = .ok (sum - nextTerm a x term (j + 1)) := dsub_eq_ok.2 ⟨hle, rfl⟩
    have e2 : add64 (j + 1) 1 = .ok (j + 1 + 1) := add64_eq_ok'.2 ⟨by have := one_64; omega, rfl⟩
    simp only [e1, e2, ok_bind]
    have := ih (nextTerm a x term (j + 1)) (sum - nextTerm a x term (j + 1)) (j + 1) (by omega) (by omega) (by omega)
      hnext (by rw [val_sub hle]; linarith)
    simpa using this

theorem loop_above {a x prec : Nat} (ha : a < ONE) (hx : x < ONE) {top : Nat} (htop : top ≤ 2 * ONE) :
    ∀ fuel term sum j negative, 1 ≤ j → j + term ≤ ONE → term < fuel → 
      (negative = false → ONE + term ≤ sum ∧ sum ≤ top) → (negative = true → ONE ≤ sum ∧ sum + term ≤ top) →
      ∃ r, approxLoop a x true prec fuel term sum negative (j + 1) = .ok r ∧ ONE ≤ r ∧ r ≤ top := by
  intro fuel
  induction fuel with
  | zero => intro term sum j negative _ _ h; omega
  | succ fuel ih =>
    intro term sum j negative hj0 hj hf hF hT
    have hb : ONE ≤ sum ∧ sum ≤ top := by
      cases negative with
      | false => have := hF rfl; omega
      | true => have := hT rfl; omega
    rw [approx_step ha hx (by omega) (by omega) (by omega)]
    split
    · exact ⟨sum, rfl, hb⟩
    split
    · exact ⟨sum, rfl, hb⟩
    rename_i hnz
    have hterm : 0 < term := by
      rcases Nat.eq_zero_or_pos term with h | h
      · rw [h, nextTerm_zero] at hnz; exact absurd rfl hnz
      · exact h
    have hlt : nextTerm a x term (j + 1) < term := nextTerm_lt ha hx (by omega) hterm
    have hc : (absDiffWithSign a (ONE * (j + 1 - 1))).2 = false := by
      simp only [Nat.add_sub_cancel, absDiffWithSign, decide_eq_false_iff_not]
      have := Nat.le_mul_of_pos_right ONE hj0
      omega
    have e2 : add64 (j + 1) 1 = .ok (j + 1 + 1) := add64_eq_ok'.2 ⟨by have := one_64; omega, rfl⟩
    have hU := one_cube
    simp only [hc, Bool.false_eq_true, if_false, if_true]
    generalize nextTerm a x term (j + 1) = t at *
    cases negative with
    | false =>
      obtain ⟨h1, h2⟩ := hF rfl
      have e1 : dsub sum t = .ok (sum - t) := dsub_eq_ok.2 ⟨by omega, rfl⟩
      simp only [Bool.not_false, if_true, e1, e2, ok_bind]
      exact ih t (sum - t) (j + 1) true (by omega) (by omega) (by omega) (by simp) (fun _ => by omega)
    | true =>
      obtain ⟨h1, h2⟩ := hT rfl
      have e1 : dadd sum t = .ok (sum + t) := dadd_eq_ok.2 ⟨by nlinarith, rfl⟩
      simp only [Bool.not_true, Bool.false_eq_true, if_false, e1, e2, ok_bind]
      exact ih t (sum + t) (j + 1) false (by omega) (by omega) (by omega) (fun _ => by omega) (by simp)

/-- The result does not depend on the bound once it suffices. -/
theorem approxLoop_mono {a x prec : Nat} {xNeg : Bool} :
    ∀ {fuel fuel' term sum i : Nat} {negative : Bool} {r : Nat}, fuel ≤ fuel' →
      approxLoop a x xNeg prec fuel term sum negative i = .ok r →
      approxLoop a x xNeg prec fuel' term sum negative i = .ok r := by
  intro fuel
  induction fuel with
  | zero => intro _ _ _ _ _ _ _ h; cases h
  | succ fuel ih =>
    intro fuel' term sum i negative r hle h
    obtain ⟨f, rfl⟩ : ∃ f, fuel' = f + 1 := ⟨fuel' - 1, by omega⟩
    rw [approxLoop] at h ⊢
    split at h
    · rename_i hp; rw [if_pos hp]; exact h
    · rename_i hp
      rw [if_neg hp]
      simp only [bind_eq_ok] at h ⊢
      obtain ⟨r1, g1, k, g2, k1, g3, cx, g4, t1, g5, t2, g6, h⟩ := h
      refine ⟨r1, g1, k, g2, k1, g3, cx, g4, t1, g5, t2, g6, ?_⟩
      split at h
      · rename_i hz; rw [if_pos hz]; exact h
      · rename_i hz
        rw [if_neg hz]
        generalize (if (absDiffWithSign a k1).2 = true then !if xNeg = true then !negative else negative
          else if xNeg = true then !negative else negative) = n2 at h ⊢
        cases n2
        all_goals
          simp only [Bool.false_eq_true, if_false, if_true, bind_eq_ok] at h ⊢
          obtain ⟨s', g7, i', g8, h⟩ := h
          exact ⟨s', g7, i', g8, ih (by omega) h⟩

end Ibcx.Math
