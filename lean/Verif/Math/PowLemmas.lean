import Verif.Math.Pow
import Verif.NumLemmas
import Mathlib.Tactic.Linarith
import Mathlib.Tactic.Ring
/-!
# Lemmas about fixed-point powers

Not part of the model.
-/

namespace Ibcx.Math
open Ibcx

@[simp] theorem chk256_eq_ok {a r : Nat} : chk256 a = .ok r ↔ a < U256 ∧ r = a := by
  unfold chk256; split <;> simp_all [eq_comm]

@[simp] theorem dmul_eq_ok {a b r : Nat} : dmul a b = .ok r ↔ a * b / ONE < U256 ∧ r = a * b / ONE := by
  simp [dmul]

@[simp] theorem dadd_eq_ok {a b r : Nat} : dadd a b = .ok r ↔ a + b < U256 ∧ r = a + b := by
  simp [dadd]

@[simp] theorem dsub_eq_ok {a b r : Nat} : dsub a b = .ok r ↔ b ≤ a ∧ r = a - b := by
  unfold dsub; split <;> simp_all [eq_comm]

@[simp] theorem ddiv_eq_ok {a b r : Nat} :
    ddiv a b = .ok r ↔ b ≠ 0 ∧ ONE * a / b < U256 ∧ r = ONE * a / b := by
  unfold ddiv; split <;> simp_all

@[simp] theorem toDec_eq_ok {a r : Nat} : toDec a = .ok r ↔ ONE * a < U256 ∧ r = ONE * a := by
  simp [toDec]

@[simp] theorem add64_eq_ok' {a b r : Nat} : add64 a b = .ok r ↔ a + b < 2 ^ 64 ∧ r = a + b := by
  unfold add64; split <;> simp_all [eq_comm]

theorem one_pos : 0 < ONE := by decide

theorem one_cube : (ONE + 2) * (ONE + 2) * (ONE + 2) < U256 := by decide

theorem one_two : 2 * ONE < U256 := by decide

theorem one_64 : ONE + 3 < 2 ^ 64 := by decide

/-- The new term of an iteration. -/
def nextTerm (a x term i : Nat) : Nat := term * ((absDiffWithSign a (ONE * (i - 1))).1 * x / ONE) / ONE / i

theorem absDiff_le {a i : Nat} (ha : a < ONE) (hi : 1 ≤ i) : (absDiffWithSign a (ONE * (i - 1))).1 ≤ ONE * i := by
  obtain ⟨j, rfl⟩ : ∃ j, i = j + 1 := ⟨i - 1, by omega⟩
  simp only [absDiffWithSign, Nat.add_sub_cancel]
  have : ONE * (j + 1) = ONE * j + ONE := by ring
  split <;> omega

theorem nextTerm_lt {a x term i : Nat} (ha : a < ONE) (hx : x < ONE) (hi : 1 ≤ i) (ht : 0 < term) :
    nextTerm a x term i < term := by
  have hc := absDiff_le ha hi
  unfold nextTerm
  generalize (absDiffWithSign a (ONE * (i - 1))).1 = c at hc
  have hp := one_pos
  generalize ONE = P at *
  have h1 : c * x / P ≤ i * x := by
    apply Nat.div_le_of_le_mul
    calc c * x ≤ (P * i) * x := Nat.mul_le_mul_right _ hc
      _ = P * (i * x) := by ring
  rw [Nat.div_div_eq_div_mul]
  apply Nat.div_lt_of_lt_mul
  calc term * (c * x / P) ≤ term * (i * x) := Nat.mul_le_mul_left _ h1
    _ = term * i * x := by ring
    _ < term * i * P := Nat.mul_lt_mul_of_pos_left hx (Nat.mul_pos ht hi)
    _ = P * i * term := by ring

theorem nextTerm_zero (a x i : Nat) : nextTerm a x 0 i = 0 := by simp [nextTerm]

theorem nextTerm_le {a x term i : Nat} (ha : a < ONE) (hx : x < ONE) (hi : 1 ≤ i) :
    nextTerm a x term i ≤ term := by
  rcases Nat.eq_zero_or_pos term with rfl | h
  · rw [nextTerm_zero]
  · exact (nextTerm_lt ha hx hi h).le

theorem next_eq (T i : Nat) : ONE * T / (ONE * i) = T / i := Nat.mul_div_mul_left _ _ one_pos

/-- One iteration without aborts. -/
theorem approx_step {a x prec fuel term sum i : Nat} {xNeg negative : Bool} (ha : a < ONE) (hx : x < ONE)
    (hi : 1 ≤ i) (hi2 : i ≤ ONE + 2) (ht : term ≤ ONE) :
    approxLoop a x xNeg prec (fuel + 1) term sum negative i =
      if term < prec then .ok sum
      else if nextTerm a x term i = 0 then .ok sum
      else (do
        let n1 := if xNeg then !negative else negative
        let n2 := if (absDiffWithSign a (ONE * (i - 1))).2 then !n1 else n1
        let sum' ← if n2 then dsub sum (nextTerm a x term i) else dadd sum (nextTerm a x term i)
        let i' ← add64 i 1
        approxLoop a x xNeg prec fuel (nextTerm a x term i) sum' n2 i') := by
  have hp := one_pos
  have hU := one_cube
  have e1 : toDec i = .ok (ONE * i) := toDec_eq_ok.2 ⟨by nlinarith, rfl⟩
  have e2 : dmul ONE (ONE * i) = .ok (ONE * i) := by
    have : ONE * (ONE * i) / ONE = ONE * i := Nat.mul_div_cancel_left _ hp
    refine dmul_eq_ok.2 ⟨?_, this.symm⟩
    rw [this]; nlinarith
  have e3 : dsub (ONE * i) ONE = .ok (ONE * (i - 1)) := by
    refine dsub_eq_ok.2 ⟨Nat.le_mul_of_pos_right _ hi, ?_⟩
    rw [Nat.mul_sub, Nat.mul_one]
  have hc := absDiff_le ha hi
  have h1 : (absDiffWithSign a (ONE * (i - 1))).1 * x / ONE ≤ ONE * i := by
    apply Nat.div_le_of_le_mul
    calc _ ≤ (ONE * i) * x := Nat.mul_le_mul_right _ hc
      _ ≤ (ONE * i) * ONE := Nat.mul_le_mul_left _ hx.le
      _ = ONE * (ONE * i) := by ring
  have e4 : dmul (absDiffWithSign a (ONE * (i - 1))).1 x =
      .ok ((absDiffWithSign a (ONE * (i - 1))).1 * x / ONE) := dmul_eq_ok.2 ⟨by nlinarith, rfl⟩
  have h2 : term * ((absDiffWithSign a (ONE * (i - 1))).1 * x / ONE) / ONE ≤ ONE * i := by
    apply Nat.div_le_of_le_mul
    exact Nat.mul_le_mul ht h1
  have e5 : dmul term ((absDiffWithSign a (ONE * (i - 1))).1 * x / ONE) =
      .ok (term * ((absDiffWithSign a (ONE * (i - 1))).1 * x / ONE) / ONE) := dmul_eq_ok.2 ⟨by nlinarith, rfl⟩
  have h3 : ONE * (term * ((absDiffWithSign a (ONE * (i - 1))).1 * x / ONE) / ONE) / (ONE * i) =
      nextTerm a x term i := by
    rw [next_eq, nextTerm]
  have h4 : nextTerm a x term i ≤ term := nextTerm_le ha hx hi
  have e6 : ddiv (term * ((absDiffWithSign a (ONE * (i - 1))).1 * x / ONE) / ONE) (ONE * i) =
      .ok (nextTerm a x term i) := by
    refine ddiv_eq_ok.2 ⟨Nat.ne_of_gt (Nat.mul_pos hp hi), ?_, h3.symm⟩
    rw [h3]; nlinarith
  rw [approxLoop]
  split
  · rfl
  · simp only [e1, ok_bind, e2, e3, e4, e5, e6]

/-- Any two bounds from the exponent on give the same result: the bound is not what ends the loop. -/
theorem powIntLoop_fuel : ∀ {fuel fuel' base tmp i : Nat}, 1 ≤ i → i ≤ fuel → i ≤ fuel' →
    powIntLoop fuel base tmp i = powIntLoop fuel' base tmp i := by
  intro fuel
  induction fuel with
  | zero => intro _ _ _ i h h1 _; omega
  | succ fuel ih =>
    intro fuel' base tmp i h0 h1 h2
    obtain ⟨g, rfl⟩ : ∃ g, fuel' = g + 1 := ⟨fuel' - 1, by omega⟩
    rw [powIntLoop, powIntLoop]
    split
    · rfl
    · have e : ∀ b t, powIntLoop fuel b t (i / 2) = powIntLoop g b t (i / 2) := fun b t =>
        ih (by omega) (by omega) (by omega)
      simp only [e]

end Ibcx.Math
