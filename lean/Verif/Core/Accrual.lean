import Verif.Spec.Link
import Verif.Core.PowTight
/-!
# Lemmas about the streaming fee accrual

Not part of the model.
-/

namespace Ibcx
open Ibcx

theorem powLoop_le {f x y n p : Nat} (hn : 0 < n) (h : powLoop f x y n = .ok p) :
    p * ONE ^ n ≤ x ^ n * y := by
  induction f generalizing x y n with
  | zero => simp [powLoop] at h
  | succ f ih =>
    simp only [powLoop] at h
    split at h
    · rename_i h1
      have : n = 1 := by omega
      subst this
      simp at h
      rw [h.2, pow_one, pow_one]
      exact Nat.div_mul_le_self _ _
    · rename_i h1
      have hsq : x * x / ONE * ONE ≤ x * x := Nat.div_mul_le_self _ _
      split at h
      · rename_i h2
        simp at h
        obtain ⟨_, h⟩ := h
        have := ih (by omega) h
        obtain ⟨m, rfl⟩ : ∃ m, n = 2 * m := ⟨n / 2, by omega⟩
        rw [show 2 * m / 2 = m by omega] at this
        generalize x * x / ONE = x2 at *
        generalize ONE = o at *
        calc p * o ^ (2 * m) = p * o ^ m * o ^ m := by rw [two_mul, pow_add, mul_assoc]
          _ ≤ x2 ^ m * y * o ^ m := Nat.mul_le_mul_right _ this
          _ = (x2 * o) ^ m * y := by rw [mul_pow]; ring
          _ ≤ (x * x) ^ m * y := Nat.mul_le_mul_right _ (Nat.pow_le_pow_left hsq m)
          _ = x ^ (2 * m) * y := by rw [mul_pow, two_mul, pow_add]
      · rename_i h2
        simp at h
        obtain ⟨_, _, h⟩ := h
        have := ih (by omega) h
        have hxy : x * y / ONE * ONE ≤ x * y := Nat.div_mul_le_self _ _
        obtain ⟨m, rfl⟩ : ∃ m, n = 2 * m + 1 := ⟨n / 2, by omega⟩
        rw [show (2 * m + 1 - 1) / 2 = m by omega] at this
        generalize x * x / ONE = x2 at *
        generalize x * y / ONE = y2 at *
        generalize ONE = o at *
        calc p * o ^ (2 * m + 1) = p * o ^ m * o ^ m * o := by rw [pow_succ, two_mul, pow_add]; ring
          _ ≤ x2 ^ m * y2 * o ^ m * o := Nat.mul_le_mul_right _ (Nat.mul_le_mul_right _ this)
          _ = (x2 * o) ^ m * (y2 * o) := by rw [mul_pow]; ring
          _ ≤ (x * x) ^ m * (x * y) := Nat.mul_le_mul (Nat.pow_le_pow_left hsq m) hxy
          _ = x ^ (2 * m + 1) * y := by rw [mul_pow, pow_succ, two_mul, pow_add]; ring

/-- The truncated power is at most the exact power. -/
theorem checkedPow_le {x n p : Nat} (h : checkedPow x n = .ok p) : p * ONE ^ n ≤ x ^ n * ONE := by
  unfold checkedPow at h
  split at h
  · rename_i hn
    subst hn
    simp at h
    simp [h]
  · exact powLoop_le (by omega) h

private theorem small_prod {a b o : Nat} (h : a * b ≤ 2 * (o * o)) (ho : 0 < o) : a * b / o ≤ 2 * o := by
  apply Nat.div_le_of_le_mul
  nlinarith

theorem powLoop_ok {f x y n : Nat} (hf : n ≤ f) (hn : 0 < n) (hx : ONE ≤ x) (hy : ONE ≤ y)
    (h : x ^ n * y ≤ 2 * ONE ^ (n + 1)) : ∃ p, powLoop f x y n = .ok p := by
  induction f generalizing x y n with
  | zero => omega
  | succ f ih =>
    have hU : 2 * ONE < U128 := by norm_num [ONE, U128]
    have hO := ONE_pos
    have hxy : x * y ≤ 2 * (ONE * ONE) := by
      obtain ⟨m, rfl⟩ : ∃ m, n = m + 1 := ⟨n - 1, by omega⟩
      generalize ONE = o at *
      have h1 : o ^ m ≤ x ^ m := Nat.pow_le_pow_left hx m
      have h2 : o ^ m * (x * y) ≤ o ^ m * (2 * (o * o)) := by
        calc o ^ m * (x * y) ≤ x ^ m * (x * y) := Nat.mul_le_mul_right _ h1
          _ = x ^ (m + 1) * y := by rw [pow_succ]; ring
          _ ≤ 2 * o ^ (m + 1 + 1) := h
          _ = o ^ m * (2 * (o * o)) := by rw [pow_succ, pow_succ]; ring
      exact Nat.le_of_mul_le_mul_left h2 (Nat.pow_pos hO)
    simp only [powLoop]
    split
    · exact ⟨x * y / ONE, by simp; exact lt_of_le_of_lt (small_prod hxy hO) hU⟩
    · rename_i h1
      have hxx : x * x ≤ 2 * (ONE * ONE) := by
        obtain ⟨m, rfl⟩ : ∃ m, n = m + 2 := ⟨n - 2, by omega⟩
        generalize ONE = o at *
        have h1 : o ^ m * o ≤ x ^ m * y := Nat.mul_le_mul (Nat.pow_le_pow_left hx m) hy
        have h2 : (o ^ m * o) * (x * x) ≤ (o ^ m * o) * (2 * (o * o)) := by
          calc (o ^ m * o) * (x * x) ≤ x ^ m * y * (x * x) := Nat.mul_le_mul_right _ h1
            _ = x ^ (m + 2) * y := by rw [pow_succ, pow_succ]; ring
            _ ≤ 2 * o ^ (m + 2 + 1) := h
            _ = (o ^ m * o) * (2 * (o * o)) := by rw [pow_succ, pow_succ, pow_succ]; ring
        exact Nat.le_of_mul_le_mul_left h2 (Nat.mul_pos (Nat.pow_pos hO) hO)
      have bx : x * x / ONE < U128 := lt_of_le_of_lt (small_prod hxx hO) hU
      have by' : x * y / ONE < U128 := lt_of_le_of_lt (small_prod hxy hO) hU
      have lx : ONE ≤ x * x / ONE := by
        rw [Nat.le_div_iff_mul_le hO]; exact Nat.mul_le_mul hx hx
      have ly : ONE ≤ x * y / ONE := by
        rw [Nat.le_div_iff_mul_le hO]; exact Nat.mul_le_mul hx hy
      have hsq : x * x / ONE * ONE ≤ x * x := Nat.div_mul_le_self _ _
      have hsy : x * y / ONE * ONE ≤ x * y := Nat.div_mul_le_self _ _
      split
      · rename_i h2
        have := ih (x := x * x / ONE) (y := y) (n := n / 2) (by omega) (by omega) lx hy (by
          clear bx by' lx ly hsy hU
          obtain ⟨m, rfl⟩ : ∃ m, n = 2 * m := ⟨n / 2, by omega⟩
          rw [show 2 * m / 2 = m by omega]
          generalize x * x / ONE = x2 at *
          generalize ONE = o at *
          have : (x2 ^ m * y) * o ^ m ≤ (2 * o ^ (m + 1)) * o ^ m := by
            calc (x2 ^ m * y) * o ^ m = (x2 * o) ^ m * y := by rw [mul_pow]; ring
              _ ≤ (x * x) ^ m * y := Nat.mul_le_mul_right _ (Nat.pow_le_pow_left hsq m)
              _ = x ^ (2 * m) * y := by rw [mul_pow, two_mul, pow_add]
              _ ≤ 2 * o ^ (2 * m + 1) := h
              _ = (2 * o ^ (m + 1)) * o ^ m := by rw [two_mul m, pow_succ, pow_add, pow_succ]; ring
          exact Nat.le_of_mul_le_mul_right this (Nat.pow_pos hO))
        obtain ⟨p, hp⟩ := this
        exact ⟨p, by simp; exact ⟨bx, hp⟩⟩
      · rename_i h2
        have := ih (x := x * x / ONE) (y := x * y / ONE) (n := (n - 1) / 2) (by omega) (by omega) lx ly (by
          clear bx by' lx ly hU
          obtain ⟨m, rfl⟩ : ∃ m, n = 2 * m + 1 := ⟨n / 2, by omega⟩
          rw [show (2 * m + 1 - 1) / 2 = m by omega]
          generalize x * x / ONE = x2 at *
          generalize x * y / ONE = y2 at *
          generalize ONE = o at *
          have : (x2 ^ m * y2) * (o ^ m * o) ≤ (2 * o ^ (m + 1)) * (o ^ m * o) := by
            calc (x2 ^ m * y2) * (o ^ m * o) = (x2 * o) ^ m * (y2 * o) := by rw [mul_pow]; ring
              _ ≤ (x * x) ^ m * (x * y) := Nat.mul_le_mul (Nat.pow_le_pow_left hsq m) hsy
              _ = x ^ (2 * m + 1) * y := by rw [mul_pow, pow_succ, two_mul, pow_add]; ring
              _ ≤ 2 * o ^ (2 * m + 1 + 1) := h
              _ = (2 * o ^ (m + 1)) * (o ^ m * o) := by rw [two_mul m, pow_succ, pow_succ, pow_add, pow_succ]; ring
          exact Nat.le_of_mul_le_mul_right this (Nat.mul_pos (Nat.pow_pos hO) hO))
        obtain ⟨p, hp⟩ := this
        exact ⟨p, by simp; exact ⟨by', bx, hp⟩⟩

/-- If the exact power is at most 2, the truncated power exists and is at most 2. -/
theorem checkedPow_ok {x n : Nat} (hx : ONE ≤ x) (h : x ^ n ≤ 2 * ONE ^ n) :
    ∃ p, checkedPow x n = .ok p ∧ ONE ≤ p ∧ p ≤ 2 * ONE := by
  have hO := ONE_pos
  have key : ∀ p, checkedPow x n = .ok p → ONE ≤ p ∧ p ≤ 2 * ONE := by
    intro p hp
    constructor
    · obtain ⟨a, rfl⟩ := Nat.exists_eq_add_of_le hx
      have := checkedPow_lower hp
      omega
    · have h1 := checkedPow_le hp
      generalize ONE = o at *
      have : p * o ^ n ≤ 2 * o * o ^ n := by
        calc p * o ^ n ≤ x ^ n * o := h1
          _ ≤ 2 * o ^ n * o := Nat.mul_le_mul_right _ h
          _ = 2 * o * o ^ n := by ring
      exact Nat.le_of_mul_le_mul_right this (Nat.pow_pos hO)
  have : ∃ p, checkedPow x n = .ok p := by
    unfold checkedPow
    split
    · exact ⟨_, rfl⟩
    · refine powLoop_ok (le_refl _) (by omega) hx (le_refl _) ?_
      rw [pow_succ]
      generalize ONE = o at *
      calc x ^ n * o ≤ 2 * o ^ n * o := Nat.mul_le_mul_right _ h
        _ = _ := by ring
  obtain ⟨p, hp⟩ := this
  exact ⟨p, hp, key p hp⟩

end Ibcx

namespace Ibcx.Core
open Ibcx Ibcx.Spec

/-- Fees recorded as collectable for a denom.  Field `collected` of `/repo/contracts/core/src/state/fee.rs:34-41`. -/
def uncollected (s : State) (d : Denom) : Nat :=
  match s.fee.streamingFee with
  | some sf => total d sf.collected
  | none => 0

theorem getKey_map (us : Units) (f : Nat → Nat) (d : Denom) :
    Units.getKey (us.map fun e => (e.1, f e.2)) d = (us.getKey d).map f := by
  induction us with
  | nil => rfl
  | cons e us ih =>
    obtain ⟨k, v⟩ := e
    simp only [List.map_cons, Units.getKey]
    split <;> simp_all

/-- Everything about an accrual that changes something. -/
theorem accrual_spec {s s1 : State} {now : Nat} {sf : StreamingFee} (hn : s.indexUnits.denoms.Nodup)
    (h : collectStreamingFee s now = .ok s1) (hsf : s.fee.streamingFee = some sf)
    (hfz : sf.freeze = false) (hlt : sf.lastCollectedAt < now) :
    ∃ k col, ((now - sf.lastCollectedAt) % 2 ^ 32) * sf.rate ≤ k ∧
      (ONE + k) * ONE ^ ((now - sf.lastCollectedAt) % 2 ^ 32) ≤
        (ONE + sf.rate) ^ ((now - sf.lastCollectedAt) % 2 ^ 32) * ONE ∧
      (ONE + sf.rate) ^ ((now - sf.lastCollectedAt) % 2 ^ 32) * (ONE - (now - sf.lastCollectedAt) % 2 ^ 32) ≤
        (ONE + k) * ONE ^ ((now - sf.lastCollectedAt) % 2 ^ 32) ∧
      (∀ e ∈ s.indexUnits, part e.2 k ≤ e.2) ∧
      s1 = { s with
        fee := { s.fee with streamingFee := some { sf with collected := col, lastCollectedAt := now } }
        indexUnits := s.indexUnits.map fun e => (e.1, e.2 - part e.2 k) } ∧
      (∀ d, total d col = total d sf.collected +
        ((s.indexUnits.lookup d).map fun u => part (part u k) s.totalSupply).getD 0) := by
  rcases collectStreamingFee_eq_ok.1 h with ⟨h0, _⟩ | ⟨sf', sf'', us', h1, h2, rfl⟩
  · rw [h0] at hsf; cases hsf
  · rw [hsf] at h1
    cases h1
    obtain ⟨_, h3⟩ := collect_eq_ok.1 h2
    rcases h3 with ⟨h4, _⟩ | ⟨_, _, _, k, hp, hle, _, col, hcol, rfl, rfl⟩
    · rcases h4 with h4 | h4
      · simp [h4] at hfz
      · omega
    · have hl := checkedPow_lower hp
      have hu := checkedPow_le hp
      refine ⟨k, col, by omega, hu, checkedPow_accurate (by omega) hp, ?_, ?_, ?_⟩
      · intro e he; rw [part_eq]; exact (hle e he).2
      · simp only [chargedUnits, part_eq]
      · intro d
        have e2 : amountOf d (feeAmounts s.indexUnits k s.totalSupply) =
            ((s.indexUnits.lookup d).map fun u => part (part u k) s.totalSupply).getD 0 := by
          rw [lookup_eq]
          simp only [part_eq]
          cases hg : s.indexUnits.getKey d with
          | none =>
            rw [Units.amountOf_eq_zero]; rfl
            unfold feeAmounts
            rw [List.map_map]; exact Units.getKey_eq_none.1 hg
          | some v =>
            have := Units.amountOf_of_nodup (cs := feeAmounts s.indexUnits k s.totalSupply)
              (c := ⟨d, v * k / ONE * s.totalSupply / ONE⟩)
              (by unfold feeAmounts; rw [List.map_map]; exact hn)
              (List.mem_map.2 ⟨(d, v), Units.getKey_mem hg, rfl⟩)
            simpa using this
        rw [total_eq, total_eq, (foldCollected_spec hcol).1 d, e2]

theorem accrual_noop {s s1 : State} {now : Nat} (h : collectStreamingFee s now = .ok s1)
    (hz : ∀ sf, s.fee.streamingFee = some sf → sf.freeze = true ∨ sf.lastCollectedAt = now) : s1 = s := by
  rcases collectStreamingFee_eq_ok.1 h with ⟨_, rfl⟩ | ⟨sf', sf'', us', h1, h2, rfl⟩
  · rfl
  · obtain ⟨_, h3⟩ := collect_eq_ok.1 h2
    rcases h3 with ⟨_, rfl, rfl⟩ | ⟨h5, h6, _⟩
    · rw [← h1]
    · rcases hz sf' h1 with h | h
      · simp [h5] at h
      · omega

theorem accrual_le {s s1 : State} {now : Nat} (h : collectStreamingFee s now = .ok s1) :
    ∀ sf, s.fee.streamingFee = some sf → sf.lastCollectedAt ≤ now := by
  intro sf hsf
  rcases collectStreamingFee_eq_ok.1 h with ⟨h0, _⟩ | ⟨sf', sf'', us', h1, h2, rfl⟩
  · rw [h0] at hsf; cases hsf
  · rw [hsf] at h1; cases h1
    exact (collect_eq_ok.1 h2).1

end Ibcx.Core
