import Verif.Spec.ReasonsZap
import Verif.Core.ErrorLemmas
import Verif.Props.Power
/-!
# C114 (pools): why a simulated swap of a weighted pool is refused
-/

namespace Ibcx.Props
open Ibcx Ibcx.Pool Ibcx.Math Ibcx.Spec Ibcx.Spec.Zaps

/-! ### Arithmetic -/

private theorem chk256_error {n : Nat} {e : Err} (h : chk256 n = .error e) : e = .overflow := by
  unfold chk256 at h; split at h <;> simp_all

private theorem dmul_error {a b : Nat} {e : Err} (h : dmul a b = .error e) : e = .overflow := chk256_error h
private theorem dadd_error {a b : Nat} {e : Err} (h : dadd a b = .error e) : e = .overflow := chk256_error h
private theorem toDec_error {a : Nat} {e : Err} (h : toDec a = .error e) : e = .overflow := chk256_error h
private theorem dsub_error {a b : Nat} {e : Err} (h : dsub a b = .error e) : e = .overflow := by
  unfold dsub at h; split at h <;> simp_all

private theorem ddiv_error {a b : Nat} {e : Err} (h : ddiv a b = .error e) :
    e = .overflow ∨ (e = .divideByZero ∧ b = 0) := by
  unfold ddiv at h
  split at h
  · rename_i hb
    simp only [Except.error.injEq] at h
    exact .inr ⟨h.symm, hb⟩
  · exact .inl (chk256_error h)

private theorem powIntLoop_error : ∀ {fuel base tmp i : Nat} {e : Err}, 1 ≤ i → i ≤ fuel →
    powIntLoop fuel base tmp i = .error e → e = .overflow := by
  intro fuel
  induction fuel with
  | zero => intro _ _ i _ h1 h2; omega
  | succ fuel ih =>
    intro base tmp i e h1 h2 h
    unfold powIntLoop at h
    split at h
    · exact dmul_error h
    · split at h
      · simp only [bind_eq_error] at h
        rcases h with h | ⟨_, _, h | ⟨_, _, h⟩⟩
        · exact dmul_error h
        · exact dmul_error h
        · exact ih (by omega) (by omega) h
      · simp only [bind_eq_error] at h
        rcases h with h | ⟨_, _, h | ⟨_, _, h⟩⟩
        · cases h
        · exact dmul_error h
        · exact ih (by omega) (by omega) h

private theorem powInt_error {base n : Nat} {e : Err} (h : powInt base n = .error e) : e = .overflow := by
  unfold powInt at h
  split at h
  · cases h
  · exact powIntLoop_error (by omega) le_rfl h

private theorem frac_lt (exp : Nat) : exp - ONE * (exp / ONE) < ONE := by
  have := Nat.lt_mul_div_succ exp Math.one_pos
  rw [Nat.mul_add, Nat.mul_one] at this
  have hp := Math.one_pos
  omega

private theorem pow_error {base exp : Nat} {e : Err} (h : pow base exp = .error e) :
    e = .overflow ∨ (e = .negativeBase ∧ base = 0) ∨ (e = .baseTooLarge ∧ 2 * ONE ≤ base) := by
  unfold pow at h
  split at h
  · rename_i hb; simp only [Except.error.injEq] at h; exact .inr (.inl ⟨h.symm, hb⟩)
  · rename_i hb0
    split at h
    · rename_i hb; simp only [Except.error.injEq] at h; exact .inr (.inr ⟨h.symm, hb⟩)
    · rename_i hb
      split at h
      · cases h
      · simp only [bind_eq_error] at h
        rcases h with h | ⟨_, _, h⟩
        · exact .inl (powInt_error h)
        · have hfl := frac_lt exp
          generalize exp - ONE * (exp / ONE) = f at *
          split at h
          · cases h
          · rename_i hf
            simp only [bind_eq_error] at h
            obtain ⟨r, g, _⟩ := C53_series_stops_in_range POW_PRECISION (Nat.pos_of_ne_zero hb0) (by omega)
              (Nat.pos_of_ne_zero hf) hfl
            have g1 := g (ONE + 1) (Nat.lt_succ_self _)
            unfold powApprox at h
            rcases h with h | ⟨_, _, h⟩
            · rw [g1] at h; cases h
            · exact .inl (dmul_error h)

private theorem mul_ge_one {a b : Nat} (ha : ONE ≤ a) (hb : ONE ≤ b) : ONE ≤ a * b / ONE := by
  rw [Nat.le_div_iff_mul_le Math.one_pos]
  exact Nat.mul_le_mul ha hb

private theorem powIntLoop_ge : ∀ {fuel base tmp i r : Nat}, ONE ≤ base → ONE ≤ tmp →
    powIntLoop fuel base tmp i = .ok r → ONE ≤ r := by
  intro fuel
  induction fuel with
  | zero => intro _ _ _ _ _ _ h; cases h
  | succ fuel ih =>
    intro base tmp i r hb ht h
    unfold powIntLoop at h
    split at h
    · rw [dmul_eq_ok] at h
      rw [h.2]; exact mul_ge_one hb ht
    · split at h
      · simp only [bind_eq_ok, dmul_eq_ok] at h
        obtain ⟨t', ⟨_, rfl⟩, b', ⟨_, rfl⟩, h⟩ := h
        exact ih (mul_ge_one hb hb) (mul_ge_one ht hb) h
      · simp only [bind_eq_ok, dmul_eq_ok, Except.ok.injEq] at h
        obtain ⟨t', rfl, b', ⟨_, rfl⟩, h⟩ := h
        exact ih (mul_ge_one hb hb) ht h

private theorem pow_ge_one {base exp r : Nat} (hb : ONE ≤ base) (h : pow base exp = .ok r) : ONE ≤ r := by
  unfold pow at h
  split at h
  · cases h
  · rename_i hb0
    split at h
    · cases h
    · split at h
      · cases h; exact hb
      · simp only [bind_eq_ok] at h
        obtain ⟨ip, hip, h⟩ := h
        have hip1 : ONE ≤ ip := by
          unfold powInt at hip
          split at hip
          · cases hip; exact le_rfl
          · exact powIntLoop_ge hb le_rfl hip
        have hfl := frac_lt exp
        generalize exp - ONE * (exp / ONE) = f at *
        split at h
        · cases h; exact hip1
        · rename_i hf
          simp only [bind_eq_ok, dmul_eq_ok] at h
          obtain ⟨fp, hfp, _, rfl⟩ := h
          obtain ⟨r, g, _, g2⟩ := C53_series_stops_in_range POW_PRECISION (Nat.pos_of_ne_zero hb0) (by omega)
            (Nat.pos_of_ne_zero hf) hfl
          have g1 := g (ONE + 1) (Nat.lt_succ_self _)
          unfold powApprox at hfp
          rw [g1] at hfp
          cases hfp
          exact mul_ge_one hip1 (g2 hb).1

/-! ### Assets -/

theorem getAsset_error {d : Denom} {e : Err} : ∀ {as : List Asset}, getAsset as d = .error e →
    e = .generic ∧ as.find? (fun a => decide (a.denom = d)) = none := by
  intro as
  induction as with
  | nil => intro h; simp only [getAsset, Except.error.injEq] at h; exact ⟨h.symm, rfl⟩
  | cons b bs ih =>
    intro h
    rw [getAsset] at h
    split at h
    · cases h
    · rename_i hb
      obtain ⟨h1, h2⟩ := ih h
      exact ⟨h1, by rw [List.find?_cons]; simp [hb, h2]⟩

theorem getAsset_ok {d : Denom} {a : Asset} : ∀ {as : List Asset}, getAsset as d = .ok a →
    as.find? (fun a => decide (a.denom = d)) = some a := by
  intro as
  induction as with
  | nil => intro h; cases h
  | cons b bs ih =>
    intro h
    rw [getAsset] at h
    rw [List.find?_cons]
    split at h
    · rename_i hb; cases h; simp [hb]
    · rename_i hb; simp [hb, ih h]

private theorem applyNewAssets_error {as : List Asset} {din dout : Denom} {vin vout : Nat} {e : Err}
    (h : applyNewAssets as din dout vin vout = .error e) :
    e = .overflow ∨ (e = .generic ∧ (as.find? (fun a => decide (a.denom = din)) = none ∨
      as.find? (fun a => decide (a.denom = dout)) = none)) := by
  simp only [applyNewAssets, bind_eq_error] at h
  rcases h with h | ⟨_, _, h | ⟨_, _, h | ⟨_, _, h | ⟨_, _, h⟩⟩⟩⟩
  · exact .inr ⟨(getAsset_error h).1, .inl (getAsset_error h).2⟩
  · exact .inr ⟨(getAsset_error h).1, .inr (getAsset_error h).2⟩
  · exact .inl (dadd_error h)
  · exact .inl (dsub_error h)
  · cases h

private theorem solve_error {fb fa wf ub wu : Nat} {e : Err} (h : solveInvariants fb fa wf ub wu = .error e) :
    e = .overflow ∨ (e = .divideByZero ∧ (wu = 0 ∨ fa = 0)) ∨
      (e = .negativeBase ∧ fa ≠ 0 ∧ ONE * fb / fa = 0) ∨ (e = .baseTooLarge ∧ fa ≠ 0 ∧ 2 * ONE ≤ ONE * fb / fa) := by
  simp only [solveInvariants, bind_eq_error] at h
  rcases h with h | ⟨wr, _, h | ⟨y, hy, h | ⟨yw, _, h | ⟨_, _, h⟩⟩⟩⟩
  · rcases ddiv_error h with h | ⟨h1, h2⟩
    · exact .inl h
    · exact .inr (.inl ⟨h1, .inl h2⟩)
  · rcases ddiv_error h with h | ⟨h1, h2⟩
    · exact .inl h
    · exact .inr (.inl ⟨h1, .inr h2⟩)
  · rw [ddiv_eq_ok] at hy
    obtain ⟨hy0, _, rfl⟩ := hy
    rcases pow_error h with h | ⟨h, h2⟩ | ⟨h, h2⟩
    · exact .inl h
    · exact .inr (.inr (.inl ⟨h, hy0, h2⟩))
    · exact .inr (.inr (.inr ⟨h, hy0, h2⟩))
  · exact .inl (dmul_error h)
  · cases h

private theorem solve_ok {fb fa wf ub wu am : Nat} {neg : Bool} (h : solveInvariants fb fa wf ub wu = .ok (am, neg)) :
    fa ≠ 0 ∧ wu ≠ 0 ∧ ∃ yw, pow (ONE * fb / fa) (ONE * wf / wu) = .ok yw ∧ neg = decide (yw < ONE) := by
  simp only [solveInvariants, bind_eq_ok, ddiv_eq_ok, Except.ok.injEq, absDiffWithSign, Prod.mk.injEq] at h
  obtain ⟨_, ⟨h1, _, rfl⟩, _, ⟨h2, _, rfl⟩, yw, h3, _, _, _, h5⟩ := h
  exact ⟨h2, h1, yw, h3, h5.symm⟩

private theorem scale_div (a b : Nat) : ONE * (ONE * a) / (ONE * b) = ONE * a / b :=
  Nat.mul_div_mul_left _ _ Math.one_pos

private theorem scale_ne {a : Nat} (h : ONE * a ≠ 0) : a ≠ 0 := by
  intro h'; rw [h'] at h; exact h (Nat.mul_zero _)

private theorem scale_eq {a : Nat} (h : ONE * a = 0) : a = 0 :=
  (Nat.mul_eq_zero.1 h).resolve_left (Nat.pos_iff_ne_zero.1 Math.one_pos)

/-! ### C114, pools -/

/-- **C114 (sale to a weighted pool).** When the simulation of selling a coin to a weighted pool fails, the kind of the
error is true of the pool and the coin: a denom is missing, a weight or a balance is zero, the coin does not move the
pool, or a number does not fit. -/
theorem C114_sale_reason {w : WeightedPool} {c : Coin} {d : Denom} {e : Err}
    (h : w.swapExactIn c d w.swapFee = .error e) : SaleRefused w c d e := by
  have e1 : (10 : Nat) ^ 18 = ONE := rfl
  simp only [WeightedPool.swapExactIn, bind_eq_error] at h
  rcases h with h | ⟨out, hout, h | ⟨_, _, h⟩⟩
  · simp only [calcOutGivenIn, bind_eq_error] at h
    rcases h with h | ⟨b, hb, h | ⟨a, ha, h | ⟨keep, hk, h | ⟨kept, hkept, h | ⟨post, hpost, h | ⟨_, hd1, h | ⟨_, hd2,
      h | ⟨_, hd3, h | ⟨_, hd4, h | ⟨_, hd5, h | ⟨⟨am, neg⟩, hs, h | ⟨_, _, h⟩⟩⟩⟩⟩⟩⟩⟩⟩⟩⟩⟩
    · obtain ⟨rfl, h2⟩ := getAsset_error h; exact .inr h2
    · obtain ⟨rfl, h2⟩ := getAsset_error h; exact .inl h2
    · obtain rfl := dsub_error h; trivial
    · obtain rfl := dmul_error h; trivial
    · obtain rfl := dadd_error h; trivial
    · obtain rfl := toDec_error h; trivial
    · obtain rfl := toDec_error h; trivial
    · obtain rfl := toDec_error h; trivial
    · obtain rfl := toDec_error h; trivial
    · obtain rfl := toDec_error h; trivial
    all_goals
      have hb' := getAsset_ok hb
      have ha' := getAsset_ok ha
      rw [dsub_eq_ok] at hk
      rw [dmul_eq_ok] at hkept
      rw [dadd_eq_ok] at hpost
      rw [toDec_eq_ok] at hd1 hd2 hd3 hd4 hd5
      obtain ⟨hk1, rfl⟩ := hk
      obtain ⟨_, rfl⟩ := hkept
      obtain ⟨_, rfl⟩ := hpost
      obtain ⟨_, rfl⟩ := hd1
      obtain ⟨_, rfl⟩ := hd2
      obtain ⟨_, rfl⟩ := hd3
      obtain ⟨_, rfl⟩ := hd4
      obtain ⟨_, rfl⟩ := hd5
      have hc : c.amount * (ONE - w.swapFee) / ONE = counted w c.amount := rfl
    · rw [hc] at h
      rcases solve_error h with rfl | ⟨rfl, h | h⟩ | ⟨rfl, h0, h⟩ | ⟨rfl, h0, h⟩
      · trivial
      · exact .inl ⟨b, hb', scale_eq h⟩
      · exact .inr ⟨a, ha', scale_eq h⟩
      · rw [scale_div] at h
        refine ⟨a, ha', ?_⟩
        rw [e1]
        rcases Nat.div_eq_zero_iff.1 h with h | h
        · exact absurd h (scale_ne h0)
        · exact h
      · exfalso
        rw [scale_div, Nat.le_div_iff_mul_le (Nat.pos_of_ne_zero (scale_ne h0))] at h
        have hp := Math.one_pos
        have h0' := Nat.pos_of_ne_zero (scale_ne h0)
        clear hc
        generalize counted w c.amount = k at h h0'
        rw [Nat.mul_assoc, Nat.mul_left_comm] at h
        have := Nat.le_of_mul_le_mul_left h hp
        omega
    · obtain ⟨hneg, rfl⟩ := require_eq_error.1 h
      rw [hc] at hs
      obtain ⟨h0, h1, yw, hy, rfl⟩ := solve_ok hs
      rw [scale_div, scale_div] at hy
      have hy1 : ONE * a.amount / (a.amount + counted w c.amount) ≤ ONE := by
        apply Nat.div_le_of_le_mul
        rw [Nat.mul_comm]
        exact Nat.mul_le_mul_right _ (Nat.le_add_right _ _)
      have hyw : yw = ONE := by
        refine Nat.le_antisymm ?_ (by simpa using hneg)
        rcases Nat.eq_zero_or_pos (ONE * a.amount / (a.amount + counted w c.amount)) with h2 | h2
        · rw [h2] at hy; simp [pow] at hy
        · exact (C52_power_lower_bound h2 hy1 hy).2
      subst hyw
      exact ⟨a, b, ha', hb', hy⟩
    · cases h
  · rcases applyNewAssets_error h with rfl | ⟨rfl, h2⟩
    · trivial
    · exact h2
  · cases h

/-- A sale that does not move the pool: the coin is nothing once the fee is taken. -/
example : (WeightedPool.mk 1 (10 ^ 16) [⟨"uatom", 1000, 1⟩, ⟨"uosmo", 1000, 1⟩]).swapExactIn ⟨"uatom", 1⟩ "uosmo" (10 ^ 16)
      = .error .mathApprox ∧
    counted ⟨1, 10 ^ 16, [⟨"uatom", 1000, 1⟩, ⟨"uosmo", 1000, 1⟩]⟩ 1 = 0 := by decide +kernel

/-- **C114 (purchase from a weighted pool).** When the simulation of buying a coin from a weighted pool fails, the kind
of the error is true of the pool and the coin: a denom is missing, a weight is zero, the coin is half of the balance or
more, or a number does not fit. -/
theorem C114_purchase_reason {w : WeightedPool} {c : Coin} {d : Denom} {e : Err}
    (h : w.swapExactOut d c w.swapFee = .error e) : PurchaseRefused w c d e := by
  have e1 : (10 : Nat) ^ 18 = ONE := rfl
  simp only [WeightedPool.swapExactOut, bind_eq_error] at h
  rcases h with h | ⟨out, hout, h | ⟨_, _, h⟩⟩
  · simp only [calcInGivenOut, bind_eq_error] at h
    rcases h with h | ⟨b, hb, h | ⟨a, ha, h | ⟨post, hpost, h | ⟨_, hd1, h | ⟨_, hd2,
      h | ⟨_, hd3, h | ⟨_, hd4, h | ⟨_, hd5, h | ⟨⟨am, neg⟩, hs, h⟩⟩⟩⟩⟩⟩⟩⟩⟩
    · obtain ⟨rfl, h2⟩ := getAsset_error h; exact .inl h2
    · obtain ⟨rfl, h2⟩ := getAsset_error h; exact .inr h2
    · obtain rfl := dsub_error h; trivial
    · obtain rfl := toDec_error h; trivial
    · obtain rfl := toDec_error h; trivial
    · obtain rfl := toDec_error h; trivial
    · obtain rfl := toDec_error h; trivial
    · obtain rfl := toDec_error h; trivial
    all_goals
      have hb' := getAsset_ok hb
      have ha' := getAsset_ok ha
      rw [dsub_eq_ok] at hpost
      rw [toDec_eq_ok] at hd1 hd2 hd3 hd4 hd5
      obtain ⟨hle, rfl⟩ := hpost
      obtain ⟨_, rfl⟩ := hd1
      obtain ⟨_, rfl⟩ := hd2
      obtain ⟨_, rfl⟩ := hd3
      obtain ⟨_, rfl⟩ := hd4
      obtain ⟨_, rfl⟩ := hd5
      have hy1 : b.amount - c.amount ≠ 0 → ONE ≤ ONE * b.amount / (b.amount - c.amount) := by
        intro hn
        rw [Nat.le_div_iff_mul_le (Nat.pos_of_ne_zero hn)]
        exact Nat.mul_le_mul_left _ (Nat.sub_le _ _)
      have hp := Math.one_pos
    · rcases solve_error h with rfl | ⟨rfl, h | h⟩ | ⟨rfl, h0, h⟩ | ⟨rfl, h0, h⟩
      · trivial
      · exact .inl ⟨a, ha', scale_eq h⟩
      · have := scale_eq h
        exact .inr (.inl ⟨b, hb', by omega⟩)
      · exfalso
        rw [scale_div] at h
        have := hy1 (scale_ne h0)
        omega
      · rw [scale_div, Nat.le_div_iff_mul_le (Nat.pos_of_ne_zero (scale_ne h0))] at h
        have h0' := scale_ne h0
        rw [Nat.mul_assoc, Nat.mul_left_comm] at h
        have := Nat.le_of_mul_le_mul_left h hp
        exact ⟨b, hb', by omega, by omega⟩
    · obtain ⟨h0, h1, yw, hy, rfl⟩ := solve_ok hs
      rw [scale_div, scale_div] at hy
      have hyw := pow_ge_one (hy1 (scale_ne h0)) hy
      rcases h with h | ⟨keep, hk, h | ⟨_, _, h | ⟨_, _, h⟩⟩⟩
      · obtain rfl := dsub_error h; trivial
      · rcases ddiv_error h with rfl | ⟨rfl, hz⟩
        · trivial
        · rw [dsub_eq_ok] at hk
          exact .inr (.inr (by rw [e1]; omega))
      · obtain ⟨hneg, rfl⟩ := require_eq_error.1 h
        exact absurd hyw (by simpa using hneg)
      · cases h
  · rcases applyNewAssets_error h with rfl | ⟨rfl, h2⟩
    · trivial
    · exact h2.symm
  · cases h

/-- Half of the balance cannot be bought. -/
example : (WeightedPool.mk 1 0 [⟨"uatom", 1000, 1⟩, ⟨"uosmo", 1000, 1⟩]).swapExactOut "uosmo" ⟨"uatom", 500⟩ 0
      = .error .baseTooLarge ∧
    ((WeightedPool.mk 1 0 [⟨"uatom", 1000, 1⟩, ⟨"uosmo", 1000, 1⟩]).swapExactOut "uosmo" ⟨"uatom", 499⟩ 0).isOk = true := by
  decide +kernel

end Ibcx.Props
