import Verif.Props.Accuracy
import Verif.Props.WeightedPool
/-!
# Accuracy of the simulated prices of weighted pools (C74)
-/

namespace Ibcx.Props
open Ibcx Ibcx.Math Ibcx.Pool Ibcx.Spec

private theorem unit_eq : (1 : ℝ) / (ONE : ℝ) = 1 / 10 ^ 18 := by
  have : ONE = 10 ^ 18 := rfl
  rw [this]; norm_num

/-- `(1 - t)^w` is at least `1 - (w + 1) t`. -/
private theorem one_sub_rpow {t w : ℝ} (ht0 : 0 ≤ t) (ht : t ≤ 1) (hw : 0 ≤ w) : 1 - (w + 1) * t ≤ (1 - t) ^ w := by
  rcases le_total 1 w with h | h
  · have := one_add_mul_self_le_rpow_one_add (s := -t) (by linarith) h
    rw [← sub_eq_add_neg] at this
    nlinarith
  · have h2 : (1 - t) ^ (1 : ℝ) ≤ (1 - t) ^ w := by
      rcases eq_or_lt_of_le ht with rfl | ht
      · rw [sub_self, Real.zero_rpow one_ne_zero]
        exact Real.zero_rpow_nonneg w
      · exact Real.rpow_le_rpow_of_exponent_ge (by linarith) (by linarith) h
    rw [Real.rpow_one] at h2
    nlinarith

/-- A base of at least one half raised to `-u`. -/
private theorem rpow_neg_le {z u : ℝ} (hz : 1 / 2 ≤ z) (hz1 : z ≤ 1) (hu0 : 0 ≤ u) (hu : u ≤ 1) : z ^ (-u) ≤ 1 + u := by
  have hz0 : 0 < z := by linarith
  have h1 : z ^ (-u) = (1 + (z⁻¹ - 1)) ^ u := by
    rw [Real.rpow_neg hz0.le, ← Real.inv_rpow hz0.le]; congr 1; ring
  have hi : z⁻¹ ≤ 2 := by rw [inv_le_comm₀ hz0 (by norm_num)]; linarith
  have hi1 : 1 ≤ z⁻¹ := (one_le_inv₀ hz0).2 hz1
  rw [h1]
  have := rpow_one_add_le_one_add_mul_self (s := z⁻¹ - 1) (by linarith) hu0 hu
  nlinarith

private theorem floor_val {p q : Nat} (hq : 0 < q) :
    val (ONE * p / q) ≤ (p : ℝ) / q ∧ (p : ℝ) / q - 1 / (ONE : ℝ) ≤ val (ONE * p / q) := by
  have hp := Math.one_pos
  have hpR := oneR_pos
  have hqR : (0 : ℝ) < q := by exact_mod_cast hq
  generalize hy : ONE * p / q = y
  unfold val
  constructor
  · have h2 : y * q ≤ ONE * p := by rw [← hy]; exact Nat.div_mul_le_self _ _
    have h3 : (y : ℝ) * q ≤ ONE * p := by exact_mod_cast h2
    rw [div_le_div_iff₀ hpR hqR]
    linarith
  · have h2 : ONE * p < (y + 1) * q := by
      rw [← hy, Nat.mul_comm _ q]
      exact Nat.lt_mul_div_succ _ hq
    have h3 : (ONE : ℝ) * p ≤ (y + 1) * q := by exact_mod_cast h2.le
    rw [sub_le_iff_le_add, ← add_div, div_le_div_iff₀ hqR hpR]
    linarith

/-- Real part of the sale: `vy` and `vw` are the rounded ratio of balances and of weights. -/
private theorem sale_real {z w vy vw v u : ℝ} (hu0 : 0 ≤ u) (hu : u ≤ 1 / 10 ^ 12) (hw : 0 ≤ w) (hz1 : z ≤ 1)
    (hvh : 1 / 2 ≤ vy) (hv1 : vy ≤ 1) (hB1 : vy ≤ z) (hB2 : z - u ≤ vy) (hvw : 0 ≤ vw) (hE1 : vw ≤ w) (hE2 : w - u ≤ vw)
    (hacc : |v - vy ^ vw| * vy ≤ 11 / 10 ^ 9 + (vw + 1) * u) : |v - z ^ w| ≤ 23 / 10 ^ 9 + 4 * w * u := by
  have hv0 : 0 < vy := by linarith
  have hz0 : 0 < z := by linarith
  have hzw0 : 0 < z ^ w := Real.rpow_pos_of_pos hz0 _
  have hzw1 : z ^ w ≤ 1 := Real.rpow_le_one hz0.le hz1 hw
  have hacc2 : |v - vy ^ vw| ≤ 22 / 10 ^ 9 + 2 * (w + 1) * u := by
    have h3 : |v - vy ^ vw| * (1 / 2) ≤ |v - vy ^ vw| * vy := mul_le_mul_of_nonneg_left hvh (abs_nonneg _)
    have h4 : (vw + 1) * u ≤ (w + 1) * u := mul_le_mul_of_nonneg_right (by linarith) hu0
    linarith
  have hup : vy ^ vw ≤ z ^ w * (1 + u) := by
    calc vy ^ vw ≤ z ^ vw := Real.rpow_le_rpow hv0.le hB1 hvw
      _ ≤ z ^ (w - u) := Real.rpow_le_rpow_of_exponent_ge hz0 hz1 hE2
      _ = z ^ w * z ^ (-u) := by rw [← Real.rpow_add hz0, sub_eq_add_neg]
      _ ≤ z ^ w * (1 + u) := by
        apply mul_le_mul_of_nonneg_left _ hzw0.le
        exact rpow_neg_le (by linarith) hz1 hu0 (by linarith)
  have hdown : z ^ w - 2 * (w + 1) * u ≤ vy ^ vw := by
    have hq0 : 0 ≤ u / z := by positivity
    have hq1 : u / z ≤ 2 * u := by rw [div_le_iff₀ hz0]; nlinarith
    have h6 : z * (1 - u / z) ≤ vy := by
      have : z * (1 - u / z) = z - u := by field_simp
      rw [this]; exact hB2
    have h7 : (z * (1 - u / z)) ^ w ≤ vy ^ w := Real.rpow_le_rpow (mul_nonneg hz0.le (by linarith)) h6 hw
    have h8 : vy ^ w ≤ vy ^ vw := Real.rpow_le_rpow_of_exponent_ge hv0 hv1 hE1
    rw [Real.mul_rpow hz0.le (by linarith)] at h7
    have h9 := mul_le_mul_of_nonneg_left (one_sub_rpow hq0 (by linarith) hw) hzw0.le
    have h10 : (w + 1) * (u / z) ≤ (w + 1) * (2 * u) := mul_le_mul_of_nonneg_left hq1 (by linarith)
    have h11 : z ^ w * ((w + 1) * (u / z)) ≤ 1 * ((w + 1) * (2 * u)) :=
      mul_le_mul hzw1 h10 (mul_nonneg (by linarith) hq0) zero_le_one
    linarith
  have h12 : z ^ w * u ≤ 1 * u := mul_le_mul_of_nonneg_right hzw1 hu0
  have h13 : 0 ≤ w * u := mul_nonneg hw hu0
  rw [abs_le] at hacc2 ⊢
  constructor <;> linarith [hacc2.1, hacc2.2]

/-- Real part of the purchase. -/
private theorem purchase_real {z w vy vw v u : ℝ} (hu0 : 0 ≤ u) (hu : u ≤ 1 / 10 ^ 12) (hw : 0 ≤ w)
    (hv1 : 1 ≤ vy) (hv2 : vy ≤ 2) (hB1 : vy ≤ z) (hB2 : z - u ≤ vy) (hvw : 0 ≤ vw) (hE1 : vw ≤ w) (hE2 : w - u ≤ vw)
    (hacc : |v - vy ^ vw| ≤ vy ^ vw * (11 / 10 ^ 9 + (vw + 1) * u)) :
    |v - z ^ w| ≤ z ^ w * (12 / 10 ^ 9 + 2 * w * u) := by
  have hv0 : 0 < vy := by linarith
  have hz1 : 1 ≤ z := hv1.trans hB1
  have hz0 : 0 < z := by linarith
  have hzw0 : 0 < z ^ w := Real.rpow_pos_of_pos hz0 _
  have hup : vy ^ vw ≤ z ^ w :=
    (Real.rpow_le_rpow hv0.le hB1 hvw).trans (Real.rpow_le_rpow_of_exponent_le hz1 hE1)
  have hdown : z ^ w * (1 - (w + 2) * u) ≤ vy ^ vw := by
    have h6 : z * (1 - u) ≤ vy := by nlinarith
    have h7 : (z * (1 - u)) ^ w ≤ vy ^ w := Real.rpow_le_rpow (mul_nonneg hz0.le (by linarith)) h6 hw
    rw [Real.mul_rpow hz0.le (by linarith)] at h7
    have h8 := mul_le_mul_of_nonneg_left (one_sub_rpow hu0 (by linarith) hw) hzw0.le
    have h9 : vy ^ w ≤ vy ^ vw * (1 + u) := by
      calc vy ^ w ≤ vy ^ (vw + u) := Real.rpow_le_rpow_of_exponent_le hv1 (by linarith)
        _ = vy ^ vw * vy ^ u := Real.rpow_add hv0 _ _
        _ ≤ vy ^ vw * (1 + u) := by
          apply mul_le_mul_of_nonneg_left _ (Real.rpow_nonneg hv0.le _)
          have := rpow_one_add_le_one_add_mul_self (s := vy - 1) (by linarith) hu0 (by linarith)
          rw [add_sub_cancel] at this
          nlinarith
    have h10 : vy ^ vw * u ≤ z ^ w * u := mul_le_mul_of_nonneg_right hup hu0
    linarith
  have h13 : vy ^ vw * (11 / 10 ^ 9 + (vw + 1) * u) ≤ z ^ w * (11 / 10 ^ 9 + (w + 1) * u) := by
    apply mul_le_mul hup _ _ hzw0.le
    · have := mul_le_mul_of_nonneg_right hE1 hu0
      linarith
    · positivity
  have hacc := hacc.trans h13
  have h15 : z ^ w * u ≤ z ^ w * (1 / 10 ^ 12) := mul_le_mul_of_nonneg_left hu hzw0.le
  have hwu : 0 ≤ z ^ w * (w * u) := by positivity
  rw [abs_le] at hacc ⊢
  constructor
  · linarith [hacc.1]
  · linarith [hacc.2]

/-! ### C74 -/

/-- For a ratio strictly between one and two the power function takes the ratio less one. -/
private theorem dropped {w v : Nat} (h1 : v < w) (h2 : w < 2 * v) (h3 : v ≤ 10 ^ 18 * (w - v)) (y : Nat) :
    pow y (ONE * w / v) = pow y (ONE * (w - v) / v) := by
  have hv : 0 < v := by omega
  have e : ONE * w / v = ONE + ONE * (w - v) / v := by
    have : ONE * w = ONE * (w - v) + ONE * v := by rw [← Nat.mul_add, Nat.sub_add_cancel h1.le]
    rw [this, Nat.add_mul_div_right _ _ hv, Nat.add_comm]
  rw [e]
  apply C52_exponent_between_one_and_two
  · rw [Nat.lt_iff_add_one_le, Nat.le_div_iff_mul_le hv, Nat.zero_add, Nat.one_mul]
    exact h3
  · rw [Nat.div_lt_iff_lt_mul hv]
    exact Nat.mul_lt_mul_of_pos_left (by omega) Math.one_pos

/-- Selling, for weights whose ratio the power function takes like the ratio `p / wo`. -/
private theorem sale_general {R U wi wo p : Nat} {din dout : Denom} {x spread out : Nat} {assets : List Asset}
    (hi : assets.find? (fun a => decide (a.denom = din)) = some ⟨din, R, wi⟩)
    (ho : assets.find? (fun a => decide (a.denom = dout)) = some ⟨dout, U, wo⟩)
    (hpow : ∀ y, pow y (ONE * wi / wo) = pow y (ONE * p / wo))
    (hw : p ≤ wo ∨ 2 * wo ≤ p) (hx : x * (10 ^ 18 - spread) / 10 ^ 18 ≤ R)
    (h : calcOutGivenIn assets ⟨din, x⟩ dout spread = .ok out) :
    ∃ a : ℕ, a = x * (10 ^ 18 - spread) / 10 ^ 18 ∧
      |(out : ℝ) - U * (1 - ((R : ℝ) / (R + a)) ^ ((p : ℝ) / wo))| ≤
        U * (23 / 10 ^ 9 + 4 * ((p : ℝ) / wo) / 10 ^ 18) + 1 := by
  have hp := Math.one_pos
  have hpR := oneR_pos
  have e18 : (10 : Nat) ^ 18 = ONE := rfl
  simp only [calcOutGivenIn, solveInvariants, getAsset_find hi, getAsset_find ho, ok_bind, bind_eq_ok, dadd_eq_ok, dsub_eq_ok,
    toDec_eq_ok, dmul_eq_ok, ddiv_eq_ok, require_eq_ok, Except.ok.injEq] at h
  obtain ⟨keep, ⟨hs, rfl⟩, a, ⟨_, ha⟩, post, ⟨_, rfl⟩, d1, ⟨_, rfl⟩, d2, ⟨_, rfl⟩, d3, ⟨_, rfl⟩, d4, ⟨_, rfl⟩, d5, ⟨_, rfl⟩,
    r, ⟨wr, ⟨hw0, _, hwr⟩, y, ⟨hy0, _, hy⟩, yw, hyw, am, ⟨_, rfl⟩, rfl⟩, _, hneg, rfl⟩ := h
  rw [e18] at hx ⊢
  rw [← ha] at hx
  refine ⟨a, ha, ?_⟩
  clear ha
  have hyy : y = ONE * R / (R + a) := by
    rw [hy, Nat.mul_left_comm, Nat.mul_div_mul_left _ _ hp]
  have hww0 : wr = ONE * wi / wo := by
    rw [hwr, Nat.mul_left_comm, Nat.mul_div_mul_left _ _ hp]
  rw [hww0, hpow] at hyw
  clear hy hwr hww0 wr
  obtain ⟨wr, hww⟩ : ∃ wr, wr = ONE * p / wo := ⟨_, rfl⟩
  rw [← hww] at hyw
  have hwo : 0 < wo := by
    rcases Nat.eq_zero_or_pos wo with h | h
    · rw [h] at hw0; simp at hw0
    · exact h
  have hpos : 0 < R + a := by
    rcases Nat.eq_zero_or_pos (R + a) with h | h
    · rw [h] at hy0; simp at hy0
    · exact h
  have hRa : (0 : ℝ) < R + a := by exact_mod_cast hpos
  have hwoR : (0 : ℝ) < wo := by exact_mod_cast hwo
  have hy1 : y ≤ ONE := by
    rw [hyy]
    apply Nat.div_le_of_le_mul
    rw [Nat.mul_comm]
    exact Nat.mul_le_mul_right _ (Nat.le_add_right _ _)
  have hhalf : ONE / 2 ≤ y := by
    rw [hyy, Nat.le_div_iff_mul_le hpos]
    have : ONE / 2 * (R + a) ≤ ONE / 2 * (2 * R) := Nat.mul_le_mul_left _ (by omega)
    have h2 : ONE / 2 * 2 = ONE := by decide
    calc ONE / 2 * (R + a) ≤ ONE / 2 * (2 * R) := this
      _ = ONE / 2 * 2 * R := by ring
      _ = ONE * R := by rw [h2]
  have hypos : 0 < y := lt_of_lt_of_le (by decide) hhalf
  have hwr' : wr ≤ ONE ∨ 2 * ONE ≤ wr := by
    rcases hw with h | h
    · left; rw [hww]; exact Nat.div_le_of_le_mul (by rw [Nat.mul_comm]; exact Nat.mul_le_mul_right _ h)
    · right; rw [hww, Nat.le_div_iff_mul_le hwo]
      calc 2 * ONE * wo = ONE * (2 * wo) := by ring
        _ ≤ ONE * p := Nat.mul_le_mul_left _ h
  obtain ⟨yw', h1, hacc⟩ := C52_power_accuracy_below hypos hy1 hwr'
  rw [hyw] at h1
  cases h1
  have hvh : 1 / 2 ≤ val y := by
    have e : val (ONE / 2) = 1 / 2 := by
      unfold val
      have : ((ONE / 2 : ℕ) : ℝ) = (ONE : ℝ) / 2 := by
        rw [Nat.cast_div (by decide) (by norm_num)]; norm_num
      rw [this]; field_simp
    rw [← e]; exact val_le.2 hhalf
  have hv1 : val y ≤ 1 := by rw [← val_one]; exact val_le.2 hy1
  obtain ⟨hB1, hB2⟩ := floor_val (p := R) hpos
  obtain ⟨hE1, hE2⟩ := floor_val (p := p) hwo
  rw [← hyy] at hB1 hB2
  rw [← hww] at hE1 hE2
  push_cast at hB1 hB2
  have hz1 : (R : ℝ) / (R + a) ≤ 1 := by
    rw [div_le_one hRa]; have := Nat.cast_nonneg (α := ℝ) a; linarith
  have hw00 : (0 : ℝ) ≤ (p : ℝ) / wo := by positivity
  have hU : (0 : ℝ) ≤ U := Nat.cast_nonneg _
  -- the result in real numbers
  have hyw1 : yw < ONE := by simpa [absDiffWithSign] using hneg
  have e2 : toUintFloor (ONE * U * (absDiffWithSign ONE yw).1 / ONE) = U * (ONE - yw) / ONE := by
    simp only [absDiffWithSign]
    rw [if_neg (by omega)]
    unfold toUintFloor
    rw [Nat.mul_assoc, Nat.mul_div_cancel_left _ hp]
  rw [e2]
  have hval : (U : ℝ) * (1 - val yw) = ((U * (ONE - yw) : ℕ) : ℝ) / ONE := by
    rw [← val_one, ← val_sub hyw1.le]
    unfold val
    push_cast
    rw [mul_div_assoc]
  have o1 : ((U * (ONE - yw) / ONE : ℕ) : ℝ) ≤ U * (1 - val yw) := by
    rw [hval]; exact Nat.cast_div_le
  have o2 : U * (1 - val yw) - 1 ≤ ((U * (ONE - yw) / ONE : ℕ) : ℝ) := by
    rw [hval, sub_le_iff_le_add, div_le_iff₀ hpR]
    have := (Nat.lt_mul_div_succ (U * (ONE - yw)) hp).le
    rw [Nat.mul_comm ONE] at this
    exact_mod_cast this
  generalize ((U * (ONE - yw) / ONE : ℕ) : ℝ) = out at *
  -- the power
  have hu : (1 : ℝ) / ONE ≤ 1 / 10 ^ 12 := by rw [unit_eq]; norm_num
  have hu0 : (0 : ℝ) ≤ 1 / (ONE : ℝ) := by positivity
  rw [div_eq_mul_one_div (val wr + 1)] at hacc
  have hfin := sale_real hu0 hu hw00 hz1 hvh hv1 hB1 hB2 (val_nonneg _) hE1 hE2 hacc
  have e3 : 4 * ((p : ℝ) / wo) / 10 ^ 18 = 4 * ((p : ℝ) / wo) * (1 / (ONE : ℝ)) := by
    rw [unit_eq, ← div_eq_mul_one_div]
  rw [e3]
  clear hu hu0 e3 hacc hyw hyy hww
  generalize (1 : ℝ) / (ONE : ℝ) = u at *
  generalize (R : ℝ) / (R + a) = z at *
  generalize (p : ℝ) / wo = w at *
  have hm := mul_le_mul_of_nonneg_left hfin hU
  have hm1 : U * |val yw - z ^ w| = |U * (1 - val yw) - U * (1 - z ^ w)| := by
    have : U * (1 - val yw) - U * (1 - z ^ w) = - (U * (val yw - z ^ w)) := by ring
    rw [this, abs_neg, abs_mul, abs_of_nonneg hU]
  rw [hm1, abs_le] at hm
  rw [abs_le]
  constructor <;> linarith [hm.1, hm.2]

/-- **C74 (selling).** When the input after the fee is at most the pool's balance `R` of the input asset and the
ratio of the weights is not strictly between one and two, the simulated output is within 2.3 units of the eighth
decimal place of the pool's balance `U` of the output asset (plus one unit, plus rounding in proportion to the ratio
of the weights) of the exact formula. -/
theorem C74_sale_accuracy_partial {R U wi wo : Nat} {din dout : Denom} {x spread out : Nat} {assets : List Asset}
    (hi : assets.find? (fun a => decide (a.denom = din)) = some ⟨din, R, wi⟩)
    (ho : assets.find? (fun a => decide (a.denom = dout)) = some ⟨dout, U, wo⟩)
    (hw : wi ≤ wo ∨ 2 * wo ≤ wi) (hx : x * (10 ^ 18 - spread) / 10 ^ 18 ≤ R)
    (h : calcOutGivenIn assets ⟨din, x⟩ dout spread = .ok out) :
    ∃ a : ℕ, a = x * (10 ^ 18 - spread) / 10 ^ 18 ∧
      |(out : ℝ) - U * (1 - ((R : ℝ) / (R + a)) ^ ((wi : ℝ) / wo))| ≤
        U * (23 / 10 ^ 9 + 4 * ((wi : ℝ) / wo) / 10 ^ 18) + 1 :=
  sale_general hi ho (fun _ => rfl) hw hx h

/-- A sale with a weight ratio of one half. -/
example : (calcOutGivenIn [⟨"atom", 1000000, 5⟩, ⟨"osmo", 4000000, 10⟩] ⟨"atom", 210000⟩ "osmo" 0).toOption =
    some 363636 ∧ (5 ≤ 10 ∨ 2 * 10 ≤ 5) ∧ 210000 * (10 ^ 18 - 0) / 10 ^ 18 ≤ 1000000 := by decide +kernel

/-- **C74 (selling, weights between one and two).** When the ratio of the weights is strictly between one and two (by at
least `10^-18`), the simulated output follows, as closely, the exact formula for the ratio less one: too little is
paid. -/
theorem C74_sale_between_one_and_two {R U wi wo : Nat} {din dout : Denom} {x spread out : Nat} {assets : List Asset}
    (hi : assets.find? (fun a => decide (a.denom = din)) = some ⟨din, R, wi⟩)
    (ho : assets.find? (fun a => decide (a.denom = dout)) = some ⟨dout, U, wo⟩)
    (hw1 : wo < wi) (hw2 : wi < 2 * wo) (hw3 : wo ≤ 10 ^ 18 * (wi - wo)) (hx : x * (10 ^ 18 - spread) / 10 ^ 18 ≤ R)
    (h : calcOutGivenIn assets ⟨din, x⟩ dout spread = .ok out) :
    ∃ a : ℕ, a = x * (10 ^ 18 - spread) / 10 ^ 18 ∧
      |(out : ℝ) - U * (1 - ((R : ℝ) / (R + a)) ^ ((wi : ℝ) / wo - 1))| ≤
        U * (23 / 10 ^ 9 + 4 * ((wi : ℝ) / wo) / 10 ^ 18) + 1 := by
  obtain ⟨a, ha, hb⟩ := sale_general (p := wi - wo) hi ho (dropped hw1 hw2 hw3) (.inl (by omega)) hx h
  refine ⟨a, ha, ?_⟩
  have hwo : (0 : ℝ) < wo := by exact_mod_cast (by omega : 0 < wo)
  have e : ((wi - wo : ℕ) : ℝ) / wo = (wi : ℝ) / wo - 1 := by
    rw [Nat.cast_sub hw1.le, sub_div, div_self hwo.ne']
  rw [e] at hb
  refine hb.trans ?_
  have hU : (0 : ℝ) ≤ U := Nat.cast_nonneg _
  have : 4 * ((wi : ℝ) / wo - 1) / 10 ^ 18 ≤ 4 * ((wi : ℝ) / wo) / 10 ^ 18 :=
    div_le_div_of_nonneg_right (by linarith) (by positivity)
  have := mul_le_mul_of_nonneg_left this hU
  linarith

/-- Weights 3 and 2: a pool of equal balances is doubled on one side, paid is `1 - sqrt(1/2)` of the other. -/
example : (calcOutGivenIn [⟨"a", 1000000, 3⟩, ⟨"b", 1000000, 2⟩] ⟨"a", 1000000⟩ "b" 0).toOption = some 292893 ∧
    2 < 3 ∧ 3 < 2 * 2 ∧ 2 ≤ 10 ^ 18 * (3 - 2) := by decide +kernel

/-- The hypotheses hold for weights 5 and 10. -/
example : (calcOutGivenIn [⟨"atom", 1000000, 5⟩, ⟨"osmo", 4000000, 10⟩] ⟨"atom", 210000⟩ "osmo" 0).toOption =
    some 363636 := by decide +kernel

/-- Buying, for weights whose ratio the power function takes like the ratio `p / wi`. -/
private theorem purchase_general {R U wi wo p : Nat} {din dout : Denom} {b spread inp : Nat} {assets : List Asset}
    (hi : assets.find? (fun a => decide (a.denom = din)) = some ⟨din, R, wi⟩)
    (ho : assets.find? (fun a => decide (a.denom = dout)) = some ⟨dout, U, wo⟩)
    (hpow : ∀ y, pow y (ONE * wo / wi) = pow y (ONE * p / wi))
    (hw : p ≤ wi ∨ 2 * wi ≤ p) (h : calcInGivenOut assets din ⟨dout, b⟩ spread = .ok inp) :
    b < U ∧ spread < 10 ^ 18 ∧
      |(inp : ℝ) - R * (((U : ℝ) / (U - b)) ^ ((p : ℝ) / wi) - 1) / (1 - (spread : ℝ) / 10 ^ 18)| ≤
        R * ((U : ℝ) / (U - b)) ^ ((p : ℝ) / wi) * (12 / 10 ^ 9 + 2 * ((p : ℝ) / wi) / 10 ^ 18) /
          (1 - (spread : ℝ) / 10 ^ 18) + 2 := by
  have hp := Math.one_pos
  have hpR := oneR_pos
  have e18 : (10 : Nat) ^ 18 = ONE := rfl
  have e18R : (10 : ℝ) ^ 18 = (ONE : ℝ) := by rw [← e18, Nat.cast_pow]; norm_num
  simp only [calcInGivenOut, solveInvariants, getAsset_find hi, getAsset_find ho, ok_bind, bind_eq_ok, dsub_eq_ok,
    toDec_eq_ok, dmul_eq_ok, ddiv_eq_ok, require_eq_ok, Except.ok.injEq] at h
  obtain ⟨post, ⟨hb, rfl⟩, d1, ⟨_, rfl⟩, d2, ⟨_, rfl⟩, d3, ⟨_, rfl⟩, d4, ⟨_, rfl⟩, d5, ⟨_, rfl⟩,
    r, ⟨wr, ⟨hw0, _, hwr⟩, y, ⟨hy0, _, hy⟩, yw, hyw, am, ⟨_, rfl⟩, rfl⟩, keep, ⟨hs, rfl⟩, bf, ⟨hk0, _, hbf⟩, _, hneg, rfl⟩ := h
  have hyy : y = ONE * U / (U - b) := by
    rw [hy, Nat.mul_left_comm, Nat.mul_div_mul_left _ _ hp]
  have hww0 : wr = ONE * wo / wi := by
    rw [hwr, Nat.mul_left_comm, Nat.mul_div_mul_left _ _ hp]
  rw [hww0, hpow] at hyw
  clear hy hwr hww0 wr
  obtain ⟨wr, hww⟩ : ∃ wr, wr = ONE * p / wi := ⟨_, rfl⟩
  rw [← hww] at hyw
  have hpos : 0 < U - b := by
    rcases Nat.eq_zero_or_pos (U - b) with h | h
    · rw [h] at hy0; simp at hy0
    · exact h
  have hwi : 0 < wi := by
    rcases Nat.eq_zero_or_pos wi with h | h
    · rw [h] at hw0; simp at hw0
    · exact h
  have hk : 0 < ONE - spread := Nat.pos_of_ne_zero hk0
  refine ⟨by omega, by rw [e18]; omega, ?_⟩
  have hkv : val (ONE - spread) = 1 - (spread : ℝ) / 10 ^ 18 := by
    rw [val_sub hs, val_one, e18R]; rfl
  have hk0' : 0 < val (ONE - spread) := by rw [← val_zero]; exact val_lt.2 hk
  rw [← hkv, e18R]
  have hUb : (U : ℝ) - b = ((U - b : ℕ) : ℝ) := by rw [Nat.cast_sub hb]
  rw [hUb]
  have hUbR : (0 : ℝ) < ((U - b : ℕ) : ℝ) := by exact_mod_cast hpos
  have hy1 : ONE ≤ y := by
    rw [hyy, Nat.le_div_iff_mul_le hpos]
    exact Nat.mul_le_mul_left _ (Nat.sub_le _ _)
  have hy2 : y < 2 * ONE := by
    by_contra hc
    unfold pow at hyw
    rw [if_neg (by omega), if_pos (by omega)] at hyw
    cases hyw
  have hwr' : wr ≤ ONE ∨ 2 * ONE ≤ wr := by
    rcases hw with h | h
    · left; rw [hww]; exact Nat.div_le_of_le_mul (by rw [Nat.mul_comm]; exact Nat.mul_le_mul_right _ h)
    · right; rw [hww, Nat.le_div_iff_mul_le hwi]
      calc 2 * ONE * wi = ONE * (2 * wi) := by ring
        _ ≤ ONE * p := Nat.mul_le_mul_left _ h
  have hacc := C52_power_accuracy_above hy1 hy2 hwr' hyw
  obtain ⟨hB1, hB2⟩ := floor_val (p := U) hpos
  obtain ⟨hE1, hE2⟩ := floor_val (p := p) hwi
  rw [← hyy] at hB1 hB2
  rw [← hww] at hE1 hE2
  have hv1 : 1 ≤ val y := by rw [← val_one]; exact val_le.2 hy1
  have hv2 : val y ≤ 2 := by
    have : val (2 * ONE) = 2 := by rw [two_mul, val_add, val_one]; norm_num
    rw [← this]; exact val_le.2 hy2.le
  have hw00 : (0 : ℝ) ≤ (p : ℝ) / wi := by positivity
  have hR : (0 : ℝ) ≤ R := Nat.cast_nonneg _
  -- the result in real numbers
  have hyw1 : ONE ≤ yw := by simpa [absDiffWithSign] using hneg
  simp only [absDiffWithSign] at hbf
  rw [if_pos hyw1] at hbf
  have e2 : ONE * R * (yw - ONE) / ONE = R * (yw - ONE) := by
    rw [Nat.mul_assoc, Nat.mul_div_cancel_left _ hp]
  rw [e2] at hbf
  obtain ⟨b1, b2⟩ := floor_val (p := R * (yw - ONE)) hk
  rw [← hbf] at b1 b2
  have hval : ((R * (yw - ONE) : ℕ) : ℝ) / ((ONE - spread : ℕ) : ℝ) = R * (val yw - 1) / val (ONE - spread) := by
    rw [← val_one, ← val_sub hyw1]
    unfold val
    rw [Nat.cast_mul]
    generalize ((yw - ONE : ℕ) : ℝ) = p
    generalize ((ONE - spread : ℕ) : ℝ) = q
    generalize (ONE : ℝ) = P at *
    rw [← mul_div_assoc, div_div_div_cancel_right₀ hpR.ne']
  rw [hval] at b1 b2
  have h5 : bf ≤ ONE * toUintCeil bf ∧ ONE * toUintCeil bf ≤ bf + ONE := by
    unfold toUintCeil
    split
    · rename_i h; subst h; simp
    · have := Nat.lt_mul_div_succ (bf - 1) hp
      have := Nat.mul_div_le (bf - 1) ONE
      rw [Nat.add_comm 1, Nat.mul_add, Nat.mul_one]
      rw [Nat.mul_succ] at *
      omega
  generalize toUintCeil bf = inp at *
  have c1 : val bf ≤ inp := by
    unfold val
    rw [div_le_iff₀ hpR, mul_comm]
    exact_mod_cast h5.1
  have c2 : (inp : ℝ) ≤ val bf + 1 := by
    have : (ONE : ℝ) * inp ≤ bf + ONE := by exact_mod_cast h5.2
    unfold val
    rw [← sub_le_iff_le_add, le_div_iff₀ hpR]
    linarith
  generalize val (ONE - spread) = k at *
  have hu : (1 : ℝ) / ONE ≤ 1 / 10 ^ 12 := by rw [unit_eq]; norm_num
  have hu0 : (0 : ℝ) ≤ 1 / (ONE : ℝ) := by positivity
  rw [div_eq_mul_one_div (val wr + 1)] at hacc
  have hfin := purchase_real hu0 hu hw00 hv1 hv2 hB1 hB2 (val_nonneg _) hE1 hE2 hacc
  have e3 : 2 * ((p : ℝ) / wi) / (ONE : ℝ) = 2 * ((p : ℝ) / wi) * (1 / (ONE : ℝ)) := by
    rw [← div_eq_mul_one_div]
  rw [e3]
  clear e3 hacc hyw hyy hww
  have hu1 : (1 : ℝ) / ONE ≤ 1 := hu.trans (by norm_num)
  clear hu
  generalize (1 : ℝ) / (ONE : ℝ) = u at *
  generalize (U : ℝ) / ((U - b : ℕ) : ℝ) = z at *
  generalize (p : ℝ) / wi = w at *
  have hm := mul_le_mul_of_nonneg_left hfin hR
  have hm1 : R * |val yw - z ^ w| = |R * (val yw - 1) - R * (z ^ w - 1)| := by
    have : R * (val yw - 1) - R * (z ^ w - 1) = R * (val yw - z ^ w) := by ring
    rw [this, abs_mul, abs_of_nonneg hR]
  rw [hm1] at hm
  have hm2 : |R * (val yw - 1) / k - R * (z ^ w - 1) / k| ≤ R * z ^ w * (12 / 10 ^ 9 + 2 * w * u) / k := by
    rw [← sub_div, abs_div, abs_of_pos hk0']
    apply div_le_div_of_nonneg_right _ hk0'.le
    rw [mul_assoc]; exact hm
  rw [abs_le] at hm2 ⊢
  constructor <;> linarith [hm2.1, hm2.2]

/-- **C74 (buying).** When the ratio of the weights is not strictly between one and two, the simulated cost of `b` is
within 1.2 units of the eighth decimal place of the pool's balance `R` of the input asset, scaled by the power itself
and by the fee (plus two units, plus rounding in proportion to the ratio of the weights), of the exact formula. -/
theorem C74_purchase_accuracy_partial {R U wi wo : Nat} {din dout : Denom} {b spread inp : Nat} {assets : List Asset}
    (hi : assets.find? (fun a => decide (a.denom = din)) = some ⟨din, R, wi⟩)
    (ho : assets.find? (fun a => decide (a.denom = dout)) = some ⟨dout, U, wo⟩)
    (hw : wo ≤ wi ∨ 2 * wi ≤ wo) (h : calcInGivenOut assets din ⟨dout, b⟩ spread = .ok inp) :
    b < U ∧ spread < 10 ^ 18 ∧
      |(inp : ℝ) - R * (((U : ℝ) / (U - b)) ^ ((wo : ℝ) / wi) - 1) / (1 - (spread : ℝ) / 10 ^ 18)| ≤
        R * ((U : ℝ) / (U - b)) ^ ((wo : ℝ) / wi) * (12 / 10 ^ 9 + 2 * ((wo : ℝ) / wi) / 10 ^ 18) /
          (1 - (spread : ℝ) / 10 ^ 18) + 2 :=
  purchase_general hi ho (fun _ => rfl) hw h

/-- A purchase with a weight ratio of two and a fee of 1%. -/
example : (calcInGivenOut [⟨"atom", 1000000, 5⟩, ⟨"osmo", 4000000, 10⟩] "atom" ⟨"osmo", 400000⟩
    10000000000000000).toOption = some 236938 ∧ (10 ≤ 5 ∨ 2 * 5 ≤ 10) := by decide +kernel

/-- **C74 (buying, weights between one and two).** When the ratio of the weights is strictly between one and two (by at
least `10^-18`), the simulated cost follows, as closely, the exact formula for the ratio less one: the cost is
understated. -/
theorem C74_purchase_between_one_and_two {R U wi wo : Nat} {din dout : Denom} {b spread inp : Nat} {assets : List Asset}
    (hi : assets.find? (fun a => decide (a.denom = din)) = some ⟨din, R, wi⟩)
    (ho : assets.find? (fun a => decide (a.denom = dout)) = some ⟨dout, U, wo⟩)
    (hw1 : wi < wo) (hw2 : wo < 2 * wi) (hw3 : wi ≤ 10 ^ 18 * (wo - wi))
    (h : calcInGivenOut assets din ⟨dout, b⟩ spread = .ok inp) :
    b < U ∧ spread < 10 ^ 18 ∧
      |(inp : ℝ) - R * (((U : ℝ) / (U - b)) ^ ((wo : ℝ) / wi - 1) - 1) / (1 - (spread : ℝ) / 10 ^ 18)| ≤
        R * ((U : ℝ) / (U - b)) ^ ((wo : ℝ) / wi - 1) * (12 / 10 ^ 9 + 2 * ((wo : ℝ) / wi) / 10 ^ 18) /
          (1 - (spread : ℝ) / 10 ^ 18) + 2 := by
  obtain ⟨h1, h2, hb⟩ := purchase_general (p := wo - wi) hi ho (dropped hw1 hw2 hw3) (.inl (by omega)) h
  refine ⟨h1, h2, ?_⟩
  have hwi : (0 : ℝ) < wi := by exact_mod_cast (by omega : 0 < wi)
  have e : ((wo - wi : ℕ) : ℝ) / wi = (wo : ℝ) / wi - 1 := by
    rw [Nat.cast_sub hw1.le, sub_div, div_self hwi.ne']
  rw [e] at hb
  refine hb.trans ?_
  have hR : (0 : ℝ) ≤ R := Nat.cast_nonneg _
  have hUb : (0 : ℝ) < (U : ℝ) - b := by
    have : (b : ℝ) < U := by exact_mod_cast h1
    linarith
  have hU : (0 : ℝ) ≤ U := Nat.cast_nonneg _
  have hk : (0 : ℝ) ≤ 1 - (spread : ℝ) / 10 ^ 18 := by
    have : (spread : ℝ) ≤ 10 ^ 18 := by exact_mod_cast h2.le
    rw [sub_nonneg, div_le_one (by positivity)]
    exact this
  have hz : (0 : ℝ) ≤ R * ((U : ℝ) / (U - b)) ^ ((wo : ℝ) / wi - 1) :=
    mul_nonneg hR (Real.rpow_nonneg (div_nonneg hU hUb.le) _)
  have h3 : 2 * ((wo : ℝ) / wi - 1) / 10 ^ 18 ≤ 2 * ((wo : ℝ) / wi) / 10 ^ 18 :=
    div_le_div_of_nonneg_right (by linarith) (by positivity)
  have h4 := div_le_div_of_nonneg_right (mul_le_mul_of_nonneg_left (add_le_add_right h3 (12 / 10 ^ 9)) hz) hk
  linarith

/-- Weights 3 and 2: buying a quarter of the pool. -/
example : (calcInGivenOut [⟨"a", 1000000, 2⟩, ⟨"b", 1000000, 3⟩] "a" ⟨"b", 250000⟩ 0).toOption = some 154701 ∧
    2 < 3 ∧ 3 < 2 * 2 ∧ 2 ≤ 10 ^ 18 * (3 - 2) := by decide +kernel

/-- The hypotheses hold for weights 10 and 5, with a fee of 1%. -/
example : (calcInGivenOut [⟨"atom", 1000000, 5⟩, ⟨"osmo", 4000000, 10⟩] "atom" ⟨"osmo", 400000⟩
    10000000000000000).toOption = some 236938 := by decide +kernel

/-- The full expectation for sales: all weights. -/
def C74_full : Prop :=
  ∀ (R U wi wo : ℕ) (din dout : Denom) (x out : ℕ) (assets : List Asset),
    assets.find? (fun a => decide (a.denom = din)) = some ⟨din, R, wi⟩ →
    assets.find? (fun a => decide (a.denom = dout)) = some ⟨dout, U, wo⟩ → x ≤ R →
    calcOutGivenIn assets ⟨din, x⟩ dout 0 = .ok out →
      |(out : ℝ) - U * (1 - ((R : ℝ) / (R + x)) ^ ((wi : ℝ) / wo))| ≤
        U * (23 / 10 ^ 9 + 4 * ((wi : ℝ) / wo) / 10 ^ 18) + 1

/-- It fails for weights 3 and 2: half of what the exact formula gives is paid. -/
theorem C74_full_false : ¬ C74_full := by
  intro h
  have h1 := h 1000000 1000000 3 2 "a" "b" 1000000 292893 [⟨"a", 1000000, 3⟩, ⟨"b", 1000000, 2⟩] (by decide) (by decide)
    (by decide) (by decide +kernel)
  have e4 : ((1 : ℝ) / 2) ^ ((3 : ℝ) / 2) ≤ (1 / 2) ^ (1 : ℝ) :=
    Real.rpow_le_rpow_of_exponent_ge (by norm_num) (by norm_num) (by norm_num)
  rw [Real.rpow_one] at e4
  have e5 : ((1000000 : ℕ) : ℝ) / ((1000000 : ℕ) + (1000000 : ℕ)) = 1 / 2 := by norm_num
  rw [e5] at h1
  push_cast at h1
  generalize ((1 : ℝ) / 2) ^ ((3 : ℝ) / 2) = q at *
  rw [abs_le] at h1
  norm_num at h1
  linarith [h1.1]

end Ibcx.Props
