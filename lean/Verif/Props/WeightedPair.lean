import Verif.Spec.WeightedPair
import Verif.Props.ConstantProduct
import Mathlib.Analysis.Convex.SpecificFunctions.Basic
import Mathlib.Tactic.Ring
import Mathlib.Tactic.Linarith
import Mathlib.Tactic.Positivity
/-!
# C131: whatever the weights, sales there and back win nothing but rounding
-/

namespace Ibcx.Props
open Ibcx Ibcx.Pool Ibcx.Spec Ibcx.Math

/-- Lowering the base by `e` lowers the power by little. -/
private theorem power_lowered {r w e : ℝ} (hr : 0 < r) (hr1 : r ≤ 1) (hw : 0 < w) (he : 0 ≤ e) (her : e ≤ r) :
    r ^ w - e * (w + 1 / r) ≤ (r - e) ^ w := by
  have h1 : r - e = r * (1 - e / r) := by field_simp
  have hq0 : 0 ≤ e / r := div_nonneg he hr.le
  have hq1 : e / r ≤ 1 := (div_le_one hr).2 her
  rw [h1, Real.mul_rpow hr.le (by linarith)]
  have hp0 : 0 < r ^ w := Real.rpow_pos_of_pos hr w
  rcases le_total 1 w with h | h
  · have hb := one_add_mul_self_le_rpow_one_add (s := -(e / r)) (by linarith) h
    have e1 : (1 : ℝ) + -(e / r) = 1 - e / r := by ring
    rw [e1] at hb
    have h2 : r ^ w * (1 + w * -(e / r)) ≤ r ^ w * (1 - e / r) ^ w := mul_le_mul_of_nonneg_left hb hp0.le
    have h3 : r ^ w / r ≤ 1 := by
      rw [div_le_one hr]
      calc r ^ w ≤ r ^ (1 : ℝ) := Real.rpow_le_rpow_of_exponent_ge hr hr1 h
        _ = r := Real.rpow_one r
    have h4 : r ^ w * (1 + w * -(e / r)) = r ^ w - w * e * (r ^ w / r) := by ring
    have h5 : w * e * (r ^ w / r) ≤ w * e * 1 := mul_le_mul_of_nonneg_left h3 (by positivity)
    have h6 : 0 ≤ e * (1 / r) := by positivity
    have h7 : e * (w + 1 / r) = w * e * 1 + e * (1 / r) := by ring
    linarith
  · have hb : 1 - e / r ≤ (1 - e / r) ^ w := by
      rcases eq_or_lt_of_le hq1 with h0 | h0
      · rw [h0, sub_self]
        exact Real.rpow_nonneg le_rfl _
      · calc 1 - e / r = (1 - e / r) ^ (1 : ℝ) := (Real.rpow_one _).symm
          _ ≤ _ := Real.rpow_le_rpow_of_exponent_ge (by linarith) (by linarith) h
    have h2 : r ^ w * (1 - e / r) ≤ r ^ w * (1 - e / r) ^ w := mul_le_mul_of_nonneg_left hb hp0.le
    have h3 : r ^ w ≤ 1 := Real.rpow_le_one hr.le hr1 hw.le
    have h4 : r ^ w * (1 - e / r) = r ^ w - r ^ w * (e / r) := by ring
    have h5 : r ^ w * (e / r) ≤ 1 * (e / r) := mul_le_mul_of_nonneg_right h3 hq0
    have h6 : 0 ≤ e * w := by positivity
    have h7 : e * (w + 1 / r) = e * w + 1 * (e / r) := by ring
    linarith

/-- What the pool keeps, in real numbers. -/
private theorem kept {U r q w e out : ℝ} (hU : 0 ≤ U) (hq : 0 < q) (hqr : q ≤ r) (hr1 : r ≤ 1) (hw : 0 < w) (he : 0 ≤ e)
    (hout : out ≤ U) (h : out ≤ U * (1 - (r - e) ^ w) + U * (w + 1) * e) :
    U * (q ^ w - e * (2 * w + 1 + 1 / q)) ≤ U - out := by
  have hr : 0 < r := hq.trans_le hqr
  have hinv : 1 / r ≤ 1 / q := one_div_le_one_div_of_le hq hqr
  rcases le_total e r with her | her
  · have h1 := power_lowered hr hr1 hw he her
    have h2 : q ^ w ≤ r ^ w := Real.rpow_le_rpow hq.le hqr hw.le
    have h3 : U * (q ^ w - e * (w + 1 / q)) ≤ U * (r - e) ^ w := by
      refine mul_le_mul_of_nonneg_left ?_ hU
      have : e * (w + 1 / r) ≤ e * (w + 1 / q) := mul_le_mul_of_nonneg_left (by linarith) he
      linarith
    have h4 : U * (q ^ w - e * (2 * w + 1 + 1 / q)) = U * (q ^ w - e * (w + 1 / q)) - U * (w + 1) * e := by ring
    have h5 : U * (1 - (r - e) ^ w) = U - U * (r - e) ^ w := by ring
    linarith
  · have h1 : q ^ w ≤ 1 := Real.rpow_le_one hq.le (hqr.trans hr1) hw.le
    have h2 : 1 ≤ e * (1 / q) := by
      rw [mul_one_div]
      exact (one_le_div hq).2 (hqr.trans her)
    have h3 : 0 ≤ e * (2 * w + 1) := by positivity
    have h4 : q ^ w - e * (2 * w + 1 + 1 / q) ≤ 0 := by
      have : e * (2 * w + 1 + 1 / q) = e * (2 * w + 1) + e * (1 / q) := by ring
      linarith
    have h5 := mul_nonpos_of_nonneg_of_nonpos hU h4
    linarith

private theorem fee_le (x spread : Nat) : x * (10 ^ 18 - spread) / 10 ^ 18 ≤ x := by
  refine Nat.div_le_of_le_mul ?_
  rw [Nat.mul_comm]
  exact Nat.mul_le_mul_right _ (Nat.sub_le _ _)

/-- What a sale does to the pool. -/
theorem afterSale {p p' : WeightedPool} {d d' : Denom} {R U w w' x fee out : Nat} (hp : WeightedPair p d d' R U w w')
    (hd : d ≠ d') (h : p.swapExactIn ⟨d, x⟩ d' fee = .ok (out, p')) :
    calcOutGivenIn p.assets ⟨d, x⟩ d' fee = .ok out ∧ out ≤ U ∧ WeightedPair p' d d' (R + x) (U - out) w w' := by
  obtain ⟨hi, ho⟩ := hp
  simp only [WeightedPool.swapExactIn, applyNewAssets, bind_eq_ok, Except.ok.injEq, Prod.mk.injEq, getAsset_find hi,
    getAsset_find ho, dadd_eq_ok, dsub_eq_ok] at h
  obtain ⟨o, hout, bs, ⟨_, rfl, _, rfl, _, ⟨_, rfl⟩, _, ⟨hle, rfl⟩, rfl⟩, rfl, rfl⟩ := h
  refine ⟨hout, hle, ?_, ?_⟩
  · have := find_map_hit (f := fun a => if a.denom = d then { a with amount := R + x }
      else if a.denom = d' then { a with amount := U - o } else a) (fun b => by split <;> (try split) <;> rfl) hi
    rw [if_pos rfl] at this
    exact this
  · have := find_map_hit (f := fun a => if a.denom = d then { a with amount := R + x }
      else if a.denom = d' then { a with amount := U - o } else a) (fun b => by split <;> (try split) <;> rfl) ho
    rw [if_neg (fun e => hd e.symm), if_pos rfl] at this
    exact this

/-- **C131 (what the pool keeps).** Whatever the weights and the fee, after a sale the pool keeps of the denom that it paid out
the part that the exact formula without fee leaves, less rounding in proportion to the ratio of the weights and to the
growth of the other balance.  The whole payment is in the pool. -/
theorem C131_sale {p p' : WeightedPool} {d d' : Denom} {R U w w' x fee out : Nat} (hp : WeightedPair p d d' R U w w')
    (hd : d ≠ d') (hR : 0 < R) (hw : 0 < w) (hw' : 0 < w') (h : p.swapExactIn ⟨d, x⟩ d' fee = .ok (out, p')) :
    out ≤ U ∧ WeightedPair p' d d' (R + x) (U - out) w w' ∧
      (U : ℝ) * (((R : ℝ) / (R + x)) ^ ((w : ℝ) / w') - (2 * ((w : ℝ) / w') + 1 + ((R : ℝ) + x) / R) / 10 ^ 18) ≤
        (U : ℝ) - out := by
  obtain ⟨hc, hle, hp'⟩ := afterSale hp hd h
  refine ⟨hle, hp', ?_⟩
  obtain ⟨a, ha, hb⟩ := C61_output_at_most_exact hp.1 hp.2 hc
  have hax : (a : ℝ) ≤ x := by rw [ha]; exact_mod_cast fee_le x fee
  have hR' : (0 : ℝ) < R := by exact_mod_cast hR
  have ha0 : (0 : ℝ) ≤ a := Nat.cast_nonneg a
  have hwr : (0 : ℝ) < (w : ℝ) / w' := div_pos (by exact_mod_cast hw) (by exact_mod_cast hw')
  have e : (0 : ℝ) ≤ 1 / 10 ^ 18 := by positivity
  have key := kept (U := U) (r := (R : ℝ) / (R + a)) (q := (R : ℝ) / (R + x)) (w := (w : ℝ) / w') (e := 1 / 10 ^ 18)
    (out := out) (Nat.cast_nonneg U) (div_pos hR' (by linarith)) (div_le_div_of_nonneg_left hR'.le (by linarith) (by linarith))
    ((div_le_one (by linarith)).2 (by linarith)) hwr e (by exact_mod_cast hle) (by
      rw [mul_one_div]
      exact hb)
  rw [one_div_div, one_div_mul_eq_div] at key
  exact key

/-- Eighty to twenty: one thousand of ten million in, with a fee of 0.3%. -/
example : let p : WeightedPool := ⟨1, 0, [⟨"a", 10000000, 8⟩, ⟨"b", 10000000, 2⟩]⟩
    WeightedPair p "a" "b" 10000000 10000000 8 2 ∧
    ((p.swapExactIn ⟨"a", 1000⟩ "b" 3000000000000000).map fun r => (r.1, r.2.assets)) =
      .ok (3987, [⟨"a", 10001000, 8⟩, ⟨"b", 9996013, 2⟩]) :=
  ⟨⟨rfl, rfl⟩, by decide +kernel⟩

/-- There and back, in real numbers. -/
private theorem back_bound {R x U V w v e K back : ℝ} {k : ℕ} (hk : K = k) (hR : 0 < R) (hx : 0 ≤ x) (hxR : x ≤ R) (hU : 0 < U)
    (hw : 0 < w) (hv : 0 < v) (hwv : w * v = 1) (hwK : w ≤ K) (hvK : v ≤ K) (he : 0 ≤ e)
    (hback : back ≤ R + x)
    (h1 : U * ((R / (R + x)) ^ w - e * (2 * w + 1 + (R + x) / R)) ≤ V)
    (h2 : 0 < V → (R + x) * ((V / U) ^ v - e * (2 * v + 1 + U / V)) ≤ R + x - back) :
    back ≤ x + (R + x) * (2 ^ (k + 2) * (K + 2) * e) := by
  have hRx : 0 < R + x := by linarith
  have hρ : 0 < R / (R + x) := div_pos hR hRx
  have hρ1 : R / (R + x) ≤ 1 := (div_le_one hRx).2 (by linarith)
  have hρ2 : 1 / 2 ≤ R / (R + x) := by rw [div_le_div_iff₀ (by norm_num) hRx]; linarith
  have hg : (R + x) / R ≤ 2 := by rw [div_le_iff₀ hR]; linarith
  have hK1 : 1 ≤ K := by
    by_contra hlt
    have h3 : w * v < 1 := by
      calc w * v ≤ K * v := mul_le_mul_of_nonneg_right hwK hv.le
        _ < 1 * 1 := mul_lt_mul'' (not_le.1 hlt) (by linarith) (by linarith) hv.le
        _ = 1 := one_mul 1
    linarith
  have hk1 : 1 ≤ k := by
    rw [hk] at hK1
    exact_mod_cast hK1
  set T : ℝ := 2 ^ k with hT
  have hKT : K + 1 ≤ T := by
    rw [hk, hT]
    exact_mod_cast Nat.lt_two_pow_self
  set t : ℝ := (R / (R + x)) ^ w with ht
  have ht0 : 0 < t := Real.rpow_pos_of_pos hρ w
  have ht1 : t ≤ 1 := Real.rpow_le_one hρ.le hρ1 hw.le
  have htT : 1 / T ≤ t := by
    calc 1 / T = (1 / 2 : ℝ) ^ (K : ℝ) := by
          rw [hT, hk, Real.rpow_natCast, one_div_pow]
      _ ≤ (R / (R + x)) ^ K := Real.rpow_le_rpow (by norm_num) hρ2 (by linarith)
      _ ≤ t := Real.rpow_le_rpow_of_exponent_ge hρ hρ1 hwK
  have hT0 : 0 < T := by positivity
  have htv : 1 / t ≤ T := by
    rw [div_le_iff₀ ht0]
    rw [div_le_iff₀ hT0] at htT
    linarith
  have htt : t ^ v = R / (R + x) := by rw [ht, ← Real.rpow_mul hρ.le, hwv, Real.rpow_one]
  set δ : ℝ := e * (2 * K + 3) with hδ
  have hδ0 : 0 ≤ δ := by positivity
  have h1' : U * (t - δ) ≤ V := by
    refine le_trans (mul_le_mul_of_nonneg_left ?_ hU.le) h1
    have : e * (2 * w + 1 + (R + x) / R) ≤ e * (2 * K + 3) := mul_le_mul_of_nonneg_left (by linarith) he
    linarith
  have e4 : (2 : ℝ) ^ (k + 2) = 4 * T := by rw [hT]; ring
  rw [e4]
  rcases le_total (2 * δ) t with hsmall | hbig
  · have hV0 : 0 < V := lt_of_lt_of_le (mul_pos hU (by linarith)) h1'
    have h2' := h2 hV0
    set s : ℝ := V / U with hs
    have hts : t - δ ≤ s := by
      rw [hs, le_div_iff₀ hU]
      linarith
    have hUV : U / V ≤ 2 * T := by
      rw [div_le_iff₀ hV0]
      have h3 : U * (t / 2) ≤ V := le_trans (mul_le_mul_of_nonneg_left (by linarith) hU.le) h1'
      have h4 : T * t ≥ 1 := by
        rw [ge_iff_le, ← div_le_iff₀' hT0]
        exact htT
      have h5 : U * 1 ≤ U * (T * t) := mul_le_mul_of_nonneg_left h4 hU.le
      have h6 : 2 * T * (U * (t / 2)) ≤ 2 * T * V := mul_le_mul_of_nonneg_left h3 (by positivity)
      have h7 : 2 * T * (U * (t / 2)) = U * (T * t) := by ring
      linarith
    have h3 : R / (R + x) - δ * (K + T) ≤ s ^ v := by
      have h4 := power_lowered ht0 ht1 hv hδ0 (by linarith)
      rw [htt] at h4
      have h5 : (t - δ) ^ v ≤ s ^ v := Real.rpow_le_rpow (by linarith) hts hv.le
      have h6 : δ * (v + 1 / t) ≤ δ * (K + T) := mul_le_mul_of_nonneg_left (by linarith) hδ0
      linarith
    have h4 : e * (2 * v + 1 + U / V) ≤ e * (2 * K + 1 + 2 * T) := mul_le_mul_of_nonneg_left (by linarith) he
    have h5 : δ * (K + T) + e * (2 * K + 1 + 2 * T) ≤ 4 * T * (K + 2) * e := by
      have h6 : δ * (K + T) ≤ δ * (2 * T - 1) := mul_le_mul_of_nonneg_left (by linarith) hδ0
      have h7 : δ * (2 * T - 1) + e * (2 * K + 1 + 2 * T) = 4 * T * (K + 2) * e - 2 * e := by rw [hδ]; ring
      linarith
    have h6 : (R + x) * (R / (R + x) - 4 * T * (K + 2) * e) ≤ R + x - back := by
      refine le_trans (mul_le_mul_of_nonneg_left ?_ hRx.le) h2'
      linarith
    have h7 : (R + x) * (R / (R + x) - 4 * T * (K + 2) * e) = R - (R + x) * (4 * T * (K + 2) * e) := by
      rw [mul_sub, mul_div_cancel₀ _ hRx.ne']
    linarith
  · have h3 : 1 ≤ T * (2 * δ) := by
      have h4 : T * t ≤ T * (2 * δ) := mul_le_mul_of_nonneg_left hbig hT0.le
      have h5 : 1 ≤ T * t := by
        rw [← div_le_iff₀' hT0]
        exact htT
      linarith
    have h4 : T * (2 * δ) ≤ 4 * T * (K + 2) * e := by
      have h5 : 4 * T * (K + 2) * e = T * (2 * δ) + 2 * T * e := by rw [hδ]; ring
      have h6 : 0 ≤ 2 * T * e := by positivity
      linarith
    have h5 : (R + x) * 1 ≤ (R + x) * (4 * T * (K + 2) * e) := mul_le_mul_of_nonneg_left (by linarith) hRx.le
    linarith

/-- **C131.** Whatever the weights: selling a coin, at most as much as the pool has of it, and selling the proceeds back brings
no more than the coin and `4 * 2^K * (K + 2)` 10^18-th of what the pool then has of it, where `K` bounds the ratio of the
weights.  Nothing is won while this is less than a unit. -/
theorem C131_there_and_back {p p' p'' : WeightedPool} {d d' : Denom} {R U w w' K x fee fee' out back : Nat}
    (hp : WeightedPair p d d' R U w w') (hd : d ≠ d') (hR : 0 < R) (hU : 0 < U) (hw : WithinRatio K w w') (hx : x ≤ R)
    (h : p.swapExactIn ⟨d, x⟩ d' fee = .ok (out, p')) (h' : p'.swapExactIn ⟨d', out⟩ d fee' = .ok (back, p'')) :
    10 ^ 18 * back ≤ 10 ^ 18 * x + 4 * 2 ^ K * (K + 2) * (R + x) ∧
      (4 * 2 ^ K * (K + 2) * (R + x) < 10 ^ 18 → back ≤ x) := by
  obtain ⟨w0, w0', hwK, hwK'⟩ := hw
  obtain ⟨hle, hp', h1⟩ := C131_sale hp hd hR w0 w0' h
  have hq : WeightedPair p' d' d (U - out) (R + x) w' w := ⟨hp'.2, hp'.1⟩
  have hle' : back ≤ R + x := (afterSale hq (fun e => hd e.symm) h').2.1
  have c0 : (0 : ℝ) < w := by exact_mod_cast w0
  have c0' : (0 : ℝ) < w' := by exact_mod_cast w0'
  have eV : ((U - out : ℕ) : ℝ) = (U : ℝ) - out := Nat.cast_sub hle
  have key := back_bound (R := R) (x := x) (U := U) (V := ((U - out : ℕ) : ℝ)) (w := (w : ℝ) / w') (v := (w' : ℝ) / w)
    (e := 1 / 10 ^ 18) (K := K) (back := back) (k := K) rfl (by exact_mod_cast hR) (Nat.cast_nonneg x) (by exact_mod_cast hx)
    (by exact_mod_cast hU) (div_pos c0 c0') (div_pos c0' c0)
    (by rw [div_mul_div_comm, mul_comm]; exact div_self (by positivity))
    (by rw [div_le_iff₀ c0']; exact_mod_cast hwK) (by rw [div_le_iff₀ c0]; exact_mod_cast hwK') (by positivity)
    (by exact_mod_cast hle') (by rw [one_div_mul_eq_div, eV]; exact h1) (by
      intro hV
      have hV' : 0 < U - out := by exact_mod_cast hV
      obtain ⟨_, _, h2⟩ := C131_sale hq (fun e => hd e.symm) hV' w0' w0 h'
      have eU : ((U - out : ℕ) : ℝ) + (out : ℝ) = U := by rw [eV]; ring
      rw [eU] at h2
      rw [one_div_mul_eq_div]
      push_cast at h2 ⊢
      exact h2)
  have e1 : 10 ^ 18 * back ≤ 10 ^ 18 * x + 4 * 2 ^ K * (K + 2) * (R + x) := by
    have hP : (0 : ℝ) < 10 ^ 18 := by positivity
    have h3 := mul_le_mul_of_nonneg_left key hP.le
    have h4 : (10 : ℝ) ^ 18 * (x + (R + x) * (2 ^ (K + 2) * ((K : ℝ) + 2) * (1 / 10 ^ 18))) =
        10 ^ 18 * x + 4 * 2 ^ K * (K + 2) * (R + x) := by
      generalize (10 : ℝ) ^ 18 = P at hP
      have : P * (1 / P) = 1 := mul_one_div_cancel hP.ne'
      have h5 : P * (x + (R + x) * (2 ^ (K + 2) * ((K : ℝ) + 2) * (1 / P))) =
          P * x + (R + x) * (2 ^ (K + 2) * ((K : ℝ) + 2)) * (P * (1 / P)) := by ring
      rw [h5, this]
      ring
    rw [h4] at h3
    exact_mod_cast h3
  refine ⟨e1, fun hlt => ?_⟩
  revert e1 hlt
  generalize (10 : Nat) ^ 18 = P
  generalize 4 * 2 ^ K * (K + 2) * (R + x) = E
  intro e1 hlt
  by_contra hc
  have h3 : P * (x + 1) ≤ P * back := Nat.mul_le_mul_left _ (by omega)
  rw [Nat.mul_add, Nat.mul_one] at h3
  omega

/-- Eighty to twenty, a million of ten million there and back, without fees. -/
example : let p : WeightedPool := ⟨1, 0, [⟨"a", 10000000, 8⟩, ⟨"b", 10000000, 2⟩]⟩
    WeightedPair p "a" "b" 10000000 10000000 8 2 ∧ WithinRatio 4 8 2 ∧
    4 * 2 ^ 4 * (4 + 2) * (10000000 + 1000000) < 10 ^ 18 ∧
    ((p.swapExactIn ⟨"a", 1000000⟩ "b" 0).bind fun r => (r.2.swapExactIn ⟨"b", r.1⟩ "a" 0).map fun s => (r.1, s.1)) =
      .ok (3169865, 999999) :=
  ⟨⟨rfl, rfl⟩, by unfold WithinRatio; decide, by decide, by decide +kernel⟩

/-- **C131 (purchases).** For purchases this is false: buying a coin, and buying back with it what was paid, can leave most of
the coin.  When the weight of the denom bought is between one and two times the other weight, too little is asked. -/
theorem C131_purchases_win : ∃ (p p' p'' : WeightedPool) (paid paid' : Nat),
    WeightedPair p "a" "b" 1000000 1000000 2 3 ∧ WithinRatio 2 2 3 ∧ p.swapExactOut "a" ⟨"b", 400000⟩ 0 = .ok (paid, p') ∧
      p'.swapExactOut "b" ⟨"a", paid⟩ 0 = .ok (paid', p'') ∧ 3 * paid' < 400000 :=
  ⟨⟨1, 0, [⟨"a", 1000000, 2⟩, ⟨"b", 1000000, 3⟩]⟩, ⟨1, 0, [⟨"a", 1290995, 2⟩, ⟨"b", 600000, 3⟩]⟩,
    ⟨1, 0, [⟨"a", 1000000, 2⟩, ⟨"b", 711379, 3⟩]⟩, 290995, 111379, ⟨rfl, rfl⟩, by unfold WithinRatio; decide, by decide +kernel,
    by decide +kernel, by decide⟩

/-- In a pool of equal weights buying back costs all of the coin. -/
example : let p : WeightedPool := ⟨1, 0, [⟨"a", 1000000, 3⟩, ⟨"b", 1000000, 3⟩]⟩
    ((p.swapExactOut "a" ⟨"b", 400000⟩ 0).bind fun r => (r.2.swapExactOut "b" ⟨"a", r.1⟩ 0).map fun s => (r.1, s.1)) =
      .ok (666667, 400001) := by decide +kernel

end Ibcx.Props
