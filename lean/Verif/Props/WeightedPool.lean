import Verif.Props.Power
import Verif.Spec.PoolBalance
/-!
# Properties of weighted pools (C51, C60, C61)
-/

namespace Ibcx.Props
open Ibcx Ibcx.Math Ibcx.Pool Ibcx.Spec

private theorem getAsset_eq_ok {d : Denom} {a : Asset} : ∀ {as : List Asset}, getAsset as d = .ok a → a ∈ as ∧ a.denom = d := by
  intro as
  induction as with
  | nil => intro h; cases h
  | cons b bs ih =>
    intro h
    rw [getAsset] at h
    split at h
    · cases h; exact ⟨List.mem_cons_self, by assumption⟩
    · obtain ⟨h1, h2⟩ := ih h
      exact ⟨List.mem_cons_of_mem _ h1, h2⟩

theorem getAsset_find {d : Denom} {a : Asset} : ∀ {as : List Asset},
    as.find? (fun a => decide (a.denom = d)) = some a → getAsset as d = .ok a := by
  intro as
  induction as with
  | nil => intro h; cases h
  | cons b bs ih =>
    intro h
    rw [List.find?_cons] at h
    rw [getAsset]
    by_cases hb : b.denom = d
    · simp only [hb, decide_true, Option.some.injEq] at h
      rw [if_pos hb, h]
    · simp only [hb, decide_false] at h
      rw [if_neg hb]; exact ih h

/-- The amount held, of a list of distinct assets. -/
private theorem held_eq {d : Denom} {a : Asset} : ∀ {as : List Asset}, (as.map (·.denom)).Nodup → a ∈ as → a.denom = d →
    ((as.filter fun a => decide (a.denom = d)).map (·.amount)).sum = a.amount := by
  intro as
  induction as with
  | nil => intro _ h; cases h
  | cons b bs ih =>
    intro hn hm hd
    rw [List.map_cons, List.nodup_cons] at hn
    rcases List.mem_cons.1 hm with rfl | hm
    · rw [List.filter_cons_of_pos (by simpa using hd)]
      have : bs.filter (fun a => decide (a.denom = d)) = [] := by
        rw [List.filter_eq_nil_iff]
        intro c hc
        simp only [decide_eq_true_eq]
        rintro e
        exact hn.1 (List.mem_map.2 ⟨c, hc, by rw [e, hd]⟩)
      rw [this]
      simp
    · rw [List.filter_cons_of_neg, ih hn.2 hm hd]
      simp only [decide_eq_true_eq]
      intro e
      exact hn.1 (List.mem_map.2 ⟨a, hm, by rw [e, hd]⟩)

private theorem held_map (f : Asset → Asset) (hf : ∀ a, (f a).denom = a.denom) (d : Denom) (as : List Asset) :
    (as.map f).filter (fun a => decide (a.denom = d)) = (as.filter fun a => decide (a.denom = d)).map f := by
  rw [List.filter_map]
  congr 1
  congr 1
  funext a
  simp [hf]

private theorem apply_spec {as bs : List Asset} {din dout : Denom} {vin vout : Nat} (hne : din ≠ dout)
    (hn : (as.map (·.denom)).Nodup) (h : applyNewAssets as din dout vin vout = .ok bs) :
    bs.map (fun a => (a.denom, a.weight)) = as.map (fun a => (a.denom, a.weight)) ∧
      vout ≤ ((as.filter fun a => decide (a.denom = dout)).map (·.amount)).sum ∧
      ∀ d, ((bs.filter fun a => decide (a.denom = d)).map (·.amount)).sum + (if dout = d then vout else 0) =
        ((as.filter fun a => decide (a.denom = d)).map (·.amount)).sum + (if din = d then vin else 0) := by
  simp only [applyNewAssets, bind_eq_ok, dadd_eq_ok, dsub_eq_ok, Except.ok.injEq] at h
  obtain ⟨a, ha, b, hb, ai, ⟨_, rfl⟩, bo, ⟨hle, rfl⟩, rfl⟩ := h
  obtain ⟨ha1, ha2⟩ := getAsset_eq_ok ha
  obtain ⟨hb1, hb2⟩ := getAsset_eq_ok hb
  have hf : ∀ c : Asset, (if c.denom = din then { c with amount := a.amount + vin }
      else if c.denom = dout then { c with amount := b.amount - vout } else c).denom = c.denom := by
    intro c; split <;> (try split) <;> rfl
  have hw : ∀ c : Asset, (if c.denom = din then { c with amount := a.amount + vin }
      else if c.denom = dout then { c with amount := b.amount - vout } else c).weight = c.weight := by
    intro c; split <;> (try split) <;> rfl
  refine ⟨?_, by rw [held_eq hn hb1 hb2]; exact hle, fun d => ?_⟩
  · rw [List.map_map]
    apply List.map_congr_left
    intro c _
    simp only [Function.comp, hf, hw]
  · rw [held_map _ hf]
    by_cases h1 : din = d
    · subst h1
      rw [if_neg (Ne.symm hne), if_pos rfl, held_eq hn ha1 ha2]
      have := held_eq (as := as.map fun c => if c.denom = din then { c with amount := a.amount + vin }
        else if c.denom = dout then { c with amount := b.amount - vout } else c)
        (a := { a with amount := a.amount + vin }) (d := din)
        (by rw [List.map_map]; convert hn using 2; funext c; exact hf c)
        (List.mem_map.2 ⟨a, ha1, by rw [if_pos ha2]⟩) ha2
      rw [held_map _ hf] at this
      exact this
    · by_cases h2 : dout = d
      · subst h2
        rw [if_neg h1, if_pos rfl, held_eq hn hb1 hb2]
        have := held_eq (as := as.map fun c => if c.denom = din then { c with amount := a.amount + vin }
          else if c.denom = dout then { c with amount := b.amount - vout } else c)
          (a := { b with amount := b.amount - vout }) (d := dout)
          (by rw [List.map_map]; convert hn using 2; funext c; exact hf c)
          (List.mem_map.2 ⟨b, hb1, by rw [if_neg (by rw [hb2]; exact Ne.symm hne), if_pos hb2]⟩) hb2
        rw [held_map _ hf] at this
        rw [this]
        exact Nat.sub_add_cancel hle
      · rw [if_neg h1, if_neg h2, List.map_map]
        congr 2
        apply List.map_congr_left
        intro c hc
        have : c.denom = d := by simpa using (List.mem_filter.1 hc).2
        simp only [Function.comp]
        rw [if_neg (by rw [this]; exact Ne.symm h1), if_neg (by rw [this]; exact Ne.symm h2)]

/-! ### C51 -/

/-- An example pool with two thirds of the weight on osmo and a fee of 0.2%. -/
def examplePool : WeightedPool :=
  { id := 1, swapFee := 2000000000000000, assets := [⟨"atom", 1000000, 5⟩, ⟨"osmo", 4000000, 10⟩, ⟨"usdc", 7000000, 5⟩] }

/-- **C51 (selling).** A simulated sale adds the input to the pool, takes the output out, changes nothing else, and
the output is at most what the pool holds. -/
theorem C51_swap_exact_in {p p' : WeightedPool} {input : Coin} {d : Denom} {spread out : Nat} (hp : Distinct p)
    (hne : input.denom ≠ d) (h : p.swapExactIn input d spread = .ok (out, p')) :
    p'.id = p.id ∧ p'.swapFee = p.swapFee ∧ shape p' = shape p ∧ out ≤ held p d ∧
      ∀ e, held p' e + coinOf ⟨d, out⟩ e = held p e + coinOf input e := by
  simp only [WeightedPool.swapExactIn, bind_eq_ok, Except.ok.injEq, Prod.mk.injEq] at h
  obtain ⟨_, _, bs, hb, rfl, rfl⟩ := h
  obtain ⟨h1, h2, h3⟩ := apply_spec hne hp hb
  exact ⟨rfl, rfl, h1, h2, h3⟩

/-- A sale of 10000 atom. -/
example : Distinct examplePool ∧
    ((examplePool.swapExactIn ⟨"atom", 10000⟩ "osmo" 2000000000000000).map fun x => (x.1, held x.2 "atom", held x.2 "osmo")) =
      .ok (19811, 1010000, 3980189) :=
  ⟨by unfold Distinct; decide, by decide +kernel⟩

/-- **C51 (buying).** The same for a simulated purchase. -/
theorem C51_swap_exact_out {p p' : WeightedPool} {output : Coin} {d : Denom} {spread inp : Nat} (hp : Distinct p)
    (hne : d ≠ output.denom) (h : p.swapExactOut d output spread = .ok (inp, p')) :
    p'.id = p.id ∧ p'.swapFee = p.swapFee ∧ shape p' = shape p ∧ output.amount ≤ held p output.denom ∧
      ∀ e, held p' e + coinOf output e = held p e + coinOf ⟨d, inp⟩ e := by
  simp only [WeightedPool.swapExactOut, bind_eq_ok, Except.ok.injEq, Prod.mk.injEq] at h
  obtain ⟨_, _, bs, hb, rfl, rfl⟩ := h
  obtain ⟨h1, h2, h3⟩ := apply_spec hne hp hb
  exact ⟨rfl, rfl, h1, h2, h3⟩

/-- A purchase of 10000 atom. -/
example : Distinct examplePool ∧
    ((examplePool.swapExactOut "usdc" ⟨"atom", 10000⟩ 2000000000000000).map fun x => (x.1, held x.2 "atom", held x.2 "usdc")) =
      .ok (70849, 990000, 7070849) :=
  ⟨by unfold Distinct; decide, by decide +kernel⟩

/-- **C51 (the formula).** Even before the bookkeeping, the output computed by the formula is at most the amount of
the output asset. -/
theorem C51_formula_within_balance {as : List Asset} {input : Coin} {d : Denom} {spread out : Nat}
    (h : calcOutGivenIn as input d spread = .ok out) :
    ∃ a ∈ as, a.denom = d ∧ out ≤ a.amount := by
  simp only [calcOutGivenIn, solveInvariants, bind_eq_ok, dadd_eq_ok, dsub_eq_ok, toDec_eq_ok, dmul_eq_ok, ddiv_eq_ok,
    require_eq_ok, Except.ok.injEq] at h
  obtain ⟨b, hb, a, ha, _, _, _, _, _, _, _, _, _, _, _, _, d4, ⟨_, rfl⟩, d5, _, x, ⟨w, _, y, _, yw, _, am, ⟨_, rfl⟩, rfl⟩,
    _, hneg, rfl⟩ := h
  obtain ⟨hb1, hb2⟩ := getAsset_eq_ok hb
  refine ⟨b, hb1, hb2, ?_⟩
  have hp := Math.one_pos
  have hpar : (absDiffWithSign ONE yw).1 ≤ ONE := by
    simp only [absDiffWithSign, decide_eq_true_eq] at hneg ⊢
    rw [if_neg (by omega)]; omega
  unfold toUintFloor
  apply Nat.div_le_of_le_mul
  apply Nat.div_le_of_le_mul
  exact (Nat.mul_le_mul_left _ hpar).trans (by rw [Nat.mul_comm])

/-- Ten times the balance of atom buys less than the balance of osmo. -/
example : (calcOutGivenIn examplePool.assets ⟨"atom", 10000000⟩ "osmo" 0).toOption.map (fun o => decide (o ≤ 4000000)) =
    some true := by decide +kernel

private theorem shape_distinct {p p' : WeightedPool} (h : shape p' = shape p) (hp : Distinct p) : Distinct p' := by
  have e : ∀ q : WeightedPool, q.assets.map (·.denom) = (shape q).map (·.1) := by
    intro q; unfold shape; rw [List.map_map]; rfl
  unfold Distinct at *
  rw [e, h, ← e]
  exact hp

/-- **C51 (sequences).** Over any sequence of simulated swaps the pool ends with what it had, plus everything that went
in, minus everything that came out, denom by denom; denoms and weights stay the same. -/
theorem C51_sequences_conserve {p q : WeightedPool} {l : List (Coin × Coin)} (h : Swaps p l q) (hp : Distinct p) :
    q.id = p.id ∧ shape q = shape p ∧
      ∀ e, held q e + (l.map fun x => coinOf x.2 e).sum = held p e + (l.map fun x => coinOf x.1 e).sum := by
  induction h with
  | done p => exact ⟨rfl, rfl, fun e => rfl⟩
  | exactIn hne hs _ ih =>
    obtain ⟨h1, _, h3, _, h5⟩ := C51_swap_exact_in hp hne hs
    obtain ⟨i1, i2, i3⟩ := ih (shape_distinct h3 hp)
    refine ⟨i1.trans h1, i2.trans h3, fun e => ?_⟩
    have := h5 e
    have := i3 e
    simp only [List.map_cons, List.sum_cons]
    omega
  | exactOut hne hs _ ih =>
    obtain ⟨h1, _, h3, _, h5⟩ := C51_swap_exact_out hp hne hs
    obtain ⟨i1, i2, i3⟩ := ih (shape_distinct h3 hp)
    refine ⟨i1.trans h1, i2.trans h3, fun e => ?_⟩
    have := h5 e
    have := i3 e
    simp only [List.map_cons, List.sum_cons]
    omega

/-- A sale and a purchase on it. -/
example : Distinct examplePool ∧
    ((examplePool.swapExactIn ⟨"atom", 10000⟩ "osmo" 2000000000000000).map fun x => (x.1, held x.2 "atom", held x.2 "osmo")) =
      .ok (19811, 1010000, 3980189) ∧
    ((examplePool.swapExactOut "usdc" ⟨"atom", 10000⟩ 2000000000000000).map fun x => (x.1, held x.2 "atom", held x.2 "usdc")) =
      .ok (70849, 990000, 7070849) := by
  refine ⟨by unfold Distinct; decide, ?_⟩
  decide +kernel

/-- Without the condition on the denoms the bookkeeping is wrong: a swap of a denom against itself pays out without
taking the output off the pool. -/
theorem C51_same_denom_not_deducted :
    ((examplePool.swapExactIn ⟨"atom", 10000⟩ "atom" 0).map fun x => (x.1, held x.2 "atom")) = .ok (9900, 1010000) := by
  decide +kernel

/-- The pool holds a million atom before. -/
example : held examplePool "atom" = 1000000 := by decide +kernel

/-! ### C60 -/

/-- **C60 (selling).** For two assets of equal weight the simulated output is that of the constant-product formula:
with `R` of the input asset, `U` of the output asset and `a` the input after the fee, it is at least
`U*a/(R+a)` rounded down, and above the exact value by at most a 10^-18 part of `U`. -/
theorem C60_equal_weights_out {R U w : Nat} {din dout : Denom} {x spread out : Nat} {assets : List Asset}
    (hi : assets.find? (fun a => decide (a.denom = din)) = some ⟨din, R, w⟩)
    (ho : assets.find? (fun a => decide (a.denom = dout)) = some ⟨dout, U, w⟩)
    (h : calcOutGivenIn assets ⟨din, x⟩ dout spread = .ok out) :
    ∃ a, a = x * (10 ^ 18 - spread) / 10 ^ 18 ∧ spread ≤ 10 ^ 18 ∧
      U * a / (R + a) ≤ out ∧ 10 ^ 18 * (out * (R + a)) ≤ 10 ^ 18 * (U * a) + U * (R + a) := by
  have hp := Math.one_pos
  have e18 : (10 : Nat) ^ 18 = ONE := rfl
  simp only [calcOutGivenIn, solveInvariants, getAsset_find hi, getAsset_find ho, ok_bind, bind_eq_ok, dadd_eq_ok, dsub_eq_ok,
    toDec_eq_ok, dmul_eq_ok, ddiv_eq_ok, require_eq_ok, Except.ok.injEq] at h
  obtain ⟨keep, ⟨hs, rfl⟩, a, ⟨_, ha⟩, post, ⟨_, rfl⟩, d1, ⟨_, rfl⟩, d2, ⟨_, rfl⟩, d3, ⟨_, rfl⟩, d4, ⟨_, rfl⟩, d5, ⟨_, rfl⟩,
    r, ⟨wr, ⟨hw0, _, hwr⟩, y, ⟨hy0, _, hy⟩, yw, hyw, am, ⟨_, rfl⟩, rfl⟩, _, hneg, rfl⟩ := h
  rw [e18]
  refine ⟨a, ha, hs, ?_⟩
  have hw : 0 < ONE * w := Nat.pos_of_ne_zero hw0
  have hwr1 : wr = ONE := by rw [hwr]; exact Nat.mul_div_cancel _ hw
  have hyy : y = ONE * R / (R + a) := by
    rw [hy, Nat.mul_left_comm, Nat.mul_div_mul_left _ _ hp]
  have hpos : 0 < R + a := by
    rcases Nat.eq_zero_or_pos (R + a) with h | h
    · rw [h] at hy0; simp at hy0
    · exact h
  have hyw1 : yw = y := by
    rw [hwr1] at hyw
    unfold pow at hyw
    split at hyw
    · cases hyw
    split at hyw
    · cases hyw
    rw [if_pos rfl] at hyw
    cases hyw
    rfl
  subst hyw1
  simp only [absDiffWithSign, decide_eq_true_eq] at hneg ⊢
  rw [if_neg (by omega)]
  unfold toUintFloor
  have e2 : ONE * U * (ONE - yw) / ONE = U * (ONE - yw) := by
    rw [Nat.mul_assoc, Nat.mul_div_cancel_left _ hp]
  rw [e2]
  have h1 : yw * (R + a) ≤ ONE * R := by rw [hyy]; exact Nat.div_mul_le_self _ _
  have h2 : ONE * R < (yw + 1) * (R + a) := by
    rw [hyy, Nat.mul_comm _ (R + a)]
    exact Nat.lt_mul_div_succ _ hpos
  generalize hP : ONE = P at *
  obtain ⟨z, rfl⟩ : ∃ z, P = yw + z := ⟨P - yw, by omega⟩
  rw [Nat.add_sub_cancel_left]
  constructor
  · rw [Nat.le_div_iff_mul_le hp, Nat.mul_comm]
    -- P * (U*a/(R+a)) ≤ U * z
    have h3 : (yw + z) * a ≤ z * (R + a) := by nlinarith
    have h4 : (yw + z) * (U * a / (R + a)) * (R + a) ≤ U * z * (R + a) := by
      calc (yw + z) * (U * a / (R + a)) * (R + a) = (yw + z) * (U * a / (R + a) * (R + a)) := by ring
        _ ≤ (yw + z) * (U * a) := Nat.mul_le_mul_left _ (Nat.div_mul_le_self _ _)
        _ = U * ((yw + z) * a) := by ring
        _ ≤ U * (z * (R + a)) := Nat.mul_le_mul_left _ h3
        _ = U * z * (R + a) := by ring
    exact Nat.le_of_mul_le_mul_right h4 hpos
  · have h5 : (yw + z) * (U * z / (yw + z)) ≤ U * z := Nat.mul_div_le _ _
    have h6 : z * (R + a) ≤ (yw + z) * a + (R + a) := by nlinarith
    calc (yw + z) * (U * z / (yw + z) * (R + a)) = (yw + z) * (U * z / (yw + z)) * (R + a) := by ring
      _ ≤ U * z * (R + a) := Nat.mul_le_mul_right _ h5
      _ = U * (z * (R + a)) := by ring
      _ ≤ U * ((yw + z) * a + (R + a)) := Nat.mul_le_mul_left _ h6
      _ = (yw + z) * (U * a) + U * (R + a) := by ring

/-- The hypothesis is met: half a million of each, a thousand in, no fee. -/
example : (calcOutGivenIn [⟨"a", 500000, 3⟩, ⟨"b", 500000, 3⟩] ⟨"a", 1000⟩ "b" 0).toOption = some 998 ∧
    500000 * 1000 / 501000 = 998 := by decide +kernel

/-- **C60 (buying).** For two assets of equal weight, buying `b` of `U` against `R` of the input asset with a share
`keep / 10^18` left after the fee: the simulated input, after the fee, is at least the constant-product price
`R*b/(U-b)` up to a 10^-18 part of `R` and of one unit. -/
theorem C60_equal_weights_in {R U w : Nat} {din dout : Denom} {b spread inp : Nat} {assets : List Asset}
    (hi : assets.find? (fun a => decide (a.denom = din)) = some ⟨din, R, w⟩)
    (ho : assets.find? (fun a => decide (a.denom = dout)) = some ⟨dout, U, w⟩)
    (h : calcInGivenOut assets din ⟨dout, b⟩ spread = .ok inp) :
    ∃ keep, keep + spread = 10 ^ 18 ∧ b < U ∧
      10 ^ 18 * (10 ^ 18 * (R * b)) ≤ keep * (10 ^ 18 * inp + 1) * (U - b) + 10 ^ 18 * (R * (U - b)) ∧
      (0 < inp → keep * 10 ^ 18 * (inp - 1) * (U - b) ≤ 10 ^ 18 * (10 ^ 18 * (R * b))) := by
  have hp := Math.one_pos
  have e18 : (10 : Nat) ^ 18 = ONE := rfl
  simp only [calcInGivenOut, solveInvariants, getAsset_find hi, getAsset_find ho, ok_bind, bind_eq_ok, dsub_eq_ok,
    toDec_eq_ok, dmul_eq_ok, ddiv_eq_ok, require_eq_ok, Except.ok.injEq] at h
  obtain ⟨post, ⟨hb, rfl⟩, d1, ⟨_, rfl⟩, d2, ⟨_, rfl⟩, d3, ⟨_, rfl⟩, d4, ⟨_, rfl⟩, d5, ⟨_, rfl⟩,
    r, ⟨wr, ⟨hw0, _, hwr⟩, y, ⟨hy0, _, hy⟩, yw, hyw, am, ⟨_, rfl⟩, rfl⟩, keep, ⟨hs, rfl⟩, bf, ⟨hk0, _, hbf⟩, _, hneg, rfl⟩ := h
  rw [e18]
  refine ⟨ONE - spread, by omega, ?_, ?_⟩
  · rcases Nat.lt_or_ge b U with h | h
    · exact h
    · exact absurd (by rw [Nat.sub_eq_zero_of_le h, Nat.mul_zero]) hy0
  have hw : 0 < ONE * w := Nat.pos_of_ne_zero hw0
  have hwr1 : wr = ONE := by rw [hwr]; exact Nat.mul_div_cancel _ hw
  have hyy : y = ONE * U / (U - b) := by
    rw [hy, Nat.mul_left_comm, Nat.mul_div_mul_left _ _ hp]
  have hpos : 0 < U - b := by
    rcases Nat.eq_zero_or_pos (U - b) with h | h
    · rw [h] at hy0; simp at hy0
    · exact h
  have hyw1 : yw = y := by
    rw [hwr1] at hyw
    unfold pow at hyw
    split at hyw
    · cases hyw
    split at hyw
    · cases hyw
    rw [if_pos rfl] at hyw
    cases hyw
    rfl
  subst hyw1
  simp only [absDiffWithSign, decide_eq_false_iff_not] at hneg hbf ⊢
  rw [if_pos (by omega)] at hbf
  have e2 : ONE * R * (yw - ONE) / ONE = R * (yw - ONE) := by
    rw [Nat.mul_assoc, Nat.mul_div_cancel_left _ hp]
  rw [e2] at hbf
  have h1 : yw * (U - b) ≤ ONE * U := by rw [hyy]; exact Nat.div_mul_le_self _ _
  have h2 : ONE * U < (yw + 1) * (U - b) := by
    rw [hyy, Nat.mul_comm _ (U - b)]
    exact Nat.lt_mul_div_succ _ hpos
  have hk : 0 < ONE - spread := Nat.pos_of_ne_zero hk0
  have h3 : bf * (ONE - spread) ≤ ONE * (R * (yw - ONE)) := by rw [hbf]; exact Nat.div_mul_le_self _ _
  have h4 : ONE * (R * (yw - ONE)) < (bf + 1) * (ONE - spread) := by
    rw [hbf, Nat.mul_comm _ (ONE - spread)]; exact Nat.lt_mul_div_succ _ hk
  have h5 : bf ≤ ONE * toUintCeil bf ∧ (0 < toUintCeil bf → ONE * (toUintCeil bf - 1) ≤ bf) := by
    unfold toUintCeil
    split
    · rename_i h; subst h; simp
    · have := Nat.lt_mul_div_succ (bf - 1) hp
      rw [Nat.add_comm 1]
      refine ⟨by omega, fun _ => ?_⟩
      have := Nat.mul_div_le (bf - 1) ONE
      rw [Nat.add_sub_cancel]
      omega
  generalize toUintCeil bf = inp at h5 ⊢
  generalize ONE - spread = keep at *
  generalize hP : ONE = P at *
  obtain ⟨z, rfl⟩ : ∃ z, yw = P + z := ⟨yw - P, by omega⟩
  rw [Nat.add_sub_cancel_left] at h3 h4
  obtain ⟨V, rfl⟩ : ∃ V, U = b + V := ⟨U - b, by omega⟩
  rw [Nat.add_sub_cancel_left] at *
  have h6 : P * b ≤ (z + 1) * V := by nlinarith
  have h7 : z * V ≤ P * b := by nlinarith
  constructor
  · calc P * (P * (R * b)) = P * R * (P * b) := by ring
      _ ≤ P * R * ((z + 1) * V) := Nat.mul_le_mul_left _ h6
      _ = P * (R * z) * V + P * (R * V) := by ring
      _ ≤ (bf + 1) * keep * V + P * (R * V) := by gcongr
      _ ≤ (P * inp + 1) * keep * V + P * (R * V) := by gcongr; exact h5.1
      _ = keep * (P * inp + 1) * V + P * (R * V) := by ring
  · intro hi
    calc keep * P * (inp - 1) * V = P * (inp - 1) * keep * V := by ring
      _ ≤ bf * keep * V := by gcongr; exact h5.2 hi
      _ ≤ P * (R * z) * V := by gcongr
      _ = P * R * (z * V) := by ring
      _ ≤ P * R * (P * b) := Nat.mul_le_mul_left _ h7
      _ = P * (P * (R * b)) := by ring

/-- The hypothesis is met: the price of 1000 of half a million is 1003, more with a fee of 1%. -/
example : (calcInGivenOut [⟨"a", 500000, 3⟩, ⟨"b", 500000, 3⟩] "a" ⟨"b", 1000⟩ 0).toOption = some 1003 ∧
    (calcInGivenOut [⟨"a", 500000, 3⟩, ⟨"b", 500000, 3⟩] "a" ⟨"b", 1000⟩ 10000000000000000).toOption = some 1013 := by
  decide +kernel

/-! ### C61 -/

/-- **C61.** Whatever the weights, the simulated output is at most what the exact formula
`U * (1 - (R / (R + a)) ^ (w_in / w_out))` gives, when the ratio of the balances is lowered by 10^-18, up to an
allowance of `U * (w_in / w_out + 1) * 10^-18`. -/
theorem C61_output_at_most_exact {R U wi wo : Nat} {din dout : Denom} {x spread out : Nat} {assets : List Asset}
    (hi : assets.find? (fun a => decide (a.denom = din)) = some ⟨din, R, wi⟩)
    (ho : assets.find? (fun a => decide (a.denom = dout)) = some ⟨dout, U, wo⟩)
    (h : calcOutGivenIn assets ⟨din, x⟩ dout spread = .ok out) :
    ∃ a : ℕ, a = x * (10 ^ 18 - spread) / 10 ^ 18 ∧
      (out : ℝ) ≤ U * (1 - ((R : ℝ) / (R + a) - 1 / 10 ^ 18) ^ ((wi : ℝ) / wo)) + U * ((wi : ℝ) / wo + 1) / 10 ^ 18 := by
  have hp := Math.one_pos
  have hpR := oneR_pos
  have e18 : (10 : Nat) ^ 18 = ONE := rfl
  have e18R : (10 : ℝ) ^ 18 = (ONE : ℝ) := by rw [← e18, Nat.cast_pow]; norm_num
  simp only [calcOutGivenIn, solveInvariants, getAsset_find hi, getAsset_find ho, ok_bind, bind_eq_ok, dadd_eq_ok, dsub_eq_ok,
    toDec_eq_ok, dmul_eq_ok, ddiv_eq_ok, require_eq_ok, Except.ok.injEq] at h
  obtain ⟨keep, ⟨hs, rfl⟩, a, ⟨_, ha⟩, post, ⟨_, rfl⟩, d1, ⟨_, rfl⟩, d2, ⟨_, rfl⟩, d3, ⟨_, rfl⟩, d4, ⟨_, rfl⟩, d5, ⟨_, rfl⟩,
    r, ⟨wr, ⟨hw0, _, hwr⟩, y, ⟨hy0, _, hy⟩, yw, hyw, am, ⟨_, rfl⟩, rfl⟩, _, hneg, rfl⟩ := h
  rw [e18, e18R]
  refine ⟨a, ha, ?_⟩
  have hyy : y = ONE * R / (R + a) := by
    rw [hy, Nat.mul_left_comm, Nat.mul_div_mul_left _ _ hp]
  have hww : wr = ONE * wi / wo := by
    rw [hwr, Nat.mul_left_comm, Nat.mul_div_mul_left _ _ hp]
  have hwo : 0 < wo := by
    rcases Nat.eq_zero_or_pos wo with h | h
    · rw [h] at hw0; simp at hw0
    · exact h
  have hpos : 0 < R + a := by
    rcases Nat.eq_zero_or_pos (R + a) with h | h
    · rw [h] at hy0; simp at hy0
    · exact h
  have hy1 : y ≤ ONE := by
    rw [hyy]
    apply Nat.div_le_of_le_mul
    rw [Nat.mul_comm]
    exact Nat.mul_le_mul_right _ (Nat.le_add_right _ _)
  have hypos : 0 < y := by
    rcases Nat.eq_zero_or_pos y with h | h
    · rw [h] at hyw; unfold pow at hyw; rw [if_pos rfl] at hyw; cases hyw
    · exact h
  have hlow := (C52_power_lower_bound hypos hy1 hyw).1
  have hRa : (0 : ℝ) < R + a := by exact_mod_cast hpos
  -- the base
  have hB : (R : ℝ) / (R + a) - 1 / ONE ≤ val y := by
    unfold val
    have h2 : ONE * R < (y + 1) * (R + a) := by
      rw [hyy, Nat.mul_comm _ (R + a)]
      exact Nat.lt_mul_div_succ _ hpos
    have h3 : (ONE : ℝ) * R ≤ (y + 1) * (R + a) := by exact_mod_cast h2.le
    rw [sub_le_iff_le_add, ← add_div, div_le_div_iff₀ hRa hpR]
    linarith
  have hB0 : 0 ≤ (R : ℝ) / (R + a) - 1 / ONE := by
    have h2 : y * (R + a) ≤ ONE * R := by rw [hyy]; exact Nat.div_mul_le_self _ _
    have h3 : R + a ≤ ONE * R := (Nat.le_mul_of_pos_left _ hypos).trans h2
    have h4 : (R : ℝ) + a ≤ ONE * R := by exact_mod_cast h3
    rw [sub_nonneg, div_le_div_iff₀ hpR hRa]
    linarith
  -- the exponent
  have hwoR : (0 : ℝ) < wo := by exact_mod_cast hwo
  have hE : val wr ≤ (wi : ℝ) / wo := by
    unfold val
    have h2 : wr * wo ≤ ONE * wi := by rw [hww]; exact Nat.div_mul_le_self _ _
    have h3 : (wr : ℝ) * wo ≤ ONE * wi := by exact_mod_cast h2
    rw [div_le_div_iff₀ hpR hwoR]
    linarith
  have hv1 : val y ≤ 1 := by rw [← val_one]; exact val_le.2 hy1
  have hv0 : 0 < val y := by rw [← val_zero]; exact val_lt.2 hypos
  have hpow : ((R : ℝ) / (R + a) - 1 / ONE) ^ ((wi : ℝ) / wo) ≤ val y ^ val wr :=
    (Real.rpow_le_rpow hB0 hB (by positivity)).trans (Real.rpow_le_rpow_of_exponent_ge hv0 hv1 hE)
  generalize ((R : ℝ) / (R + a) - 1 / ONE) ^ ((wi : ℝ) / wo) = Q at *
  generalize (wi : ℝ) / wo = E at *
  simp only [absDiffWithSign, decide_eq_true_eq] at hneg ⊢
  rw [if_neg (by omega)]
  unfold toUintFloor
  have e2 : ONE * U * (ONE - yw) / ONE = U * (ONE - yw) := by
    rw [Nat.mul_assoc, Nat.mul_div_cancel_left _ hp]
  rw [e2]
  have h7 : ((U * (ONE - yw) / ONE : ℕ) : ℝ) ≤ U * (1 - val yw) := by
    refine Nat.cast_div_le.trans ?_
    rw [← val_one, ← val_sub hneg.le]
    unfold val
    push_cast
    rw [mul_div_assoc]
  refine h7.trans ?_
  have hU : (0 : ℝ) ≤ U := Nat.cast_nonneg _
  have h8 : Q ≤ val yw + (E + 1) / ONE := by
    have : (val wr + 1) / (ONE : ℝ) ≤ (E + 1) / ONE := by gcongr
    linarith
  have h9 : (U : ℝ) * (1 - val yw) ≤ U * (1 - Q + (E + 1) / ONE) := by
    apply mul_le_mul_of_nonneg_left _ hU
    linarith
  refine h9.trans (le_of_eq ?_)
  ring

/-- The hypothesis is met on a pool with weights 1 and 2. -/
example : (calcOutGivenIn [⟨"atom", 1000000, 5⟩, ⟨"osmo", 4000000, 10⟩] ⟨"atom", 10000⟩ "osmo" 2000000000000000).toOption =
    some 19811 := by decide +kernel

end Ibcx.Props
