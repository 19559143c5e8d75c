import Verif.Pool.Stable
import Verif.Math.ApproxLemmas
import Verif.Props.Power
import Verif.Spec.PoolBalance
/-!
# Properties of the solver for stable pools (C75)

`val n` is the number denoted by the atomics `n`, i.e. `n / 10^18`.
-/

namespace Ibcx.Props
open Ibcx Ibcx.Math Ibcx.Pool

/-! ### C75 -/

private theorem isqrtLoop_spec (n : Nat) : ∀ k acc, acc * acc ≤ n → n < (acc + 2 ^ k) * (acc + 2 ^ k) →
    isqrtLoop n k acc * isqrtLoop n k acc ≤ n ∧ n < (isqrtLoop n k acc + 1) * (isqrtLoop n k acc + 1) := by
  intro k
  induction k with
  | zero => intro acc h1 h2; exact ⟨h1, h2⟩
  | succ k ih =>
    intro acc h1 h2
    rw [isqrtLoop]
    split
    · rename_i h
      refine ih _ h ?_
      rw [Nat.add_assoc, ← Nat.two_mul, ← Nat.pow_succ']
      exact h2
    · rename_i h
      exact ih _ h1 (by omega)

/-- **C75 (square root).** The integer square root is the largest number whose square is at most the argument. -/
theorem C75_square_root {n : Nat} (h : n < 2 ^ 256) : isqrt n = Nat.sqrt n := by
  obtain ⟨h1, h2⟩ := isqrtLoop_spec n 128 0 (Nat.zero_le _) (by
    rw [Nat.zero_add, ← Nat.pow_add]; exact h)
  unfold isqrt
  exact (Nat.eq_sqrt).2 ⟨h1, h2⟩

/-- A square and its predecessor. -/
example : isqrt (10 ^ 36) = 10 ^ 18 ∧ isqrt (10 ^ 36 - 1) = 10 ^ 18 - 1 := by decide +kernel

/-- The square root of a decimal below 10^40: rounded down to the last place. -/
theorem C75_decimal_square_root {d : Nat} (h : d < 10 ^ 58) : dsqrt d * dsqrt d ≤ 10 ^ 18 * d ∧
    10 ^ 18 * d < (dsqrt d + 1) * (dsqrt d + 1) := by
  have hU : (10 : Nat) ^ 58 * 100 ^ 9 < U256 := by decide
  have hlt : d * 100 ^ 9 < U256 := lt_trans (Nat.mul_lt_mul_of_pos_right h (by decide)) hU
  have e : dsqrt d = Nat.sqrt (10 ^ 18 * d) := by
    unfold dsqrt
    rw [dsqrtFrom, if_pos hlt, C75_square_root (by exact hlt)]
    have : d * 100 ^ 9 = 10 ^ 18 * d := by rw [Nat.mul_comm]; congr 1
    rw [this, Nat.sub_self, Nat.pow_zero, Nat.mul_one]
  rw [e]
  exact ⟨Nat.sqrt_le _, Nat.lt_succ_sqrt _⟩

example : dsqrt (ONE * 2) = 1414213562373095048 := by decide +kernel

private theorem dsqrtFrom_spec (d : Nat) : ∀ (k : Nat), k ≤ 9 → d < U256 →
    (∀ j, k < j → j ≤ 9 → U256 ≤ d * 100 ^ j) →
    ∃ i ≤ 9, dsqrtFrom d ((List.range (k + 1)).reverse) = isqrt (d * 100 ^ i) * 10 ^ (9 - i) ∧ d * 100 ^ i < U256 ∧
      (i < 9 → U256 ≤ d * 100 ^ (i + 1)) := by
  intro k
  induction k with
  | zero =>
    intro _ hd hj
    refine ⟨0, by omega, ?_, by rw [Nat.pow_zero, Nat.mul_one]; exact hd, fun _ => hj 1 (by omega) (by omega)⟩
    rw [List.range_succ, List.reverse_append, List.reverse_singleton, List.singleton_append, dsqrtFrom, if_pos]
    rw [Nat.pow_zero, Nat.mul_one]
    exact hd
  | succ k ih =>
    intro hk hd hj
    rw [List.range_succ, List.reverse_append, List.reverse_singleton, List.singleton_append, dsqrtFrom]
    by_cases h : d * 100 ^ (k + 1) < U256
    · rw [if_pos h]
      exact ⟨k + 1, hk, rfl, h, fun hlt => hj (k + 2) (by omega) (by omega)⟩
    · rw [if_neg h]
      refine ih (by omega) hd fun j h1 h2 => ?_
      rcases Nat.lt_or_ge (k + 1) j with h3 | h3
      · exact hj j h3 h2
      · have : j = k + 1 := by omega
        rw [this]
        exact Nat.not_lt.1 h

private theorem root_scaled {r q i d : Nat} (hi : i ≤ 9) (hr : r = Nat.sqrt (d * 100 ^ i)) (hq : q = r * 10 ^ (9 - i)) :
    q * q ≤ 10 ^ 18 * d ∧ 10 ^ 18 * d < (q + 10 ^ (9 - i)) * (q + 10 ^ (9 - i)) := by
  have h1 : r * r ≤ d * 100 ^ i := hr ▸ Nat.sqrt_le _
  have h2 : d * 100 ^ i < (r + 1) * (r + 1) := hr ▸ Nat.lt_succ_sqrt _
  have e : (10 : Nat) ^ 18 = 100 ^ i * (10 ^ (9 - i) * 10 ^ (9 - i)) := by
    have : (100 : Nat) = 10 ^ 2 := by norm_num
    rw [this, ← Nat.pow_mul, ← Nat.pow_add, ← Nat.pow_add]
    congr 1
    omega
  have hp : 0 < (10 : Nat) ^ (9 - i) * 10 ^ (9 - i) := by positivity
  subst hq
  rw [e]
  generalize (10 : Nat) ^ (9 - i) = t at *
  generalize (100 : Nat) ^ i = c at *
  constructor
  · calc r * t * (r * t) = r * r * (t * t) := by ring
      _ ≤ d * c * (t * t) := Nat.mul_le_mul_right _ h1
      _ = c * (t * t) * d := by ring
  · calc c * (t * t) * d = d * c * (t * t) := by ring
      _ < (r + 1) * (r + 1) * (t * t) := Nat.mul_lt_mul_of_pos_right h2 hp
      _ = (r * t + t) * (r * t + t) := by ring

/-- **C75 (roots of all decimals).** The square root of any decimal is rounded down, at a digit that depends on the number:
with `n` digits lost, the number is so large that one digit more would not have fitted into 256 bits.  At most nine of the
eighteen digits are lost. -/
theorem C75_any_square_root {d : Nat} (h : d < 2 ^ 256) : ∃ n ≤ 9, dsqrt d * dsqrt d ≤ 10 ^ 18 * d ∧
    10 ^ 18 * d < (dsqrt d + 10 ^ n) * (dsqrt d + 10 ^ n) ∧ (0 < n → 2 ^ 256 ≤ d * 100 ^ (9 - n + 1)) := by
  have e : dsqrt d = dsqrtFrom d ((List.range (9 + 1)).reverse) := rfl
  obtain ⟨i, hi, h1, h2, h3⟩ := dsqrtFrom_spec d 9 (Nat.le_refl _) h (fun j a b => by omega)
  rw [← e] at h1
  rw [C75_square_root (by exact h2)] at h1
  obtain ⟨a, b⟩ := root_scaled hi rfl h1
  refine ⟨9 - i, by omega, a, b, fun hn => ?_⟩
  have : 9 - (9 - i) = i := by omega
  rw [this]
  exact h3 (by omega)

/-- The largest decimal of 256 bits, and the smallest that loses a digit. -/
example : dsqrt (2 ^ 256 - 1) = 340282366920938463463374607431768211455 * 10 ^ 9 ∧
    2 ^ 256 ≤ (2 ^ 256 / 100 ^ 9 + 1) * 100 ^ 9 := by decide +kernel


/-- The order of the reserves: for a pool that lists each denom once, the balance of the first denom, then that of
the second, then the others in their order; each divided by its factor. -/
theorem C75_reserves {pre mid post : List (Coin × Nat)} {a b : Coin × Nat} (hne : a.1.denom ≠ b.1.denom)
    (h : ∀ c ∈ pre ++ mid ++ post, c.1.denom ≠ a.1.denom ∧ c.1.denom ≠ b.1.denom) :
    StablePool.reserves ⟨pre ++ a :: mid ++ b :: post⟩ a.1.denom b.1.denom = (a :: b :: (pre ++ mid ++ post)).mapM scaled ∧
    StablePool.reserves ⟨pre ++ a :: mid ++ b :: post⟩ b.1.denom a.1.denom = (b :: a :: (pre ++ mid ++ post)).mapM scaled := by
  have f1 : ∀ l : List (Coin × Nat), (∀ c ∈ l, c.1.denom ≠ a.1.denom ∧ c.1.denom ≠ b.1.denom) →
      (l.filter fun c => decide (c.1.denom = a.1.denom)) = [] ∧
      (l.filter fun c => decide (c.1.denom = b.1.denom)) = [] ∧
      (l.filter fun c => decide (c.1.denom ≠ a.1.denom ∧ c.1.denom = b.1.denom)) = [] ∧
      (l.filter fun c => decide (c.1.denom ≠ b.1.denom ∧ c.1.denom = a.1.denom)) = [] ∧
      (l.filter fun c => decide (c.1.denom ≠ a.1.denom ∧ c.1.denom ≠ b.1.denom)) = l ∧
      (l.filter fun c => decide (c.1.denom ≠ b.1.denom ∧ c.1.denom ≠ a.1.denom)) = l := by
    intro l hl
    refine ⟨List.filter_eq_nil_iff.2 ?_, List.filter_eq_nil_iff.2 ?_, List.filter_eq_nil_iff.2 ?_,
      List.filter_eq_nil_iff.2 ?_, List.filter_eq_self.2 ?_, List.filter_eq_self.2 ?_⟩ <;> intro c hc <;>
      have := hl c hc <;> simp [this.1, this.2]
  obtain ⟨p1, p2, p3, p4, p5, p6⟩ := f1 pre fun c hc => h c (by simp [hc])
  obtain ⟨m1, m2, m3, m4, m5, m6⟩ := f1 mid fun c hc => h c (by simp [hc])
  obtain ⟨q1, q2, q3, q4, q5, q6⟩ := f1 post fun c hc => h c (by simp [hc])
  have hne' := Ne.symm hne
  unfold StablePool.reserves
  constructor
  · congr 1
    simp only [List.filter_append, List.filter_cons, p1, p3, p5, m1, m3, m5, q1, q3, q5]
    simp [hne, hne']
  · congr 1
    simp only [List.filter_append, List.filter_cons, p2, p4, p6, m2, m4, m6, q2, q4, q6]
    simp [hne, hne']

/-- Three coins, the second and third of them traded. -/
example : (StablePool.reserves ⟨[(⟨"a", 10⟩, 1), (⟨"b", 20⟩, 4), (⟨"c", 30⟩, 10)]⟩ "c" "b").toOption =
    some [ONE * 3, ONE * 5, ONE * 10] := by decide +kernel

/-- What the solver accepts, and that it never pays out the whole reserve. -/
theorem C75_solver_bounds_partial {x y w yIn out : Nat} {neg : Bool} (h : solveDirect x y w yIn neg = .ok out) :
    0 < yIn ∧ yIn < y ∧ 0 < x ∧ out < x := by
  cases neg <;> simp only [solveDirect, bind_eq_ok, require_eq_ok, Bool.false_eq_true, if_false, if_true] at h
  all_goals
    obtain ⟨_, ⟨h1, _, h2⟩, _, h3, h⟩ := h
    repeat obtain ⟨_, _, h⟩ := h
    exact ⟨h2, h3, h1, by assumption⟩

/-- A sale of half a unit into reserves of two and one. -/
example : (solveDirect (ONE * 2) ONE 0 500000000000000000 false).toOption.map (fun o => decide (o < ONE * 2)) = some true := by
  decide +kernel

private theorem stable_uniq : ∀ {l : List (Coin × Nat)} {c : Coin × Nat}, (l.map (·.1.denom)).Nodup → c ∈ l →
    (l.filter fun x => decide (x.1.denom = c.1.denom)) = [c] ∧
      l.find? (fun x => decide (x.1.denom = c.1.denom)) = some c := by
  intro l
  induction l with
  | nil => intro c _ h; cases h
  | cons b bs ih =>
    intro c hn hc
    rw [List.map_cons, List.nodup_cons] at hn
    rcases List.mem_cons.1 hc with rfl | hc
    · constructor
      · rw [List.filter_cons_of_pos (by simp), List.filter_eq_nil_iff.2]
        intro x hx
        simp only [decide_eq_true_eq]
        intro e
        exact hn.1 (List.mem_map.2 ⟨x, hx, e⟩)
      · simp
    · have hb : b.1.denom ≠ c.1.denom := fun e => hn.1 (List.mem_map.2 ⟨c, hc, e.symm⟩)
      obtain ⟨i1, i2⟩ := ih hn.2 hc
      constructor
      · rw [List.filter_cons_of_neg (by simpa using hb), i1]
      · rw [List.find?_cons_of_neg (by simpa using hb), i2]

/-- **C75 (balance).** For a pool that lists each denom once, the computed proceeds of a sale are at most the pool's
balance of the denom bought. -/
theorem C75_within_balance_partial {p : StablePool} {input : Coin} {d : Denom} {fee out amount f : Nat}
    (hp : (p.liquidity.map (·.1.denom)).Nodup) (hne : input.denom ≠ d) (hm : (⟨d, amount⟩, f) ∈ p.liquidity)
    (hi : input.denom ∈ p.liquidity.map (·.1.denom))
    (h : p.calcOut input d fee = .ok out) : out ≤ 10 ^ 18 * amount := by
  have e18 : (10 : Nat) ^ 18 = ONE := rfl
  have hpos := Math.one_pos
  rw [e18]
  obtain ⟨ci, hci, hcd⟩ := List.mem_map.1 hi
  have u1 := (stable_uniq hp hci).1
  obtain ⟨u2, u3⟩ := stable_uniq hp hm
  rw [hcd] at u1
  simp only at u2 u3
  have u4 : (p.liquidity.filter fun c => decide (c.1.denom ≠ input.denom ∧ c.1.denom = d)) = [(⟨d, amount⟩, f)] := by
    rw [← u2]
    apply List.filter_congr
    intro c _
    by_cases hc : c.1.denom = d
    · simp [hc, Ne.symm hne]
    · simp [hc]
  simp only [StablePool.calcOut, StablePool.reserves, bind_eq_ok] at h
  rw [u1, u4] at h
  obtain ⟨rs, hrs, h⟩ := h
  simp only [List.cons_append, List.nil_append, List.mapM_cons, bind_eq_ok, scaled, ddiv_eq_ok] at hrs
  obtain ⟨a, _, b', ⟨b, ⟨hf, _, hb⟩, rest, _, e2⟩, e1⟩ := hrs
  cases e2
  cases e1
  simp only [bind_eq_ok] at h
  obtain ⟨_, _, _, _, _, _, co, hs, h⟩ := h
  simp only [solveCfmm, bind_eq_ok] at hs
  obtain ⟨_, _, hs⟩ := hs
  have hlt := (C75_solver_bounds_partial hs).2.2.2
  simp only [StablePool.descale, StablePool.factor, u3, Option.map_some, Option.getD_some, bind_eq_ok, ddiv_eq_ok,
    dmul_eq_ok, Nat.div_one] at h
  obtain ⟨_, ⟨_, _, rfl⟩, _, rfl⟩ := h
  rw [Nat.mul_left_comm, Nat.mul_div_cancel_left _ hpos]
  calc co * f ≤ b * f := Nat.mul_le_mul_right _ hlt.le
    _ ≤ ONE * amount := by rw [hb]; exact Nat.div_mul_le_self _ _

/-- A sale in a pool of two million coins. -/
example : ((⟨[(⟨"a", 1000000⟩, 1000000), (⟨"b", 1000000⟩, 1000000)]⟩ : StablePool).calcOut ⟨"a", 100000⟩ "b" 0).toOption =
      some 600183024972138904000000 ∧ 600183024972138904000000 ≤ 10 ^ 18 * 1000000 ∧
    ([(⟨"a", 1000000⟩, 1000000), (⟨"b", 1000000⟩, 1000000)].map (fun c : Coin × Nat => c.1.denom)).Nodup := by
  decide +kernel

/-- **C75 (purchase).** For a pool that lists each denom once, the computed cost of a purchase, less the fee, is at most
the pool's balance of the coin paid with, however much is bought; and what is bought is less than the pool has. -/
theorem C75_purchase_within_balance_partial {p : StablePool} {output : Coin} {d : Denom} {fee cost amount f b g : Nat}
    (hp : (p.liquidity.map (·.1.denom)).Nodup) (hne : output.denom ≠ d) (hm : (⟨d, amount⟩, f) ∈ p.liquidity)
    (ho : (⟨output.denom, b⟩, g) ∈ p.liquidity)
    (h : p.calcIn output d fee = .ok cost) :
    cost * (10 ^ 18 - fee) ≤ 10 ^ 18 * (10 ^ 18 * amount) ∧ fee < 10 ^ 18 ∧ 0 < output.amount ∧ output.amount < b := by
  have e18 : (10 : Nat) ^ 18 = ONE := rfl
  have hpos := Math.one_pos
  rw [e18]
  obtain ⟨u1, u5⟩ := stable_uniq hp ho
  obtain ⟨u2, u3⟩ := stable_uniq hp hm
  simp only at u1 u5 u2 u3
  have u4 : (p.liquidity.filter fun c => decide (c.1.denom ≠ d ∧ c.1.denom = output.denom)) =
      [(⟨output.denom, b⟩, g)] := by
    rw [← u1]
    apply List.filter_congr
    intro c _
    by_cases hc : c.1.denom = output.denom
    · simp [hc, hne]
    · simp [hc]
  simp only [StablePool.calcIn, StablePool.reserves, bind_eq_ok] at h
  rw [u2, u4] at h
  obtain ⟨rs, hrs, h⟩ := h
  simp only [List.cons_append, List.nil_append, List.mapM_cons, bind_eq_ok, scaled, ddiv_eq_ok] at hrs
  obtain ⟨x, ⟨hf, _, hx⟩, b', ⟨y, ⟨hg, _, hy⟩, rest, _, e2⟩, e1⟩ := hrs
  cases e2
  cases e1
  simp only [bind_eq_ok] at h
  obtain ⟨v, hv, co, hs, keep, hk, cin, hc, h⟩ := h
  simp only [solveCfmm, bind_eq_ok] at hs
  obtain ⟨_, _, hs⟩ := hs
  obtain ⟨hv0, hvy, _, hlt⟩ := C75_solver_bounds_partial hs
  simp only [StablePool.scaleCoin, StablePool.factor, u5, Option.map_some, ddiv_eq_ok] at hv
  obtain ⟨_, _, rfl⟩ := hv
  obtain ⟨hfee, rfl⟩ := dsub_eq_ok.1 hk
  obtain ⟨hk0, _, rfl⟩ := ddiv_eq_ok.1 hc
  simp only [StablePool.descale, StablePool.factor, u3, Option.map_some, Option.getD_some, bind_eq_ok, ddiv_eq_ok,
    dmul_eq_ok, Nat.div_one] at h
  obtain ⟨_, ⟨_, _, rfl⟩, _, rfl⟩ := h
  rw [Nat.mul_left_comm, Nat.mul_div_cancel_left _ hpos]
  refine ⟨?_, by omega, ?_, ?_⟩
  · calc ONE * co / (ONE - fee) * f * (ONE - fee) = ONE * co / (ONE - fee) * (ONE - fee) * f := Nat.mul_right_comm _ _ _
      _ ≤ ONE * co * f := Nat.mul_le_mul_right _ (Nat.div_mul_le_self _ _)
      _ = ONE * (co * f) := Nat.mul_assoc _ _ _
      _ ≤ ONE * (x * f) := Nat.mul_le_mul_left _ (Nat.mul_le_mul_right _ hlt.le)
      _ ≤ ONE * (ONE * amount) := Nat.mul_le_mul_left _ (by rw [hx]; exact Nat.div_mul_le_self _ _)
  · rcases Nat.eq_zero_or_pos output.amount with e | e
    · rw [e, Nat.mul_zero, Nat.zero_div] at hv0
      exact absurd hv0 (Nat.lt_irrefl _)
    · exact e
  · by_contra hn
    rw [hy] at hvy
    exact absurd hvy (Nat.not_lt.2 (Nat.div_le_div_right (Nat.mul_le_mul_left _ (Nat.not_lt.1 hn))))

/-- An example pool with a million of each of two coins. -/
def exampleStable : StablePool := ⟨[(⟨"a", 1000000⟩, 1000000), (⟨"b", 1000000⟩, 1000000)]⟩

/-- The hypotheses hold: 600183 for 100000; and 329765 as the cost of 100000. -/
example : (exampleStable.calcOut ⟨"a", 100000⟩ "b" 0).toOption = some 600183024972138904000000 ∧
    (exampleStable.calcIn ⟨"a", 100000⟩ "b" 0).toOption = some 329765738111980712000000 := by decide +kernel

private theorem mapM_scaled : ∀ {l : List (Coin × Nat)} {rs : List Nat}, l.mapM scaled = .ok rs →
    rs = l.map fun c => ONE * c.1.amount / c.2
  | [], rs, h => by
    rw [List.mapM_nil] at h
    exact (Except.ok.inj h).symm
  | c :: l, rs, h => by
    simp only [List.mapM_cons, bind_eq_ok, scaled, ddiv_eq_ok] at h
    obtain ⟨a, ⟨_, _, rfl⟩, b, hb, e⟩ := h
    cases e
    rw [List.map_cons, mapM_scaled hb]

/-- **C75 (what is asked of the solver for a sale).** In a pool that lists each denom once, the proceeds are the answer of
the solver, times the scale of the coin bought, for a sale of the scaled input less the fee, among the scaled balances of
all the coins of the pool. -/
theorem C75_sale_solved {p : StablePool} {input : Coin} {d : Denom} {fee out amount f a g : Nat}
    (hp : (p.liquidity.map (·.1.denom)).Nodup) (hne : input.denom ≠ d) (hm : (⟨d, amount⟩, f) ∈ p.liquidity)
    (hi : (⟨input.denom, a⟩, g) ∈ p.liquidity) (h : p.calcOut input d fee = .ok out) :
    fee ≤ 10 ^ 18 ∧ ∃ answer,
      solveCfmm (10 ^ 18 * amount / f) (10 ^ 18 * a / g)
        ((p.liquidity.filter fun c => decide (c.1.denom ≠ input.denom ∧ c.1.denom ≠ d)).map fun c =>
          10 ^ 18 * c.1.amount / c.2)
        (10 ^ 18 * input.amount / g * (10 ^ 18 - fee) / 10 ^ 18) false = .ok answer ∧
      out = answer * f := by
  have e18 : (10 : Nat) ^ 18 = ONE := rfl
  have hpos := Math.one_pos
  rw [e18]
  obtain ⟨u1, u5⟩ := stable_uniq hp hi
  obtain ⟨u2, u3⟩ := stable_uniq hp hm
  simp only at u1 u5 u2 u3
  have u4 : (p.liquidity.filter fun c => decide (c.1.denom ≠ input.denom ∧ c.1.denom = d)) = [(⟨d, amount⟩, f)] := by
    rw [← u2]
    apply List.filter_congr
    intro c _
    by_cases hc : c.1.denom = d
    · simp [hc, Ne.symm hne]
    · simp [hc]
  simp only [StablePool.calcOut, StablePool.reserves, bind_eq_ok] at h
  rw [u1, u4] at h
  obtain ⟨rs, hrs, h⟩ := h
  simp only [List.cons_append, List.nil_append] at hrs
  rw [mapM_scaled hrs] at h
  simp only [List.map_cons, bind_eq_ok] at h
  obtain ⟨v, hv, keep, hk, cin, hc, co, hs, h⟩ := h
  simp only [StablePool.scaleCoin, StablePool.factor, u5, Option.map_some, ddiv_eq_ok] at hv
  obtain ⟨_, _, rfl⟩ := hv
  obtain ⟨hfee, rfl⟩ := dsub_eq_ok.1 hk
  obtain ⟨_, rfl⟩ := dmul_eq_ok.1 hc
  simp only [StablePool.descale, StablePool.factor, u3, Option.map_some, Option.getD_some, bind_eq_ok, ddiv_eq_ok,
    dmul_eq_ok, Nat.div_one] at h
  obtain ⟨_, ⟨_, _, rfl⟩, _, rfl⟩ := h
  refine ⟨hfee, co, hs, ?_⟩
  rw [Nat.mul_left_comm, Nat.mul_div_cancel_left _ hpos]

/-- The sale of the example pool: a tenth of a unit among balances of one unit. -/
example : solveCfmm (10 ^ 18) (10 ^ 18) [] (10 ^ 17) false = .ok 600183024972138904 ∧
    600183024972138904000000 = 600183024972138904 * 1000000 := by decide +kernel

/-- **C75 (what is asked of the solver for a purchase).** The cost is the answer of the solver for taking the scaled output
out of the pool, divided by one less the fee, times the scale of the coin paid. -/
theorem C75_purchase_solved {p : StablePool} {output : Coin} {d : Denom} {fee cost amount f b g : Nat}
    (hp : (p.liquidity.map (·.1.denom)).Nodup) (hne : output.denom ≠ d) (hm : (⟨d, amount⟩, f) ∈ p.liquidity)
    (ho : (⟨output.denom, b⟩, g) ∈ p.liquidity) (h : p.calcIn output d fee = .ok cost) :
    fee < 10 ^ 18 ∧ ∃ answer,
      solveCfmm (10 ^ 18 * amount / f) (10 ^ 18 * b / g)
        ((p.liquidity.filter fun c => decide (c.1.denom ≠ d ∧ c.1.denom ≠ output.denom)).map fun c =>
          10 ^ 18 * c.1.amount / c.2)
        (10 ^ 18 * output.amount / g) true = .ok answer ∧
      cost = 10 ^ 18 * answer / (10 ^ 18 - fee) * f := by
  have e18 : (10 : Nat) ^ 18 = ONE := rfl
  have hpos := Math.one_pos
  rw [e18]
  obtain ⟨u1, u5⟩ := stable_uniq hp ho
  obtain ⟨u2, u3⟩ := stable_uniq hp hm
  simp only at u1 u5 u2 u3
  have u4 : (p.liquidity.filter fun c => decide (c.1.denom ≠ d ∧ c.1.denom = output.denom)) =
      [(⟨output.denom, b⟩, g)] := by
    rw [← u1]
    apply List.filter_congr
    intro c _
    by_cases hc : c.1.denom = output.denom
    · simp [hc, hne]
    · simp [hc]
  simp only [StablePool.calcIn, StablePool.reserves, bind_eq_ok] at h
  rw [u2, u4] at h
  obtain ⟨rs, hrs, h⟩ := h
  simp only [List.cons_append, List.nil_append] at hrs
  rw [mapM_scaled hrs] at h
  simp only [List.map_cons, bind_eq_ok] at h
  obtain ⟨v, hv, co, hs, keep, hk, cin, hc, h⟩ := h
  simp only [StablePool.scaleCoin, StablePool.factor, u5, Option.map_some, ddiv_eq_ok] at hv
  obtain ⟨_, _, rfl⟩ := hv
  obtain ⟨hfee, rfl⟩ := dsub_eq_ok.1 hk
  obtain ⟨hk0, _, rfl⟩ := ddiv_eq_ok.1 hc
  simp only [StablePool.descale, StablePool.factor, u3, Option.map_some, Option.getD_some, bind_eq_ok, ddiv_eq_ok,
    dmul_eq_ok, Nat.div_one] at h
  obtain ⟨_, ⟨_, _, rfl⟩, _, rfl⟩ := h
  refine ⟨by omega, co, hs, ?_⟩
  rw [Nat.mul_left_comm, Nat.mul_div_cancel_left _ hpos]

/-- A sale and a purchase with a fee of 1 % in a pool of three coins with different scales. -/
example : let p : StablePool := ⟨[(⟨"a", 1000000⟩, 1000000), (⟨"b", 1000000⟩, 1000000), (⟨"c", 100⟩, 1000)]⟩
    (p.calcOut ⟨"a", 100000⟩ "b" 10000000000000000).toOption.isSome = true ∧
    (p.calcIn ⟨"a", 100000⟩ "b" 10000000000000000).toOption.isSome = true ∧
    (p.liquidity.map (·.1.denom)).Nodup := by decide +kernel

/-- The invariant of a stable pool with balances `x`, `y` and a sum `w` of squares of the other balances. -/
noncomputable def stableInvariant (x y w : ℝ) : ℝ := x * y * (x ^ 2 + y ^ 2 + w)

/-- The square of a decimal, rounded down. -/
theorem dpow_two {x r : Nat} (h : dpow x 2 = .ok r) : r = x * x / ONE := by
  have hpos := Math.one_pos
  rw [dpow, if_neg (by decide), dpowLoop, if_neg (by decide), if_pos (by decide)] at h
  obtain ⟨x', h1, h2⟩ := bind_eq_ok.1 h
  rw [dpowLoop, if_pos (by decide)] at h2
  obtain ⟨_, rfl⟩ := dmul_eq_ok.1 h1
  obtain ⟨_, rfl⟩ := dmul_eq_ok.1 h2
  rw [Nat.mul_comm _ ONE, Nat.mul_div_cancel_left _ hpos]

private theorem sumSquares_from : ∀ {rest : List Nat} {acc w : Nat}, sumSquares rest acc = .ok w →
    val w ≤ val acc + (rest.map fun r => val r ^ 2).sum ∧
    val acc + (rest.map fun r => val r ^ 2).sum - rest.length * (1 / (ONE : ℝ)) ≤ val w
  | [], acc, w, h => by
    have e : acc = w := Except.ok.inj h
    subst e
    simp
  | r :: rest, acc, w, h => by
    simp only [sumSquares, bind_eq_ok, dadd_eq_ok] at h
    obtain ⟨q, hq, _, ⟨_, rfl⟩, h⟩ := h
    obtain ⟨i1, i2⟩ := sumSquares_from h
    have e := dpow_two hq
    subst e
    have u := val_mul_le r r
    have l := val_mul_ge r r
    rw [val_add] at i1 i2
    rw [List.map_cons, List.sum_cons, List.length_cons]
    have c : ((rest.length + 1 : Nat) : ℝ) = (rest.length : ℝ) + 1 := Nat.cast_succ _
    rw [c]
    generalize val (r * r / ONE) = q at *
    generalize 1 / (ONE : ℝ) = ε at *
    constructor <;> linarith [sq (val r)]

private theorem dpowLoop_eq : ∀ fuel x y n, dpowLoop fuel x y n = powIntLoop fuel x y n
  | 0, _, _, _ => rfl
  | fuel + 1, x, y, n => by
    have hc : dmul x y = dmul y x := by unfold dmul; rw [Nat.mul_comm]
    rw [dpowLoop, powIntLoop]
    by_cases h1 : n ≤ 1
    · rw [if_pos h1, if_pos h1]
    · rw [if_neg h1, if_neg h1]
      by_cases h2 : n % 2 = 0
      · rw [if_pos h2, if_neg (by omega)]
        simp only [dpowLoop_eq fuel]
        rfl
      · rw [if_neg h2, if_pos h2, hc]
        simp only [dpowLoop_eq fuel]
        rw [show (n - 1) / 2 = n / 2 by omega]

/-- **C75 (powers).** The whole powers that the solver uses: for a number up to one they are computed without abort, at most
the exact power and short of it by at most `n` units of the last place; above one a result is at most the exact power and
short of it by at most the factor `(1 - 10^-18)^n`.  The power zero is one. -/
theorem C75_powers (x n : Nat) :
    (x ≤ ONE → ∃ r, dpow x n = .ok r ∧ val r ≤ val x ^ n ∧ val x ^ n - n / (ONE : ℝ) ≤ val r) ∧
    (ONE ≤ x → ∀ r, dpow x n = .ok r → val r ≤ val x ^ n ∧ val x ^ n * (1 - 1 / (ONE : ℝ)) ^ n ≤ val r) := by
  unfold dpow
  by_cases hn : n = 0
  · subst hn
    rw [if_pos rfl]
    refine ⟨fun _ => ⟨ONE, rfl, by simp [val_one], by simp [val_one]⟩, fun _ r hr => ?_⟩
    cases hr
    exact ⟨by simp [val_one], by simp [val_one]⟩
  · rw [if_neg hn, dpowLoop_eq]
    exact ⟨fun hx => intLoop_below hx (by omega) (by omega), fun hx r hr => intLoop_above hx (by omega) hr⟩

/-- A cube of a third, a square above one, and a power zero. -/
example : (dpow 333333333333333333 3).toOption = some 37037037037037036 ∧
    (dpow 1500000000000000001 2).toOption = some 2250000000000000003 ∧ (dpow 5 0).toOption = some ONE := by decide +kernel

/-- **C75 (other balances).** The number that the solver uses for the balances of the coins not traded is the sum of their
squares, less at most one unit of the last place for each. -/
theorem C75_other_balances {rest : List Nat} {w : Nat} (h : sumSquares rest 0 = .ok w) :
    val w ≤ (rest.map fun r => val r ^ 2).sum ∧
    (rest.map fun r => val r ^ 2).sum - rest.length * (1 / (ONE : ℝ)) ≤ val w := by
  have := sumSquares_from h
  rw [val_zero, zero_add] at this
  exact this

/-- Balances of 2 and 1.5 and one whose square is rounded. -/
example : sumSquares [ONE * 2, 1500000000000000000, 1] 0 = .ok 6250000000000000000 := by decide +kernel

/-- **C75 (all balances).** The solver works with all the other balances: the number it is given for them is the sum of
their squares, up to the rounding of each of them. -/
theorem C75_all_balances {x y yIn out : Nat} {rest : List Nat} {neg : Bool}
    (h : solveCfmm x y rest yIn neg = .ok out) :
    ∃ w, solveDirect x y w yIn neg = .ok out ∧ val w ≤ (rest.map fun r => val r ^ 2).sum ∧
      (rest.map fun r => val r ^ 2).sum - rest.length * (1 / (ONE : ℝ)) ≤ val w := by
  simp only [solveCfmm, bind_eq_ok] at h
  obtain ⟨w, hw, h⟩ := h
  exact ⟨w, h, C75_other_balances hw⟩

/-- A sale into a pool of four balances; the fourth one changes the answer. -/
example : (solveCfmm (ONE * 2) ONE [ONE, ONE] 500000000000000000 false).toOption.isSome = true ∧
    (solveCfmm (ONE * 2) ONE [ONE, ONE] 500000000000000000 false).toOption ≠
      (solveCfmm (ONE * 2) ONE [ONE] 500000000000000000 false).toOption := by decide +kernel

/-- **C75 (constant).** The constant that the solver keeps is the pool's invariant, rounded down; how far it can be below is
given by the balances. -/
theorem C75_constant {x y w k : Nat} (h : cfmmConstant x y w = .ok k) :
    0 < x ∧ 0 < y ∧ val k ≤ stableInvariant (val x) (val y) (val w) ∧
    stableInvariant (val x) (val y) (val w) - (2 * val x * val y + val y + 1) * (1 / (ONE : ℝ)) ≤ val k := by
  simp only [cfmmConstant, bind_eq_ok, require_eq_ok, dadd_eq_ok] at h
  obtain ⟨_, ⟨h1, h2⟩, xx, hx, yy, hy, _, ⟨_, rfl⟩, _, ⟨_, rfl⟩, v, hv, h⟩ := h
  obtain ⟨_, rfl⟩ := dmul_eq_ok.1 hv
  obtain ⟨_, rfl⟩ := dmul_eq_ok.1 h
  have ex := dpow_two hx
  have ey := dpow_two hy
  have a1 := val_mul_le x x
  have a2 := val_mul_ge x x
  have b1 := val_mul_le y y
  have b2 := val_mul_ge y y
  rw [← ex] at a1 a2
  rw [← ey] at b1 b2
  have c1 := val_mul_le x (xx + yy + w)
  have c2 := val_mul_ge x (xx + yy + w)
  have d1 := val_mul_le (x * (xx + yy + w) / ONE) y
  have d2 := val_mul_ge (x * (xx + yy + w) / ONE) y
  rw [val_add, val_add] at c1 c2
  have nx := val_nonneg x
  have ny := val_nonneg y
  refine ⟨h1, h2, ?_, ?_⟩
  · unfold stableInvariant
    generalize val (x * (xx + yy + w) / ONE * y / ONE) = K at *
    generalize val (x * (xx + yy + w) / ONE) = V at *
    generalize val x = X at *
    generalize val y = Y at *
    have e1 : X * (val xx + val yy + val w) ≤ X * (X * X + Y * Y + val w) :=
      mul_le_mul_of_nonneg_left (by linarith) nx
    have e2 : V * Y ≤ X * (X * X + Y * Y + val w) * Y := mul_le_mul_of_nonneg_right (by linarith) ny
    calc K ≤ V * Y := d1
      _ ≤ _ := e2
      _ = _ := by ring
  · unfold stableInvariant
    generalize val (x * (xx + yy + w) / ONE * y / ONE) = K at *
    generalize val (x * (xx + yy + w) / ONE) = V at *
    generalize val x = X at *
    generalize val y = Y at *
    generalize 1 / (ONE : ℝ) = ε at *
    have e1 : X * (X * X + Y * Y + val w - 2 * ε) ≤ X * (val xx + val yy + val w) :=
      mul_le_mul_of_nonneg_left (by linarith) nx
    have e2 : (X * (X * X + Y * Y + val w - 2 * ε) - ε) * Y ≤ V * Y := mul_le_mul_of_nonneg_right (by linarith) ny
    calc _ = (X * (X * X + Y * Y + val w - 2 * ε) - ε) * Y - ε := by ring
      _ ≤ V * Y - ε := by linarith
      _ ≤ K := d2

/-- Balances of two and three, beside another coin with a balance of one: 2 * 3 * (4 + 9 + 1). -/
example : cfmmConstant (ONE * 2) (ONE * 3) ONE = .ok (ONE * 84) := by decide +kernel

/-- The full expectation on the solver: a sale keeps the invariant, up to a thousandth. -/
def C75_full : Prop :=
  ∀ x y w yIn out : Nat, solveDirect x y w yIn false = .ok out →
    stableInvariant (val x) (val y) (val w) * (999 / 1000) ≤ stableInvariant (val x - val out) (val y + val yIn) (val w)

/-- It fails: from a pool of one and one the solver pays 0.6 for 0.1 (it takes fourth roots for third roots). -/
theorem C75_full_false : ¬ C75_full := by
  intro h
  have h1 : solveDirect ONE ONE 0 100000000000000000 false = .ok 600183024972138904 := by decide +kernel
  have h2 := h _ _ _ _ _ h1
  have e1 : val 100000000000000000 = 1 / 10 := by unfold val ONE; norm_num
  have e2 : val 600183024972138904 = 600183024972138904 / 10 ^ 18 := by unfold val ONE; norm_num
  rw [val_one, val_zero, e1, e2] at h2
  unfold stableInvariant at h2
  norm_num at h2

/-- **C75 (purchases).** Whatever the solver answers for a purchase is not a price: with the answer taken as the change of
the other balance, in the direction the solver computed it, the pool has lost on both sides. -/
theorem C75_purchase_answer_loses {x y w yIn out : Nat} (h : solveDirect x y w yIn true = .ok out) :
    stableInvariant (val x - val out) (val y - val yIn) (val w) < stableInvariant (val x) (val y) (val w) := by
  obtain ⟨h1, h2, h3, h4⟩ := C75_solver_bounds_partial h
  have a1 : 0 < val yIn := by rw [← val_zero]; exact val_lt.2 h1
  have a2 := val_lt.2 h2
  have a3 := val_lt.2 h4
  have a4 := val_nonneg out
  have a5 := val_nonneg w
  unfold stableInvariant
  generalize val x = X at *
  generalize val y = Y at *
  generalize val w = W at *
  generalize val out = o at *
  generalize val yIn = i at *
  have b1 : 0 < X - o := by linarith
  have b2 : 0 < Y - i := by linarith
  have c1 : (X - o) * (Y - i) < X * Y := mul_lt_mul' (by linarith) (by linarith) b2.le (by linarith)
  have c2 : (X - o) ^ 2 + (Y - i) ^ 2 + W ≤ X ^ 2 + Y ^ 2 + W := by
    have d1 : (X - o) ^ 2 ≤ X ^ 2 := pow_le_pow_left₀ b1.le (by linarith) 2
    have d2 : (Y - i) ^ 2 ≤ Y ^ 2 := pow_le_pow_left₀ b2.le (by linarith) 2
    linarith
  exact mul_lt_mul c1 c2 (by positivity) (by nlinarith [mul_pos b1 b2])

/-- The hypothesis is met. -/
example : (solveDirect (ONE * 2) ONE 0 500000000000000000 true).toOption = some 132723506146276688 := by decide +kernel

/-- With three coins and a fee. -/
example : ((⟨[(⟨"a", 1000000⟩, 1000000), (⟨"b", 1000000⟩, 1000000), (⟨"c", 500000⟩, 1000000)]⟩ : StablePool).calcOut
    ⟨"a", 100000⟩ "b" 3000000000000000).toOption = some 651249451013953685000000 ∧
    ((⟨[(⟨"a", 1000000⟩, 1000000), (⟨"b", 1000000⟩, 500000), (⟨"c", 500000⟩, 1000000)]⟩ : StablePool).calcIn
    ⟨"b", 300000⟩ "a" 3000000000000000).toOption = some 479560020813389385000000 := by decide +kernel

/-- The value used for the third root of two is its fourth root: its fourth power is two, up to rounding, and its third
power is below 1.69. -/
theorem C75_third_root_of_two : val (dsqrt (dsqrt (ONE * 2))) ^ 4 ≤ 2 ∧ 2 - 1 / 10 ^ 17 ≤ val (dsqrt (dsqrt (ONE * 2))) ^ 4 ∧
    val (dsqrt (dsqrt (ONE * 2))) ^ 3 ≤ 169 / 100 := by
  have h : dsqrt (dsqrt (ONE * 2)) = 1189207115002721066 := by decide +kernel
  have e : val 1189207115002721066 = 1189207115002721066 / 10 ^ 18 := by unfold val ONE; norm_num
  rw [h, e]
  norm_num

/-- The value that the code takes for the third root. -/
example : dsqrt (dsqrt (ONE * 2)) = 1189207115002721066 := by decide +kernel

end Ibcx.Props
