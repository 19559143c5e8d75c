import Verif.Props.Fees
/-!
# C68: the streaming fee and how often it is collected
-/

namespace Ibcx.Props
open Ibcx Ibcx.Core Ibcx.Spec

/-- The full claim: collecting at `t1` and then at `t2` leaves the same basket as collecting once at `t2`. -/
def C68_full : Prop :=
  ∀ (s s1 s2 s' : State) (t1 t2 : Nat), Reachable s → collectStreamingFee s t1 = .ok s1 →
    collectStreamingFee s1 t2 = .ok s2 → collectStreamingFee s t2 = .ok s' → s2.indexUnits = s'.indexUnits

/-- The full claim is false: at `2·10^-8` per second, after 20 million seconds one collection takes 49% of the basket,
two collections (after 10 and 20 million seconds) take 39%. -/
theorem C68_full_false : ¬ C68_full := by
  intro h
  have e1 : (collectStreamingFee Demo.s1 10001000).toOption.isSome = true := by decide +kernel
  have e2 : ((collectStreamingFee Demo.s1 10001000).toOption.bind fun s =>
      (collectStreamingFee s 20001000).toOption.map (·.indexUnits)) =
      some [("uosmo", 909320503207081239), ("uatom", 151553417201180207)] := by decide +kernel
  have e3 : ((collectStreamingFee Demo.s1 20001000).toOption.map (·.indexUnits)) =
      some [("uosmo", 762262962489528756), ("uatom", 127043827081588126)] := by decide +kernel
  cases h1 : collectStreamingFee Demo.s1 10001000 with
  | error e => rw [h1] at e1; cases e1
  | ok s1 =>
    rw [h1] at e2
    cases h2 : collectStreamingFee s1 20001000 with
    | error e => simp [Except.toOption, h2] at e2
    | ok s2 =>
      cases h3 : collectStreamingFee Demo.s1 20001000 with
      | error e => rw [h3] at e3; simp [Except.toOption] at e3
      | ok s' =>
        have := h _ _ _ _ _ _ Demo.s1_reachable h1 h2 h3
        rw [h3] at e3
        simp [Except.toOption, h2] at e2 e3
        rw [e2, e3] at this
        exact absurd this (by decide)

/-- The unit left after one charge, in rationals. -/
theorem left_bounds {P u k : ℕ} (hP : 0 < P) (h : u * k / P ≤ u) :
    (u : ℚ) * (1 - (k : ℚ) / P) ≤ ((u - u * k / P : ℕ) : ℚ) ∧
    ((u - u * k / P : ℕ) : ℚ) < (u : ℚ) * (1 - (k : ℚ) / P) + 1 := by
  have hP' : (0 : ℚ) < P := by exact_mod_cast hP
  have h1 : P * (u * k / P) ≤ u * k := Nat.mul_div_le _ _
  have h2 : u * k < P * (u * k / P + 1) := by
    have := Nat.div_add_mod (u * k) P
    have := Nat.mod_lt (u * k) hP
    rw [Nat.mul_add]; omega
  rw [Nat.cast_sub h]
  have h1' : (P : ℚ) * ((u * k / P : ℕ) : ℚ) ≤ u * k := by exact_mod_cast h1
  have h2' : (u : ℚ) * k < P * (((u * k / P : ℕ) : ℚ) + 1) := by exact_mod_cast h2
  generalize ((u * k / P : ℕ) : ℚ) = q at *
  have e : (u : ℚ) * (1 - (k : ℚ) / P) = u - u * k / P := by ring
  have e1 : q ≤ u * k / P := by rw [le_div_iff₀ hP']; linarith
  have e2 : (u : ℚ) * k / P < q + 1 := by rw [div_lt_iff₀ hP']; linarith
  rw [e]
  constructor <;> linarith

/-- Growth factors: compounding twice, each time truncated, is at most the single power up to its rounding. -/
private theorem factor_bound {P r n1 n2 k1 k2 k : ℕ} (hP : 0 < P) (hn : n1 + n2 ≤ P)
    (h1 : (P + k1) * P ^ n1 ≤ (P + r) ^ n1 * P) (h2 : (P + k2) * P ^ n2 ≤ (P + r) ^ n2 * P)
    (h : (P + r) ^ (n1 + n2) * (P - (n1 + n2)) ≤ (P + k) * P ^ (n1 + n2)) :
    (1 + (k1 : ℚ) / P) * (1 + (k2 : ℚ) / P) * (1 - ((n1 + n2 : ℕ) : ℚ) / P) ≤ 1 + (k : ℚ) / P := by
  have hP' : (0 : ℚ) < P := by exact_mod_cast hP
  have f : ∀ m j : ℕ, (P + j) * P ^ m ≤ (P + r) ^ m * P → 1 + (j : ℚ) / P ≤ ((P + r : ℚ) / P) ^ m := by
    intro m j hj
    have hj' : ((P : ℚ) + j) * P ^ m ≤ (P + r) ^ m * P := by exact_mod_cast hj
    rw [div_pow, le_div_iff₀ (by positivity)]
    have e : (1 + (j : ℚ) / P) * P ^ m = ((P : ℚ) + j) * P ^ m / P := by field_simp
    rw [e, div_le_iff₀ hP']
    exact hj'
  have g1 := f _ _ h1
  have g2 := f _ _ h2
  have g : ((P + r : ℚ) / P) ^ (n1 + n2) * (1 - ((n1 + n2 : ℕ) : ℚ) / P) ≤ 1 + (k : ℚ) / P := by
    have h' : ((P : ℚ) + r) ^ (n1 + n2) * ((P : ℚ) - ((n1 + n2 : ℕ) : ℚ)) ≤ (P + k) * P ^ (n1 + n2) := by
      have : (((P + r) ^ (n1 + n2) * (P - (n1 + n2)) : ℕ) : ℚ) ≤ (((P + k) * P ^ (n1 + n2) : ℕ) : ℚ) := by
        exact_mod_cast h
      rw [Nat.cast_mul, Nat.cast_sub hn] at this
      push_cast at this ⊢
      exact this
    rw [div_pow]
    have e : ((P : ℚ) + r) ^ (n1 + n2) / P ^ (n1 + n2) * (1 - ((n1 + n2 : ℕ) : ℚ) / P) =
        ((P : ℚ) + r) ^ (n1 + n2) * ((P : ℚ) - ((n1 + n2 : ℕ) : ℚ)) / (P ^ (n1 + n2) * P) := by
      field_simp
    have e2 : 1 + (k : ℚ) / P = (P + k) * P ^ (n1 + n2) / (P ^ (n1 + n2) * P) := by field_simp
    rw [e, e2]
    gcongr
  have hnn : (0 : ℚ) ≤ 1 - ((n1 + n2 : ℕ) : ℚ) / P := by
    have : ((n1 + n2 : ℕ) : ℚ) / P ≤ 1 := by
      rw [div_le_one hP']; exact_mod_cast hn
    linarith
  refine le_trans ?_ g
  rw [pow_add]
  have p1 : (0 : ℚ) ≤ 1 + (k1 : ℚ) / P := by positivity
  have p2 : (0 : ℚ) ≤ 1 + (k2 : ℚ) / P := by positivity
  gcongr

/-- Arithmetic core: two charges leave no less than one. -/
private theorem split_charge {u a b c e once twice : ℚ} (hu : 0 ≤ u) (ha : 0 ≤ a) (hb : 0 ≤ b) (he : 0 ≤ e) (he1 : e ≤ 1)
    (hf : (1 + a) * (1 + b) * (1 - e) ≤ 1 + c) {u1 : ℚ} (hu1 : u * (1 - a) ≤ u1) (ht : u1 * (1 - b) ≤ twice)
    (ht0 : 0 ≤ twice) (ho : once < u * (1 - c) + 1) : once < twice + 1 + 4 * u * e := by
  have hue : 0 ≤ u * e := mul_nonneg hu he
  by_cases hG : (1 + a) * (1 + b) ≤ 4
  · have h1 : 2 - (1 + a) * (1 + b) + 4 * e ≥ 1 - c := by nlinarith
    have h2 : u * (1 - c) ≤ u * (2 - (1 + a) * (1 + b) + 4 * e) := mul_le_mul_of_nonneg_left h1 hu
    have h3 : u * (2 - (1 + a) * (1 + b)) ≤ twice := by
      by_cases hb1 : b ≤ 1
      · have : u * (1 - a) * (1 - b) ≤ u1 * (1 - b) := mul_le_mul_of_nonneg_right hu1 (by linarith)
        have h4 : u * (2 - (1 + a) * (1 + b)) ≤ u * (1 - a) * (1 - b) := by
          have : 0 ≤ u * (a * b) := by positivity
          nlinarith
        linarith
      · have : u * (2 - (1 + a) * (1 + b)) ≤ 0 := by
          apply mul_nonpos_of_nonneg_of_nonpos hu
          have : 0 ≤ a * b := by positivity
          nlinarith
        linarith
    nlinarith
  · have h1 : 1 - c ≤ 4 * e := by
      have : 4 * (1 - e) ≤ (1 + a) * (1 + b) * (1 - e) :=
        mul_le_mul_of_nonneg_right (by linarith) (by linarith)
      linarith
    have h2 : u * (1 - c) ≤ u * (4 * e) := mul_le_mul_of_nonneg_left h1 hu
    nlinarith

/-- One accrual of a running fee, with the factor of the elapsed seconds. -/
theorem accrual_factor {s s1 : State} {now : Nat} {sf : StreamingFee} (hn : s.indexUnits.denoms.Nodup)
    (h : collectStreamingFee s now = .ok s1) (hsf : s.fee.streamingFee = some sf) (hfz : sf.freeze = false)
    (hlt : now - sf.lastCollectedAt < 2 ^ 32) :
    sf.lastCollectedAt ≤ now ∧ s1.indexUnits.denoms.Nodup ∧
    (∃ sf1, s1.fee.streamingFee = some sf1 ∧ sf1.freeze = false ∧ sf1.rate = sf.rate ∧ sf1.lastCollectedAt = now) ∧
    ∃ k, (ONE + k) * ONE ^ (now - sf.lastCollectedAt) ≤ (ONE + sf.rate) ^ (now - sf.lastCollectedAt) * ONE ∧
      (ONE + sf.rate) ^ (now - sf.lastCollectedAt) * (ONE - (now - sf.lastCollectedAt)) ≤
        (ONE + k) * ONE ^ (now - sf.lastCollectedAt) ∧
      ∀ d u, s.indexUnits.lookup d = some u → u * k / ONE ≤ u ∧ s1.indexUnits.lookup d = some (u - u * k / ONE) := by
  have hle := accrual_le h sf hsf
  refine ⟨hle, ?_⟩
  by_cases he : sf.lastCollectedAt = now
  · have := accrual_noop h (fun sf' hsf' => by rw [hsf] at hsf'; cases hsf'; exact .inr he)
    subst this
    refine ⟨hn, ⟨sf, hsf, hfz, rfl, he⟩, 0, ?_⟩
    rw [he, Nat.sub_self]
    simp
  · obtain ⟨k, col, h1, h2, h3, h4, h5, _⟩ := accrual_spec hn h hsf hfz (by omega)
    rw [Nat.mod_eq_of_lt hlt] at h2 h3
    subst h5
    refine ⟨?_, ⟨_, rfl, hfz, rfl, rfl⟩, k, h2, h3, ?_⟩
    · simpa [Units.denoms, List.map_map, Function.comp_def] using hn
    · intro d u hu
      have hm := h4 (d, u) (Units.getKey_mem (lookup_eq s.indexUnits d ▸ hu))
      rw [part_eq] at hm
      refine ⟨hm, ?_⟩
      rw [lookup_eq] at hu ⊢
      simp only
      rw [getKey_map _ (fun u => u - part u k), hu]
      simp [part_eq]

/-- **C68, partial.** Collecting more often never costs the holders more: per index token, collecting at `t1` and again
at `t2` leaves each asset at least what a single collection at `t2` leaves, up to rounding (one `10^-18` and four parts
in `10^18` of the unit per elapsed second).  Missing: equality, which is false. -/
theorem C68_collecting_more_often_partial {s s1 s2 s' : State} {sf : StreamingFee} {t1 t2 : Nat} (hr : Reachable s)
    (hsf : s.fee.streamingFee = some sf) (hfz : sf.freeze = false) (hshort : t2 - sf.lastCollectedAt < 2 ^ 32)
    (h1 : collectStreamingFee s t1 = .ok s1) (h2 : collectStreamingFee s1 t2 = .ok s2)
    (h' : collectStreamingFee s t2 = .ok s') :
    ∀ d u, s.indexUnits.lookup d = some u → ∃ once twice, s'.indexUnits.lookup d = some once ∧
      s2.indexUnits.lookup d = some twice ∧
      10 ^ 18 * once < 10 ^ 18 * (twice + 1) + 4 * u * (t2 - sf.lastCollectedAt) := by
  intro d u hu
  have hO := ONE_pos
  have hle2 := accrual_le h' sf hsf
  by_cases ht : t2 < t1
  · exfalso
    have a1 := accrual_le h1 sf hsf
    by_cases he : sf.lastCollectedAt = t1
    · omega
    · obtain ⟨k, col, _, _, _, _, h5, _⟩ := accrual_spec hr.inv.nodup h1 hsf hfz (by omega)
      have := accrual_le h2 _ (by rw [h5])
      simp at this
      omega
  · obtain ⟨l1, n1, ⟨sf1, e1, e2, e3, e4⟩, k1, p1, q1, g1⟩ := accrual_factor hr.inv.nodup h1 hsf hfz (by omega)
    obtain ⟨l2, n2, _, k2, p2, q2, g2⟩ := accrual_factor n1 h2 e1 e2 (by omega)
    obtain ⟨_, _, _, k, p, q, g⟩ := accrual_factor hr.inv.nodup h' hsf hfz (by omega)
    rw [e3, e4] at p2
    obtain ⟨w1, w2⟩ := g1 d u hu
    obtain ⟨w3, w4⟩ := g2 d _ w2
    obtain ⟨w5, w6⟩ := g d u hu
    refine ⟨_, _, w6, w4, ?_⟩
    have hN : t2 - sf.lastCollectedAt = (t1 - sf.lastCollectedAt) + (t2 - t1) := by omega
    have hNO : t2 - sf.lastCollectedAt ≤ ONE := by
      have : (2 : Nat) ^ 32 ≤ ONE := by decide
      omega
    rw [hN] at q hNO ⊢
    have hfac := factor_bound hO hNO p1 p2 q
    generalize t1 - sf.lastCollectedAt + (t2 - t1) = N at *
    have e : (10 : Nat) ^ 18 = ONE := rfl
    rw [e]
    revert hfac w1 w3 w5 hNO hO
    generalize ONE = P
    intro hO w1 w3 w5 hNO hfac
    have hP : (0 : ℚ) < P := by exact_mod_cast hO
    have key := split_charge (u := u) (a := (k1 : ℚ) / P) (b := (k2 : ℚ) / P) (c := (k : ℚ) / P) (e := (N : ℚ) / P)
      (by positivity) (by positivity) (by positivity) (by positivity)
      (by rw [div_le_one hP]; exact_mod_cast hNO) hfac (left_bounds hO w1).1 (left_bounds hO w3).1
      (by positivity) (left_bounds hO w5).2
    generalize u - u * k1 / P = u1 at *
    generalize u1 - u1 * k2 / P = twice at *
    generalize u - u * k / P = once at *
    have : (P : ℚ) * once < P * (twice + 1) + 4 * u * N := by
      have h3 := mul_lt_mul_of_pos_left key hP
      have e : (P : ℚ) * (twice + 1 + 4 * u * (N / P)) = P * (twice + 1) + 4 * u * N := by field_simp
      rw [e] at h3
      exact h3
    exact_mod_cast this

/-- The hypotheses are met by the pair of collections above, and the difference is large. -/
example : Reachable Demo.s1 ∧ Demo.s1.fee.streamingFee = some ⟨20000000000, [], false, 1000⟩ ∧
    (do let s1 ← collectStreamingFee Demo.s1 10001000
        let s2 ← collectStreamingFee s1 20001000
        let s' ← collectStreamingFee Demo.s1 20001000
        .ok (s2.indexUnits.lookup "uosmo", s'.indexUnits.lookup "uosmo") : Res (Option Nat × Option Nat)) =
      .ok (some 909320503207081239, some 762262962489528756) :=
  ⟨Demo.s1_reachable, rfl, by decide +kernel⟩

end Ibcx.Props
