import Verif.Props.Dilution
/-!
# C116: what the worst governance can take by fees
-/

namespace Ibcx.Props
open Ibcx Ibcx.Core Ibcx.Spec

/-- The start of a rebalance. -/
def startsRebalance : ExecMsg → Prop
  | .rebalance (.init ..) => True
  | _ => False

/-- An accepted message other than a rebalance start: at most one accrual, and the fee that is then in force was last
collected now or as before. -/
theorem fee_step {s s' : State} {env : Env} {info : Info} {msg : ExecMsg} {ms : List Msg}
    (hq : ¬ startsRebalance msg) (hnr : s.rebalance = none) (h : execute s env info msg = .ok (s', ms)) :
    ∃ s1, (s1 = s ∨ collectStreamingFee s env.now = .ok s1) ∧ s'.indexUnits = s1.indexUnits ∧ s'.rebalance = none ∧
      ∀ sf', s'.fee.streamingFee = some sf' → sf'.lastCollectedAt = env.now ∨
        ∃ sf, s1.fee.streamingFee = some sf ∧ sf'.lastCollectedAt = sf.lastCollectedAt := by
  by_cases hc : changesTerms msg
  · cases msg with
    | gov m =>
      cases m with
      | updateFeeStrategy p =>
        obtain ⟨s1, h1, h2⟩ := execute_eq_ok.1 h
        rw [if_pos (by rfl)] at h1
        have hnr1 : s1.rebalance = none := by
          rcases collectStreamingFee_eq_ok.1 h1 with ⟨_, rfl⟩ | ⟨_, _, _, _, _, rfl⟩ <;> exact hnr
        obtain ⟨_, _, _, _, _, _, rfl, _⟩ := updateFee_eq_ok.1 h2
        refine ⟨s1, .inr h1, rfl, hnr1, fun sf' hsf' => .inl ?_⟩
        simp only [Option.map_eq_some_iff] at hsf'
        obtain ⟨_, _, rfl⟩ := hsf'
        rfl
      | _ => simp [changesTerms] at hc
    | rebalance m => cases m <;> simp [changesTerms, startsRebalance] at hc hq
    | _ => simp [changesTerms] at hc
  · obtain ⟨s1, h1, h2, h3, h4, h5⟩ := kept_step hc hnr h
    refine ⟨s1, h1, h2, h3, fun sf' hsf' => .inr ?_⟩
    cases hsf : s1.fee.streamingFee with
    | none => rw [h4 hsf] at hsf'; cases hsf'
    | some sf =>
      obtain ⟨col, h6⟩ := h5 sf hsf
      rw [h6] at hsf'
      cases hsf'
      exact ⟨sf, rfl, rfl⟩

/-- The factor of one accrual, at most that of the highest rate over the whole time. -/
private theorem highest_factor {P r R n N k : ℕ} (hP : 0 < P) (hr : r ≤ R) (hn : n ≤ N)
    (h : (P + k) * P ^ n ≤ (P + r) ^ n * P) : 1 + (k : ℚ) / P ≤ (((P : ℚ) + R) / P) ^ N := by
  have hP' : (0 : ℚ) < P := by exact_mod_cast hP
  have hj' : ((P : ℚ) + k) * P ^ n ≤ (P + r) ^ n * P := by exact_mod_cast h
  have h1 : 1 + (k : ℚ) / P ≤ (((P : ℚ) + r) / P) ^ n := by
    rw [div_pow, le_div_iff₀ (by positivity)]
    have e : (1 + (k : ℚ) / P) * P ^ n = ((P : ℚ) + k) * P ^ n / P := by field_simp
    rw [e, div_le_iff₀ hP']
    exact hj'
  have hrR : (r : ℚ) ≤ R := by exact_mod_cast hr
  have h2 : (((P : ℚ) + r) / P) ^ n ≤ (((P : ℚ) + R) / P) ^ n := by gcongr
  have h3 : (1 : ℚ) ≤ ((P : ℚ) + R) / P := by
    rw [le_div_iff₀ hP']
    have : (0 : ℚ) ≤ R := by positivity
    linarith
  exact h1.trans (h2.trans (pow_le_pow_right₀ h3 hn))

/-- The charges of a history compose to one factor, at most that of the highest rate. -/
private theorem worst {G : ℚ} (hG : G = ((ONE : ℚ) + MAX_STREAMING_FEE_RATE) / ONE) (t1 : ℕ) {cs : List Call} :
    ∀ {s : State} {t0 : ℕ}, Reachable s → s.rebalance = none → NoneAccepted startsRebalance s cs →
    (∀ sf, s.fee.streamingFee = some sf → t0 ≤ sf.lastCollectedAt) → t0 ≤ t1 →
    (∀ c ∈ cs, t0 ≤ c.env.now ∧ c.env.now ≤ t1) → cs.Pairwise (fun a b => a.env.now ≤ b.env.now) →
    ∃ F : ℚ, 1 ≤ F ∧ F ≤ G ^ (t1 - t0) ∧
      ∀ d u, s.indexUnits.lookup d = some u → ∃ u', (run s cs).1.indexUnits.lookup d = some u' ∧ u' ≤ u ∧
        (u : ℚ) * (2 - F) ≤ u' := by
  have hO := ONE_pos
  have hOq : (0 : ℚ) < (ONE : ℚ) := by exact_mod_cast hO
  have hG1 : 1 ≤ G := by
    rw [hG, le_div_iff₀ hOq]
    have : (0 : ℚ) ≤ (MAX_STREAMING_FEE_RATE : ℚ) := by positivity
    linarith
  induction cs with
  | nil =>
    intro s t0 hr hnr hq hl ht hc hp
    refine ⟨1, le_rfl, one_le_pow₀ hG1, fun d u hu => ⟨u, hu, le_rfl, ?_⟩⟩
    linarith
  | cons c cs ih =>
    intro s t0 hr hnr hq hl ht hc hp
    obtain ⟨hq1, hq2⟩ := hq
    obtain ⟨hc0, hc1⟩ := List.forall_mem_cons.1 hc
    obtain ⟨hp0, hp1⟩ := List.pairwise_cons.1 hp
    rw [run_cons]
    by_cases ha : accepted s c
    · obtain ⟨s2, ms, hx⟩ := ha
      have he := step_of_ok hx
      obtain ⟨s1, h1, h2, h3, h4⟩ := fee_step (fun h => hq1 h ⟨s2, ms, hx⟩) hnr hx
      rw [he] at hq2 ⊢
      -- without a charge
      have skip : s1 = s → ∃ F : ℚ, 1 ≤ F ∧ F ≤ G ^ (t1 - t0) ∧
          ∀ d u, s.indexUnits.lookup d = some u → ∃ u', (run s2 cs).1.indexUnits.lookup d = some u' ∧ u' ≤ u ∧
            (u : ℚ) * (2 - F) ≤ u' := by
        intro e
        subst e
        obtain ⟨F, f1, f2, g⟩ := ih (hr.execute hx) h3 hq2 (fun sf' hsf' => by
          rcases h4 sf' hsf' with h | ⟨sf, hsf, h⟩
          · rw [h]; exact hc0.1
          · rw [h]; exact hl sf hsf) ht hc1 hp1
        exact ⟨F, f1, f2, fun d u hu => g d u (by rw [h2]; exact hu)⟩
      rcases h1 with h1 | h1
      · exact skip h1
      · by_cases hz : ∀ sf, s.fee.streamingFee = some sf → sf.freeze = true ∨ sf.lastCollectedAt = c.env.now
        · exact skip (accrual_noop h1 hz)
        · simp only [not_forall, not_or] at hz
          obtain ⟨sf, hsf, hfz, hne⟩ := hz
          have hle := accrual_le h1 sf hsf
          obtain ⟨k, col, _, hk, _, hpart, rfl, _⟩ :=
            accrual_spec hr.inv.nodup h1 hsf (by simpa using hfz) (by omega)
          have hl0 := hl sf hsf
          obtain ⟨F, f1, f2, g⟩ := ih (t0 := c.env.now) (hr.execute hx) h3 hq2 (fun sf' hsf' => by
            rcases h4 sf' hsf' with h | ⟨sf1, hsf1, h⟩
            · rw [h]
            · simp only [Option.some.injEq] at hsf1
              rw [h, ← hsf1]) hc0.2 (fun x hx => ⟨hp0 x hx, (hc1 x hx).2⟩) hp1
          have hf := highest_factor (N := c.env.now - t0) hO (hr.inv.streamRate sf hsf).2
            (by have := Nat.mod_le (c.env.now - sf.lastCollectedAt) (2 ^ 32); omega) hk
          rw [← hG] at hf
          have hk0 : (0 : ℚ) ≤ (k : ℚ) / ONE := by positivity
          refine ⟨(1 + (k : ℚ) / ONE) * F, by nlinarith, ?_, ?_⟩
          · have hsplit : t1 - t0 = (c.env.now - t0) + (t1 - c.env.now) := by omega
            rw [hsplit, pow_add]
            exact mul_le_mul hf f2 (by linarith) (by positivity)
          · intro d u hu
            have hmem : (d, u) ∈ s.indexUnits := Units.getKey_mem (by rw [← lookup_eq]; exact hu)
            have hw := hpart _ hmem
            dsimp only at hw
            rw [part_eq] at hw
            have hu1 : s2.indexUnits.lookup d = some (u - u * k / ONE) := by
              rw [h2, lookup_eq]
              dsimp only
              simp only [part_eq]
              rw [getKey_map (f := fun x => x - x * k / ONE), ← lookup_eq, hu]
              rfl
            obtain ⟨u', v1, v2, v3⟩ := g d _ hu1
            obtain ⟨l1, l2⟩ := left_bounds hO hw
            refine ⟨u', v1, le_trans v2 (Nat.sub_le _ _), ?_⟩
            have hu0 : (0 : ℚ) ≤ u := by positivity
            have hv0 : (0 : ℚ) ≤ (u' : ℚ) := by positivity
            generalize (k : ℚ) / ONE = κ at *
            have e1 : (u : ℚ) * (2 - (1 + κ) * F) ≤ u * (1 - κ) * (2 - F) := by
              have : 0 ≤ (u : ℚ) * (κ * (F - 1)) := mul_nonneg hu0 (mul_nonneg hk0 (by linarith))
              nlinarith
            by_cases h : F ≤ 2
            · have := mul_le_mul_of_nonneg_right l1 (show 0 ≤ 2 - F by linarith)
              linarith
            · have : 2 - (1 + κ) * F ≤ 0 := by nlinarith
              have := mul_nonpos_of_nonneg_of_nonpos hu0 this
              linarith
    · rw [step_of_not_accepted ha] at hq2 ⊢
      exact ih hr hnr hq2 hl ht hc1 hp1

/-- **C116.** Take any reachable state without rebalance, whose streaming fee, if there is one, was last collected at
`t0` or later, and any messages from anyone - governance included, changing the fees as often as it likes - between
`t0` and `t1`, in the order of time, among which no rebalance start is accepted.  Then of an asset of which an index
token stood for `u`, it stands for `u'` with `u (2 - R^(t1-t0)) ≤ u' ≤ u`, where `R = 1.000000021979553`: the highest
fee the contract allows is the most that can be taken. -/
theorem C116_worst_fee {s : State} {cs : List Call} {t0 t1 : Nat} (hr : Reachable s) (hnr : s.rebalance = none)
    (hl : ∀ sf, s.fee.streamingFee = some sf → t0 ≤ sf.lastCollectedAt) (ht : t0 ≤ t1)
    (hq : NoneAccepted startsRebalance s cs) (hc : ∀ c ∈ cs, t0 ≤ c.env.now ∧ c.env.now ≤ t1)
    (hp : cs.Pairwise (fun a b => a.env.now ≤ b.env.now)) :
    ∀ d u, s.indexUnits.lookup d = some u → ∃ u', (run s cs).1.indexUnits.lookup d = some u' ∧ u' ≤ u ∧
      (u : ℚ) * (2 - (1 + 21979553000 / 10 ^ 18) ^ (t1 - t0)) ≤ u' := by
  obtain ⟨F, f1, f2, g⟩ := worst (G := ((ONE : ℚ) + MAX_STREAMING_FEE_RATE) / ONE) rfl t1 hr hnr hq hl ht hc hp
  have e : ((ONE : ℚ) + MAX_STREAMING_FEE_RATE) / ONE = 1 + 21979553000 / 10 ^ 18 := by
    rw [ONE_eq, MAX_STREAMING_FEE_RATE]; norm_num
  rw [e] at f2
  intro d u hu
  obtain ⟨u', w1, w2, w3⟩ := g d u hu
  refine ⟨u', w1, w2, le_trans ?_ w3⟩
  apply mul_le_mul_of_nonneg_left _ (by positivity)
  linarith

/-- Governance raises the fee to the highest rate, then the collector and alice accrue it. -/
def worstCalls : List Call :=
  [⟨Demo.env 2000, ⟨"gov", []⟩, .gov (.updateFeeStrategy ⟨"collector", none, none, some ⟨21979553000, false⟩⟩)⟩,
   ⟨Demo.env 1000000, ⟨"collector", []⟩, .realize⟩,
   ⟨Demo.env 2593000, ⟨"alice", [⟨"factory/core/ibcx", 100⟩]⟩, .burn none⟩]

/-- The hypotheses are met by `worstCalls`: of 1.5 uosmo 1.414 are left after thirty days. -/
example : Reachable Demo.s1 ∧ Demo.s1.rebalance = none ∧ Demo.s1.fee.streamingFee.map (·.lastCollectedAt) = some 1000 ∧
    NoneAccepted startsRebalance Demo.s1 worstCalls ∧
    (∀ c ∈ worstCalls, 1000 ≤ c.env.now ∧ c.env.now ≤ 1000 + 30 * 24 * 60 * 60) ∧
    worstCalls.Pairwise (fun a b => a.env.now ≤ b.env.now) ∧
    (run Demo.s1 worstCalls).1.fee.streamingFee.map (·.lastCollectedAt) = some 2593000 ∧
    (run Demo.s1 worstCalls).1.indexUnits.lookup "uosmo" = some 1414439787529727651 :=
  ⟨Demo.s1_reachable, rfl, rfl, noneAccepted_of_forall (by simp [worstCalls, startsRebalance]),
    by simp [worstCalls, Demo.env], by simp [worstCalls, Demo.env], by decide +kernel, by decide +kernel⟩

/-- An upper bound of the exact power from the truncated one. -/
private theorem power_le {r n p a b : ℕ} (h : checkedPow (ONE + r) n = .ok p) (hb : 0 < b) (hn : n < ONE)
    (hab : b * p ≤ a * (ONE - n)) : (1 + (r : ℚ) / ONE) ^ n ≤ (a : ℚ) / b := by
  have h2 := checkedPow_accurate (Nat.le_add_right ONE r) h
  have hO := ONE_pos
  generalize ONE = o at *
  have h3 : b * (o + r) ^ n ≤ a * o ^ n := by
    apply Nat.le_of_mul_le_mul_right (c := o - n) _ (by omega)
    calc b * (o + r) ^ n * (o - n) = b * ((o + r) ^ n * (o - n)) := by ring
      _ ≤ b * (p * o ^ n) := Nat.mul_le_mul_left _ h2
      _ = b * p * o ^ n := by ring
      _ ≤ a * (o - n) * o ^ n := Nat.mul_le_mul_right _ hab
      _ = a * o ^ n * (o - n) := by ring
  have ho : (0 : ℚ) < o := by exact_mod_cast hO
  have hb' : (0 : ℚ) < b := by exact_mod_cast hb
  have h4 : (b : ℚ) * ((o : ℚ) + r) ^ n ≤ a * o ^ n := by exact_mod_cast h3
  have e : 1 + (r : ℚ) / o = ((o : ℚ) + r) / o := by field_simp
  rw [e, div_pow, div_le_div_iff₀ (by positivity) hb']
  linarith

/-- The factor of thirty days at the highest rate. -/
private theorem month_factor : (1 + 21979553000 / 10 ^ 18 : ℚ) ^ 2592000 ≤ 1059 / 1000 := by
  have h := power_le (r := 21979553000) (n := 2592000) (p := 1058625110615207611) (a := 1059) (b := 1000)
    (by decide +kernel) (by decide) (by decide) (by decide)
  have e : ((ONE : ℕ) : ℚ) = 10 ^ 18 := by rw [ONE_eq]; norm_num
  rw [e] at h
  exact_mod_cast h

/-- **C116 (thirty days).** In thirty days, without a rebalance, at least 94.1% of every unit are left, whatever
governance does. -/
theorem C116_thirty_days {s : State} {cs : List Call} {t0 : Nat} (hr : Reachable s) (hnr : s.rebalance = none)
    (hl : ∀ sf, s.fee.streamingFee = some sf → t0 ≤ sf.lastCollectedAt)
    (hq : NoneAccepted startsRebalance s cs)
    (hc : ∀ c ∈ cs, t0 ≤ c.env.now ∧ c.env.now ≤ t0 + 30 * 24 * 60 * 60)
    (hp : cs.Pairwise (fun a b => a.env.now ≤ b.env.now)) :
    ∀ d u, s.indexUnits.lookup d = some u →
      ∃ u', (run s cs).1.indexUnits.lookup d = some u' ∧ 941 * u ≤ 1000 * u' := by
  intro d u hu
  obtain ⟨u', h1, _, h2⟩ := C116_worst_fee hr hnr hl (Nat.le_add_right _ _) hq hc hp d u hu
  refine ⟨u', h1, ?_⟩
  have hm := month_factor
  rw [Nat.add_sub_cancel_left, show 30 * 24 * 60 * 60 = 2592000 from rfl] at h2
  generalize (1 + 21979553000 / 10 ^ 18 : ℚ) ^ 2592000 = x at h2 hm
  have hu0 : (0 : ℚ) ≤ u := by positivity
  have : (941 * u : ℚ) ≤ 1000 * u' := by nlinarith
  exact_mod_cast this

/-- The last message of `worstCalls` is on the thirtieth day. -/
example : 2593000 = 1000 + 30 * 24 * 60 * 60 ∧ 941 * 1500000000000000000 ≤ 1000 * 1414439787529727651 := by decide

end Ibcx.Props
