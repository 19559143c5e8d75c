import Verif.Props.FeePath
/-!
# C89: only the streaming fee changes what an index token stands for
-/

namespace Ibcx.Props
open Ibcx Ibcx.Core Ibcx.Spec

/-- The messages set apart: the start of a rebalance and a change of the fees. -/
def changesTerms : ExecMsg → Prop
  | .rebalance (.init ..) => True
  | .gov (.updateFeeStrategy ..) => True
  | _ => False

/-- An accepted message of the other kinds, without rebalance: at most one accrual, nothing else. -/
theorem kept_step {s s' : State} {env : Env} {info : Info} {msg : ExecMsg} {ms : List Msg}
    (hq : ¬ changesTerms msg) (hnr : s.rebalance = none) (h : execute s env info msg = .ok (s', ms)) :
    ∃ s1, (s1 = s ∨ collectStreamingFee s env.now = .ok s1) ∧ s'.indexUnits = s1.indexUnits ∧ s'.rebalance = none ∧
      (s1.fee.streamingFee = none → s'.fee.streamingFee = none) ∧
      ∀ sf, s1.fee.streamingFee = some sf → ∃ col, s'.fee.streamingFee = some { sf with collected := col } := by
  by_cases hc : collectsFirst msg = true
  · obtain ⟨s1, h1, h2⟩ := execute_eq_ok.1 h
    rw [if_pos hc] at h1
    refine ⟨s1, .inr h1, ?_⟩
    have hnr1 : s1.rebalance = none := by
      rcases collectStreamingFee_eq_ok.1 h1 with ⟨_, rfl⟩ | ⟨_, _, _, _, _, rfl⟩ <;> exact hnr
    cases msg with
    | mint a r f =>
      obtain ⟨_, _, _, _, _, _, _, rfl, _⟩ := mint_eq_ok.1 h2
      exact ⟨rfl, hnr1, id, fun sf hsf => ⟨sf.collected, hsf⟩⟩
    | burn r =>
      obtain ⟨_, _, _, _, _, _, _, _, _, _, _, _, _, _, rfl, _⟩ := burn_eq_ok.1 h2
      exact ⟨rfl, hnr1, id, fun sf hsf => ⟨sf.collected, hsf⟩⟩
    | realize =>
      obtain ⟨_, ⟨h3, rfl, _⟩ | ⟨sf, h3, rfl, _⟩⟩ := realize_eq_ok.1 h2
      · exact ⟨rfl, hnr1, id, fun sf hsf => ⟨sf.collected, hsf⟩⟩
      · refine ⟨rfl, hnr1, fun hn => (by rw [hn] at h3; cases h3), fun sf' hsf => ⟨[], ?_⟩⟩
        rw [h3] at hsf
        cases hsf
        rfl
    | gov m => cases m <;> simp [collectsFirst, changesTerms] at hc hq
    | rebalance m => cases m <;> simp [collectsFirst, changesTerms] at hc hq
  · obtain ⟨h1, h2, h3, _⟩ := quiet_step (by simpa using hc) hnr h
    exact ⟨s, .inl rfl, h2, h3, by rw [h1]; exact id, fun sf hsf => ⟨sf.collected, by rw [h1]; exact hsf⟩⟩

/-- **C89 (no fee).** Without a streaming fee no history of messages, other than rebalance starts and fee changes,
alters the units. -/
theorem C89_no_fee_no_change {s : State} (hnr : s.rebalance = none) (hsf : s.fee.streamingFee = none) {cs : List Call}
    (hr : Reachable s) (hq : NoneAccepted changesTerms s cs) : (run s cs).1.indexUnits = s.indexUnits := by
  have := run_induct (T := fun _ => True)
    (I := fun x => x.indexUnits = s.indexUnits ∧ x.rebalance = none ∧ x.fee.streamingFee = none)
    (fun x x' c ms _ hi _ hq hx => by
      obtain ⟨s1, h1, h2, h3, h4, _⟩ := kept_step hq hi.2.1 hx
      have : s1 = x := by
        rcases h1 with h1 | h1
        · exact h1
        · exact accrual_noop h1 (fun sf h => by rw [hi.2.2] at h; cases h)
      subst this
      exact ⟨by rw [h2]; exact hi.1, h3, h4 hi.2.2⟩)
    hr ⟨rfl, hnr, hsf⟩ (fun _ _ => trivial) hq
  exact this.1

/-- The example contract without a streaming fee; alice mints. -/
example : Reachable { Demo.s0 with fee := { Demo.s0.fee with streamingFee := none } } ∧
    NoneAccepted changesTerms { Demo.s0 with fee := { Demo.s0.fee with streamingFee := none } }
      [⟨Demo.env 1000, Demo.mintInfo, .mint 10000 none none⟩] ∧
    (run { Demo.s0 with fee := { Demo.s0.fee with streamingFee := none } }
      [⟨Demo.env 1000, Demo.mintInfo, .mint 10000 none none⟩]).1.totalSupply = 10000 :=
  ⟨⟨_, [], ⟨Demo.env 1000, { Demo.inst with fee := { Demo.inst.fee with streamingFee := none } }, _, _,
    "factory/core/ibcx", [], rfl, rfl⟩, rfl⟩, noneAccepted_of_forall (by simp [changesTerms]), by decide +kernel⟩

/-- Growth factor of one accrual in rationals. -/
private theorem factor_rat {P r n k : ℕ} (hP : 0 < P) (hn : n ≤ P)
    (h1 : (P + k) * P ^ n ≤ (P + r) ^ n * P) (h2 : (P + r) ^ n * (P - n) ≤ (P + k) * P ^ n) :
    (((P : ℚ) + r) / P) ^ n * (1 - (n : ℚ) / P) ≤ 1 + (k : ℚ) / P ∧ 1 + (k : ℚ) / P ≤ (((P : ℚ) + r) / P) ^ n := by
  have hP' : (0 : ℚ) < P := by exact_mod_cast hP
  constructor
  · have h' : ((P : ℚ) + r) ^ n * ((P : ℚ) - n) ≤ (P + k) * P ^ n := by
      have : (((P + r) ^ n * (P - n) : ℕ) : ℚ) ≤ (((P + k) * P ^ n : ℕ) : ℚ) := by exact_mod_cast h2
      rw [Nat.cast_mul, Nat.cast_sub hn] at this
      push_cast at this ⊢
      exact this
    rw [div_pow]
    have e : ((P : ℚ) + r) ^ n / P ^ n * (1 - (n : ℚ) / P) = ((P : ℚ) + r) ^ n * ((P : ℚ) - n) / (P ^ n * P) := by
      field_simp
    have e2 : 1 + (k : ℚ) / P = (P + k) * P ^ n / (P ^ n * P) := by field_simp
    rw [e, e2]
    gcongr
  · have hj' : ((P : ℚ) + k) * P ^ n ≤ (P + r) ^ n * P := by exact_mod_cast h1
    rw [div_pow, le_div_iff₀ (by positivity)]
    have e : (1 + (k : ℚ) / P) * P ^ n = ((P : ℚ) + k) * P ^ n / P := by field_simp
    rw [e, div_le_iff₀ hP']
    exact hj'

/-- Arithmetic of one accrual followed by charges with total factor `F`. -/
theorem compose {u u1 u' F k m : ℚ} (hu : 0 ≤ u) (hu' : 0 ≤ u') (hk : 0 ≤ k) (hF : 1 ≤ F)
    (a1 : u * (1 - k) ≤ u1) (a2 : u1 ≤ u * (1 - k) + 1) (b1 : u1 * (2 - F) ≤ u') (b2 : (u' - m) * F ≤ u1) :
    u * (2 - (1 + k) * F) ≤ u' ∧ (u' - (m + 1)) * ((1 + k) * F) ≤ u := by
  constructor
  · have h1 : u * (2 - (1 + k) * F) ≤ u * (1 - k) * (2 - F) := by
      have : 0 ≤ u * (k * (F - 1)) := by
        apply mul_nonneg hu (mul_nonneg hk (by linarith))
      nlinarith
    by_cases h : F ≤ 2
    · have := mul_le_mul_of_nonneg_right a1 (show 0 ≤ 2 - F by linarith)
      linarith
    · have : 2 - (1 + k) * F ≤ 0 := by nlinarith
      have := mul_nonpos_of_nonneg_of_nonpos hu this
      linarith
  · have h1 : (u' - m) * F * (1 + k) ≤ u1 * (1 + k) := mul_le_mul_of_nonneg_right b2 (by linarith)
    have h2 : u1 * (1 + k) ≤ (u * (1 - k) + 1) * (1 + k) := mul_le_mul_of_nonneg_right a2 (by linarith)
    have h3 : 0 ≤ u * (k * k) := by positivity
    have h4 : 0 ≤ (F - 1) * (1 + k) := mul_nonneg (by linarith) (by linarith)
    nlinarith

/-- The core of C89: the charges of a history compose to one factor. -/
private theorem history {cs : List Call} : ∀ {s : State} {sf sf' : StreamingFee}, Reachable s → s.rebalance = none →
    s.fee.streamingFee = some sf → sf.freeze = false → NoneAccepted changesTerms s cs →
    (run s cs).1.fee.streamingFee = some sf' → sf'.lastCollectedAt - sf.lastCollectedAt < 2 ^ 32 →
    sf.lastCollectedAt ≤ sf'.lastCollectedAt ∧
    ∃ F : ℚ, 1 ≤ F ∧ F ≤ (((ONE : ℚ) + sf.rate) / ONE) ^ (sf'.lastCollectedAt - sf.lastCollectedAt) ∧
      (((ONE : ℚ) + sf.rate) / ONE) ^ (sf'.lastCollectedAt - sf.lastCollectedAt) *
        (1 - ((sf'.lastCollectedAt - sf.lastCollectedAt : ℕ) : ℚ) / ONE) ≤ F ∧
      ∀ d u, s.indexUnits.lookup d = some u → ∃ u', (run s cs).1.indexUnits.lookup d = some u' ∧ u' ≤ u ∧
        (u : ℚ) * (2 - F) ≤ u' ∧ ((u' : ℚ) - cs.length) * F ≤ u := by
  have hO := ONE_pos
  have hOq : (0 : ℚ) < (ONE : ℚ) := by exact_mod_cast hO
  induction cs with
  | nil =>
    intro s sf sf' hr hnr hsf hfz hq hsf' hlt
    simp only [run] at hsf' ⊢
    rw [hsf] at hsf'
    cases hsf'
    refine ⟨le_rfl, 1, le_rfl, by simp, by simp, fun d u hu => ⟨u, hu, le_rfl, ?_, ?_⟩⟩
    · linarith
    · simp
  | cons c cs ih =>
    intro s sf sf' hr hnr hsf hfz hq hsf' hlt
    rw [run_cons] at hsf' ⊢
    obtain ⟨hq1, hq2⟩ := hq
    -- a step without accrual
    have skip : ∀ x : State, (step s c).1 = x → x.indexUnits = s.indexUnits → x.rebalance = none → Reachable x →
        (∃ col, x.fee.streamingFee = some { sf with collected := col }) →
        sf.lastCollectedAt ≤ sf'.lastCollectedAt ∧
        ∃ F : ℚ, 1 ≤ F ∧ F ≤ (((ONE : ℚ) + sf.rate) / ONE) ^ (sf'.lastCollectedAt - sf.lastCollectedAt) ∧
          (((ONE : ℚ) + sf.rate) / ONE) ^ (sf'.lastCollectedAt - sf.lastCollectedAt) *
            (1 - ((sf'.lastCollectedAt - sf.lastCollectedAt : ℕ) : ℚ) / ONE) ≤ F ∧
          ∀ d u, s.indexUnits.lookup d = some u → ∃ u', (run (step s c).1 cs).1.indexUnits.lookup d = some u' ∧ u' ≤ u ∧
            (u : ℚ) * (2 - F) ≤ u' ∧ ((u' : ℚ) - (c :: cs).length) * F ≤ u := by
      intro x hx h1 h2 h3 ⟨col, h4⟩
      rw [hx] at hsf' hq2 ⊢
      obtain ⟨g1, F, f1, f2, f3, g⟩ := ih h3 h2 h4 hfz hq2 hsf' hlt
      refine ⟨g1, F, f1, f2, f3, fun d u hu => ?_⟩
      obtain ⟨u', w1, w2, w3, w4⟩ := g d u (by rw [h1]; exact hu)
      refine ⟨u', w1, w2, w3, le_trans ?_ w4⟩
      apply mul_le_mul_of_nonneg_right _ (by linarith)
      simp only [List.length_cons, Nat.cast_add, Nat.cast_one]
      linarith
    by_cases ha : accepted s c
    · obtain ⟨s2, ms, hx⟩ := ha
      have he := step_of_ok hx
      obtain ⟨s1, h1, h2, h3, h4, h5⟩ := kept_step (fun h => hq1 h ⟨s2, ms, hx⟩) hnr hx
      rcases h1 with rfl | h1
      · exact skip s2 (by rw [he]) h2 h3 (hr.execute hx) (h5 sf hsf)
      · rw [he] at hsf' hq2 ⊢
        have hle := accrual_le h1 sf hsf
        -- the accrual, first without the bound on the elapsed time
        obtain ⟨col, hcol⟩ : ∃ col, s2.fee.streamingFee = some
            { sf with collected := col, lastCollectedAt := c.env.now } := by
          by_cases hz : sf.lastCollectedAt = c.env.now
          · have := accrual_noop h1 (fun sf0 h0 => by rw [hsf] at h0; cases h0; exact .inr hz)
            subst this
            obtain ⟨col, h⟩ := h5 sf hsf
            exact ⟨col, by rw [h, ← hz]⟩
          · obtain ⟨k, col, _, _, _, _, h6, _⟩ := accrual_spec hr.inv.nodup h1 hsf hfz (by omega)
            obtain ⟨col', h⟩ := h5 { sf with collected := col, lastCollectedAt := c.env.now } (by rw [h6])
            exact ⟨col', h⟩
        obtain ⟨g1, F, f1, f2, f3, g⟩ := ih (hr.execute hx) h3 hcol hfz hq2 hsf' (by dsimp only; omega)
        dsimp only at g1 f2 f3
        obtain ⟨_, _, _, k, p, q, w⟩ := accrual_factor hr.inv.nodup h1 hsf hfz (by omega)
        have hb : (2 : ℕ) ^ 32 ≤ ONE := by decide
        obtain ⟨e1, e2⟩ := factor_rat hO (by omega) p q
        have hk : (0 : ℚ) ≤ (k : ℚ) / ONE := by positivity
        have hsplit : sf'.lastCollectedAt - sf.lastCollectedAt =
            (c.env.now - sf.lastCollectedAt) + (sf'.lastCollectedAt - c.env.now) := by omega
        have hNO : (c.env.now - sf.lastCollectedAt) + (sf'.lastCollectedAt - c.env.now) ≤ ONE := by omega
        refine ⟨by omega, (1 + (k : ℚ) / ONE) * F, ?_, ?_, ?_, ?_⟩
        · nlinarith
        · rw [hsplit, pow_add]
          exact mul_le_mul e2 f2 (by linarith) (by positivity)
        · rw [hsplit, pow_add]
          generalize hn1 : c.env.now - sf.lastCollectedAt = n1 at *
          generalize hn2 : sf'.lastCollectedAt - c.env.now = n2 at *
          have hg1 : (0 : ℚ) ≤ (((ONE : ℚ) + sf.rate) / ONE) ^ n1 := by positivity
          have hg2 : (0 : ℚ) ≤ (((ONE : ℚ) + sf.rate) / ONE) ^ n2 := by positivity
          have hn2' : (n2 : ℚ) / ONE ≤ 1 := by
            rw [div_le_one hOq]
            exact_mod_cast (by omega : n2 ≤ ONE)
          have step := mul_le_mul e1 f3 (mul_nonneg hg2 (by linarith)) (by linarith)
          refine le_trans ?_ step
          have hx1 : (0 : ℚ) ≤ (n1 : ℚ) / ONE := by positivity
          have hx2 : (0 : ℚ) ≤ (n2 : ℚ) / ONE := by positivity
          have hcast : ((n1 + n2 : ℕ) : ℚ) / ONE = (n1 : ℚ) / ONE + (n2 : ℚ) / ONE := by
            rw [Nat.cast_add, add_div]
          rw [hcast]
          generalize (((ONE : ℚ) + sf.rate) / ONE) ^ n1 = a at *
          generalize (((ONE : ℚ) + sf.rate) / ONE) ^ n2 = b at *
          generalize (n1 : ℚ) / ONE = x at *
          generalize (n2 : ℚ) / ONE = y at *
          have : 0 ≤ a * b * (x * y) := by positivity
          nlinarith
        · intro d u hu
          obtain ⟨w1, w2⟩ := w d u hu
          obtain ⟨u', v1, v2, v3, v4⟩ := g d _ (by rw [h2]; exact w2)
          obtain ⟨l1, l2⟩ := left_bounds hO w1
          refine ⟨u', v1, le_trans v2 (Nat.sub_le _ _), ?_⟩
          have := compose (m := (cs.length : ℚ)) (by positivity) (by positivity) hk f1 l1 l2.le v3 v4
          simp only [List.length_cons, Nat.cast_add, Nat.cast_one]
          exact this
    · rw [step_of_not_accepted ha] at skip ⊢
      exact skip s rfl rfl hnr hr ⟨sf.collected, hsf⟩

/-- **C89.** Take any reachable state without rebalance whose streaming fee has rate `r` per second, and any history of
messages from anyone in which no rebalance start and no fee change is accepted.  If the fee was last collected at `t`
before and at `t'` after the history, `N = t' - t` seconds (less than 136 years) apart, then an asset of which an index
token stood for `u` stands for `u'` with `u (2 - (1+r)^N) ≤ u' ≤ u` and `u' ≤ u / ((1+r)^N (1 - N·10^-18)) + m` where
`m` is the number of messages (both in units of `10^-18`): no holder, minter or redeemer, and no frequency of calls, can
take more, and the fee cannot be avoided. -/
theorem C89_dilution_is_the_fee {s : State} {cs : List Call} {sf sf' : StreamingFee} (hr : Reachable s)
    (hnr : s.rebalance = none) (hsf : s.fee.streamingFee = some sf) (hfz : sf.freeze = false)
    (hq : NoneAccepted changesTerms s cs) (hsf' : (run s cs).1.fee.streamingFee = some sf')
    (hlt : sf'.lastCollectedAt - sf.lastCollectedAt < 2 ^ 32) :
    ∀ d u, s.indexUnits.lookup d = some u → ∃ u', (run s cs).1.indexUnits.lookup d = some u' ∧ u' ≤ u ∧
      (u : ℚ) * (2 - (1 + (sf.rate : ℚ) / 10 ^ 18) ^ (sf'.lastCollectedAt - sf.lastCollectedAt)) ≤ u' ∧
      ((u' : ℚ) - cs.length) * ((1 + (sf.rate : ℚ) / 10 ^ 18) ^ (sf'.lastCollectedAt - sf.lastCollectedAt) *
        (1 - ((sf'.lastCollectedAt - sf.lastCollectedAt : ℕ) : ℚ) / 10 ^ 18)) ≤ u := by
  obtain ⟨hle, F, f1, f2, f3, g⟩ := history hr hnr hsf hfz hq hsf' hlt
  have hO := ONE_pos
  have hb : (2 : ℕ) ^ 32 ≤ ONE := by decide
  have e : ((10 : ℚ) ^ 18) = (ONE : ℚ) := by
    rw [ONE_eq]; norm_num
  rw [e]
  generalize ONE = P at *
  have hP : (0 : ℚ) < P := by exact_mod_cast hO
  have e2 : 1 + (sf.rate : ℚ) / P = ((P : ℚ) + sf.rate) / P := by field_simp
  rw [e2]
  intro d u hu
  obtain ⟨u', w1, w2, w3, w4⟩ := g d u hu
  refine ⟨u', w1, w2, le_trans ?_ w3, ?_⟩
  · apply mul_le_mul_of_nonneg_left _ (by positivity)
    linarith
  · by_cases h : (0 : ℚ) ≤ (u' : ℚ) - cs.length
    · exact le_trans (mul_le_mul_of_nonneg_left f3 h) w4
    · have h0 : (0 : ℚ) ≤ (((P : ℚ) + sf.rate) / P) ^ (sf'.lastCollectedAt - sf.lastCollectedAt) *
          (1 - ((sf'.lastCollectedAt - sf.lastCollectedAt : ℕ) : ℚ) / P) := by
        apply mul_nonneg (by positivity)
        have : ((sf'.lastCollectedAt - sf.lastCollectedAt : ℕ) : ℚ) / P ≤ 1 := by
          rw [div_le_one hP]
          exact_mod_cast (by omega : sf'.lastCollectedAt - sf.lastCollectedAt ≤ P)
        linarith
      have : ((u' : ℚ) - cs.length) * ((((P : ℚ) + sf.rate) / P) ^ (sf'.lastCollectedAt - sf.lastCollectedAt) *
          (1 - ((sf'.lastCollectedAt - sf.lastCollectedAt : ℕ) : ℚ) / P)) ≤ 0 :=
        mul_nonpos_of_nonpos_of_nonneg (by linarith) h0
      have : (0 : ℚ) ≤ u := by positivity
      linarith

/-- Three messages over a year: a burn, a realization of the fee and a burn. -/
def yearCalls : List Call :=
  [⟨Demo.env 10001000, ⟨"alice", [⟨"factory/core/ibcx", 100⟩]⟩, .burn none⟩,
   ⟨Demo.env 20001000, ⟨"collector", []⟩, .realize⟩,
   ⟨Demo.env 31537000, ⟨"alice", [⟨"factory/core/ibcx", 100⟩]⟩, .burn none⟩]

/-- The hypotheses are met by `yearCalls`: at `2·10^-8` per second 1.5 uosmo become 0.673 in a
year, between `1.5 (2 - 1.879) = 0.18` and `1.5 / 1.879 = 0.80`. -/
example : Reachable Demo.s1 ∧ NoneAccepted changesTerms Demo.s1 yearCalls ∧
    (run Demo.s1 yearCalls).1.fee.streamingFee.map (·.lastCollectedAt) = some 31537000 ∧
    (run Demo.s1 yearCalls).1.indexUnits = [("uosmo", 673345899001239469), ("uatom", 112224316500206579)] :=
  ⟨Demo.s1_reachable, noneAccepted_of_forall (by simp [yearCalls, changesTerms]), by decide +kernel, by decide +kernel⟩

/-- A contract without streaming fee. -/
example : Fresh { Demo.s0 with fee := { Demo.s0.fee with streamingFee := none } } :=
  ⟨Demo.env 1000, { Demo.inst with fee := { Demo.inst.fee with streamingFee := none } }, _, _, "factory/core/ibcx", [], rfl, rfl⟩

end Ibcx.Props
