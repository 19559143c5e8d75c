import Verif.Core.ErrorLemmas
import Verif.Props.Sim
import Verif.Props.ZapAccept
/-!
# C120: exactly when the queries of the core contract answer, what they answer, and why they refuse
-/

namespace Ibcx.Props
open Ibcx Ibcx.Core Ibcx.Spec

/-- The time a query is about: the one asked for, or else the block time. -/
def askedTime (env : Env) (time : Option Nat) : Nat := time.getD env.now

/-- The streaming fee cannot be charged up to time `t`. -/
def CannotAccrue (s : State) (t : Nat) : Prop := ∀ s1, collectStreamingFee s t ≠ .ok s1

/-- Some coin of the basket of `n` index tokens does not fit 128 bits. -/
def TooBig (us : Units) (n : Nat) : Prop := ∃ e ∈ us, 2 ^ 128 ≤ part e.2 n

/-! ### Fee and portfolio -/

/-- **C120 (fee).** The query for the fee answers exactly when the streaming fee can be charged up to the time asked for, and
answers the fee as it is then; it refuses only with an overflow. -/
theorem C120_fee {s : State} {env : Env} {time : Option Nat} :
    (∀ f, getFee s env time = .ok f ↔ ∃ s1, collectStreamingFee s (askedTime env time) = .ok s1 ∧ f = s1.fee) ∧
    (∀ e, getFee s env time = .error e → e = .overflow ∧ CannotAccrue s (askedTime env time)) := by
  have h1 : ∀ f, getFee s env time = .ok f ↔ ∃ s1, collectStreamingFee s (askedTime env time) = .ok s1 ∧ f = s1.fee := by
    intro f
    unfold getFee collectStreamingFee askedTime
    cases s.fee.streamingFee with
    | none => simp; exact eq_comm
    | some sf =>
      simp only [bind_eq_ok, Except.ok.injEq, Prod.exists]
      constructor
      · rintro ⟨sf', us, h, rfl⟩; exact ⟨_, ⟨sf', us, h, rfl⟩, rfl⟩
      · rintro ⟨_, ⟨sf', us, h, rfl⟩, rfl⟩; exact ⟨sf', us, h, rfl⟩
  refine ⟨h1, fun e h => ⟨?_, ?_⟩⟩
  · cases hc : collectStreamingFee s (askedTime env time) with
    | ok s1 => rw [(h1 s1.fee).2 ⟨s1, hc, rfl⟩] at h; cases h
    | error e' =>
      have he := collect_error hc
      unfold getFee at h
      unfold collectStreamingFee askedTime at hc
      cases hs : s.fee.streamingFee with
      | none => rw [hs] at h; cases h
      | some sf =>
        rw [hs] at h hc
        simp only [bind_eq_error] at h hc
        rcases h with h | ⟨_, _, h⟩
        · rcases hc with hc | ⟨_, _, hc⟩
          · rw [h] at hc; cases hc; exact he
          · cases hc
        · cases h
  · intro s1 hc
    rw [(h1 s1.fee).2 ⟨s1, hc, rfl⟩] at h
    cases h

/-- A case: asked for the block time of the creation nothing has been charged yet, 100 seconds later the fee of the second coin has. -/
example : getFee Demo.s1 (Demo.env 1000) none = .ok Demo.s1.fee ∧
    ∃ s1, collectStreamingFee Demo.s1 (askedTime (Demo.env 1000) (some 1100)) = .ok s1 ∧
      getFee Demo.s1 (Demo.env 1000) (some 1100) = .ok s1.fee ∧ s1.fee ≠ Demo.s1.fee :=
  ⟨by decide +kernel, _, rfl, (C120_fee.1 _).2 ⟨_, rfl, rfl⟩, by decide +kernel⟩

/-- A case of a refusal: at a time before the last charge. -/
example : getFee Demo.s1 (Demo.env 1000) (some 900) = .error .overflow ∧ CannotAccrue Demo.s1 900 :=
  ⟨by decide +kernel, ((C120_fee (s := Demo.s1) (time := some 900) (env := Demo.env 1000)).2 .overflow (by decide +kernel)).2⟩

private theorem unitsAt_error {s : State} {t : Nat} {e : Err} (h : unitsAt s t = .error e) : e = .overflow ∧ CannotAccrue s t := by
  refine ⟨?_, fun s1 hc => by rw [unitsAt_eq_ok.2 ⟨s1, hc, rfl⟩] at h; cases h⟩
  cases hc : collectStreamingFee s t with
  | ok s1 => rw [unitsAt_eq_ok.2 ⟨s1, hc, rfl⟩] at h; cases h
  | error e' =>
    have he := collect_error hc
    unfold unitsAt at h
    unfold collectStreamingFee at hc
    cases hs : s.fee.streamingFee with
    | none => rw [hs] at h; cases h
    | some sf =>
      rw [hs] at h hc
      simp only [bind_eq_error] at h hc
      rcases h with h | ⟨_, _, h⟩
      · rcases hc with hc | ⟨_, _, hc⟩
        · rw [h] at hc; cases hc; exact he
        · cases hc
      · cases h

private theorem require_fails {us : Units} {n : Nat} {e : Err} (h : us.calcRequire n = .error e) : e = .overflow ∧ TooBig us n := by
  refine ⟨calcRequire_error h, ?_⟩
  by_contra hb
  have e2 : U128 = 2 ^ 128 := rfl
  rw [Units.calcRequire_eq_ok.2 ⟨fun x hx => ?_, rfl⟩] at h
  · cases h
  · rw [e2, ← part_eq]
    by_contra hlt
    exact hb ⟨x, hx, by omega⟩

/-- **C120 (portfolio).** The query for the portfolio answers exactly when the streaming fee can be charged up to the time
asked for and the basket of the whole supply fits; it answers the units as they are then and that basket. It refuses only with an
overflow, and then one of these two is not so. -/
theorem C120_portfolio {s : State} {env : Env} {time : Option Nat} :
    (∀ r, getPortfolio s env time = .ok r ↔ ∃ s1, collectStreamingFee s (askedTime env time) = .ok s1 ∧
      ¬ TooBig s1.indexUnits s.totalSupply ∧ r = ⟨s.totalSupply, basket s1.indexUnits s.totalSupply, s1.indexUnits⟩) ∧
    (∀ e, getPortfolio s env time = .error e → e = .overflow ∧ (CannotAccrue s (askedTime env time) ∨
      ∃ s1, collectStreamingFee s (askedTime env time) = .ok s1 ∧ TooBig s1.indexUnits s.totalSupply)) := by
  have e2 : U128 = 2 ^ 128 := rfl
  constructor
  · intro r
    simp only [getPortfolio, bind_eq_ok, Except.ok.injEq, unitsAt_eq_ok, Units.calcRequire_eq_ok, basket,
      part_eq, ← e2, askedTime, TooBig, not_exists, not_and, Nat.not_le]
    constructor
    · rintro ⟨_, ⟨c1, h1, rfl⟩, _, ⟨h2, rfl⟩, rfl⟩
      exact ⟨c1, h1, h2, rfl⟩
    · rintro ⟨c1, h1, h2, rfl⟩
      exact ⟨_, ⟨c1, h1, rfl⟩, _, ⟨h2, rfl⟩, rfl⟩
  · intro e h
    simp only [getPortfolio, bind_eq_error] at h
    rcases h with h | ⟨us, hu, h | ⟨_, _, h⟩⟩
    · exact ⟨(unitsAt_error h).1, .inl (unitsAt_error h).2⟩
    · obtain ⟨s1, hc, rfl⟩ := unitsAt_eq_ok.1 hu
      exact ⟨(require_fails h).1, .inr ⟨s1, hc, (require_fails h).2⟩⟩
    · cases h

/-- A case: 10000 index tokens stand for 15000 uosmo and 2500 uatom. -/
example : getPortfolio Demo.s1 (Demo.env 1000) none =
    .ok ⟨10000, [⟨"uosmo", 15000⟩, ⟨"uatom", 2500⟩], Demo.s1.indexUnits⟩ := by decide +kernel

/-- A case of a refusal: at a time before the last charge. -/
example : getPortfolio Demo.s1 (Demo.env 1000) (some 900) = .error .overflow := by decide +kernel

/-! ### Simulations -/

private theorem feeAmount_ok {r : Option Nat} {n : Nat} (hr : ∀ x, r = some x → 0 < x ∧ x < ONE) (hn : n < 2 ^ 128) :
    ∃ f, feeAmount r n = .ok f ∧ f.getD 0 = part (r.getD 0) n ∧ f.getD 0 ≤ n := by
  cases r with
  | none => exact ⟨none, rfl, by simp [part], Nat.zero_le _⟩
  | some x =>
    have hle : part x n ≤ n := by
      rw [part_eq]
      exact Nat.div_le_of_le_mul (Nat.mul_le_mul_right _ (hr x rfl).2.le)
    have e2 : U128 = 2 ^ 128 := rfl
    refine ⟨some (part x n), ?_, rfl, hle⟩
    simp only [feeAmount, bind_eq_ok, Except.ok.injEq, Option.some.injEq]
    exact ⟨_, mulInt_eq_ok.2 ⟨by rw [← part_eq, e2]; omega, rfl⟩, (part_eq x n).symm⟩

/-- **C120 (simulated burn).** The simulation of a burn answers exactly when the streaming fee can be charged up to the time
asked for and the basket of the amount less the fee fits; it answers these. It refuses only with an overflow, and then one of
these two is not so. -/
theorem C120_simulate_burn {s : State} {env : Env} {n : Nat} {time : Option Nat} (hr : Reachable s) (hn : n < 2 ^ 128) :
    (∀ r, simulateBurn s env n time = .ok r ↔ ∃ s1, collectStreamingFee s (askedTime env time) = .ok s1 ∧
      ¬ TooBig s1.indexUnits r.burnAmount ∧ r.burnAmount + part (s.fee.burnFee.getD 0) n = n ∧
      r.redeemAmount = basket s1.indexUnits r.burnAmount) ∧
    (∀ e, simulateBurn s env n time = .error e → e = .overflow ∧ (CannotAccrue s (askedTime env time) ∨
      ∃ s1, collectStreamingFee s (askedTime env time) = .ok s1 ∧
        TooBig s1.indexUnits (n - part (s.fee.burnFee.getD 0) n))) := by
  have e2 : U128 = 2 ^ 128 := rfl
  obtain ⟨f, hf1, hf2, hf3⟩ := feeAmount_ok hr.inv.burnRate hn
  constructor
  · rintro ⟨b, rd⟩
    simp only [simulateBurn, bind_eq_ok, Except.ok.injEq, unitsAt_eq_ok, Units.calcRequire_eq_ok, basket, hf1,
      part_eq, ← e2, askedTime, TooBig, not_exists, not_and, Nat.not_le, sub_eq_ok, SimBurnResp.mk.injEq]
    constructor
    · rintro ⟨_, ⟨c1, h1, rfl⟩, _, rfl, b', ⟨h2, rfl⟩, _, ⟨h3, rfl⟩, rfl, rfl⟩
      rw [hf2, part_eq] at h3 ⊢
      rw [hf2, part_eq] at h2
      exact ⟨c1, h1, h3, by omega, rfl⟩
    · rintro ⟨c1, h1, h2, h3, rfl⟩
      refine ⟨_, ⟨c1, h1, rfl⟩, _, rfl, b, ⟨?_, ?_⟩, _, ⟨h2, rfl⟩, rfl, rfl⟩ <;> rw [hf2, part_eq] <;> omega
  · intro e h
    simp only [simulateBurn, bind_eq_error, hf1] at h
    rcases h with h | ⟨us, hu, h | ⟨_, hf, h | ⟨b, hb, h | ⟨_, _, h⟩⟩⟩⟩
    · exact ⟨(unitsAt_error h).1, .inl (unitsAt_error h).2⟩
    · cases h
    · cases hf
      rw [sub_eq_ok.2 ⟨hf3, rfl⟩] at h
      cases h
    · cases hf
      obtain ⟨_, rfl⟩ := sub_eq_ok.1 hb
      obtain ⟨s1, hc, rfl⟩ := unitsAt_eq_ok.1 hu
      rw [hf2] at h
      exact ⟨(require_fails h).1, .inr ⟨s1, hc, (require_fails h).2⟩⟩
    · cases h


/-- A case: of 1000 index tokens 20 are the fee, and 980 are worth 1470 uosmo and 245 uatom. -/
example : Reachable Demo.s0 ∧ simulateBurn Demo.s0 (Demo.env 1000) 1000 none = .ok ⟨980, [⟨"uosmo", 1470⟩, ⟨"uatom", 245⟩]⟩ :=
  ⟨Demo.s0_reachable, by decide +kernel⟩

/-- A case of a refusal: 1.5 uosmo for each of 2^128 − 1 tokens less 2% do not fit. -/
example : simulateBurn Demo.s0 (Demo.env 1000) (2 ^ 128 - 1) none = .error .overflow ∧
    TooBig Demo.s0.indexUnits (2 ^ 128 - 1 - part (Demo.s0.fee.burnFee.getD 0) (2 ^ 128 - 1)) :=
  ⟨by decide +kernel, ("uosmo", 1500000000000000000), by decide +kernel, by decide +kernel⟩

private theorem take_overflow {fs : List (Coin × Bool)} {c : Coin} (h : Units.takeRequired fs c = .error .overflow) :
    ∃ f ∈ fs, f.1.denom = c.denom ∧ f.1.amount < c.amount := by
  induction fs with
  | nil => cases h
  | cons f fs ih =>
    obtain ⟨f, m⟩ := f
    unfold Units.takeRequired at h
    split at h <;> rw [bind_eq_error] at h
    · rename_i hd
      rcases h with h | ⟨_, _, h⟩
      · refine ⟨(f, m), List.mem_cons_self, hd, ?_⟩
        by_contra hlt
        rw [sub_eq_ok.2 ⟨Nat.not_lt.1 hlt, rfl⟩] at h
        cases h
      · cases h
    · rcases h with h | ⟨_, _, h⟩
      · obtain ⟨g, hg, h1⟩ := ih h
        exact ⟨g, List.mem_cons_of_mem _ hg, h1⟩
      · cases h

private theorem take_others {fs fs' : List (Coin × Bool)} {c : Coin} (h : Units.takeRequired fs c = .ok fs') :
    ∀ g ∈ fs', g.1.denom ≠ c.denom → g ∈ fs := by
  induction fs generalizing fs' with
  | nil => cases h
  | cons f fs ih =>
    obtain ⟨f, m⟩ := f
    unfold Units.takeRequired at h
    split at h
    · rename_i hd
      simp only [bind_eq_ok, Except.ok.injEq] at h
      obtain ⟨a, _, rfl⟩ := h
      intro g hg hne
      rcases List.mem_cons.1 hg with rfl | hg
      · exact absurd hd hne
      · exact List.mem_cons_of_mem _ hg
    · simp only [bind_eq_ok, Except.ok.injEq] at h
      obtain ⟨a, h1, rfl⟩ := h
      intro g hg hne
      rcases List.mem_cons.1 hg with rfl | hg
      · exact List.mem_cons_self
      · exact List.mem_cons_of_mem _ (ih h1 g hg hne)

private theorem fold_overflow {req : List Coin} {fs : List (Coin × Bool)} (hn : (req.map (·.denom)).Nodup)
    (h : req.foldlM Units.takeRequired fs = .error .overflow) :
    ∃ c ∈ req, ∃ f ∈ fs, f.1.denom = c.denom ∧ f.1.amount < c.amount := by
  induction req generalizing fs with
  | nil => cases h
  | cons c req ih =>
    rw [List.map_cons, List.nodup_cons] at hn
    rw [List.foldlM_cons, bind_eq_error] at h
    rcases h with h | ⟨fs', h1, h⟩
    · obtain ⟨f, hf, h2⟩ := take_overflow h
      exact ⟨c, List.mem_cons_self, f, hf, h2⟩
    · obtain ⟨c', hc', f, hf, hd, hlt⟩ := ih hn.2 h
      refine ⟨c', List.mem_cons_of_mem _ hc', f, take_others h1 f hf ?_, hd, hlt⟩
      intro heq
      exact hn.1 (List.mem_map.2 ⟨c', hc', by rw [← hd, heq]⟩)

/-- The funds hold the coin `c` but less of it than `n` index tokens take (a token takes at least one of each coin). -/
def TooLittle (us : Units) (funds : List Coin) (n : Nat) : Prop :=
  ∃ e ∈ us, ∃ c ∈ funds, c.denom = e.1 ∧ c.amount < max (part e.2 n) 1

/-- Some coin of the basket is not among the funds. -/
def Missing (us : Units) (funds : List Coin) : Prop := ∃ e ∈ us, ∀ c ∈ funds, c.denom ≠ e.1

/-- Some coin among the funds is not in the basket. -/
def Foreign (us : Units) (funds : List Coin) : Prop := ∃ c ∈ funds, c.denom ∉ us.map (·.1)

private theorem refund_fails {us : Units} {funds : List Coin} {n : Nat} {e : Err} (hn : us.denoms.Nodup)
    (hf : distinct funds) (h : us.calcRefund funds n = .error e) :
    (e = .overflow ∧ (TooBig us n ∨ TooLittle us funds n)) ∨ (e = .insufficientFunds ∧ Missing us funds) ∨
      (e = .generic ∧ Foreign us funds) := by
  rcases Units.calcRefund_error hf h with rfl | ⟨rfl, d, hd, h1⟩ | ⟨rfl, h1⟩
  · refine .inl ⟨rfl, ?_⟩
    simp only [Units.calcRefund, bind_eq_error] at h
    rcases h with h | ⟨req, hreq, h⟩
    · exact .inl (require_fails h).2
    · obtain ⟨_, rfl⟩ := Units.calcRequire_eq_ok.1 hreq
      rcases h with h | ⟨gs, _, h⟩
      · right
        obtain ⟨c, hc, f, hf', hd, hlt⟩ := fold_overflow (by
          simpa only [List.map_map, Function.comp_def, Units.denoms] using hn) h
        simp only [List.mem_map, exists_exists_and_eq_and] at hc hf'
        obtain ⟨x, hx, rfl⟩ := hc
        obtain ⟨y, hy, rfl⟩ := hf'
        refine ⟨x, hx, y, hy, hd, ?_⟩
        rw [part_eq]
        exact hlt
      · rcases h with h | ⟨_, _, h⟩
        · cases (require_eq_error.1 h).2
        · cases h
  · right; left
    obtain ⟨x, hx, rfl⟩ := List.mem_map.1 hd
    exact ⟨rfl, x, hx, h1⟩
  · exact .inr (.inr ⟨rfl, h1⟩)

/-- The funds left after `n` index tokens took theirs, without coins of which nothing is left. -/
def leftAfter (us : Units) (funds : List Coin) (n : Nat) : List Coin :=
  (funds.map fun c => (⟨c.denom, c.amount - max (part ((Units.getKey us c.denom).getD 0) n) 1⟩ : Coin)).filter
    fun c => c.amount ≠ 0

/-- **C120 (simulated mint).** With funds of distinct coins, the simulation of a mint answers exactly when the streaming fee
can be charged up to the time asked for, the basket of the amount fits, and the funds hold at least the basket and one of each
of its coins, and no other coins. It then answers the amount less the fee, what is left of the funds, and the basket. When it
refuses, the reason is what it says. -/
theorem C120_simulate_mint {s : State} {env : Env} {n : Nat} {time : Option Nat} {funds : List Coin} (hr : Reachable s)
    (hn : n < 2 ^ 128) (hd : distinct funds) :
    (∀ r, simulateMint s env n (some funds) time = .ok r ↔ ∃ s1, collectStreamingFee s (askedTime env time) = .ok s1 ∧
      ¬ TooBig s1.indexUnits n ∧ (∀ e ∈ s1.indexUnits, ∃ c ∈ funds, c.denom = e.1 ∧ max (part e.2 n) 1 ≤ c.amount) ∧
      ¬ Foreign s1.indexUnits funds ∧ r.mintAmount + part (s.fee.mintFee.getD 0) n = n ∧
      r.refundAmount = leftAfter s1.indexUnits funds n ∧ r.fundSpent = basket s1.indexUnits n) ∧
    (∀ e, simulateMint s env n (some funds) time = .error e →
      (e = .overflow ∧ CannotAccrue s (askedTime env time)) ∨
      ∃ s1, collectStreamingFee s (askedTime env time) = .ok s1 ∧
        ((e = .overflow ∧ (TooBig s1.indexUnits n ∨ TooLittle s1.indexUnits funds n)) ∨
          (e = .insufficientFunds ∧ Missing s1.indexUnits funds) ∨ (e = .generic ∧ Foreign s1.indexUnits funds))) := by
  have e2 : U128 = 2 ^ 128 := rfl
  obtain ⟨f, hf1, hf2, hf3⟩ := feeAmount_ok hr.inv.mintRate hn
  constructor
  · rintro ⟨m, rf, sp⟩
    simp only [simulateMint, bind_eq_ok, Except.ok.injEq, unitsAt_eq_ok, Units.calcRequire_eq_ok, basket, hf1, leftAfter,
      part_eq, ← e2, askedTime, TooBig, Foreign, not_exists, not_and, Nat.not_le, not_not, sub_eq_ok, SimMintResp.mk.injEq,
      Option.getD_some]
    constructor
    · rintro ⟨_, ⟨c1, h1, rfl⟩, _, ⟨h2, rfl⟩, rf', h3, _, rfl, _, ⟨h4, rfl⟩, rfl, rfl, rfl⟩
      obtain ⟨_, h5, h6, rfl⟩ := (Units.calcRefund_eq_ok (hr.inv.collect h1).nodup hd).1 h3
      rw [hf2, part_eq] at h4 ⊢
      exact ⟨c1, h1, h2, h5, h6, by omega, rfl, rfl⟩
    · rintro ⟨c1, h1, h2, h5, h6, h4, rfl, rfl⟩
      refine ⟨_, ⟨c1, h1, rfl⟩, _, ⟨h2, rfl⟩, _, (Units.calcRefund_eq_ok (hr.inv.collect h1).nodup hd).2 ⟨h2, h5, h6, rfl⟩,
        _, rfl, m, ⟨?_, ?_⟩, rfl, rfl, rfl⟩ <;> rw [hf2, part_eq] <;> omega
  · intro e h
    simp only [simulateMint, bind_eq_error, hf1, Option.getD_some] at h
    rcases h with h | ⟨us, hu, h⟩
    · exact .inl ⟨(unitsAt_error h).1, (unitsAt_error h).2⟩
    · right
      obtain ⟨s1, hc, rfl⟩ := unitsAt_eq_ok.1 hu
      refine ⟨s1, hc, ?_⟩
      rcases h with h | ⟨_, _, h | ⟨_, _, h | ⟨_, hf, h | ⟨_, _, h⟩⟩⟩⟩
      · exact .inl ⟨(require_fails h).1, .inl (require_fails h).2⟩
      · exact refund_fails (hr.inv.collect hc).nodup hd h
      · cases h
      · cases hf
        rw [sub_eq_ok.2 ⟨hf3, rfl⟩] at h
        cases h
      · cases h

/-- Cases: an answer with something left, too little of a coin, a coin missing, a coin too many. -/
example : distinct [⟨"uatom", 300⟩, ⟨"uosmo", 1500⟩] ∧
    simulateMint Demo.s0 (Demo.env 1000) 1000 (some [⟨"uatom", 300⟩, ⟨"uosmo", 1500⟩]) none =
      .ok ⟨990, [⟨"uatom", 50⟩], [⟨"uosmo", 1500⟩, ⟨"uatom", 250⟩]⟩ ∧
    simulateMint Demo.s0 (Demo.env 1000) 1000 (some [⟨"uatom", 200⟩, ⟨"uosmo", 1500⟩]) none = .error .overflow ∧
    simulateMint Demo.s0 (Demo.env 1000) 1000 (some [⟨"uosmo", 1500⟩]) none = .error .insufficientFunds ∧
    simulateMint Demo.s0 (Demo.env 1000) 1000 (some [⟨"uatom", 300⟩, ⟨"uosmo", 1500⟩, ⟨"ujuno", 1⟩]) none = .error .generic :=
  ⟨by simp [distinct], by decide +kernel, by decide +kernel, by decide +kernel, by decide +kernel⟩

/-- **C120 (simulated mint without funds).** Asked without funds, the simulation of a mint takes the basket itself for the
funds: it answers exactly when the streaming fee can be charged, the basket fits, and no coin of the basket is rounded down to
nothing; then nothing is left. Otherwise it refuses with an overflow, although a mint of that amount may well be possible. -/
theorem C120_simulate_mint_without_funds {s : State} {env : Env} {n : Nat} {time : Option Nat} (hr : Reachable s)
    (hn : n < 2 ^ 128) :
    (∀ r, simulateMint s env n none time = .ok r ↔ ∃ s1, collectStreamingFee s (askedTime env time) = .ok s1 ∧
      ¬ TooBig s1.indexUnits n ∧ (∀ e ∈ s1.indexUnits, 1 ≤ part e.2 n) ∧
      r.mintAmount + part (s.fee.mintFee.getD 0) n = n ∧ r.refundAmount = [] ∧ r.fundSpent = basket s1.indexUnits n) ∧
    (∀ e, simulateMint s env n none time = .error e → e = .overflow ∧ (CannotAccrue s (askedTime env time) ∨
      ∃ s1, collectStreamingFee s (askedTime env time) = .ok s1 ∧
        (TooBig s1.indexUnits n ∨ ∃ e ∈ s1.indexUnits, part e.2 n = 0))) := by
  have e2 : U128 = 2 ^ 128 := rfl
  have hb : ∀ us : Units, us.denoms.Nodup → distinct (basket us n) := by
    intro us h
    simpa only [distinct, basket, List.map_map, Function.comp_def, Units.denoms] using h
  have same : ∀ us, unitsAt s (time.getD env.now) = .ok us → ¬ TooBig us n →
      simulateMint s env n none time = simulateMint s env n (some (basket us n)) time := by
    intro us hu hb
    have hq : us.calcRequire n = .ok (basket us n) := by
      refine Units.calcRequire_eq_ok.2 ⟨fun x hx => ?_, by simp only [basket, part_eq]⟩
      rw [e2, ← part_eq]
      by_contra hlt
      exact hb ⟨x, hx, by omega⟩
    simp only [simulateMint, hu, hq, ok_bind, Option.getD_some, Option.getD_none]
  have key : ∀ us : Units, us.denoms.Nodup → ∀ e ∈ us, ∀ c ∈ basket us n, c.denom = e.1 → c.amount = part e.2 n := by
    intro us hnd e he c hc hce
    simp only [basket, List.mem_map] at hc
    obtain ⟨x, hx, rfl⟩ := hc
    rw [List.inj_on_of_nodup_map hnd hx he hce]
  have hne : ∀ us : Units, us.denoms.Nodup → (∀ e ∈ us, 1 ≤ part e.2 n) → leftAfter us (basket us n) n = [] := by
    intro us hnd h1
    rw [leftAfter, List.filter_eq_nil_iff]
    intro c hc
    simp only [basket, List.map_map, List.mem_map, Function.comp_def] at hc
    obtain ⟨x, hx, rfl⟩ := hc
    have h2 : Units.getKey us x.1 = some x.2 := Units.mem_getKey hnd hx
    simp only [h2, Option.getD_some, decide_not, Bool.not_eq_true', decide_eq_false_iff_not, not_not]
    have := h1 x hx
    omega
  have hfor : ∀ us : Units, ¬ Foreign us (basket us n) := by
    rintro us ⟨c, hc, hno⟩
    simp only [basket, List.mem_map] at hc
    obtain ⟨x, hx, rfl⟩ := hc
    exact hno (List.mem_map.2 ⟨x, hx, rfl⟩)
  constructor
  · intro r
    constructor
    · intro h
      have h' := h
      simp only [simulateMint, bind_eq_ok] at h'
      obtain ⟨us, hu, sp, hs, _⟩ := h'
      have hnb : ¬ TooBig us n := by
        rintro ⟨x, hx, hbig⟩
        have := (Units.calcRequire_eq_ok.1 hs).1 x hx
        rw [e2, ← part_eq] at this
        omega
      rw [same us hu hnb] at h
      obtain ⟨s1, hc, rfl⟩ := unitsAt_eq_ok.1 hu
      have hnd := (hr.inv.collect hc).nodup
      obtain ⟨s1', hc', h1, h2, h3, h4, h5, h6⟩ := ((C120_simulate_mint hr hn (hb _ hnd)).1 r).1 h
      rw [askedTime, hc] at hc'
      cases hc'
      have hone : ∀ e ∈ s1.indexUnits, 1 ≤ part e.2 n := by
        intro e he
        obtain ⟨c, hc1, hc2, hc3⟩ := h2 e he
        have := key _ hnd e he c hc1 hc2
        omega
      exact ⟨s1, hc, h1, hone, h4, h5.trans (hne _ hnd hone), h6⟩
    · rintro ⟨s1, hc, h1, h2, h3, h4, h5⟩
      have hnd := (hr.inv.collect hc).nodup
      rw [same _ (unitsAt_eq_ok.2 ⟨s1, hc, rfl⟩) h1]
      refine ((C120_simulate_mint hr hn (hb _ hnd)).1 r).2 ⟨s1, hc, h1, ?_, hfor _, h3, h4.trans (hne _ hnd h2).symm, h5⟩
      intro e he
      refine ⟨⟨e.1, part e.2 n⟩, List.mem_map.2 ⟨e, he, rfl⟩, rfl, ?_⟩
      have := h2 e he
      show max (part e.2 n) 1 ≤ part e.2 n
      omega
  · intro e h
    cases hu : unitsAt s (time.getD env.now) with
    | error e' =>
      have h' := h
      simp only [simulateMint, bind_eq_error, hu] at h'
      rcases h' with h' | ⟨_, h', _⟩
      · cases h'
        exact ⟨(unitsAt_error hu).1, .inl (unitsAt_error hu).2⟩
      · cases h'
    | ok us =>
      obtain ⟨s1, hc, rfl⟩ := unitsAt_eq_ok.1 hu
      have hnd := (hr.inv.collect hc).nodup
      by_cases hbig : TooBig s1.indexUnits n
      · have h' := h
        simp only [simulateMint, bind_eq_error, hu] at h'
        rcases h' with h' | ⟨us, hus, h' | ⟨_, h', _⟩⟩
        · cases h'
        · cases hus
          exact ⟨(require_fails h').1, .inr ⟨s1, hc, .inl hbig⟩⟩
        · cases hus
          obtain ⟨x, hx, hx2⟩ := hbig
          have := (Units.calcRequire_eq_ok.1 h').1 x hx
          rw [e2, ← part_eq] at this
          omega
      · rw [same _ hu hbig] at h
        rcases (C120_simulate_mint hr hn (hb _ hnd)).2 e h with ⟨_, h1⟩ | ⟨s1', hc', h1⟩
        · exact absurd hc (h1 s1)
        · rw [askedTime, hc] at hc'
          cases hc'
          rcases h1 with ⟨rfl, h1 | ⟨x, hx, c, hcb, hcd, hlt⟩⟩ | ⟨_, x, hx, h1⟩ | ⟨_, h1⟩
          · exact absurd h1 hbig
          · refine ⟨rfl, .inr ⟨s1, hc, .inr ⟨x, hx, ?_⟩⟩⟩
            have := key _ hnd x hx c hcb hcd
            omega
          · exact absurd rfl (h1 ⟨x.1, part x.2 n⟩ (List.mem_map.2 ⟨x, hx, rfl⟩))
          · exact absurd h1 (hfor _)

/-- Cases: 1000 index tokens are answered, 3 are not, as 0.75 uatom are rounded down to nothing. -/
example : simulateMint Demo.s0 (Demo.env 1000) 1000 none none = .ok ⟨990, [], [⟨"uosmo", 1500⟩, ⟨"uatom", 250⟩]⟩ ∧
    simulateMint Demo.s0 (Demo.env 1000) 3 none none = .error .overflow :=
  ⟨by decide +kernel, by decide +kernel⟩

/-- **C120 (refused although possible).** There is a reachable state and an amount which the simulation without funds refuses,
though the mint of this amount is accepted, with one of the coin that is rounded down to nothing. -/
theorem C120_refused_though_possible : ∃ (s : State) (env : Env) (n : Nat) (info : Info) (o : State × List Msg), Reachable s ∧
    simulateMint s env n none none = .error .overflow ∧ execute s env info (.mint n none none) = .ok o :=
  ⟨Demo.s0, Demo.env 1000, 3, ⟨"bob", [⟨"uosmo", 4⟩, ⟨"uatom", 1⟩]⟩,
    ({ Demo.s0 with totalSupply := 3 },
      [.tfMint "core" "core" ⟨"factory/core/ibcx", 3⟩, .send "collector" [⟨"factory/core/ibcx", 1⟩],
       .send "bob" [⟨"factory/core/ibcx", 2⟩], .send "bob" []]), Demo.s0_reachable, by decide +kernel, by decide +kernel⟩

/-- The same case in full: the funds that make the mint of 3 tokens possible also make the simulation answer. -/
example : (simulateMint Demo.s0 (Demo.env 1000) 3 (some [⟨"uosmo", 4⟩, ⟨"uatom", 1⟩]) none).toOption ≠ none := by
  decide +kernel

/-! ### Creation -/

/-- A rate that may not be used: a mint or burn fee of nothing or of everything and more, or a streaming fee of nothing or
above the limit. -/
def BadRate (f : FeePayload) : Prop :=
  (∃ r, (f.mintFee = some r ∨ f.burnFee = some r) ∧ (r = 0 ∨ 1000000000000000000 ≤ r)) ∨
    ∃ sf, f.streamingFee = some sf ∧ (sf.rate = 0 ∨ 21979553000 < sf.rate)

/-- **C120 (creation).** When the contract refuses to be created, the reason is what it says: two units of the same coin or a
bad rate (invalid), or an address that is none. When the answer to the creation of the index token is refused, it was an
answer to something else, or it carries no denomination. -/
theorem C120_creation {env : Env} {msg : InstantiateMsg} {e : Err} :
    (instantiate env msg = .error e →
      (e = .invalid ∧ (¬ (msg.indexUnits.map (·.1)).Nodup ∨ BadRate msg.fee)) ∨
      (e = .invalidAddr ∧ (env.validAddr msg.fee.collector = false ∨ env.validAddr msg.gov = false))) ∧
    (∀ (s : State) (id : Nat) (d : Option Denom), reply s id d = .error e ↔
      (e = .panic ∧ id = 0 ∧ d = none) ∨ (e = .unknownReplyId ∧ id ≠ 0)) := by
  constructor
  · intro h
    simp only [instantiate, bind_eq_error] at h
    rcases h with h | ⟨_, _, h | ⟨c, hc, h | ⟨_, _, h | ⟨_, _, h⟩⟩⟩⟩
    · obtain ⟨h1, rfl⟩ := require_eq_error.1 h
      refine .inl ⟨rfl, .inl fun hn => h1 ?_⟩
      exact Units.checkDuplicate_eq_false.2 hn
    · exact .inr ⟨(validate_error h).1, .inl (validate_error h).2⟩
    · obtain ⟨h1, h2⟩ := checkRates_error h
      refine .inl ⟨h1, .inr ?_⟩
      rcases h2 with h2 | ⟨sf, h2, h3⟩
      · exact .inl h2
      · obtain ⟨x, hx, rfl⟩ := Option.map_eq_some_iff.1 h2
        exact .inr ⟨x, hx, h3⟩
    · exact .inr ⟨(validate_error h).1, .inr (validate_error h).2⟩
    · cases h
  · intro s id d
    unfold reply
    by_cases hid : id = 0
    · cases d <;> simp [hid, eq_comm]
    · simp [hid, eq_comm]

/-- Cases: a coin twice, an empty address, a mint fee of everything, and an answer with no denomination. -/
example : instantiate (Demo.env 1000) { Demo.inst with indexUnits := [("uosmo", 5), ("uosmo", 7)] } = .error .invalid ∧
    instantiate (Demo.env 1000) { Demo.inst with gov := "" } = .error .invalidAddr ∧
    instantiate (Demo.env 1000) { Demo.inst with fee := { Demo.inst.fee with mintFee := some 1000000000000000000 } } =
      .error .invalid ∧ reply Demo.s0 0 none = .error .panic ∧ reply Demo.s0 1 (some "x") = .error .unknownReplyId :=
  ⟨by decide +kernel, by decide +kernel, by decide +kernel, by decide +kernel, by decide +kernel⟩

end Ibcx.Props
