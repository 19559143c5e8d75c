import Verif.Props.Token
/-!
# Properties C08, C09: the simulation queries
-/

namespace Ibcx.Props
open Ibcx Ibcx.Core Ibcx.Spec

theorem unitsAt_eq_ok {s : State} {t : Nat} {us : Units} :
    unitsAt s t = .ok us ↔ ∃ s1, collectStreamingFee s t = .ok s1 ∧ us = s1.indexUnits := by
  unfold unitsAt collectStreamingFee
  cases s.fee.streamingFee with
  | none => simp; exact eq_comm
  | some sf =>
    simp

/-- The full claim C08: whenever the query (asked at any time, for the block time of the mint) answers and nothing
else stands in the way (pause, rebalance, supply overflow), the mint is accepted and does exactly what was
predicted. -/
def C08_full : Prop :=
  ∀ (s : State) (asked env : Env) (time : Option Nat) (info : Info) (amount : Nat) (resp : SimMintResp),
    Reachable s → distinct info.funds → env.now = time.getD asked.now →
    simulateMint s asked amount (some info.funds) time = .ok resp →
    ¬ pausedAt s env.now → s.rebalance = none → s.totalSupply + amount < 2 ^ 128 →
    ∃ s' ms, execute s env info (.mint amount none none) = .ok (s', ms) ∧
      .send info.sender [⟨s.config.indexDenom, resp.mintAmount⟩] ∈ ms ∧
      .send info.sender resp.refundAmount ∈ ms ∧
      ∀ d, total d resp.fundSpent + total d resp.refundAmount = total d info.funds

/-- Without rounding to zero the simulation is exact. -/
theorem C08_simulate_mint_exact_partial {s : State} {asked env : Env} {time : Option Nat} {info : Info} {amount : Nat}
    {resp : SimMintResp} (hr : Reachable s) (hd : distinct info.funds) (ht : env.now = time.getD asked.now)
    (hsim : simulateMint s asked amount (some info.funds) time = .ok resp)
    (hp : ¬ pausedAt s env.now) (hnr : s.rebalance = none) (hov : s.totalSupply + amount < 2 ^ 128)
    (hfee : ∀ r, s.fee.mintFee = some r → 1 ≤ part r amount) :
    ∃ s' ms, execute s env info (.mint amount none none) = .ok (s', ms) ∧
      ms = [.tfMint env.contract env.contract ⟨s.config.indexDenom, amount⟩]
        ++ feeTransfer s.fee.mintFee s.fee.collector s.config.indexDenom (amount - resp.mintAmount)
        ++ [.send info.sender [⟨s.config.indexDenom, resp.mintAmount⟩], .send info.sender resp.refundAmount] ∧
      resp.mintAmount ≤ amount ∧
      ((∀ e ∈ s'.indexUnits, 1 ≤ part e.2 amount) →
        ∀ d, total d resp.fundSpent + total d resp.refundAmount = total d info.funds) := by
  unfold simulateMint at hsim
  simp only [bind_eq_ok, unitsAt_eq_ok, Units.calcRequire_eq_ok, feeAmount_eq_ok, sub_eq_ok, ← ht,
    Option.getD_some, Except.ok.injEq] at hsim
  obtain ⟨us, ⟨s1, hc, rfl⟩, spent, ⟨ho, rfl⟩, refund, hre, fee, ⟨hfo, rfl⟩, _, ⟨hle, rfl⟩, rfl⟩ := hsim
  have hn : s1.indexUnits.denoms.Nodup := (hr.inv.collect hc).nodup
  obtain ⟨r1, r2, r3, rfl⟩ := (Units.calcRefund_eq_ok hn hd).1 hre
  have hmf : (s.fee.mintFee.map fun v => v * amount / ONE).getD 0 = mintFeeOf s amount := by
    rw [mintFeeOf_eq]
    cases h : s.fee.mintFee with
    | none => rfl
    | some v =>
      have := hfee v h
      rw [part_eq] at this
      simp only [Option.map_some, Option.getD_some]
      omega
  rw [hmf] at hle
  have hex := (C03_mint_accepted_iff (env := env) (amount := amount) (receiver := none) (refundTo := none)
    (s' := { s1 with totalSupply := s.totalSupply + amount }) hr hd).2
    ⟨s1, hc, hp, hnr, by simp, by simp, ?_, r3, hle, ?_, hov, rfl, rfl⟩
  · refine ⟨_, _, hex, ?_, ?_, ?_⟩
    · simp only [hmf, Option.getD_none]
      have : amount - (amount - mintFeeOf s amount) = mintFeeOf s amount := by omega
      rw [this]
      congr 5
      apply List.map_congr_left
      intro c hcm
      rw [keptBy_of_mem (r3 c hcm)]
    · simp only; omega
    · intro h1 d
      simp only at h1 ⊢
      obtain ⟨fee, tr, refund, he, _, _, _, k1, k2⟩ := C02_mint_takes_exact_basket hr hd hex
      have he2 := List.append_inj_right' he (by simp)
      simp only [Option.getD_none, List.cons.injEq, Msg.send.injEq, and_true, true_and] at he2
      obtain ⟨_, he3⟩ := he2
      have he4 : (info.funds.map fun c => (⟨c.denom, c.amount - max ((s1.indexUnits.getKey c.denom).getD 0 * amount / ONE) 1⟩ : Coin)).filter
          (fun c => c.amount ≠ 0) = refund := by
        rw [← he3]
        congr 1
        apply List.map_congr_left
        intro c hcm
        rw [keptBy_of_mem (r3 c hcm)]
      rw [he4, total_units hn (fun x => x * amount / ONE)]
      cases hl : s1.indexUnits.lookup d with
      | none => simp [k2 d hl]
      | some u =>
        have hm := Units.getKey_mem (lookup_eq s1.indexUnits d ▸ hl)
        have a1 := h1 _ hm
        have a2 := k1 d u hl
        simp only [Option.map_some, Option.getD_some]
        rw [← part_eq]
        simp only at a1
        omega
  · intro e he
    obtain ⟨c, c1, c2, c3⟩ := r2 e he
    exact ⟨c, c1, c2, by rw [part_eq, Nat.max_comm]; exact c3⟩
  · intro e he; rw [part_eq]; exact r1 e he

example : Reachable Demo.s0 ∧
    simulateMint Demo.s0 (Demo.env 1000) 10000 (some Demo.mintInfo.funds) none =
      .ok ⟨9900, [⟨"uatom", 500⟩], [⟨"uosmo", 15000⟩, ⟨"uatom", 2500⟩]⟩ ∧ 1 ≤ part 10000000000000000 10000 :=
  ⟨Demo.s0_reachable, by decide +kernel, by decide +kernel⟩

/-- **C08, partial (2).** How far the simulation can be off, without any assumption on rounding.  A mint of nothing under
a mint fee is rejected.  Every other mint for which the query answers is accepted; the receiver gets what was predicted,
or one token less exactly if a fee is set and rounds to zero; the refund is what was predicted; and of each asset what
is kept is the predicted expense, or one base unit more exactly if its requirement rounds to zero. -/
theorem C08_simulate_mint_deviation_partial {s : State} {asked env : Env} {time : Option Nat} {info : Info} {amount : Nat}
    {resp : SimMintResp} (hr : Reachable s) (hd : distinct info.funds) (ht : env.now = time.getD asked.now)
    (hsim : simulateMint s asked amount (some info.funds) time = .ok resp)
    (hp : ¬ pausedAt s env.now) (hnr : s.rebalance = none) (hov : s.totalSupply + amount < 2 ^ 128) :
    (amount = 0 → s.fee.mintFee ≠ none → ∀ s' ms, execute s env info (.mint amount none none) ≠ .ok (s', ms)) ∧
    (0 < amount ∨ s.fee.mintFee = none →
    ∃ s' ms less, execute s env info (.mint amount none none) = .ok (s', ms) ∧
      ms = [.tfMint env.contract env.contract ⟨s.config.indexDenom, amount⟩]
        ++ feeTransfer s.fee.mintFee s.fee.collector s.config.indexDenom (amount - (resp.mintAmount - less))
        ++ [.send info.sender [⟨s.config.indexDenom, resp.mintAmount - less⟩], .send info.sender resp.refundAmount] ∧
      less ≤ resp.mintAmount ∧ resp.mintAmount ≤ amount ∧
      (∀ r, s.fee.mintFee = some r → part r amount = 0 → less = 1) ∧
      ((∀ r, s.fee.mintFee = some r → 1 ≤ part r amount) → less = 0) ∧
      (∀ d u, s'.indexUnits.lookup d = some u → part u amount = 0 →
        total d resp.fundSpent + total d resp.refundAmount + 1 = total d info.funds) ∧
      (∀ d u, s'.indexUnits.lookup d = some u → 1 ≤ part u amount →
        total d resp.fundSpent + total d resp.refundAmount = total d info.funds) ∧
      (∀ d, s'.indexUnits.lookup d = none → total d info.funds = 0)) := by
  unfold simulateMint at hsim
  simp only [bind_eq_ok, unitsAt_eq_ok, Units.calcRequire_eq_ok, feeAmount_eq_ok, sub_eq_ok, ← ht,
    Option.getD_some, Except.ok.injEq] at hsim
  obtain ⟨us, ⟨s1, hc, rfl⟩, spent, ⟨ho, rfl⟩, refund, hre, fee, ⟨hfo, rfl⟩, _, ⟨hle, rfl⟩, rfl⟩ := hsim
  have hn : s1.indexUnits.denoms.Nodup := (hr.inv.collect hc).nodup
  obtain ⟨r1, r2, r3, rfl⟩ := (Units.calcRefund_eq_ok hn hd).1 hre
  constructor
  · rintro rfl hf s' ms hx
    obtain ⟨_, _, _, _, _, _, _, _, hfee, _⟩ := (C03_mint_accepted_iff hr hd).1 hx
    rw [mintFeeOf_eq] at hfee
    cases h : s.fee.mintFee with
    | none => exact hf h
    | some v =>
      rw [h] at hfee
      simp only [Option.map_some, Option.getD_some] at hfee
      omega
  intro hpos
  obtain ⟨less, hless, hl1, hl2, hl3⟩ : ∃ less, less + (s.fee.mintFee.map fun v => v * amount / ONE).getD 0 =
      mintFeeOf s amount ∧ less + (s.fee.mintFee.map fun v => v * amount / ONE).getD 0 ≤ amount ∧
      (∀ r, s.fee.mintFee = some r → part r amount = 0 → less = 1) ∧
      ((∀ r, s.fee.mintFee = some r → 1 ≤ part r amount) → less = 0) := by
    rw [mintFeeOf_eq]
    cases h : s.fee.mintFee with
    | none => exact ⟨0, rfl, Nat.zero_le _, by simp, fun _ => rfl⟩
    | some v =>
      have hpos : 0 < amount := by
        rcases hpos with h1 | h1
        · exact h1
        · rw [h] at h1; cases h1
      rw [h] at hle
      simp only [Option.map_some, Option.getD_some, Option.some.injEq, forall_eq', part_eq] at hle ⊢
      generalize v * amount / ONE = x at hle ⊢
      by_cases hx : x = 0
      · subst hx
        exact ⟨1, by simp, by omega, fun _ => rfl, by omega⟩
      · exact ⟨0, by omega, by omega, by omega, fun _ => rfl⟩
  have hle' : mintFeeOf s amount ≤ amount := by omega
  have hsend : amount - (s.fee.mintFee.map fun v => v * amount / ONE).getD 0 - less = amount - mintFeeOf s amount := by
    omega
  have hback : amount - (amount - mintFeeOf s amount) = mintFeeOf s amount := by omega
  have hex := (C03_mint_accepted_iff (env := env) (amount := amount) (receiver := none) (refundTo := none)
    (s' := { s1 with totalSupply := s.totalSupply + amount }) hr hd).2
    ⟨s1, hc, hp, hnr, by simp, by simp, ?_, r3, hle', ?_, hov, rfl, rfl⟩
  · have sum : ∀ d, (∀ u, s1.indexUnits.lookup d = some u →
          total d (s1.indexUnits.map fun e => ⟨e.1, e.2 * amount / ONE⟩) +
          total d ((info.funds.map fun c => (⟨c.denom, c.amount -
            max ((s1.indexUnits.getKey c.denom).getD 0 * amount / ONE) 1⟩ : Coin)).filter (fun c => c.amount ≠ 0)) +
          (max 1 (part u amount) - part u amount) = total d info.funds) ∧
        (s1.indexUnits.lookup d = none → total d info.funds = 0) := by
      intro d
      obtain ⟨fee, tr, refund, he, _, _, _, k1, k2⟩ := C02_mint_takes_exact_basket hr hd hex
      have he2 := List.append_inj_right' he (by simp)
      simp only [Option.getD_none, List.cons.injEq, Msg.send.injEq, and_true, true_and] at he2
      obtain ⟨_, he3⟩ := he2
      have he4 : (info.funds.map fun c => (⟨c.denom, c.amount - max ((s1.indexUnits.getKey c.denom).getD 0 * amount / ONE) 1⟩ : Coin)).filter
          (fun c => c.amount ≠ 0) = refund := by
        rw [← he3]
        congr 1
        apply List.map_congr_left
        intro c hcm
        rw [keptBy_of_mem (r3 c hcm)]
      constructor
      · intro u hl
        rw [he4, total_units hn (fun x => x * amount / ONE)]
        have a2 := k1 d u hl
        rw [hl]
        simp only [Option.map_some, Option.getD_some]
        rw [← part_eq]
        omega
      · intro hl
        have := k2 d hl
        exact this.2
    refine ⟨_, _, less, hex, ?_, ?_, ?_, hl2, hl3, ?_, ?_, ?_⟩
    · simp only [hsend, hback, Option.getD_none]
      congr 5
      apply List.map_congr_left
      intro c hcm
      rw [keptBy_of_mem (r3 c hcm)]
    · simp only; omega
    · simp only; omega
    · intro d u hl h0
      have := (sum d).1 u hl
      rw [h0] at this
      simpa using this
    · intro d u hl h0
      have := (sum d).1 u hl
      rw [Nat.max_eq_right h0, Nat.sub_self] at this
      simpa using this
    · intro d hl
      exact (sum d).2 hl
  · intro e he
    obtain ⟨c, c1, c2, c3⟩ := r2 e he
    exact ⟨c, c1, c2, by rw [part_eq, Nat.max_comm]; exact c3⟩
  · intro e he; rw [part_eq]; exact r1 e he

/-- One token at a fee of 1%: predicted is one token and no expense for uatom; none arrives, and one uatom is kept. -/
example : Reachable Demo.s0 ∧
    simulateMint Demo.s0 (Demo.env 1000) 1 (some [⟨"uatom", 1⟩, ⟨"uosmo", 1⟩]) none =
      .ok ⟨1, [], [⟨"uosmo", 1⟩, ⟨"uatom", 0⟩]⟩ ∧ part 10000000000000000 1 = 0 ∧
    part 250000000000000000 1 = 0 ∧ 1 ≤ part 1500000000000000000 1 :=
  ⟨Demo.s0_reachable, by decide +kernel, by decide +kernel, by decide +kernel, by decide +kernel⟩

/-- For 50 tokens at 1% the query predicts 50 tokens, but 49 are delivered. -/
theorem C08_full_false : ¬ C08_full := by
  intro h
  obtain ⟨s', ms, h1, h2, _⟩ := h Demo.s0 (Demo.env 1000) (Demo.env 1000) none ⟨"bob", [⟨"uatom", 12⟩, ⟨"uosmo", 75⟩]⟩ 50
    ⟨50, [], [⟨"uosmo", 75⟩, ⟨"uatom", 12⟩]⟩ Demo.s0_reachable (by simp [distinct]) rfl (by decide +kernel)
    (by simp [pausedAt, Demo.s0]) rfl (by decide +kernel)
  have h3 : execute Demo.s0 (Demo.env 1000) ⟨"bob", [⟨"uatom", 12⟩, ⟨"uosmo", 75⟩]⟩ (.mint 50 none none) =
      .ok ({ Demo.s0 with totalSupply := 50 },
        [.tfMint "core" "core" ⟨"factory/core/ibcx", 50⟩, .send "collector" [⟨"factory/core/ibcx", 1⟩],
         .send "bob" [⟨"factory/core/ibcx", 49⟩], .send "bob" []]) := by decide +kernel
  rw [h3] at h1
  cases h1
  revert h2
  decide +kernel

/-- **C09.** When the contract is neither paused nor rebalancing, `SimulateBurn` answers with at most the
supply exactly when `Burn` with that amount is accepted at the block time the query is about, and then its answer is
the burned amount and, up to order, the coins paid out. -/
theorem C09_simulate_burn_exact {s : State} {asked env : Env} {time : Option Nat} {sender : Addr} {amount : Nat}
    (hr : Reachable s) (ht : env.now = time.getD asked.now) (hp : ¬ pausedAt s env.now) (hnr : s.rebalance = none) (hpos : 0 < amount) :
    ((∃ resp, simulateBurn s asked amount time = .ok resp ∧ resp.burnAmount ≤ s.totalSupply) ↔
      ∃ s' ms, execute s env ⟨sender, [⟨s.config.indexDenom, amount⟩]⟩ (.burn none) = .ok (s', ms)) ∧
    (∀ resp s' ms, simulateBurn s asked amount time = .ok resp →
      execute s env ⟨sender, [⟨s.config.indexDenom, amount⟩]⟩ (.burn none) = .ok (s', ms) →
      resp.burnAmount ≤ amount ∧ s'.totalSupply + resp.burnAmount = s.totalSupply ∧
      ∃ redeem, redeem.Perm resp.redeemAmount ∧
        ms = [.tfBurn env.contract env.contract ⟨s.config.indexDenom, resp.burnAmount⟩]
          ++ feeTransfer s.fee.burnFee s.fee.collector s.config.indexDenom (amount - resp.burnAmount)
          ++ [.send sender redeem]) := by
  have hsim : ∀ resp, simulateBurn s asked amount time = .ok resp ↔
      ∃ s1, collectStreamingFee s env.now = .ok s1 ∧ part (s.fee.burnFee.getD 0) amount < 2 ^ 128 ∧
        (∀ e ∈ s1.indexUnits, part e.2 (amount - burnFeeOf s amount) < 2 ^ 128) ∧
        resp = ⟨amount - burnFeeOf s amount, s1.indexUnits.map fun e => ⟨e.1, part e.2 (amount - burnFeeOf s amount)⟩⟩ := by
    intro resp
    unfold simulateBurn
    simp only [bind_eq_ok, unitsAt_eq_ok, Units.calcRequire_eq_ok, feeAmount_eq_ok, sub_eq_ok, ← ht,
      Except.ok.injEq, part_eq]
    constructor
    · rintro ⟨_, ⟨s1, hc, rfl⟩, _, ⟨hf, rfl⟩, _, ⟨hle, rfl⟩, _, ⟨ho, rfl⟩, rfl⟩
      refine ⟨s1, hc, ?_, ?_, ?_⟩
      · cases hb : s.fee.burnFee with
        | none => simp
        | some v => exact hf v hb
      · rw [burnFeeOf_eq]; exact ho
      · rw [burnFeeOf_eq]
    · rintro ⟨s1, hc, hf, ho, rfl⟩
      refine ⟨_, ⟨s1, hc, rfl⟩, _, ⟨?_, rfl⟩, _, ⟨?_, rfl⟩, _, ⟨?_, rfl⟩, ?_⟩
      · intro v hv; rw [hv] at hf; exact hf
      · rw [← burnFeeOf_eq]; exact burnFeeOf_le hr.inv _
      · rw [← burnFeeOf_eq]; exact ho
      · rw [← burnFeeOf_eq]
  have hexec := fun s' ms => burn_accepted_iff (s := s) (s' := s') (env := env)
    (info := ⟨sender, [⟨s.config.indexDenom, amount⟩]⟩) (redeemTo := none) (ms := ms) hr
  constructor
  · constructor
    · rintro ⟨resp, h, hle⟩
      obtain ⟨s1, h1, h2, h3, rfl⟩ := (hsim resp).1 h
      exact ⟨_, _, (hexec _ _).2 ⟨s1, amount, h1, hp, hnr, by simp, rfl, by omega, h2, h3, hle, rfl, rfl⟩⟩
    · rintro ⟨s', ms, h⟩
      obtain ⟨s1, received, h1, _, _, _, h4, _, h6, h7, h8, _⟩ := (hexec _ _).1 h
      simp at h4
      subst h4
      exact ⟨_, (hsim _).2 ⟨s1, h1, h6, h7, rfl⟩, h8⟩
  · intro resp s' ms h h'
    obtain ⟨s1, h1, h2, h3, rfl⟩ := (hsim resp).1 h
    obtain ⟨s1', received, h1', _, _, _, h4, _, h6, h7, h8, rfl, rfl⟩ := (hexec _ _).1 h'
    simp at h4
    subst h4
    rw [h1] at h1'
    cases h1'
    have := burnFeeOf_le hr.inv amount
    refine ⟨by simp only; omega, by simp only; omega, _, sortCoins_perm _, ?_⟩
    simp only
    rw [show amount - (amount - burnFeeOf s amount) = burnFeeOf s amount by omega]
    rfl

example : Reachable Demo.s1 ∧ ¬ pausedAt Demo.s1 1010 ∧
    simulateBurn Demo.s1 (Demo.env 1010) 1000 none = .ok ⟨980, [⟨"uosmo", 1469⟩, ⟨"uatom", 244⟩]⟩ ∧
    simulateBurn Demo.s1 (Demo.env 1010) 1000 (some 10000000) = .ok ⟨980, [⟨"uosmo", 1144⟩, ⟨"uatom", 190⟩]⟩ ∧
    simulateBurn Demo.s1 (Demo.env 10000000) 1000 none = .ok ⟨980, [⟨"uosmo", 1144⟩, ⟨"uatom", 190⟩]⟩ :=
  ⟨Demo.s1_reachable, by simp [pausedAt, Demo.s1, Demo.s0], by decide +kernel, by decide +kernel, by decide +kernel⟩

end Ibcx.Props
