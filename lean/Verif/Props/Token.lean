import Verif.Spec.Link
import Verif.Core.Query
import Verif.Props.Demo
/-!
# Properties C01–C05, C07: supply, mint, burn
-/

namespace Ibcx.Props
open Ibcx Ibcx.Core Ibcx.Spec

/-! ### C01 -/

theorem execute_supply {s s' : State} {env : Env} {info : Info} {msg : ExecMsg} {ms : List Msg}
    (h : execute s env info msg = .ok (s', ms)) :
    s'.config.indexDenom = s.config.indexDenom ∧
    s'.totalSupply + burned s.config.indexDenom ms = s.totalSupply + minted s.config.indexDenom ms ∧
    ∀ d, d ≠ s.config.indexDenom → minted d ms = 0 ∧ burned d ms = 0 := by
  obtain ⟨s1, h1, h2⟩ := execute_eq_ok.1 h
  have hc : s1.config = s.config ∧ s1.totalSupply = s.totalSupply := by
    split at h1
    · obtain ⟨f1, _, f3, _⟩ := collectStreamingFee_frame h1
      exact ⟨f1, f3⟩
    · simp [h1]
  obtain ⟨hc, hs⟩ := hc
  rw [← hc, ← hs]
  clear h h1 hc hs
  have hq : s'.config.indexDenom = s1.config.indexDenom → s'.totalSupply = s1.totalSupply →
      (∀ d, minted d ms = 0) → (∀ d, burned d ms = 0) →
      s'.config.indexDenom = s1.config.indexDenom ∧
      s'.totalSupply + burned s1.config.indexDenom ms = s1.totalSupply + minted s1.config.indexDenom ms ∧
      ∀ d, d ≠ s1.config.indexDenom → minted d ms = 0 ∧ burned d ms = 0 := by
    intro a b c d
    exact ⟨a, by rw [b, c, d], fun x _ => ⟨c x, d x⟩⟩
  cases msg with
  | mint a r f =>
    obtain ⟨_, _, _, _, _, _, _, rfl, refund, _, rfl⟩ := mint_eq_ok.1 h2
    cases s1.fee.mintFee <;> simp [feeMsg, minted, burned] <;> grind
  | burn r =>
    obtain ⟨_, _, _, received, fee, b, _, _, rfl, _, rfl, _, _, hle, rfl, rfl⟩ := burn_eq_ok.1 h2
    cases hb : s1.fee.burnFee <;> simp [feeMsg, minted, burned, hb] at hle ⊢ <;> grind
  | realize =>
    obtain ⟨_, h⟩ := realize_eq_ok.1 h2
    rcases h with ⟨_, rfl, rfl⟩ | ⟨sf, hsf, rfl, rfl⟩ <;> apply hq <;> simp [minted, burned]
  | gov m =>
    cases m with
    | pause e => obtain ⟨_, _, _, rfl, rfl⟩ := pause_eq_ok.1 h2; apply hq <;> simp [minted, burned]
    | release => obtain ⟨_, _, rfl, rfl⟩ := release_eq_ok.1 h2; apply hq <;> simp [minted, burned]
    | updateGov g => obtain ⟨_, _, _, rfl, rfl⟩ := updateGov_eq_ok.1 h2; apply hq <;> simp [minted, burned]
    | acceptGov => obtain ⟨_, rfl, rfl⟩ := acceptGov_eq_ok.1 h2; apply hq <;> simp [minted, burned]
    | revokeGov => obtain ⟨_, _, rfl, rfl⟩ := revokeGov_eq_ok.1 h2; apply hq <;> simp [minted, burned]
    | updateFeeStrategy p =>
      obtain ⟨_, hnr, _, h1, h2, h3, rfl, rfl⟩ := updateFee_eq_ok.1 h2; apply hq <;> simp [minted, burned]
    | updateRebalanceManager m =>
      obtain ⟨_, _, ⟨r, hr, rfl⟩, rfl⟩ := updateRebalanceManager_eq_ok.1 h2; apply hq <;> simp [minted, burned]
    | updateReserveDenom d => obtain ⟨_, _, rfl, rfl⟩ := updateReserveDenom_eq_ok.1 h2; apply hq <;> simp [minted, burned]
    | updateTradeInfo d rs c m =>
      obtain ⟨_, ⟨r, rs', hrs, rfl⟩, rfl⟩ := updateTradeInfo_eq_ok.1 h2; apply hq <;> simp [minted, burned]
  | rebalance m =>
    cases m with
    | init m de inf =>
      obtain ⟨_, hnr, _, h1, h2, h3, h4, rfl, rfl⟩ := init_eq_ok.1 h2; apply hq <;> simp [minted, burned]
    | trade m =>
      obtain ⟨r, hr, _, h⟩ := trade_eq_ok.1 h2
      rcases h with ⟨d, _, _, _, _, h⟩ | ⟨d, _, _, _, _, h⟩ | ⟨d, _, _, _, _, h⟩ | ⟨d, _, _, _, _, h⟩
      · obtain ⟨res, target, current, us', res', _, _, _, _, _, _, _, rfl, rfl⟩ := deflateReserve_eq_ok.1 h
        apply hq <;> simp [minted, burned]
      · obtain ⟨t, res, target, current, simIn, us', res', _, _, _, _, _, _, _, _, _, _, _, _, _, _, _,
          _, _, rfl, rfl⟩ := deflate_eq_ok.1 h
        apply hq <;> simp [minted, burned]
      · obtain ⟨res, unit, us', res', _, _, _, _, _, rfl, rfl⟩ := inflateReserve_eq_ok.1 h
        apply hq <;> simp [minted, burned]
      · obtain ⟨t, res, unit, simOut, us', res', _, _, _, _, _, _, _, _, _, _, _, _, _, _, _, rfl, rfl⟩ :=
          inflate_eq_ok.1 h
        apply hq <;> simp [minted, burned]
    | finalize =>
      obtain ⟨r, res, _, _, _, _, _, rfl, rfl⟩ := finalize_eq_ok.1 h2; apply hq <;> simp [minted, burned]

theorem run_supply (s : State) (cs : List Call) :
    (run s cs).1.config.indexDenom = s.config.indexDenom ∧
    (run s cs).1.totalSupply + burned s.config.indexDenom (run s cs).2 =
      s.totalSupply + minted s.config.indexDenom (run s cs).2 ∧
    ∀ d, d ≠ s.config.indexDenom → minted d (run s cs).2 = 0 ∧ burned d (run s cs).2 = 0 := by
  induction cs generalizing s with
  | nil => simp [run, minted, burned]
  | cons c cs ih =>
    rw [run_cons]
    have hstep : (step s c).1.config.indexDenom = s.config.indexDenom ∧
        (step s c).1.totalSupply + burned s.config.indexDenom (step s c).2 =
          s.totalSupply + minted s.config.indexDenom (step s c).2 ∧
        ∀ d, d ≠ s.config.indexDenom → minted d (step s c).2 = 0 ∧ burned d (step s c).2 = 0 := by
      unfold step
      split
      · rename_i o h
        exact execute_supply (s' := o.1) (ms := o.2) h
      · simp [minted, burned]
    obtain ⟨i1, i2, i3⟩ := hstep
    obtain ⟨j1, j2, j3⟩ := ih (step s c).1
    rw [i1] at j1 j2 j3
    refine ⟨j1, ?_, ?_⟩
    · simp only [burned_append, minted_append]; omega
    · intro d hd
      simp [i3 d hd, j3 d hd]

/-- **C01.** After every history, `GetTotalSupply` answers what was minted minus what was burned, the
index denom is still the same, and no other denom was ever minted or burned. -/
theorem C01_supply_is_minted_minus_burned (s : State) (cs : List Call) (h : Fresh s) :
    getTotalSupply (run s cs).1 + burned s.config.indexDenom (run s cs).2 =
      minted s.config.indexDenom (run s cs).2 ∧
    (run s cs).1.config.indexDenom = s.config.indexDenom ∧
    ∀ d, d ≠ s.config.indexDenom → minted d (run s cs).2 = 0 ∧ burned d (run s cs).2 = 0 := by
  obtain ⟨env, msg, s0, ms, d, ms', h1, h2⟩ := h
  obtain ⟨_, _, _, _, _, _, rfl, _⟩ := instantiate_eq_ok.1 h1
  obtain ⟨_, d', _, rfl, _⟩ := reply_eq_ok.1 h2
  obtain ⟨r1, r2, r3⟩ := run_supply _ cs
  refine ⟨?_, r1, r3⟩
  unfold getTotalSupply
  rw [r2]
  simp

example : Fresh Demo.s0 ∧
    (run Demo.s0 [⟨Demo.env 1000, Demo.mintInfo, .mint 10000 none none⟩]).1.totalSupply = 10000 :=
  ⟨Demo.s0_fresh, by decide +kernel⟩

/-! ### C02, C03: mint -/

/-- What minting `amount` keeps of denom `d` with units `us`. -/
def keptBy (us : List (Denom × Nat)) (amount : Nat) (d : Denom) : Nat :=
  match us.lookup d with
  | some u => max 1 (part u amount)
  | none => 0

/-- The mint fee for `amount`. -/
def mintFeeOf (s : State) (amount : Nat) : Nat :=
  match s.fee.mintFee with
  | some r => max 1 (part r amount)
  | none => 0

/-- The transfer of a fee to the collector, present only if a rate is set. -/
def feeTransfer (rate : Option Nat) (collector : Addr) (d : Denom) (fee : Nat) : List Msg :=
  match rate with
  | some _ => [.send collector [⟨d, fee⟩]]
  | none => []

theorem keptBy_of_mem {us : Units} {amount : Nat} {d : Denom} (h : d ∈ us.denoms) :
    keptBy us amount d = max ((us.getKey d).getD 0 * amount / ONE) 1 := by
  obtain ⟨v, hv⟩ := Units.getKey_isSome.2 h
  simp [keptBy, lookup_eq, hv, part_eq, Nat.max_comm]

theorem mintFeeOf_eq (s : State) (amount : Nat) :
    mintFeeOf s amount = (s.fee.mintFee.map fun v => max (v * amount / ONE) 1).getD 0 := by
  unfold mintFeeOf
  cases s.fee.mintFee <;> simp [part_eq, Nat.max_comm]

theorem feeTransfer_mint (s : State) (c : Addr) (d : Denom) (amount : Nat) :
    feeMsg c d (s.fee.mintFee.map fun v => max (v * amount / ONE) 1) =
      feeTransfer s.fee.mintFee c d (mintFeeOf s amount) := by
  unfold mintFeeOf
  cases s.fee.mintFee <;> simp [feeTransfer, feeMsg, part_eq, Nat.max_comm]

/-- **C03.** `Mint` is accepted exactly when: the pending streaming fee can be collected (giving
`s1`), the contract is neither paused nor rebalancing, the given addresses are valid, every index
denom is attached with at least `max(1, floor(unit·amount))` and no other denom is attached, the fee is at
most the amount, and no result exceeds 128 bits.  On success only the accrual and the supply change, and
the messages are exactly the listed ones. -/
theorem C03_mint_accepted_iff {s s' : State} {env : Env} {info : Info} {amount : Nat}
    {receiver refundTo : Option Addr} {ms : List Msg} (hr : Reachable s)
    (hd : distinct info.funds) :
    execute s env info (.mint amount receiver refundTo) = .ok (s', ms) ↔
      ∃ s1, collectStreamingFee s env.now = .ok s1 ∧
      ¬ pausedAt s env.now ∧ s.rebalance = none ∧
      (∀ x, receiver = some x → env.validAddr x = true) ∧
      (∀ x, refundTo = some x → env.validAddr x = true) ∧
      (∀ e ∈ s1.indexUnits, ∃ c ∈ info.funds, c.denom = e.1 ∧ max 1 (part e.2 amount) ≤ c.amount) ∧
      (∀ c ∈ info.funds, c.denom ∈ s1.indexUnits.map (·.1)) ∧
      mintFeeOf s amount ≤ amount ∧
      (∀ e ∈ s1.indexUnits, part e.2 amount < 2 ^ 128) ∧
      s.totalSupply + amount < 2 ^ 128 ∧
      s' = { s1 with totalSupply := s.totalSupply + amount } ∧
      ms = [.tfMint env.contract env.contract ⟨s.config.indexDenom, amount⟩]
        ++ feeTransfer s.fee.mintFee s.fee.collector s.config.indexDenom (mintFeeOf s amount)
        ++ [.send (receiver.getD info.sender) [⟨s.config.indexDenom, amount - mintFeeOf s amount⟩],
            .send (refundTo.getD info.sender)
              ((info.funds.map fun c => (⟨c.denom, c.amount - keptBy s1.indexUnits amount c.denom⟩ : Coin)).filter
                fun c => c.amount ≠ 0)] := by
  rw [execute_eq_ok]
  apply exists_congr
  intro s1
  simp only [collectsFirst, if_true]
  apply and_congr_right
  intro hc
  obtain ⟨f1, f2, f3, f4, f5, f6, f7, f8, f9, f10, f11⟩ := collectStreamingFee_frame hc
  have hn : s1.indexUnits.denoms.Nodup := (hr.inv.collect hc).nodup
  have hmf : mintFeeOf s amount = mintFeeOf s1 amount := by simp [mintFeeOf, f8]
  have hpa : pausedAt s env.now ↔ pausedAt s1 env.now := by simp [pausedAt, f1]
  change mint s1 env info amount receiver refundTo = .ok (s', ms) ↔ _
  rw [mint_eq_ok, not_pausedAt_iff, ← mintFeeOf_eq, feeTransfer_mint, hmf, hpa, ← f4, ← f3, ← f1, ← f7, ← f8]
  have hU : U128 = 2 ^ 128 := rfl
  constructor
  · rintro ⟨h1, h2, h3, h4, h5, h6, h7, h8, refund, h9, h10⟩
    obtain ⟨r1, r2, r3, r4⟩ := (Units.calcRefund_eq_ok hn hd).1 h9
    refine ⟨h1, h2, h3, h4, ?_, r3, h6, ?_, h7, h8, ?_⟩
    · intro e he
      obtain ⟨c, c1, c2, c3⟩ := r2 e he
      exact ⟨c, c1, c2, by rw [part_eq, Nat.max_comm]; exact c3⟩
    · intro e he; rw [part_eq]; exact r1 e he
    · rw [h10, r4]
      congr 5
      apply List.map_congr_left
      intro c hc
      rw [keptBy_of_mem (r3 c hc)]
  · rintro ⟨h1, h2, h3, h4, h5, h6, h7, h8, h9, h10, h11⟩
    refine ⟨h1, h2, h3, h4, ?_, h7, h9, h10, _, (Units.calcRefund_eq_ok hn hd).2 ⟨?_, ?_, h6, rfl⟩, ?_⟩
    · intro v hv
      simp only [mintFeeOf, hv, part_eq] at h7
      rw [hU]; omega
    · intro e he; rw [← part_eq]; exact h8 e he
    · intro e he
      obtain ⟨c, c1, c2, c3⟩ := h5 e he
      exact ⟨c, c1, c2, by rw [part_eq, Nat.max_comm] at c3; exact c3⟩
    · rw [h11]
      congr 5
      apply List.map_congr_left
      intro c hc
      rw [keptBy_of_mem (h6 c hc)]

example : Reachable Demo.s0 ∧ distinct Demo.mintInfo.funds ∧
    execute Demo.s0 (Demo.env 1000) Demo.mintInfo (.mint 10000 none none) = .ok (Demo.s1, Demo.mintMsgs) :=
  ⟨Demo.s0_reachable, by simp [distinct, Demo.mintInfo], Demo.mint_ok⟩

theorem total_refund {funds : List Coin} {k : Denom → Nat} (hd : distinct funds)
    (h : ∀ c ∈ funds, k c.denom ≤ c.amount) (h0 : ∀ d, d ∉ funds.map (·.denom) → k d = 0) (d : Denom) :
    total d ((funds.map fun c => (⟨c.denom, c.amount - k c.denom⟩ : Coin)).filter fun c => c.amount ≠ 0) + k d
      = total d funds := by
  rw [total_eq, total_eq, amountOf_filter_pos]
  by_cases hm : d ∈ funds.map (·.denom)
  · obtain ⟨c, hc, rfl⟩ := List.mem_map.1 hm
    have h1 := h c hc
    rw [Units.amountOf_of_nodup hd hc]
    have h2 := Units.amountOf_of_nodup (cs := funds.map fun c => (⟨c.denom, c.amount - k c.denom⟩ : Coin))
      (c := ⟨c.denom, c.amount - k c.denom⟩) (by rw [List.map_map]; exact hd) (List.mem_map.2 ⟨c, hc, rfl⟩)
    simp only at h2
    rw [h2]; omega
  · rw [h0 d hm, Units.amountOf_eq_zero hm, Units.amountOf_eq_zero]
    rw [List.map_map]; exact hm

/-- **C02.** A successful mint asks for exactly `amount` new index tokens, sends the fee to the
collector and the rest of them to the receiver, and returns a refund such that, denom by denom, refund
plus `max(1, floor(unit·amount))` (0 for a denom not in the basket) is what was attached. -/
theorem C02_mint_takes_exact_basket {s s' : State} {env : Env} {info : Info} {amount : Nat}
    {receiver refundTo : Option Addr} {ms : List Msg} (hr : Reachable s)
    (hd : distinct info.funds)
    (h : execute s env info (.mint amount receiver refundTo) = .ok (s', ms)) :
    ∃ fee toReceiver refund,
      ms = [.tfMint env.contract env.contract ⟨s.config.indexDenom, amount⟩]
        ++ feeTransfer s.fee.mintFee s.fee.collector s.config.indexDenom fee
        ++ [.send (receiver.getD info.sender) [⟨s.config.indexDenom, toReceiver⟩],
            .send (refundTo.getD info.sender) refund] ∧
      fee + toReceiver = amount ∧
      (∀ r, s.fee.mintFee = some r → fee = max 1 (part r amount)) ∧
      (s.fee.mintFee = none → fee = 0) ∧
      (∀ d u, s'.indexUnits.lookup d = some u → total d refund + max 1 (part u amount) = total d info.funds) ∧
      (∀ d, s'.indexUnits.lookup d = none → total d refund = 0 ∧ total d info.funds = 0) := by
  obtain ⟨s1, hc, _, _, _, _, h5, h6, h7, _, _, rfl, rfl⟩ := (C03_mint_accepted_iff hr hd).1 h
  have hn : s1.indexUnits.denoms.Nodup := (hr.inv.collect hc).nodup
  have key := total_refund (k := keptBy s1.indexUnits amount) hd (by
      intro c hcm
      have hm := h6 c hcm
      obtain ⟨v, hv⟩ := Units.getKey_isSome.2 hm
      obtain ⟨c', c1, c2, c3⟩ := h5 _ (Units.getKey_mem hv)
      simp only at c2 c3
      have e1 := Units.amountOf_of_nodup hd hcm
      have e2 := Units.amountOf_of_nodup hd c1
      rw [c2] at e2
      rw [keptBy, lookup_eq, hv]
      simp only
      omega) (by
      intro d hdm
      rw [keptBy, lookup_eq]
      cases hg : s1.indexUnits.getKey d with
      | none => rfl
      | some v =>
        obtain ⟨c', c1, c2, _⟩ := h5 _ (Units.getKey_mem hg)
        exact absurd (List.mem_map.2 ⟨c', c1, c2⟩) hdm)
  refine ⟨_, _, _, rfl, by omega, ?_, ?_, ?_, ?_⟩
  · intro r hr'; simp [mintFeeOf, hr']
  · intro hr'; simp [mintFeeOf, hr']
  · intro d u hu
    have := key d
    rw [show keptBy s1.indexUnits amount d = max 1 (part u amount) by simp only [keptBy]; rw [hu]] at this
    exact this
  · intro d hu
    have h1 := key d
    rw [show keptBy s1.indexUnits amount d = 0 by simp only [keptBy]; rw [hu]] at h1
    have h2 : total d info.funds = 0 := by
      rw [total_eq]
      apply Units.amountOf_eq_zero
      intro hm
      obtain ⟨c, hcm, rfl⟩ := List.mem_map.1 hm
      rw [lookup_eq] at hu
      exact Units.getKey_eq_none.1 hu (h6 c hcm)
    exact ⟨by rw [h2] at h1; simpa using h1, h2⟩

example : Reachable Demo.s0 ∧ distinct Demo.mintInfo.funds ∧
    execute Demo.s0 (Demo.env 1000) Demo.mintInfo (.mint 10000 none none) = .ok (Demo.s1, Demo.mintMsgs) ∧
    Demo.s1.indexUnits.lookup "uatom" = some 250000000000000000 ∧
    total "uatom" Demo.mintInfo.funds = 3000 ∧ part 250000000000000000 10000 = 2500 :=
  ⟨Demo.s0_reachable, by simp [distinct, Demo.mintInfo], Demo.mint_ok, by decide +kernel, by decide +kernel, by decide +kernel⟩

/-! ### C04: burn -/

/-- The burn fee for `received`. -/
def burnFeeOf (s : State) (received : Nat) : Nat :=
  match s.fee.burnFee with
  | some r => part r received
  | none => 0

theorem burnFeeOf_eq (s : State) (n : Nat) :
    burnFeeOf s n = (s.fee.burnFee.map fun v => v * n / ONE).getD 0 := by
  unfold burnFeeOf
  cases s.fee.burnFee <;> simp [part_eq]

theorem feeTransfer_burn (s : State) (c : Addr) (d : Denom) (n : Nat) :
    feeMsg c d (s.fee.burnFee.map fun v => v * n / ONE) =
      feeTransfer s.fee.burnFee c d (burnFeeOf s n) := by
  unfold burnFeeOf
  cases s.fee.burnFee <;> simp [feeTransfer, feeMsg, part_eq]

theorem burnFeeOf_le {s : State} (hi : Inv s) (n : Nat) : burnFeeOf s n ≤ n := by
  unfold burnFeeOf
  cases h : s.fee.burnFee with
  | none => simp
  | some v =>
    simp only [part_eq]
    have := (hi.burnRate v h).2
    apply Nat.div_le_of_le_mul
    exact Nat.mul_le_mul_right _ this.le

theorem total_units {us : Units} (hn : us.denoms.Nodup) (f : Nat → Nat) (d : Denom) :
    total d (us.map fun e => (⟨e.1, f e.2⟩ : Coin)) = ((us.lookup d).map f).getD 0 := by
  rw [total_eq, lookup_eq]
  cases h : us.getKey d with
  | none =>
    rw [Units.amountOf_eq_zero]; rfl
    rw [List.map_map]; exact Units.getKey_eq_none.1 h
  | some v =>
    have := Units.amountOf_of_nodup (cs := us.map fun e => (⟨e.1, f e.2⟩ : Coin)) (c := ⟨d, f v⟩)
      (by rw [List.map_map]; exact hn) (List.mem_map.2 ⟨(d, v), Units.getKey_mem h, rfl⟩)
    simpa using this

/-- Exact acceptance condition and effect of `Burn`. -/
theorem burn_accepted_iff {s s' : State} {env : Env} {info : Info} {redeemTo : Option Addr}
    {ms : List Msg} (hr : Reachable s) :
    execute s env info (.burn redeemTo) = .ok (s', ms) ↔
      ∃ s1 received, collectStreamingFee s env.now = .ok s1 ∧
      ¬ pausedAt s env.now ∧ s.rebalance = none ∧
      (∀ x, redeemTo = some x → env.validAddr x = true) ∧
      info.funds = [⟨s.config.indexDenom, received⟩] ∧ received ≠ 0 ∧
      part ((s.fee.burnFee).getD 0) received < 2 ^ 128 ∧
      (∀ e ∈ s1.indexUnits, part e.2 (received - burnFeeOf s received) < 2 ^ 128) ∧
      received - burnFeeOf s received ≤ s.totalSupply ∧
      s' = { s1 with totalSupply := s.totalSupply - (received - burnFeeOf s received) } ∧
      ms = [.tfBurn env.contract env.contract ⟨s.config.indexDenom, received - burnFeeOf s received⟩]
        ++ feeTransfer s.fee.burnFee s.fee.collector s.config.indexDenom (burnFeeOf s received)
        ++ [.send (redeemTo.getD info.sender) (sortCoins (s1.indexUnits.map fun e =>
              (⟨e.1, part e.2 (received - burnFeeOf s received)⟩ : Coin)))] := by
  rw [execute_eq_ok]
  apply exists_congr
  intro s1
  simp only [collectsFirst, if_true, exists_and_left]
  apply and_congr_right
  intro hc
  obtain ⟨f1, f2, f3, f4, f5, f6, f7, f8, f9, f10, f11⟩ := collectStreamingFee_frame hc
  have hbf : ∀ n, burnFeeOf s n = burnFeeOf s1 n := by simp [burnFeeOf, f9]
  have hpa : pausedAt s env.now ↔ pausedAt s1 env.now := by simp [pausedAt, f1]
  have hi := hr.inv.collect hc
  change burn s1 env info redeemTo = .ok (s', ms) ↔ _
  rw [burn_eq_ok, not_pausedAt_iff, hpa, ← f4]
  simp only [hbf]
  rw [← f3, ← f1, ← f7, ← f9]
  simp only [part_eq]
  have hU : U128 = 2 ^ 128 := rfl
  constructor
  · rintro ⟨h1, h2, h3, received, fee, b, h4, h5, rfl, h6, rfl, h7, h8, h9, h10, h11⟩
    refine ⟨h1, h2, h3, received, h4, h5, ?_, ?_, ?_, ?_, ?_⟩
    · cases hb : s1.fee.burnFee with
      | none => simp
      | some v => exact h7 v hb
    · rw [burnFeeOf_eq]; exact h8
    · rw [burnFeeOf_eq]; exact h9
    · rw [burnFeeOf_eq]; exact h10
    · rw [h11, feeTransfer_burn, burnFeeOf_eq]
  · rintro ⟨h1, h2, h3, received, h4, h5, h7, h8, h9, h10, h11⟩
    refine ⟨h1, h2, h3, received, _, _, h4, h5, rfl, ?_, rfl, ?_, ?_, ?_, ?_, ?_⟩
    · rw [← burnFeeOf_eq]; exact burnFeeOf_le hi _
    · intro v hv; rw [hv] at h7; exact h7
    · rw [← burnFeeOf_eq]; exact h8
    · rw [← burnFeeOf_eq]; exact h9
    · rw [← burnFeeOf_eq]; exact h10
    · rw [h11, feeTransfer_burn, burnFeeOf_eq]

theorem _root_.Ibcx.Demo.s1_reachable : Reachable Demo.s1 :=
  Reachable.execute Demo.s0_reachable Demo.mint_ok

/-- Alice burns 1000 index tokens at a fee of 2%. -/
example : Reachable Demo.s1 ∧
    (execute Demo.s1 (Demo.env 1010) ⟨"alice", [⟨"factory/core/ibcx", 1000⟩]⟩ (.burn none)).map
      (fun o => (o.1.totalSupply, o.2)) = .ok (9020,
        [.tfBurn "core" "core" ⟨"factory/core/ibcx", 980⟩, .send "collector" [⟨"factory/core/ibcx", 20⟩],
         .send "alice" [⟨"uatom", 244⟩, ⟨"uosmo", 1469⟩]]) :=
  ⟨Demo.s1_reachable, by decide +kernel⟩

/-- **C04.** A successful burn receives index tokens only, splits them exactly into the burned amount and
the fee, pays the redeemer exactly `floor(unit·burned)` of each index denom (and nothing else), in denom
order, and lowers the recorded supply by exactly the burned amount. -/
theorem C04_burn_pays_exact_basket {s s' : State} {env : Env} {info : Info} {redeemTo : Option Addr}
    {ms : List Msg} (hr : Reachable s) (h : execute s env info (.burn redeemTo) = .ok (s', ms)) :
    ∃ received fee burnt redeem,
      info.funds = [⟨s.config.indexDenom, received⟩] ∧ 0 < received ∧
      burnt + fee = received ∧
      (∀ r, s.fee.burnFee = some r → fee = part r received) ∧
      (s.fee.burnFee = none → fee = 0) ∧
      s'.totalSupply + burnt = s.totalSupply ∧
      ms = [.tfBurn env.contract env.contract ⟨s.config.indexDenom, burnt⟩]
        ++ feeTransfer s.fee.burnFee s.fee.collector s.config.indexDenom fee
        ++ [.send (redeemTo.getD info.sender) redeem] ∧
      (redeem.map (·.denom)).Perm (s'.indexUnits.map (·.1)) ∧
      (redeem.map (·.denom)).Pairwise (· ≤ ·) ∧
      (∀ d u, s'.indexUnits.lookup d = some u → total d redeem = part u burnt) ∧
      (∀ d, s'.indexUnits.lookup d = none → total d redeem = 0) := by
  obtain ⟨s1, received, hc, _, _, _, h4, h5, _, _, h9, rfl, rfl⟩ := (burn_accepted_iff hr).1 h
  have hn : s1.indexUnits.denoms.Nodup := (hr.inv.collect hc).nodup
  have hle := burnFeeOf_le hr.inv received
  refine ⟨received, _, _, _, h4, by omega, Nat.sub_add_cancel hle, ?_, ?_, ?_, rfl, ?_, ?_, ?_, ?_⟩
  · intro r hr'; simp [burnFeeOf, hr']
  · intro hr'; simp [burnFeeOf, hr']
  · simp only; omega
  · refine ((sortCoins_perm _).map _).trans ?_
    rw [List.map_map]; exact List.Perm.refl _
  · rw [List.pairwise_map]; exact sortCoins_sorted _
  · intro d u hu
    rw [total_eq, amountOf_sortCoins, ← total_eq,
      total_units hn (fun x => part x (received - burnFeeOf s received))]
    rw [hu]; rfl
  · intro d hu
    rw [total_eq, amountOf_sortCoins, ← total_eq,
      total_units hn (fun x => part x (received - burnFeeOf s received))]
    rw [hu]; rfl

example : Reachable Demo.s1 ∧
    (execute Demo.s1 (Demo.env 1010) ⟨"alice", [⟨"factory/core/ibcx", 1000⟩]⟩ (.burn none)).map
      (fun o => (o.1.totalSupply, o.2)) = .ok (9020,
        [.tfBurn "core" "core" ⟨"factory/core/ibcx", 980⟩, .send "collector" [⟨"factory/core/ibcx", 20⟩],
         .send "alice" [⟨"uatom", 244⟩, ⟨"uosmo", 1469⟩]]) :=
  ⟨Demo.s1_reachable, by decide +kernel⟩

/-! ### C05, C07: no profit from rounding -/

theorem sent_feeTransfer {r : Option Nat} {c : Addr} {i d : Denom} {n : Nat} (h : d ≠ i) :
    sent d (feeTransfer r c i n) = 0 := by
  have h' : i ≠ d := fun e => h e.symm
  unfold feeTransfer
  cases r <;> simp [sent, total, h']

theorem total_single {i d : Denom} {n : Nat} (h : d ≠ i) : total d [⟨i, n⟩] = 0 := by
  have h' : i ≠ d := fun e => h e.symm
  simp [total, h']

/-- Denom by denom, what a mint keeps. -/
theorem mint_kept {s s' : State} {env : Env} {info : Info} {amount : Nat}
    {receiver refundTo : Option Addr} {ms : List Msg} (hr : Reachable s) (hd : distinct info.funds)
    (h : execute s env info (.mint amount receiver refundTo) = .ok (s', ms)) {d : Denom}
    (hne : d ≠ s.config.indexDenom) :
    sent d ms + keptBy s'.indexUnits amount d = total d info.funds := by
  obtain ⟨fee, tr, refund, rfl, _, _, _, h1, h2⟩ := C02_mint_takes_exact_basket hr hd h
  simp only [sent_append, sent_feeTransfer hne]
  simp only [sent, total_single hne]
  unfold keptBy
  cases hl : s'.indexUnits.lookup d with
  | none => simp [h2 d hl]
  | some u => simpa using h1 d u hl

/-- Denom by denom, what a burn pays. -/
theorem burn_paid {s s' : State} {env : Env} {info : Info} {redeemTo : Option Addr}
    {ms : List Msg} (hr : Reachable s) (h : execute s env info (.burn redeemTo) = .ok (s', ms)) {d : Denom}
    (hne : d ≠ s.config.indexDenom) :
    sent d ms = ((s'.indexUnits.lookup d).map fun u =>
      part u (total s.config.indexDenom info.funds - burnFeeOf s (total s.config.indexDenom info.funds))).getD 0 := by
  obtain ⟨received, fee, burnt, redeem, hf, _, hsum, hfee1, hfee2, _, rfl, _, _, h1, h2⟩ :=
    C04_burn_pays_exact_basket hr h
  have ht : total s.config.indexDenom info.funds = received := by rw [hf]; simp [total]
  have hb : burnFeeOf s received = fee := by
    unfold burnFeeOf
    cases hbf : s.fee.burnFee with
    | none => exact (hfee2 hbf).symm
    | some r => exact (hfee1 r hbf).symm
  rw [ht, hb, show received - fee = burnt by omega]
  simp only [sent_append, sent_feeTransfer hne]
  simp only [sent]
  cases hl : s'.indexUnits.lookup d with
  | none => simp [h2 d hl]
  | some u => simpa using h1 d u hl

theorem part_mono {u u' a a' : Nat} (hu : u ≤ u') (ha : a ≤ a') : part u a ≤ part u' a' :=
  Nat.div_le_div_right (Nat.mul_le_mul hu ha)

/-- **C05.** A mint followed (at any later point) by a burn of at most the minted amount, while no unit has
grown, returns of every denom at most what the contract kept at the mint: redeemed + refunded ≤ attached. -/
theorem C05_mint_then_burn_no_profit {s s1 s2 s3 : State} {e1 e2 : Env} {i1 i2 : Info} {amount : Nat}
    {receiver refundTo redeemTo : Option Addr} {m1 m2 : List Msg}
    (hr : Reachable s) (hd : distinct i1.funds)
    (hmint : execute s e1 i1 (.mint amount receiver refundTo) = .ok (s1, m1))
    (hr2 : Reachable s2) (hidx : s2.config.indexDenom = s.config.indexDenom)
    (hburn : execute s2 e2 i2 (.burn redeemTo) = .ok (s3, m2))
    (hamount : total s.config.indexDenom i2.funds ≤ amount)
    (hunits : ∀ d u, s3.indexUnits.lookup d = some u → ∃ u', s1.indexUnits.lookup d = some u' ∧ u ≤ u')
    (d : Denom) (hne : d ≠ s.config.indexDenom) :
    sent d m2 + sent d m1 ≤ total d i1.funds := by
  have h1 := mint_kept hr hd hmint hne
  have h2 := burn_paid hr2 hburn (d := d) (by rw [hidx]; exact hne)
  rw [hidx] at h2
  suffices sent d m2 ≤ keptBy s1.indexUnits amount d by omega
  rw [h2]
  cases hl : s3.indexUnits.lookup d with
  | none => simp
  | some u =>
    obtain ⟨u', hu', hle⟩ := hunits d u hl
    simp only [Option.map_some, Option.getD_some, keptBy, hu']
    refine le_trans (part_mono hle ?_) (Nat.le_max_right _ _)
    omega

example : ∃ s3 m2,
    execute Demo.s0 (Demo.env 1000) Demo.mintInfo (.mint 10000 none none) = .ok (Demo.s1, Demo.mintMsgs) ∧
    Reachable Demo.s1 ∧
    execute Demo.s1 (Demo.env 1000) ⟨"alice", [⟨"factory/core/ibcx", 9900⟩]⟩ (.burn none) = .ok (s3, m2) ∧
    s3.indexUnits = Demo.s1.indexUnits ∧ sent "uosmo" m2 = 14553 ∧ sent "uosmo" Demo.mintMsgs = 0 :=
  ⟨{ Demo.s1 with totalSupply := 298 },
    [.tfBurn "core" "core" ⟨"factory/core/ibcx", 9702⟩, .send "collector" [⟨"factory/core/ibcx", 198⟩],
     .send "alice" [⟨"uatom", 2425⟩, ⟨"uosmo", 14553⟩]],
   Demo.mint_ok, Demo.s1_reachable, by decide +kernel, rfl, by decide +kernel, by decide +kernel⟩

/-- A second accrual in the same second changes nothing. -/
theorem collect_again {s s1 : State} {now n : Nat} (h : collectStreamingFee s now = .ok s1) :
    collectStreamingFee { s1 with totalSupply := n } now = .ok { s1 with totalSupply := n } := by
  rw [collectStreamingFee_eq_ok]
  rcases collectStreamingFee_eq_ok.1 h with ⟨h1, rfl⟩ | ⟨sf, sf', us', h1, h2, rfl⟩
  · exact .inl ⟨h1, rfl⟩
  · right
    refine ⟨sf', sf', us', rfl, ?_, rfl⟩
    rw [collect_eq_ok]
    obtain ⟨hle, h3⟩ := collect_eq_ok.1 h2
    rcases h3 with ⟨h4, rfl, rfl⟩ | ⟨_, _, _, k, _, _, _, col, _, rfl, rfl⟩
    · exact ⟨hle, .inl ⟨h4, rfl, rfl⟩⟩
    · exact ⟨le_refl _, .inl ⟨.inr rfl, rfl, rfl⟩⟩

theorem execute_accrued {s s' : State} {env : Env} {info : Info} {msg : ExecMsg} {ms : List Msg}
    (hc : collectsFirst msg = true) (hm : (∃ a r f, msg = .mint a r f) ∨ (∃ r, msg = .burn r))
    (h : execute s env info msg = .ok (s', ms)) :
    ∃ s1 n, collectStreamingFee s env.now = .ok s1 ∧ s' = { s1 with totalSupply := n } := by
  obtain ⟨s1, h1, h2⟩ := execute_eq_ok.1 h
  rw [if_pos hc] at h1
  refine ⟨s1, ?_⟩
  rcases hm with ⟨a, r, f, rfl⟩ | ⟨r, rfl⟩
  · obtain ⟨_, _, _, _, _, _, _, rfl, _⟩ := mint_eq_ok.1 h2
    exact ⟨_, h1, rfl⟩
  · obtain ⟨_, _, _, _, _, _, _, _, _, _, _, _, _, _, rfl, _⟩ := burn_eq_ok.1 h2
    exact ⟨_, h1, rfl⟩

/-- Two mints or burns in the same second work with the same units. -/
theorem same_second_units {s s1 s2 s' : State} {e1 e2 e : Env} {i1 i2 i : Info} {g1 g2 g : ExecMsg}
    {m1 m2 m : List Msg}
    (hg1 : (∃ a r f, g1 = .mint a r f) ∨ (∃ r, g1 = .burn r))
    (hg2 : (∃ a r f, g2 = .mint a r f) ∨ (∃ r, g2 = .burn r))
    (hg : (∃ a r f, g = .mint a r f) ∨ (∃ r, g = .burn r))
    (h1 : execute s e1 i1 g1 = .ok (s1, m1)) (h2 : execute s1 e2 i2 g2 = .ok (s2, m2))
    (h : execute s e i g = .ok (s', m)) (ht : e1.now = e.now) (ht2 : e2.now = e.now) :
    s1.indexUnits = s'.indexUnits ∧ s2.indexUnits = s'.indexUnits ∧ s1.fee = s'.fee ∧
      s1.config = s.config ∧ s1.fee.mintFee = s.fee.mintFee ∧ s1.fee.burnFee = s.fee.burnFee := by
  have hcf : ∀ g : ExecMsg, ((∃ a r f, g = .mint a r f) ∨ (∃ r, g = .burn r)) → collectsFirst g = true := by
    rintro g (⟨a, r, f, rfl⟩ | ⟨r, rfl⟩) <;> rfl
  obtain ⟨t1, n1, c1, rfl⟩ := execute_accrued (hcf _ hg1) hg1 h1
  obtain ⟨t2, n2, c2, rfl⟩ := execute_accrued (hcf _ hg2) hg2 h2
  obtain ⟨t, n, c, rfl⟩ := execute_accrued (hcf _ hg) hg h
  have f := collectStreamingFee_frame c1
  rw [ht] at c1
  rw [c] at c1
  cases c1
  rw [ht2, collect_again c] at c2
  cases c2
  exact ⟨rfl, rfl, rfl, f.1, f.2.2.2.2.2.2.2.1, f.2.2.2.2.2.2.2.2.1⟩

theorem part_add (u a b : Nat) : part u a + part u b ≤ part u (a + b) ∧ part u (a + b) ≤ part u a + part u b + 1 := by
  unfold part
  rw [Nat.mul_add]
  generalize u * a = x
  generalize u * b = y
  omega

theorem keptBy_add (us : Units) (a b : Nat) (d : Denom) :
    keptBy us (a + b) d ≤ keptBy us a d + keptBy us b d + 1 := by
  unfold keptBy
  cases us.lookup d with
  | none => simp
  | some u =>
    simp only
    have := part_add u a b
    omega

/-- The full claim C07, burning: splitting a burn is never profitable. -/
def C07_burn_full : Prop :=
  ∀ (s s1 s2 s' : State) (e1 e2 e : Env) (i1 i2 i : Info) (r1 r2 r : Option Addr) (m1 m2 m : List Msg),
    Reachable s →
    execute s e1 i1 (.burn r1) = .ok (s1, m1) → execute s1 e2 i2 (.burn r2) = .ok (s2, m2) →
    execute s e i (.burn r) = .ok (s', m) → e1.now = e.now → e2.now = e.now →
    total s.config.indexDenom i.funds = total s.config.indexDenom i1.funds + total s.config.indexDenom i2.funds →
    ∀ d, d ≠ s.config.indexDenom → sent d m1 + sent d m2 ≤ sent d m

/-- The full claim C07, minting: splitting a mint is never cheaper. -/
def C07_mint_full : Prop :=
  ∀ (s s1 s2 s' : State) (e1 e2 e : Env) (i1 i2 i : Info) (a1 a2 : Nat)
    (r1 r2 r f1 f2 f : Option Addr) (m1 m2 m : List Msg),
    Reachable s → distinct i1.funds → distinct i2.funds → distinct i.funds →
    execute s e1 i1 (.mint a1 r1 f1) = .ok (s1, m1) → execute s1 e2 i2 (.mint a2 r2 f2) = .ok (s2, m2) →
    execute s e i (.mint (a1 + a2) r f) = .ok (s', m) → e1.now = e.now → e2.now = e.now →
    ∀ d, d ≠ s.config.indexDenom →
      total d i.funds - sent d m ≤ (total d i1.funds - sent d m1) + (total d i2.funds - sent d m2)

/-- **C07, partial.** What is true: without a burn fee, burning in two parts in one second pays at most what
burning at once pays; with a fee it can pay more, by at most `floor(unit) + 1` base units per denom.
Minting in two parts costs, per denom, at least the cost of minting at once minus one base unit.
Missing from the full claim: the exact inequalities without these allowances, refuted by
`C07_burn_full_false` and `C07_mint_full_false`. -/
theorem C07_splitting_partial :
    (∀ (s s1 s2 s' : State) (e1 e2 e : Env) (i1 i2 i : Info) (r1 r2 r : Option Addr) (m1 m2 m : List Msg),
      Reachable s →
      execute s e1 i1 (.burn r1) = .ok (s1, m1) → execute s1 e2 i2 (.burn r2) = .ok (s2, m2) →
      execute s e i (.burn r) = .ok (s', m) → e1.now = e.now → e2.now = e.now →
      total s.config.indexDenom i.funds = total s.config.indexDenom i1.funds + total s.config.indexDenom i2.funds →
      ∀ d, d ≠ s.config.indexDenom →
        (s.fee.burnFee = none → sent d m1 + sent d m2 ≤ sent d m) ∧
        (∀ u, s'.indexUnits.lookup d = some u → sent d m1 + sent d m2 ≤ sent d m + part u 1 + 1) ∧
        (s'.indexUnits.lookup d = none → sent d m1 + sent d m2 = 0)) ∧
    (∀ (s s1 s2 s' : State) (e1 e2 e : Env) (i1 i2 i : Info) (a1 a2 : Nat)
      (r1 r2 r f1 f2 f : Option Addr) (m1 m2 m : List Msg),
      Reachable s → distinct i1.funds → distinct i2.funds → distinct i.funds →
      execute s e1 i1 (.mint a1 r1 f1) = .ok (s1, m1) → execute s1 e2 i2 (.mint a2 r2 f2) = .ok (s2, m2) →
      execute s e i (.mint (a1 + a2) r f) = .ok (s', m) → e1.now = e.now → e2.now = e.now →
      ∀ d, d ≠ s.config.indexDenom →
        total d i.funds - sent d m ≤ (total d i1.funds - sent d m1) + (total d i2.funds - sent d m2) + 1) := by
  constructor
  · intro s s1 s2 s' e1 e2 e i1 i2 i r1 r2 r m1 m2 m hr h1 h2 h ht1 ht2 hsum d hne
    obtain ⟨u1, u2, u3, u4, _, u6⟩ := same_second_units (.inr ⟨_, rfl⟩) (.inr ⟨_, rfl⟩) (.inr ⟨_, rfl⟩) h1 h2 h ht1 ht2
    have p1 := burn_paid hr h1 hne
    have p2 := burn_paid (hr.execute h1) h2 (d := d) (by rw [u4]; exact hne)
    have p := burn_paid hr h hne
    have hbf : ∀ n, burnFeeOf s1 n = burnFeeOf s n := by simp [burnFeeOf, u6]
    rw [u1] at p1
    rw [u2, hbf, u4] at p2
    rw [p1, p2, p, hsum]
    have b1 := burnFeeOf_le hr.inv (total s.config.indexDenom i1.funds)
    have b2 := burnFeeOf_le hr.inv (total s.config.indexDenom i2.funds)
    generalize total s.config.indexDenom i1.funds = x at *
    generalize total s.config.indexDenom i2.funds = y at *
    refine ⟨?_, ?_, ?_⟩
    · intro hnf
      have : ∀ n, burnFeeOf s n = 0 := by simp [burnFeeOf, hnf]
      simp only [this, Nat.sub_zero]
      cases s'.indexUnits.lookup d with
      | none => simp
      | some u => simpa using (part_add u x y).1
    · intro u hu
      rw [hu]
      simp only [Option.map_some, Option.getD_some]
      have hb : (x - burnFeeOf s x) + (y - burnFeeOf s y) ≤ (x + y - burnFeeOf s (x + y)) + 1 := by
        unfold burnFeeOf at *
        cases hf : s.fee.burnFee with
        | none => simp
        | some v =>
          simp only [hf] at b1 b2 ⊢
          have := part_add v x y
          omega
      have q1 := (part_add u (x - burnFeeOf s x) (y - burnFeeOf s y)).1
      have q2 := part_mono (le_refl u) hb
      have q3 := (part_add u (x + y - burnFeeOf s (x + y)) 1).2
      omega
    · intro hu
      rw [hu]; rfl
  · intro s s1 s2 s' e1 e2 e i1 i2 i a1 a2 r1 r2 r f1 f2 f m1 m2 m hr hd1 hd2 hd h1 h2 h ht1 ht2 d hne
    obtain ⟨u1, u2, u3, u4, _, _⟩ := same_second_units (.inl ⟨_, _, _, rfl⟩) (.inl ⟨_, _, _, rfl⟩)
      (.inl ⟨_, _, _, rfl⟩) h1 h2 h ht1 ht2
    have p1 := mint_kept hr hd1 h1 hne
    have p2 := mint_kept (hr.execute h1) hd2 h2 (d := d) (by rw [u4]; exact hne)
    have p := mint_kept hr hd h hne
    rw [u1] at p1
    rw [u2] at p2
    have := keptBy_add s'.indexUnits a1 a2 d
    omega

/-- A burn of 50 pays 73 uosmo, two burns of 25 pay 37 each: one more than at once, where two more are allowed. -/
example : Reachable Demo.s1 ∧
    (execute Demo.s1 (Demo.env 1000) ⟨"bob", [⟨"factory/core/ibcx", 25⟩]⟩ (.burn none)).map
      (fun o => sent "uosmo" o.2) = .ok 37 ∧
    ((execute Demo.s1 (Demo.env 1000) ⟨"bob", [⟨"factory/core/ibcx", 25⟩]⟩ (.burn none)).bind fun o =>
      execute o.1 (Demo.env 1000) ⟨"bob", [⟨"factory/core/ibcx", 25⟩]⟩ (.burn none)).map
      (fun o => sent "uosmo" o.2) = .ok 37 ∧
    (execute Demo.s1 (Demo.env 1000) ⟨"bob", [⟨"factory/core/ibcx", 50⟩]⟩ (.burn none)).map
      (fun o => sent "uosmo" o.2) = .ok 73 :=
  ⟨Demo.s1_reachable, by decide +kernel, by decide +kernel, by decide +kernel⟩

theorem ok_ex {α β : Type} {x : Except Err (α × β)} (h : x.isOk = true) : ∃ a b, x = .ok (a, b) := by
  match x with
  | .ok (a, b) => exact ⟨a, b, rfl⟩
  | .error _ => simp [Except.isOk, Except.toBool] at h

/-- Splitting a burn of 50 into 25 + 25 avoids the fee of 1 and pays 74 instead of 73. -/
theorem C07_burn_full_false : ¬ C07_burn_full := by
  intro h
  have := h Demo.s1 { Demo.s1 with totalSupply := 9975 } { Demo.s1 with totalSupply := 9950 }
    { Demo.s1 with totalSupply := 9951 } (Demo.env 1000) (Demo.env 1000) (Demo.env 1000)
    ⟨"bob", [⟨"factory/core/ibcx", 25⟩]⟩ ⟨"bob", [⟨"factory/core/ibcx", 25⟩]⟩
    ⟨"bob", [⟨"factory/core/ibcx", 50⟩]⟩ none none none
    [.tfBurn "core" "core" ⟨"factory/core/ibcx", 25⟩, .send "collector" [⟨"factory/core/ibcx", 0⟩],
     .send "bob" [⟨"uatom", 6⟩, ⟨"uosmo", 37⟩]]
    [.tfBurn "core" "core" ⟨"factory/core/ibcx", 25⟩, .send "collector" [⟨"factory/core/ibcx", 0⟩],
     .send "bob" [⟨"uatom", 6⟩, ⟨"uosmo", 37⟩]]
    [.tfBurn "core" "core" ⟨"factory/core/ibcx", 49⟩, .send "collector" [⟨"factory/core/ibcx", 1⟩],
     .send "bob" [⟨"uatom", 12⟩, ⟨"uosmo", 73⟩]]
    Demo.s1_reachable (by decide +kernel) (by decide +kernel) (by decide +kernel) rfl rfl (by decide +kernel)
    "uosmo" (by decide +kernel)
  revert this
  decide +kernel

/-- Minting 3 + 3 costs 8 uosmo, minting 6 at once costs 9. -/
theorem C07_mint_full_false : ¬ C07_mint_full := by
  intro h
  have := h Demo.s0 { Demo.s0 with totalSupply := 3 } { Demo.s0 with totalSupply := 6 }
    { Demo.s0 with totalSupply := 6 } (Demo.env 1000) (Demo.env 1000) (Demo.env 1000)
    ⟨"bob", [⟨"uatom", 1⟩, ⟨"uosmo", 4⟩]⟩ ⟨"bob", [⟨"uatom", 1⟩, ⟨"uosmo", 4⟩]⟩
    ⟨"bob", [⟨"uatom", 1⟩, ⟨"uosmo", 9⟩]⟩ 3 3 none none none none none none
    [.tfMint "core" "core" ⟨"factory/core/ibcx", 3⟩, .send "collector" [⟨"factory/core/ibcx", 1⟩],
     .send "bob" [⟨"factory/core/ibcx", 2⟩], .send "bob" []]
    [.tfMint "core" "core" ⟨"factory/core/ibcx", 3⟩, .send "collector" [⟨"factory/core/ibcx", 1⟩],
     .send "bob" [⟨"factory/core/ibcx", 2⟩], .send "bob" []]
    [.tfMint "core" "core" ⟨"factory/core/ibcx", 6⟩, .send "collector" [⟨"factory/core/ibcx", 1⟩],
     .send "bob" [⟨"factory/core/ibcx", 5⟩], .send "bob" []]
    Demo.s0_reachable (by simp [distinct]) (by simp [distinct]) (by simp [distinct])
    (by decide +kernel) (by decide +kernel) (by decide +kernel) rfl rfl "uosmo" (by decide +kernel)
  revert this
  decide +kernel

end Ibcx.Props
