import Verif.Chain.Lemmas
/-!
# Property C06: collateralisation, and the chain form of C01
-/

namespace Ibcx.Props
open Ibcx Ibcx.Core Ibcx.Spec Ibcx.Chain

/-- Sum of the units parked in the rebalance reserve. -/
def parked (s : State) : Nat := ((s.reserveUnits.getD []).map (·.2)).sum

/-- What the contract owes in denom `d`, in multiples of `10^-18` base units: the units of all index tokens
(for the reserve denom also the units parked for a running rebalance) and the uncollected streaming fee. -/
def owed (s : State) (d : Denom) : Nat :=
  (unitIn s d + if d = s.config.reserveDenom then parked s else 0) * s.totalSupply
    + 1000000000000000000 * uncollected s d

theorem part_mul_le (u a : Nat) : 1000000000000000000 * part u a ≤ u * a := Nat.mul_div_le _ _

theorem le_part_mul (u a : Nat) : u * a ≤ 999999999999999999 + 1000000000000000000 * part u a := by
  unfold part
  have h1 := Nat.div_add_mod (u * a) 1000000000000000000
  have h2 := Nat.mod_lt (u * a) (show 0 < 1000000000000000000 by norm_num)
  omega

theorem parked_none {s : State} (h : s.reserveUnits = none) : parked s = 0 := by simp [parked, h]

private theorem arith_mint {P Q u S a q K O refund funds : Nat} (hQ : Q + 1 = P) (h : u * S + P * K ≤ O)
    (hf : refund + max 1 q = funds) (hq : u * a ≤ Q + P * q) :
    u * (S + a) + P * K + P * refund ≤ Q + (O + P * funds) := by
  have h2 : q ≤ max 1 q := Nat.le_max_right _ _
  have h3 : P * q ≤ P * max 1 q := Nat.mul_le_mul_left _ h2
  rw [← hf, Nat.mul_add, Nat.mul_add]
  omega

private theorem arith_burn {P u S S' b q K O : Nat} (h : u * S + P * K ≤ O) (hs : S' + b = S) (hq : P * q ≤ u * b) :
    u * S' + P * K + P * q ≤ O := by
  rw [← hs, Nat.mul_add] at h
  omega

private theorem arith_collect {P u u' p S K x q : Nat} (hu : u = u' + x) (hq : P * q ≤ x * S) :
    (u' + p) * S + P * (K + q) ≤ (u + p) * S + P * K := by
  subst hu
  have : (u' + x + p) * S = (u' + p) * S + x * S := by ring
  rw [this, Nat.mul_add]
  omega

/-- Charging the streaming fee does not increase what is owed. -/
theorem owed_collect {s s1 : State} {now : Nat} (hr : Reachable s) (h : collectStreamingFee s now = .ok s1)
    (d : Denom) : owed s1 d ≤ owed s d := by
  have hc := charge_step hr h d
  obtain ⟨f1, _, f3, _, f5, _⟩ := collectStreamingFee_frame h
  have hle : unitIn s1 d ≤ unitIn s d := by
    obtain ⟨_, _, _, _, _, _, _, _, _, _, ⟨k, k1, k2, _⟩, _⟩ := C10_accrual_conserves hr h
    unfold unitIn
    cases hl : s.indexUnits.lookup d with
    | none => rw [(k2 d hl).1]
    | some u =>
      obtain ⟨u', a, b, _⟩ := k1 d u hl
      rw [a]; simp only [Option.getD_some]; omega
  unfold owed
  rw [hc, f1, f3]
  have hp : parked s1 = parked s := by simp [parked, f5]
  rw [hp]
  obtain ⟨x, hx⟩ := Nat.exists_eq_add_of_le hle
  have hp := part_mul_le (unitIn s d - unitIn s1 d) s.totalSupply
  rw [show unitIn s d - unitIn s1 d = x by omega] at hp ⊢
  exact arith_collect hx hp

/-- The message is a mint. -/
def isMint : ExecMsg → Bool
  | .mint .. => true
  | _ => false

theorem owed_quiet {s : State} (h : s.rebalance = none) (hr : Reachable s) (d : Denom) :
    owed s d = unitIn s d * s.totalSupply + 1000000000000000000 * uncollected s d := by
  simp [owed, parked_none (hr.inv.resNone h)]

/-- The mint case. -/
theorem owed_mint {s s' : State} {env : Env} {info : Info} {a : Nat} {r f : Option Addr} {ms : List Msg}
    (hr : Reachable s) (hf : distinct info.funds) (h : execute s env info (.mint a r f) = .ok (s', ms))
    {d : Denom} (hd : d ≠ s.config.indexDenom) :
    owed s' d + 1000000000000000000 * sent d ms ≤
      999999999999999999 + (owed s d + 1000000000000000000 * total d info.funds) := by
  obtain ⟨fee, toR, refund, hms, _, _, _, h4, h5⟩ := C02_mint_takes_exact_basket hr hf h
  have hr' := hr.execute h
  obtain ⟨s1, hc, hx⟩ := execute_eq_ok.1 h
  have hle := owed_collect hr hc d
  obtain ⟨_, _, _, f4, f5, _⟩ := collectStreamingFee_frame hc
  obtain ⟨_, hreb, _, _, _, _, _, hs', _⟩ := mint_eq_ok.1 hx
  have hq' : owed s' d = unitIn s' d * s'.totalSupply + 1000000000000000000 * uncollected s' d :=
    owed_quiet (by rw [hs']; exact hreb) hr' d
  have hq1 : owed s1 d = unitIn s1 d * s1.totalSupply + 1000000000000000000 * uncollected s1 d := by
    simp [owed, parked_none (s := s1) (by rw [f5]; exact hr.inv.resNone (by rw [← f4]; exact hreb))]
  have e1 : unitIn s' d = unitIn s1 d := by rw [hs']; rfl
  have e2 : uncollected s' d = uncollected s1 d := by rw [hs']; rfl
  have e3 : s'.totalSupply = s1.totalSupply + a := by rw [hs']
  have hsent : sent d ms = total d refund := by
    rw [hms]
    simp [sent_append, sent, sent_feeTransfer hd]
    simp [total, Ne.symm hd]
  rw [hq', e1, e2, e3, hsent]
  rw [hq1] at hle
  rw [← e1] at hle ⊢
  cases hl : s'.indexUnits.lookup d with
  | none =>
    obtain ⟨g1, g2⟩ := h5 d hl
    have hu : unitIn s' d = 0 := by simp [unitIn, hl]
    rw [hu] at hle ⊢
    rw [g1, g2]
    simp only [Nat.zero_mul] at hle ⊢
    omega
  | some u =>
    have hu : unitIn s' d = u := by simp [unitIn, hl]
    rw [hu] at hle ⊢
    exact arith_mint (by norm_num) hle (h4 d u hl) (le_part_mul u a)

/-- The burn case. -/
theorem owed_burn {s s' : State} {env : Env} {info : Info} {r : Option Addr} {ms : List Msg}
    (hr : Reachable s) (h : execute s env info (.burn r) = .ok (s', ms))
    {d : Denom} (hd : d ≠ s.config.indexDenom) :
    owed s' d + 1000000000000000000 * sent d ms ≤ owed s d := by
  obtain ⟨received, fee, burnt, redeem, _, _, _, _, _, h6, hms, _, _, h7, h8⟩ := C04_burn_pays_exact_basket hr h
  have hr' := hr.execute h
  obtain ⟨s1, hc, hx⟩ := execute_eq_ok.1 h
  have hle := owed_collect hr hc d
  obtain ⟨_, _, f3, f4, f5, _⟩ := collectStreamingFee_frame hc
  obtain ⟨_, hreb, _, _, _, _, _, _, _, _, _, _, _, _, hs', _⟩ := burn_eq_ok.1 hx
  have hq' : owed s' d = unitIn s' d * s'.totalSupply + 1000000000000000000 * uncollected s' d :=
    owed_quiet (by rw [hs']; exact hreb) hr' d
  have hq1 : owed s1 d = unitIn s1 d * s1.totalSupply + 1000000000000000000 * uncollected s1 d := by
    simp [owed, parked_none (s := s1) (by rw [f5]; exact hr.inv.resNone (by rw [← f4]; exact hreb))]
  have e1 : unitIn s' d = unitIn s1 d := by rw [hs']; rfl
  have e2 : uncollected s' d = uncollected s1 d := by rw [hs']; rfl
  have hsent : sent d ms = total d redeem := by
    rw [hms]
    simp [sent_append, sent, sent_feeTransfer hd]
  rw [hq', e1, e2, hsent]
  rw [hq1, f3] at hle
  rw [← e1] at hle ⊢
  cases hl : s'.indexUnits.lookup d with
  | none =>
    have hu : unitIn s' d = 0 := by simp [unitIn, hl]
    rw [hu] at hle ⊢
    rw [h8 d hl]
    simp only [Nat.zero_mul] at hle ⊢
    omega
  | some u =>
    have hu : unitIn s' d = u := by simp [unitIn, hl]
    rw [hu] at hle ⊢
    rw [h7 d u hl]
    exact arith_burn hle h6 (part_mul_le u burnt)

/-- All other accepted messages that send no swap. -/
theorem owed_other {s s' : State} {env : Env} {info : Info} {msg : ExecMsg} {ms : List Msg} (hr : Reachable s)
    (h : execute s env info msg = .ok (s', ms)) (hs : ∀ m ∈ ms, isSwap m = false)
    (hm : ∀ a r f, msg ≠ .mint a r f) (hb : ∀ r, msg ≠ .burn r) (d : Denom) :
    owed s' d + 1000000000000000000 * sent d ms ≤ owed s d := by
  obtain ⟨s1, hc, hx⟩ := execute_eq_ok.1 h
  cases msg with
  | mint a r f => exact absurd rfl (hm a r f)
  | burn r => exact absurd rfl (hb r)
  | realize =>
    have hle := owed_collect hr hc d
    obtain ⟨_, hz⟩ := realize_eq_ok.1 hx
    rcases hz with ⟨_, rfl, rfl⟩ | ⟨sf, hsf, rfl, rfl⟩
    · simpa [sent] using hle
    · refine le_trans (le_of_eq ?_) hle
      simp [owed, unitIn, parked, uncollected, hsf, sent, total]
  | gov m =>
    cases m with
    | updateFeeStrategy p =>
      have hle := owed_collect hr hc d
      obtain ⟨_, _, _, _, _, _, rfl, rfl⟩ := updateFee_eq_ok.1 hx
      refine le_trans ?_ hle
      have hz : uncollected { s1 with fee :=
        { collector := p.collector, mintFee := p.mintFee, burnFee := p.burnFee
          streamingFee := p.streamingFee.map fun sf =>
            { rate := sf.rate, collected := [], freeze := sf.freeze, lastCollectedAt := env.now } } } d = 0 := by
        cases hp : p.streamingFee <;> simp [uncollected, total, hp]
      unfold owed
      rw [hz]
      simp only [unitIn, parked, sent]
      omega
    | pause e =>
      simp [collectsFirst] at hc; subst hc
      obtain ⟨a, b, c, rfl, rfl⟩ := pause_eq_ok.1 hx; simp [owed, unitIn, parked, uncollected, sent]
    | release =>
      simp [collectsFirst] at hc; subst hc
      obtain ⟨a, b, rfl, rfl⟩ := release_eq_ok.1 hx; simp [owed, unitIn, parked, uncollected, sent]
    | updateGov g =>
      simp [collectsFirst] at hc; subst hc
      obtain ⟨a, b, _, rfl, rfl⟩ := updateGov_eq_ok.1 hx; simp [owed, unitIn, parked, uncollected, sent]
    | acceptGov =>
      simp [collectsFirst] at hc; subst hc
      obtain ⟨a, rfl, rfl⟩ := acceptGov_eq_ok.1 hx; simp [owed, unitIn, parked, uncollected, sent]
    | revokeGov =>
      simp [collectsFirst] at hc; subst hc
      obtain ⟨_, a, rfl, rfl⟩ := revokeGov_eq_ok.1 hx; simp [owed, unitIn, parked, uncollected, sent]
    | updateRebalanceManager m =>
      simp [collectsFirst] at hc; subst hc
      obtain ⟨_, _, ⟨r, hr, rfl⟩, rfl⟩ := updateRebalanceManager_eq_ok.1 hx
      simp [owed, unitIn, parked, uncollected, sent]
    | updateReserveDenom d' =>
      simp [collectsFirst] at hc; subst hc
      obtain ⟨a, b, rfl, rfl⟩ := updateReserveDenom_eq_ok.1 hx
      have := hr.inv.resNone b
      simp [owed, unitIn, parked, uncollected, sent, this]
    | updateTradeInfo d rs c m =>
      simp [collectsFirst] at hc; subst hc
      obtain ⟨_, ⟨r, rs', hrs, rfl⟩, rfl⟩ := updateTradeInfo_eq_ok.1 hx
      simp [owed, unitIn, parked, uncollected, sent]
  | rebalance m =>
    cases m with
    | init m de inf =>
      have hle := owed_collect hr hc d
      obtain ⟨_, _, _, _, f5, _⟩ := collectStreamingFee_frame hc
      obtain ⟨_, _, _, _, _, _, _, rfl, rfl⟩ := init_eq_ok.1 hx
      refine le_trans ?_ hle
      have hz : uncollected { s1 with
          fee := { s1.fee with streamingFee := s1.fee.streamingFee.map fun sf => { sf with freeze := true } }
          rebalance := some { manager := m, deflation := de, inflation := inf }
          reserveUnits := some [] } d = uncollected s1 d := by
        cases hp : s1.fee.streamingFee <;> simp [uncollected, hp]
      unfold owed
      rw [hz]
      simp only [unitIn, parked, sent, Option.getD_some, List.map_nil, List.sum_nil, ite_self, Nat.add_zero,
        Nat.zero_mul]
      exact Nat.add_le_add_right (Nat.mul_le_mul_right _ (Nat.le_add_right _ _)) _
    | finalize =>
      simp [collectsFirst] at hc; subst hc
      obtain ⟨r, res, _, hres, _, _, _, rfl, rfl⟩ := finalize_eq_ok.1 hx
      have hz : uncollected { s1 with
        fee := { s1.fee with streamingFee := s1.fee.streamingFee.map fun sf =>
          { sf with freeze := false, lastCollectedAt := env.now } }
        indexUnits := s1.indexUnits.filter (fun e => e.2 ≠ 0)
        rebalance := none
        reserveUnits := none } d = uncollected s1 d := by
        cases hp : s1.fee.streamingFee <;> simp [uncollected, hp]
      have hu : unitIn { s1 with
        fee := { s1.fee with streamingFee := s1.fee.streamingFee.map fun sf =>
          { sf with freeze := false, lastCollectedAt := env.now } }
        indexUnits := s1.indexUnits.filter (fun e => e.2 ≠ 0)
        rebalance := none
        reserveUnits := none } d = unitIn s1 d := by
        unfold unitIn
        rw [lookup_eq, lookup_eq]
        simp only
        rw [getKey_filter hr.inv.nodup]
        cases hk : s1.indexUnits.getKey d with
        | none => rfl
        | some v =>
          simp only [Option.bind_some, Option.getD_some]
          split <;> simp_all
      unfold owed
      rw [hz, hu]
      simp only [parked, sent, Option.getD_none, List.map_nil, List.sum_nil, ite_self, Nat.add_zero, Nat.zero_mul]
      exact Nat.add_le_add_right (Nat.mul_le_mul_right _ (Nat.le_add_right _ _)) _
    | trade m =>
      have hx := execute_trade.1 h
      obtain ⟨r, hreb, _, h⟩ := trade_eq_ok.1 hx
      rcases h with ⟨d', _, _, _, hd', h⟩ | ⟨d', _, _, _, _, h⟩ | ⟨d', _, _, _, hd', h⟩ | ⟨d', _, _, _, _, h⟩
      · obtain ⟨res, target', current, us', res', h1, h2, h3, h4, _, h6, h7, rfl, rfl⟩ := deflateReserve_eq_ok.1 h
        obtain ⟨u, k1, k2, k3, _⟩ := Units.subKey_eq_ok h6
        obtain ⟨_, _, _, _, _, i6⟩ := inflateReserveUnit_spec h7
        have i6' : (res'.map (·.2)).sum ≤ (res.map (·.2)).sum + (current - target') := i6
        simp only [owed, unitIn, parked, uncollected, lookup_eq, sent, Nat.mul_zero, Nat.add_zero, h1,
          Option.getD_some]
        apply Nat.add_le_add_right
        apply Nat.mul_le_mul_right
        rw [k3]
        by_cases e : d = d'
        · subst e
          rw [if_pos rfl, k1, if_pos hd'.symm, if_pos hd'.symm]
          simp only [Option.getD_some]
          omega
        · rw [if_neg e, if_neg (fun x => e (x.trans hd')), if_neg (fun x => e (x.trans hd'))]
      · obtain ⟨t, _, _, _, _, _, _, ht, _, _, _, _, _, _, _, _, _, _, _, _, _, _, _, _, rfl, rfl⟩ := deflate_eq_ok.1 h
        simp [isSwap] at hs
      · obtain ⟨res, unit, us', res', h1, h2, _, h4, h5, rfl, rfl⟩ := inflateReserve_eq_ok.1 h
        have k3 := (Units.addKey_eq_ok h4).1
        have i6 := subKey_total h5
        have i6' : (res'.map (·.2)).sum + unit = (res.map (·.2)).sum := i6
        simp only [owed, unitIn, parked, uncollected, lookup_eq, sent, Nat.mul_zero, Nat.add_zero, h1,
          Option.getD_some]
        apply Nat.add_le_add_right
        apply Nat.mul_le_mul_right
        rw [k3]
        by_cases e : d = d'
        · subst e
          rw [if_pos rfl, if_pos hd'.symm, if_pos hd'.symm]
          simp only [Option.getD_some]
          omega
        · rw [if_neg e, if_neg (fun x => e (x.trans hd')), if_neg (fun x => e (x.trans hd'))]
      · obtain ⟨t, _, _, _, _, _, ht, _, _, _, _, _, _, _, _, _, _, _, _, _, _, rfl, rfl⟩ := inflate_eq_ok.1 h
        simp [isSwap] at hs

private theorem arith_buy {P S u x q K p : Nat} (h : q * S ≤ P * x) :
    (u + q + p) * S + P * K ≤ (u + p) * S + P * K + P * x := by
  have : (u + q + p) * S = (u + p) * S + q * S := by ring
  rw [this]; omega

private theorem arith_buy' {P S u x q K : Nat} (h : q * S ≤ P * x) :
    (u + q + 0) * S + P * K ≤ (u + 0) * S + P * K + P * x := arith_buy h

private theorem div_mul_le_comm (x o S : Nat) : x * o / S * S ≤ o * x := by
  rw [Nat.mul_comm o x]
  exact Nat.div_mul_le_self _ _

private theorem arith_spend {P S u p p' x q K : Nat} (hp : p' + q = p) (hq : P * x ≤ (S - 1) + q * S) :
    (u + p') * S + P * K + P * x ≤ (S - 1) + ((u + p) * S + P * K) := by
  have : (u + p) * S = (u + p') * S + q * S := by rw [← hp]; ring
  rw [this]; omega

theorem le_div_mul_add (n S : Nat) (h : S ≠ 0) : n ≤ (S - 1) + n / S * S := by
  have h1 := Nat.div_add_mod n S
  have h2 := Nat.mod_lt n (Nat.pos_of_ne_zero h)
  rw [Nat.mul_comm] at h1
  omega

theorem owed_eq (s : State) (d : Denom) :
    owed s d = (unitIn s d + if d = s.config.reserveDenom then parked s else 0) * s.totalSupply
      + ONE * uncollected s d := by
  rw [ONE_eq]; rfl

private theorem owed_buy {s s' : State} {k : Denom} {x : Nat} (q : Nat) (hk : k ≠ s.config.reserveDenom)
    (h1 : unitIn s' k = unitIn s k + q) (h2 : s'.totalSupply = s.totalSupply) (h3 : s'.config = s.config)
    (h4 : s'.fee = s.fee) (h5 : q * s.totalSupply ≤ ONE * x) :
    owed s' k ≤ owed s k + ONE * x := by
  rw [owed_eq, owed_eq, h1, h2, h3, if_neg hk, if_neg hk]
  have : uncollected s' k = uncollected s k := by unfold uncollected; rw [h4]
  rw [this]
  exact arith_buy' h5

private theorem unit_added {s s' : State} {k : Denom} {q : Nat}
    (h : ∀ d, s'.indexUnits.getKey d = if d = k then some ((s.indexUnits.getKey k).getD 0 + q)
      else s.indexUnits.getKey d) : unitIn s' k = unitIn s k + q := by
  unfold unitIn
  rw [lookup_eq, lookup_eq, h, if_pos rfl, Option.getD_some]

/-- An accepted purchase with a swap: the bought denom's obligations grow by at most the estimate, the reserve
denom's obligations fall by the spent amount up to a rounding of less than the supply, the others stay. -/
theorem owed_inflate {s s' : State} {env : Env} {info : Info} {k : Denom} {amtIn minOut : Nat} {ms : List Msg}
    (hk : k ≠ s.config.reserveDenom)
    (h : execute s env info (.rebalance (.trade (.inflate k amtIn minOut))) = .ok (s', ms)) :
    ∃ t est, s.tradeInfos.get (s.config.reserveDenom, k) = some t ∧
      ms = [.swapExactIn env.contract t.routes ⟨s.config.reserveDenom, amtIn⟩ est] ∧
      owed s' k ≤ owed s k + ONE * est ∧
      owed s' s.config.reserveDenom + ONE * amtIn
        ≤ (s.totalSupply - 1) + owed s s.config.reserveDenom ∧
      ∀ d, d ≠ k → d ≠ s.config.reserveDenom → owed s' d = owed s d := by
  obtain ⟨r, hreb, _, h⟩ := trade_eq_ok.1 (execute_trade.1 h)
  rcases h with ⟨d', _, _, e, _⟩ | ⟨d', _, _, e, _⟩ | ⟨d', _, _, e, hd', _⟩ | ⟨d', _, _, e, _, h⟩ <;> cases e
  · exact absurd hd'.symm hk
  · obtain ⟨t, res, unit, est, us', res', h1, h2, h3, _, _, _, _, _, _, _, hS, _, _, h4, h5, rfl, rfl⟩ :=
      inflate_eq_ok.1 h
    have k3 := (Units.addKey_eq_ok h4).1
    have i6' : (res'.map (·.2)).sum + amtIn * ONE / s.totalSupply = (res.map (·.2)).sum := subKey_total h5
    refine ⟨t, est, h1, rfl, ?_, ?_, ?_⟩
    · refine owed_buy (est * ONE / s.totalSupply) hk ?_ rfl rfl rfl (div_mul_le_comm est ONE s.totalSupply)
      exact unit_added k3
    · rw [owed_eq, owed_eq]
      have e1 : unitIn { s with indexUnits := us', reserveUnits := some res'
                                tradeInfos := s.tradeInfos.set (s.config.reserveDenom, k)
                                  { t with lastTradedAt := some env.now } } s.config.reserveDenom
          = unitIn s s.config.reserveDenom := by
        simp only [unitIn, lookup_eq, k3, if_neg (Ne.symm hk)]
      rw [e1]
      simp only [if_true, uncollected]
      refine arith_spend (q := amtIn * ONE / s.totalSupply) (by simp only [parked, h2, Option.getD_some]; exact i6') ?_
      rw [Nat.mul_comm ONE amtIn]
      exact le_div_mul_add _ _ hS
    · intro d hd1 hd2
      have e1 : unitIn { s with indexUnits := us', reserveUnits := some res'
                                tradeInfos := s.tradeInfos.set (s.config.reserveDenom, k)
                                  { t with lastTradedAt := some env.now } } d
          = unitIn s d := by
        simp only [unitIn, lookup_eq, k3, if_neg hd1]
      rw [owed_eq, owed_eq, e1]
      simp only [if_neg hd2, uncollected]

/-! ### Chain level -/

/-- **C01 (chain form).** After any history of transactions the recorded supply equals the index denom's supply in
the bank. -/
theorem C01_supply_is_bank_supply (w : World) (txs : List Tx) (h : Start w) :
    (runTxs w txs).core.totalSupply = (runTxs w txs).bank.supply w.core.config.indexDenom := by
  have key : ∀ (txs : List Tx) (w : World), WInv w →
      WInv (runTxs w txs) ∧ (runTxs w txs).core.config.indexDenom = w.core.config.indexDenom := by
    intro txs
    induction txs with
    | nil => intro w hw; exact ⟨hw, rfl⟩
    | cons tx txs ih =>
      intro w hw
      rcases deliver_cases w tx with e | e
      · simp only [runTxs, e]; exact ih w hw
      · obtain ⟨h1, _, h3⟩ := hw.apply e
        obtain ⟨i1, i2⟩ := ih _ h1
        exact ⟨i1, by rw [← h3]; exact i2⟩
  have h0 : WInv w := ⟨⟨w.core, [], h.1, rfl⟩, by
    rw [h.2.1]
    obtain ⟨env, msg, s0, ms, d, ms', h1, h2⟩ := h.1
    obtain ⟨_, _, _, _, _, _, e, _⟩ := instantiate_eq_ok.1 h1
    obtain ⟨_, d', _, e', _⟩ := reply_eq_ok.1 h2
    rw [e', e]⟩
  obtain ⟨h1, h2⟩ := key txs w h0
  rw [← h1.supply, h2]

/-- Was the transaction accepted? -/
def txAccepted (w : World) (tx : Tx) : Bool :=
  match apply w tx with
  | .ok _ => true
  | .error _ => false

/-- Number of accepted mints in a history. -/
def mintCount (w : World) : List Tx → Nat
  | [] => 0
  | tx :: txs =>
    (match tx with
      | .call _ _ (.mint ..) _ => if txAccepted w tx then 1 else 0
      | _ => 0) + mintCount (deliver w tx) txs

/-- Rounding dust of accepted swap purchases paid in denom `d` (the reserve denom at that time): less than the
supply, in multiples of `10^-18` base units, for each of them. -/
def swapDust (d : Denom) (w : World) : List Tx → Nat
  | [] => 0
  | tx :: txs =>
    (match tx with
      | .call _ _ (.rebalance (.trade (.inflate k _ _))) _ =>
        if txAccepted w tx ∧ d = w.core.config.reserveDenom ∧ k ≠ d then w.core.totalSupply - 1 else 0
      | _ => 0) + swapDust d (deliver w tx) txs

/-- All trade routes that governance stores in the history have one hop. -/
def OneHop (txs : List Tx) : Prop :=
  ∀ env info d rs c m market, .call env info (.gov (.updateTradeInfo d rs c m)) market ∈ txs → rs.length ≤ 1

/-- An index token of half a uosmo without fees; alice has 10 uosmo. -/
def halfWorld : World :=
  { core := { Demo.s0 with fee := { collector := "collector", mintFee := none, burnFee := none, streamingFee := none }, indexUnits := [("uosmo", 500000000000000000)] }
    bank := { bal := fun a d => if a = "alice" ∧ d = "uosmo" then 10 else 0
              supply := fun d => if d = "uosmo" then 10 else 0 }
    self := "core" }

theorem halfWorld_start : Start halfWorld := by
  refine ⟨⟨Demo.env 1000, { Demo.inst with fee := { collector := "collector", mintFee := none, burnFee := none, streamingFee := none }
                                           indexUnits := [("uosmo", 500000000000000000)] },
    _, _, "factory/core/ibcx", [], rfl, rfl⟩, by decide, fun a => ?_⟩
  simp [halfWorld, Demo.s0]

/-- Alice mints 3 index tokens twice, paying 1 uosmo each time. -/
def twoMints : List Tx :=
  [.call (Demo.env 1000) ⟨"alice", [⟨"uosmo", 1⟩]⟩ (.mint 3 none none) [],
   .call (Demo.env 1001) ⟨"alice", [⟨"uosmo", 1⟩]⟩ (.mint 3 none none) []]

/-- The demo contract on a chain where alice has uosmo and uatom. -/
def demoWorld : World :=
  { core := Demo.s0
    bank := { bal := fun a d => if a = "alice" ∧ d = "uosmo" then 20000 else if a = "alice" ∧ d = "uatom" then 4000 else 0
              supply := fun d => if d = "uosmo" then 20000 else if d = "uatom" then 4000 else 0 }
    self := "core" }

theorem demoWorld_start : Start demoWorld := by
  refine ⟨Demo.s0_fresh, by decide, fun a => ?_⟩
  simp [demoWorld, Demo.s0]

/-- A mint, one-hop routes for selling uatom and buying uion, a rebalance from uosmo and uatom to uion, half a uosmo
per token moved to the reserve, and a purchase of uion for 500 uosmo that the pool settles at 510 uion. -/
def demoTxs : List Tx :=
  [.call (Demo.env 1000) Demo.mintInfo (.mint 10000 none none) [],
   .call (Demo.env 1000) ⟨"gov", []⟩ (.gov (.updateTradeInfo "uosmo" [⟨2, "uion"⟩] 60 1000)) [],
   .call (Demo.env 1000) ⟨"gov", []⟩ (.gov (.updateTradeInfo "uatom" [⟨1, "uosmo"⟩] 60 1000)) [],
   .call (Demo.env 1000) ⟨"gov", []⟩ (.rebalance (.init none
      [("uatom", 50000000000000000), ("uosmo", 1000000000000000000)] [("uion", 1000000000000000000)])) [],
   .call (Demo.env 2000) ⟨"bob", []⟩ (.rebalance (.trade (.deflate "uosmo" 500000000000000000 0))) [],
   .call (Demo.env 2000) ⟨"bob", []⟩ (.rebalance (.trade (.inflate "uion" 500 400))) [510]]

theorem demoTxs_oneHop : OneHop demoTxs := by
  intro env info d rs c m market h
  simp only [demoTxs, List.mem_cons, Tx.call.injEq, ExecMsg.gov.injEq, GovMsg.updateTradeInfo.injEq, reduceCtorEq,
    false_and, and_false, List.not_mem_nil, or_false, false_or] at h
  rcases h with ⟨_, _, ⟨_, rfl, _⟩, _⟩ | ⟨_, _, ⟨_, rfl, _⟩, _⟩ <;> simp

/-- The hypotheses of C01 hold for this history: alice minted 10000 index tokens. -/
example : Start demoWorld ∧ (runTxs demoWorld demoTxs).core.totalSupply = 10000 ∧
    (runTxs demoWorld demoTxs).bank.supply "factory/core/ibcx" = 10000 :=
  ⟨demoWorld_start, by decide +kernel, by decide +kernel⟩

/-- All stored routes have one hop. -/
def StoredOneHop (s : State) : Prop := ∀ k t, s.tradeInfos.get k = some t → t.routes.length ≤ 1

theorem storedOneHop_step {s s' : State} {env : Env} {info : Info} {msg : ExecMsg} {ms : List Msg}
    (hi : StoredOneHop s) (h : execute s env info msg = .ok (s', ms))
    (hm : ∀ d rs c m, msg = .gov (.updateTradeInfo d rs c m) → rs.length ≤ 1) : StoredOneHop s' := by
  by_cases ht : ∃ m, msg = .rebalance (.trade m)
  · obtain ⟨m, rfl⟩ := ht
    rcases trade_infos (execute_trade.1 h) with e | ⟨k, t, h1, e⟩
    · intro k t hk; rw [e] at hk; exact hi k t hk
    · intro k' t' hk
      rw [e, KV.get_set] at hk
      split at hk
      · simp only [Option.some.injEq] at hk; subst hk; exact hi k t h1
      · exact hi k' t' hk
  · have hk := infos_kept h
    split at hk
    · rename_i d rs c m _
      obtain ⟨r, rs', hrs, e⟩ := hk
      intro k' t' hk'
      rw [e, KV.get_set] at hk'
      split at hk'
      · simp only [Option.some.injEq] at hk'; subst hk'; exact hm _ _ _ _ rfl
      · exact hi k' t' hk'
    · exact absurd ⟨_, rfl⟩ ht
    · intro k t h'; rw [hk] at h'; exact hi k t h'

theorem burned_other {s s' : State} {env : Env} {info : Info} {msg : ExecMsg} {ms : List Msg}
    (h : execute s env info msg = .ok (s', ms)) {d : Denom} (hd : d ≠ s.config.indexDenom) : burned d ms = 0 :=
  ((execute_supply h).2.2 d hd).2

/-- Which accepted messages send swaps. -/
theorem swap_messages {s s' : State} {env : Env} {info : Info} {msg : ExecMsg} {ms : List Msg}
    (h : execute s env info msg = .ok (s', ms)) :
    (∀ m ∈ ms, isSwap m = false) ∨
    (∃ k o x, msg = .rebalance (.trade (.deflate k o x)) ∧ k ≠ s.config.reserveDenom) ∨
    (∃ k o x, msg = .rebalance (.trade (.inflate k o x)) ∧ k ≠ s.config.reserveDenom) := by
  obtain ⟨s1, hc, hx⟩ := execute_eq_ok.1 h
  have nil : ms = [] → ∀ m ∈ ms, isSwap m = false := by rintro rfl; simp
  have fees : ∀ c d (x : Option Nat), ∀ m ∈ feeMsg c d x, isSwap m = false := by
    intro c d x; cases x <;> simp [feeMsg, isSwap]
  cases msg with
  | mint a r f =>
    left
    obtain ⟨_, _, _, _, _, _, _, _, _, _, rfl⟩ := mint_eq_ok.1 hx
    intro m hm
    simp only [List.mem_append, List.mem_cons, List.not_mem_nil, or_false] at hm
    rcases hm with (rfl | hm) | rfl | rfl <;> first | rfl | exact fees _ _ _ m hm
  | burn r =>
    left
    obtain ⟨_, _, _, _, _, _, _, _, _, _, _, _, _, _, _, rfl⟩ := burn_eq_ok.1 hx
    intro m hm
    simp only [List.mem_append, List.mem_cons, List.not_mem_nil, or_false] at hm
    rcases hm with (rfl | hm) | rfl <;> first | rfl | exact fees _ _ _ m hm
  | realize =>
    left
    obtain ⟨_, hz⟩ := realize_eq_ok.1 hx
    rcases hz with ⟨_, rfl, rfl⟩ | ⟨sf, hsf, rfl, rfl⟩ <;> simp [isSwap]
  | gov m =>
    left
    apply nil
    cases m with
    | updateFeeStrategy p => obtain ⟨_, _, _, _, _, _, _, rfl⟩ := updateFee_eq_ok.1 hx; rfl
    | pause e => obtain ⟨a, b, c, _, rfl⟩ := pause_eq_ok.1 hx; rfl
    | release => obtain ⟨a, b, _, rfl⟩ := release_eq_ok.1 hx; rfl
    | updateGov g => obtain ⟨a, b, _, _, rfl⟩ := updateGov_eq_ok.1 hx; rfl
    | acceptGov => obtain ⟨a, _, rfl⟩ := acceptGov_eq_ok.1 hx; rfl
    | revokeGov => obtain ⟨_, a, _, rfl⟩ := revokeGov_eq_ok.1 hx; rfl
    | updateRebalanceManager m => obtain ⟨_, _, _, rfl⟩ := updateRebalanceManager_eq_ok.1 hx; rfl
    | updateReserveDenom d => obtain ⟨a, b, _, rfl⟩ := updateReserveDenom_eq_ok.1 hx; rfl
    | updateTradeInfo d rs c m => obtain ⟨_, _, rfl⟩ := updateTradeInfo_eq_ok.1 hx; rfl
  | rebalance m =>
    cases m with
    | init m de inf => left; apply nil; obtain ⟨_, _, _, _, _, _, _, _, rfl⟩ := init_eq_ok.1 hx; rfl
    | finalize => left; apply nil; obtain ⟨r, res, _, _, _, _, _, _, rfl⟩ := finalize_eq_ok.1 hx; rfl
    | trade m =>
      obtain ⟨r, _, _, h⟩ := trade_eq_ok.1 (execute_trade.1 h)
      rcases h with ⟨d, _, _, _, e, h⟩ | ⟨d, o, x, rfl, e, h⟩ | ⟨d, _, _, _, e, h⟩ | ⟨d, o, x, rfl, e, h⟩
      · left; apply nil; obtain ⟨_, _, _, _, _, _, _, _, _, _, _, _, _, rfl⟩ := deflateReserve_eq_ok.1 h; rfl
      · right; left; exact ⟨d, o, x, rfl, Ne.symm e⟩
      · left; apply nil; obtain ⟨_, _, _, _, _, _, _, _, _, _, rfl⟩ := inflateReserve_eq_ok.1 h; rfl
      · right; right; exact ⟨d, o, x, rfl, Ne.symm e⟩

/-- If all stored routes have one hop, a deflation of a denom other than the reserve denom fails on the chain: the
swap it sends would trade the reserve denom for itself. -/
theorem one_hop_deflation_fails {w : World} {env : Env} {info : Info} {k : Denom} {o x : Nat}
    {market : List Nat} (hr : Reachable w.core) (h1 : StoredOneHop w.core) (hk : k ≠ w.core.config.reserveDenom) :
    ∀ w', apply w (.call env info (.rebalance (.trade (.deflate k o x))) market) ≠ .ok w' := by
  intro w' h
  obtain ⟨b, core, ms, b', _, _, _, _, h5, h6, _⟩ := apply_call.1 h
  obtain ⟨t, r, target, cur, cost, g1, _, _, _, _, _, _, _, _, rfl⟩ := C24_deflate_limits hk h5
  obtain ⟨r, rs, g2, g3⟩ := hr.inv.routes _ _ _ g1
  have hlen := h1 _ _ g1
  rw [g2] at hlen
  have : rs = [] := by
    cases rs with
    | nil => rfl
    | cons a b => simp at hlen
  subst this
  rw [g2] at h6
  simp only [runMsgs, bind_eq_ok] at h6
  obtain ⟨⟨b2, mk⟩, h7, _⟩ := h6
  simp only [runMsg] at h7
  split at h7
  · rename_i heq
    cases heq
    simp [hopsOutOk, g3] at h7
  · cases h7

/-! ### C06: collateral -/

private theorem arith_cover {o o' f sn b b1 b' Q P : Nat} (h1 : o' + P * sn ≤ Q + (o + P * f))
    (h2 : b1 = b + f) (h3 : b1 ≤ b' + sn) : o' + P * b ≤ Q + (o + P * b') := by
  have : P * (b + f) ≤ P * (b' + sn) := Nat.mul_le_mul_left _ (h2 ▸ h3)
  rw [Nat.mul_add, Nat.mul_add] at this
  omega

/-- The loss that one transaction can cause in the cover of denom `d`, in multiples of `10^-18` base units. -/
def lossOf (d : Denom) (w : World) (tx : Tx) : Nat :=
  999999999999999999 * mintCount w [tx] + swapDust d w [tx]

private theorem arith_swap_k {o o' est out b f b' P : Nat} (h1 : o' ≤ o + P * est) (h2 : est ≤ out)
    (h3 : b' = b + f + out) : o' + P * b ≤ o + P * b' := by
  have : P * est ≤ P * out := Nat.mul_le_mul_left _ h2
  rw [h3, Nat.mul_add, Nat.mul_add]
  omega

private theorem arith_swap_r {o o' a b f b' P D : Nat} (h1 : o' + P * a ≤ D + o) (h2 : a ≤ b + f)
    (h3 : b' = b + f - a) : o' + P * b ≤ D + (o + P * b') := by
  have : P * b' + P * a = P * b + P * f := by rw [← Nat.mul_add, ← Nat.mul_add]; congr 1; omega
  omega

/-- One accepted transaction. -/
theorem cover_step {w w' : World} {tx : Tx} {d : Denom} (hi : WInv w) (h1 : StoredOneHop w.core)
    (hd : d ≠ w.core.config.indexDenom) (h : apply w tx = .ok w') :
    owed w'.core d + 1000000000000000000 * w.bank.bal w.self d
      ≤ lossOf d w tx + (owed w.core d + 1000000000000000000 * w'.bank.bal w.self d) := by
  have hacc : txAccepted w tx = true := by simp [txAccepted, h]
  cases tx with
  | transfer src dst cs =>
    simp only [Chain.apply, bind_eq_ok, require_eq_ok, Except.ok.injEq, send_eq_ok] at h
    obtain ⟨_, hs, b, ⟨_, rfl⟩, rfl⟩ := h
    simp only [if_neg (Ne.symm hs)]
    refine le_trans ?_ (Nat.le_add_left _ _)
    exact Nat.add_le_add_left (Nat.mul_le_mul_left _ (Nat.le_add_right _ _)) _
  | inflow dst c =>
    simp only [Chain.apply, bind_eq_ok, require_eq_ok, Except.ok.injEq] at h
    obtain ⟨_, hc, rfl⟩ := h
    refine le_trans ?_ (Nat.le_add_left _ _)
    exact Nat.add_le_add_left (Nat.mul_le_mul_left _ (Nat.le_add_right _ _)) _
  | call env info msg market =>
    have happ := h
    obtain ⟨b, core, ms, b', henv, hsnd, hdis, hb, hx, hrun, rfl⟩ := apply_call.1 h
    obtain ⟨_, rfl⟩ := send_eq_ok.1 hb
    have hbal : (if w.self = info.sender then w.bank.bal w.self d - total d info.funds else w.bank.bal w.self d)
        + (if True then total d info.funds else 0) = w.bank.bal w.self d + total d info.funds := by
      rw [if_neg (Ne.symm hsnd), if_pos trivial]
    rcases swap_messages hx with hs | ⟨k, o, x, rfl, hk⟩ | ⟨k, o, x, rfl, hk⟩
    · have hrb := runMsgs_bal hs hrun d (burned_other hx hd)
      simp only [hbal] at hrb
      by_cases hm : ∃ a r f, msg = .mint a r f
      · obtain ⟨a, r, f, rfl⟩ := hm
        have hl : lossOf d w (.call env info (.mint a r f) market) = 999999999999999999 := by
          simp [lossOf, mintCount, swapDust, hacc]
        rw [hl]
        exact arith_cover (owed_mint hi.reach hdis hx hd) rfl hrb
      · have ho : owed core d + 1000000000000000000 * sent d ms ≤ owed w.core d := by
          by_cases hbn : ∃ r, msg = .burn r
          · obtain ⟨r, rfl⟩ := hbn
            exact owed_burn hi.reach hx hd
          · exact owed_other hi.reach hx hs (fun a r f e => hm ⟨a, r, f, e⟩) (fun r e => hbn ⟨r, e⟩) d
        refine le_trans ?_ (Nat.le_add_left _ _)
        have := arith_cover (Q := 0) (f := total d info.funds) (b := w.bank.bal w.self d)
          (le_trans ho (by rw [Nat.zero_add]; exact Nat.le_add_right _ _)) rfl hrb
        rwa [Nat.zero_add] at this
    · exact absurd happ (one_hop_deflation_fails hi.reach h1 hk _)
    · obtain ⟨t, est, g1, rfl, g2, g3, g4⟩ := owed_inflate hk hx
      obtain ⟨r, rs, g5, g6⟩ := hi.reach.inv.routes _ _ _ g1
      have hlen := h1 _ _ g1
      rw [g5] at hlen
      have : rs = [] := by
        cases rs with
        | nil => rfl
        | cons a b => simp at hlen
      subst this
      rw [ONE_eq] at g2 g3
      have hl : d = w.core.config.reserveDenom →
          lossOf d w (.call env info (.rebalance (.trade (.inflate k o x))) market) = w.core.totalSupply - 1 := by
        rintro rfl
        simp [lossOf, mintCount, swapDust, hacc, hk]
      simp only [runMsgs, bind_eq_ok] at hrun
      obtain ⟨⟨b2, mk⟩, h7, h8⟩ := hrun
      simp only [Except.ok.injEq] at h8
      subst h8
      simp only [runMsg] at h7
      split at h7
      · rename_i out mk' last hlast
        rw [g5] at hlast
        simp only [List.getLast?_singleton, Option.some.injEq] at hlast
        subst hlast
        simp only [bind_eq_ok, require_eq_ok, debit_eq_ok, Except.ok.injEq, Prod.mk.injEq] at h7
        obtain ⟨_, _, _, hmin, b3, ⟨hle, rfl⟩, rfl, rfl⟩ := h7
        simp only [g6, henv, Bank.credit, true_and] at hle ⊢
        simp only [hbal]
        by_cases e1 : d = k
        · subst e1
          refine le_trans ?_ (Nat.le_add_left _ _)
          refine arith_swap_k (f := total d info.funds) g2 hmin ?_
          rw [if_neg hk, if_pos rfl, Nat.sub_zero]
        · by_cases e2 : d = w.core.config.reserveDenom
          · subst e2
            rw [hl rfl, if_pos rfl, if_neg e1, Nat.add_zero]
            simp only [hbal] at hle
            exact arith_swap_r g3 hle rfl
          · rw [g4 d e1 e2, if_neg e2, if_neg e1]
            refine le_trans ?_ (Nat.le_add_left _ _)
            exact Nat.add_le_add_left (Nat.mul_le_mul_left _ (by omega)) _
      · cases h7

theorem storedOneHop_apply {w w' : World} {tx : Tx} {txs : List Tx} (hs : StoredOneHop w.core)
    (ho : OneHop (tx :: txs)) (hc : apply w tx = .ok w') : StoredOneHop w'.core := by
  cases tx with
  | transfer src dst cs =>
    simp only [Chain.apply, bind_eq_ok, require_eq_ok, Except.ok.injEq] at hc
    obtain ⟨_, _, b, _, rfl⟩ := hc
    exact hs
  | inflow dst c =>
    simp only [Chain.apply, bind_eq_ok, require_eq_ok, Except.ok.injEq] at hc
    obtain ⟨_, _, rfl⟩ := hc
    exact hs
  | call env info msg market =>
    obtain ⟨b, core, ms, b', _, _, _, _, hx, _, rfl⟩ := apply_call.1 hc
    refine storedOneHop_step hs hx ?_
    rintro d rs c m rfl
    exact ho env info d rs c m market (List.mem_cons_self ..)

theorem start_inv {w : World} (hw : Start w) : WInv w := ⟨⟨w.core, [], hw.1, rfl⟩, by
  rw [hw.2.1]
  obtain ⟨env, msg, s0, ms, d, ms', h1, h2⟩ := hw.1
  obtain ⟨_, _, _, _, _, _, e, _⟩ := instantiate_eq_ok.1 h1
  obtain ⟨_, d', _, e', _⟩ := reply_eq_ok.1 h2
  rw [e', e]⟩

theorem start_oneHop {w : World} (hw : Start w) : StoredOneHop w.core := by
  obtain ⟨env, msg, s0, ms, d, ms', h1, h2⟩ := hw.1
  obtain ⟨_, _, _, _, _, _, e, _⟩ := instantiate_eq_ok.1 h1
  obtain ⟨_, d', _, e', _⟩ := reply_eq_ok.1 h2
  intro k t ht
  rw [e', e] at ht
  cases ht

theorem runTxs_oneHop : ∀ (txs : List Tx) (w : World), WInv w → StoredOneHop w.core → OneHop txs →
    WInv (runTxs w txs) ∧ StoredOneHop (runTxs w txs).core := by
  intro txs
  induction txs with
  | nil => intro w h1 h2 _; exact ⟨h1, h2⟩
  | cons tx txs ih =>
    intro w h1 h2 ho
    have ho' : OneHop txs := fun env info d rs c m mk hm => ho env info d rs c m mk (List.mem_cons_of_mem _ hm)
    rcases deliver_cases w tx with e | e
    · simp only [runTxs, e]; exact ih w h1 h2 ho'
    · exact ih _ (h1.apply e).1 (storedOneHop_apply h2 ho e) ho'

/-- **C57.** As long as governance stores only routes with one hop, no deflation of a denom other than the reserve
denom ever succeeds on the chain: the swap it sends would trade the reserve denom for itself.  It leaves the world
unchanged, at every point of every history, whatever the market. -/
theorem C57_one_hop_deflation_always_fails (w : World) (txs : List Tx) (hw : Start w) (ho : OneHop txs)
    (env : Env) (info : Info) (d : Denom) (amountOut maxIn : Nat) (market : List Nat)
    (hd : d ≠ (runTxs w txs).core.config.reserveDenom) :
    deliver (runTxs w txs) (.call env info (.rebalance (.trade (.deflate d amountOut maxIn))) market)
      = runTxs w txs := by
  obtain ⟨h1, h2⟩ := runTxs_oneHop txs w (start_inv hw) (start_oneHop hw) ho
  rcases deliver_cases (runTxs w txs) (.call env info (.rebalance (.trade (.deflate d amountOut maxIn))) market)
    with e | e
  · exact e
  · exact absurd e (one_hop_deflation_fails h1.reach h2 hd _)

/-- The contract itself accepts the sale of uatom, but its swap trades uosmo for uosmo. -/
example : Start demoWorld ∧ OneHop demoTxs ∧ (runTxs demoWorld demoTxs).core.config.reserveDenom = "uosmo" ∧
    (execute (runTxs demoWorld demoTxs).core (Demo.env 3000) ⟨"bob", []⟩
      (.rebalance (.trade (.deflate "uatom" 900 1000)))).map (·.2)
      = .ok [.swapExactOut "core" [⟨1, "uosmo"⟩] ⟨"uosmo", 900⟩ 901] :=
  ⟨demoWorld_start, demoTxs_oneHop, by decide +kernel, by decide +kernel⟩

/-- A rejected transaction causes no loss. -/
theorem loss_rejected {d : Denom} {w : World} {tx : Tx} (h : txAccepted w tx = false) : lossOf d w tx = 0 := by
  unfold lossOf
  have h1 : mintCount w [tx] = 0 := by
    simp only [mintCount]; split <;> simp [h]
  have h2 : swapDust d w [tx] = 0 := by
    simp only [swapDust]; split <;> simp [h]
  rw [h1, h2]

theorem fresh_owes_nothing {s : State} (h : Fresh s) (d : Denom) : owed s d = 0 := by
  obtain ⟨env, msg, s0, ms, d', ms', h1, h2⟩ := h
  obtain ⟨_, _, _, _, _, _, e, _⟩ := instantiate_eq_ok.1 h1
  obtain ⟨_, d'', _, e', _⟩ := reply_eq_ok.1 h2
  subst e' e
  unfold owed uncollected
  cases hsf : msg.fee.streamingFee <;> simp [hsf, total]

/-- **C06 (bounded form).** Let all routes that governance stores have one hop.  Then after every history of
transactions the contract's balance of each denom other than the index denom covers what it owes in it (the units
of all index tokens, parked units, the uncollected streaming fee), up to less than one base unit for each accepted
mint and, for the reserve denom, up to the rounding of each purchase with a swap.  All amounts are multiples of
`10^-18` base units. -/
theorem C06_collateral_partial (w : World) (txs : List Tx) (hw : Start w) (ho : OneHop txs)
    (d : Denom) (hd : d ≠ w.core.config.indexDenom) :
    owed (runTxs w txs).core d ≤ 999999999999999999 * mintCount w txs + swapDust d w txs
      + 1000000000000000000 * (runTxs w txs).bank.bal w.self d := by
  have key : ∀ (txs : List Tx) (w : World) (X : Nat), WInv w → StoredOneHop w.core → OneHop txs →
      d ≠ w.core.config.indexDenom → owed w.core d ≤ X + 1000000000000000000 * w.bank.bal w.self d →
      owed (runTxs w txs).core d ≤ X + (999999999999999999 * mintCount w txs + swapDust d w txs)
        + 1000000000000000000 * (runTxs w txs).bank.bal w.self d := by
    intro txs
    induction txs with
    | nil => intro w X _ _ _ _ h; simpa [runTxs, mintCount, swapDust] using h
    | cons tx txs ih =>
      intro w X hw hs ho hd h
      have ho' : OneHop txs := fun env info d rs c m mk hm => ho env info d rs c m mk (List.mem_cons_of_mem _ hm)
      have hsplit : 999999999999999999 * mintCount w (tx :: txs) + swapDust d w (tx :: txs)
          = lossOf d w tx + (999999999999999999 * mintCount (deliver w tx) txs + swapDust d (deliver w tx) txs) := by
        unfold lossOf
        simp only [mintCount, swapDust, Nat.add_zero, Nat.mul_add]
        omega
      rw [hsplit]
      rcases hc : apply w tx with e | w'
      · have hd' : deliver w tx = w := by simp [deliver, hc]
        rw [hd', loss_rejected (by simp [txAccepted, hc]), Nat.zero_add]
        simp only [runTxs, hd']
        exact ih w X hw hs ho' hd h
      · have hd' : deliver w tx = w' := by simp [deliver, hc]
        obtain ⟨i1, i2, i3⟩ := hw.apply hc
        have hstep := cover_step hw hs hd hc
        have hs' : StoredOneHop w'.core := storedOneHop_apply hs ho hc
        simp only [runTxs, hd']
        have := ih w' (X + lossOf d w tx) i1 hs' ho' (by rw [i3]; exact hd) (by rw [i2]; omega)
        rw [i2] at this
        omega
  have := key txs w 0 (start_inv hw) (start_oneHop hw) ho hd (by rw [fresh_owes_nothing hw.1]; exact Nat.zero_le _)
  rwa [Nat.zero_add] at this

/-- After the mint and the purchase of uion: one mint, one purchase at a supply of 10000. -/
example : Start demoWorld ∧ OneHop demoTxs ∧ mintCount demoWorld demoTxs = 1 ∧
    swapDust "uosmo" demoWorld demoTxs = 9999 ∧
    owed (runTxs demoWorld demoTxs).core "uion" = 499000000000000000000 ∧
    (runTxs demoWorld demoTxs).bank.bal "core" "uion" = 510 :=
  ⟨demoWorld_start, demoTxs_oneHop, by decide +kernel, by decide +kernel, by decide +kernel, by decide +kernel⟩

private theorem arith_coins {P Q o u S K q m b : Nat} (hQ : Q + 1 = P) (h : u * S + P * K ≤ o)
    (h1 : o ≤ Q * m + 0 + P * b) (hq : P * q ≤ u * S) : q + K ≤ b + m := by
  have h2 : P * (q + K) ≤ P * (b + m) := by
    have : Q * m ≤ P * m := Nat.mul_le_mul_right _ (by omega)
    rw [Nat.mul_add, Nat.mul_add]
    omega
  exact Nat.le_of_mul_le_mul_left h2 (by omega)

/-- **C06 (in coins).** As above for a denom in which no purchase with a swap was paid: the balance covers
⌊unit · supply⌋ and the uncollected fee up to one base unit for each accepted mint. -/
theorem C06_collateral_coins_partial (w : World) (txs : List Tx) (hw : Start w) (ho : OneHop txs)
    (d : Denom) (hd : d ≠ w.core.config.indexDenom) (hs : swapDust d w txs = 0) :
    part (unitIn (runTxs w txs).core d) (runTxs w txs).core.totalSupply + uncollected (runTxs w txs).core d
      ≤ (runTxs w txs).bank.bal w.self d + mintCount w txs := by
  have h := C06_collateral_partial w txs hw ho d hd
  rw [hs] at h
  refine arith_coins (Q := 999999999999999999) (by norm_num) ?_ h (part_mul_le _ _)
  unfold owed
  exact Nat.add_le_add_right (Nat.mul_le_mul_right _ (Nat.le_add_right _ _)) _

/-- Two mints of three half uosmo each for one uosmo: 3 are owed, 2 are held. -/
example : Start halfWorld ∧ OneHop twoMints ∧ swapDust "uosmo" halfWorld twoMints = 0 ∧
    mintCount halfWorld twoMints = 2 ∧ (runTxs halfWorld twoMints).bank.bal "core" "uosmo" = 2 ∧
    part (unitIn (runTxs halfWorld twoMints).core "uosmo") (runTxs halfWorld twoMints).core.totalSupply = 3 :=
  ⟨halfWorld_start, by simp [OneHop, twoMints], by decide +kernel, by decide +kernel, by decide +kernel,
    by decide +kernel⟩

/-- **C06 (full form, false).** After every history the balance covers ⌊unit · supply⌋ and the uncollected fee. -/
def C06_full : Prop :=
  ∀ (w : World) (txs : List Tx), Start w → OneHop txs → ∀ d, d ≠ w.core.config.indexDenom →
    part (unitIn (runTxs w txs).core d) (runTxs w txs).core.totalSupply + uncollected (runTxs w txs).core d
      ≤ (runTxs w txs).bank.bal w.self d

/-- All index tokens together are worth 3 uosmo, but the contract holds 2: burning all 6 tokens fails. -/
theorem C06_full_false : ¬ C06_full := by
  intro h
  have := h halfWorld twoMints halfWorld_start (by simp [OneHop, twoMints]) "uosmo" (by decide)
  revert this
  decide +kernel

example : txAccepted (runTxs halfWorld twoMints)
    (.call (Demo.env 1002) ⟨"alice", [⟨"factory/core/ibcx", 6⟩]⟩ (.burn none) []) = false := by decide +kernel

/-- The bounded form is tight here: 3 ≤ 2 + 2 with two mints. -/
example : Start halfWorld ∧ OneHop twoMints ∧ swapDust "uosmo" halfWorld twoMints = 0 ∧
    mintCount halfWorld twoMints = 2 ∧ (runTxs halfWorld twoMints).core.totalSupply = 6 ∧
    (runTxs halfWorld twoMints).bank.bal "core" "uosmo" = 2 :=
  ⟨halfWorld_start, by simp [OneHop, twoMints], by decide +kernel, by decide +kernel, by decide +kernel,
    by decide +kernel⟩

/-- The hypotheses of C01, C06 and C57 hold for this history; the purchase was accepted. -/
example : Start demoWorld ∧ OneHop demoTxs ∧ mintCount demoWorld demoTxs = 1 ∧
    swapDust "uosmo" demoWorld demoTxs = 9999 ∧
    unitIn (runTxs demoWorld demoTxs).core "uion" = 49900000000000000 ∧
    (runTxs demoWorld demoTxs).bank.bal "core" "uion" = 510 ∧
    (runTxs demoWorld demoTxs).bank.bal "core" "uosmo" = 14500 :=
  ⟨demoWorld_start, demoTxs_oneHop, by decide +kernel, by decide +kernel, by decide +kernel,
    by decide +kernel, by decide +kernel⟩

end Ibcx.Props
