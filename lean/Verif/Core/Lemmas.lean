import Verif.Core.Exec
import Verif.Core.Query
import Verif.Core.UnitsLemmas
/-!
# Exact behaviour of the core handlers

Not part of the model.  For every handler: under which conditions it succeeds and
what it then returns, as a conjunction of plain conditions.
-/

namespace Ibcx.Core
open Ibcx

@[simp] theorem assertSender_eq_ok {a b : Addr} {u : Unit} : assertSender a b = .ok u ↔ a = b := by
  simp [assertSender]

@[simp] theorem checkGov_eq_ok {c : Config} {a : Addr} {u : Unit} :
    c.checkGov a = .ok u ↔ c.gov = a := by
  simp [Config.checkGov]

@[simp] theorem assertNotPaused_eq_ok {c : Config} {t : Nat} {u : Unit} :
    c.assertNotPaused t = .ok u ↔ (c.paused.refresh t).paused = false := by
  simp [Config.assertNotPaused]

@[simp] theorem assertPaused_eq_ok {c : Config} {t : Nat} {u : Unit} :
    c.assertPaused t = .ok u ↔ (c.paused.refresh t).paused = true := by
  simp [Config.assertPaused]

theorem refresh_paused {p : PauseInfo} {t : Nat} :
    (p.refresh t).paused = true ↔ p.paused = true ∧ ∀ e, p.expiresAt = some e → t < e := by
  obtain ⟨b, e⟩ := p
  unfold PauseInfo.refresh
  cases b <;> cases e <;> simp
  split
  · simp; omega
  · simp; omega

theorem refresh_not_paused {p : PauseInfo} {t : Nat} :
    (p.refresh t).paused = false ↔ ¬ (p.paused = true ∧ ∀ e, p.expiresAt = some e → t < e) := by
  rw [← refresh_paused]; simp

/-! ### Fees -/

@[simp] theorem rateChecker_eq_ok {r : Option Nat} {u : Unit} :
    rateChecker r = .ok u ↔ ∀ x, r = some x → 0 < x ∧ x < ONE := by
  cases r <;> simp [rateChecker]

@[simp] theorem checkRates_eq_ok {f : Fee} {u : Unit} :
    f.checkRates = .ok u ↔
      (∀ x, f.mintFee = some x → 0 < x ∧ x < ONE) ∧
      (∀ x, f.burnFee = some x → 0 < x ∧ x < ONE) ∧
      (∀ sf, f.streamingFee = some sf → 0 < sf.rate ∧ sf.rate ≤ MAX_STREAMING_FEE_RATE) := by
  obtain ⟨c, m, b, sf⟩ := f
  cases sf with
  | none => simp [Fee.checkRates]
  | some sf =>
    simp [Fee.checkRates]
    intro _ _ h2 _
    exact lt_of_le_of_lt h2 (by norm_num [MAX_STREAMING_FEE_RATE, ONE])

theorem addCollected_spec {xs xs' : List Coin} {c : Coin} (h : addCollected xs c = .ok xs') :
    (∀ d, amountOf d xs' = amountOf d xs + (if c.denom = d then c.amount else 0)) ∧
    xs'.map (·.denom) = (if c.denom ∈ xs.map (·.denom) then xs.map (·.denom)
      else xs.map (·.denom) ++ [c.denom]) := by
  induction xs generalizing xs' with
  | nil =>
    simp only [addCollected, Except.ok.injEq] at h
    subst h; simp
  | cons x xs ih =>
    unfold addCollected at h
    by_cases hd : x.denom = c.denom
    · rw [if_pos hd] at h
      simp at h
      obtain ⟨_, rfl⟩ := h
      refine ⟨?_, by simp [hd]⟩
      intro d
      by_cases h' : c.denom = d <;> simp [hd, h']; omega
    · rw [if_neg hd] at h
      simp at h
      obtain ⟨w, hw, rfl⟩ := h
      obtain ⟨h1, h2⟩ := ih hw
      have hk : ¬ c.denom = x.denom := fun e => hd e.symm
      refine ⟨?_, ?_⟩
      · intro d; simp only [amountOf_cons, h1 d]; omega
      · rw [List.map_cons, h2, List.map_cons]
        by_cases hm : c.denom ∈ xs.map (·.denom)
        · rw [if_pos hm, if_pos (List.mem_cons_of_mem _ hm)]
        · rw [if_neg hm, if_neg (by simpa [hk] using hm)]; rfl

theorem addCollected_ok {xs : List Coin} {c : Coin}
    (h : amountOf c.denom xs + c.amount < U128) : ∃ xs', addCollected xs c = .ok xs' := by
  induction xs with
  | nil => exact ⟨_, rfl⟩
  | cons x xs ih =>
    unfold addCollected
    by_cases hd : x.denom = c.denom
    · rw [if_pos hd]
      simp [hd] at h
      exact ⟨⟨x.denom, x.amount + c.amount⟩ :: xs, by simp; omega⟩
    · rw [if_neg hd]
      simp [hd] at h
      obtain ⟨w, hw⟩ := ih h
      exact ⟨x :: w, by simp [hw]⟩

theorem foldCollected_spec {cs xs xs' : List Coin} (h : cs.foldlM addCollected xs = .ok xs') :
    (∀ d, amountOf d xs' = amountOf d xs + amountOf d cs) ∧
    ((xs.map (·.denom)).Nodup → (xs'.map (·.denom)).Nodup) ∧
    (∀ d, d ∈ xs'.map (·.denom) ↔ d ∈ xs.map (·.denom) ∨ d ∈ cs.map (·.denom)) := by
  induction cs generalizing xs with
  | nil =>
    simp [pure, Except.pure] at h
    subst h; simp
  | cons c cs ih =>
    rw [List.foldlM_cons, bind_eq_ok] at h
    obtain ⟨y, hy, h⟩ := h
    obtain ⟨h1, h2⟩ := addCollected_spec hy
    obtain ⟨h3, h4, h5⟩ := ih h
    refine ⟨?_, ?_, ?_⟩
    · intro d; rw [h3 d, h1 d, amountOf_cons]; omega
    · intro hn
      apply h4
      rw [h2]
      split
      · exact hn
      · rename_i hm
        rw [List.nodup_append]
        refine ⟨hn, by simp, ?_⟩
        intro a ha b hb
        simp at hb
        subst hb
        rintro rfl
        exact hm ha
    · intro d
      rw [h5, h2]
      split
      · rename_i hm
        simp only [List.map_cons, List.mem_cons]
        constructor
        · rintro (h | h)
          · exact .inl h
          · exact .inr (.inr h)
        · rintro (h | h | h)
          · exact .inl h
          · subst h; exact .inl hm
          · exact .inr h
      · simp only [List.map_cons, List.mem_cons, List.mem_append,
          List.not_mem_nil, or_false]
        tauto

theorem foldCollected_ok {cs xs : List Coin}
    (h : ∀ d, amountOf d xs + amountOf d cs < U128) : ∃ xs', cs.foldlM addCollected xs = .ok xs' := by
  induction cs generalizing xs with
  | nil => exact ⟨xs, by simp [pure, Except.pure]⟩
  | cons c cs ih =>
    obtain ⟨y, hy⟩ := addCollected_ok (xs := xs) (c := c) (by
      have := h c.denom; simp at this; omega)
    obtain ⟨z, hz⟩ := ih (xs := y) (by
      intro d
      have := h d
      rw [(addCollected_spec hy).1 d]
      simp at this; omega)
    exact ⟨z, by rw [List.foldlM_cons, bind_eq_ok]; exact ⟨y, hy, hz⟩⟩

@[simp] theorem splitUnit_eq_ok {k : Nat} {e : Denom × Nat} {r : Denom × Nat × Nat} :
    splitUnit k e = .ok r ↔
      (e.2 * k / ONE < U128 ∧ e.2 * k / ONE ≤ e.2) ∧
      r = (e.1, e.2 - e.2 * k / ONE, e.2 * k / ONE) := by
  simp [splitUnit]
  grind

/-- Amounts of fee credited by an accrual with excess rate `k`. -/
def feeAmounts (units : Units) (k supply : Nat) : List Coin :=
  units.map fun e => ⟨e.1, e.2 * k / ONE * supply / ONE⟩

/-- Units after an accrual with excess rate `k`. -/
def chargedUnits (units : Units) (k : Nat) : Units :=
  units.map fun e => (e.1, e.2 - e.2 * k / ONE)

theorem collect_eq_ok {sf sf' : StreamingFee} {units units' : Units} {now supply : Nat} :
    sf.collect units now supply = .ok (sf', units') ↔
      sf.lastCollectedAt ≤ now ∧
      (((sf.freeze = true ∨ now = sf.lastCollectedAt) ∧ sf' = sf ∧ units' = units) ∨
       (sf.freeze = false ∧ sf.lastCollectedAt < now ∧ ONE + sf.rate < U128 ∧
        ∃ k, checkedPow (ONE + sf.rate) ((now - sf.lastCollectedAt) % 2 ^ 32) = .ok (ONE + k) ∧
          (∀ e ∈ units, e.2 * k / ONE < U128 ∧ e.2 * k / ONE ≤ e.2) ∧
          (∀ e ∈ units, e.2 * k / ONE * supply / ONE < U128) ∧
          ∃ col, (feeAmounts units k supply).foldlM addCollected sf.collected = .ok col ∧
            sf' = { sf with collected := col, lastCollectedAt := now } ∧
            units' = chargedUnits units k)) := by
  have hsplit : ∀ (k : Nat) (r : List (Denom × Nat × Nat)), units.mapM (splitUnit k) = .ok r ↔
      (∀ e ∈ units, e.2 * k / ONE < U128 ∧ e.2 * k / ONE ≤ e.2) ∧
      r = units.map (fun e => (e.1, e.2 - e.2 * k / ONE, e.2 * k / ONE)) := by
    intro k r
    exact mapM_eq_ok_map (fun a b => splitUnit_eq_ok)
  have hamt : ∀ (sp : List (Denom × Nat × Nat)) (r : List Coin),
      (sp.mapM fun (x : Denom × Nat × Nat) => do
        let a ← mulInt x.2.2 supply
        .ok (⟨x.1, a⟩ : Coin)) = .ok r ↔
      (∀ e ∈ sp, e.2.2 * supply / ONE < U128) ∧
      r = sp.map (fun e => ⟨e.1, e.2.2 * supply / ONE⟩) := by
    intro sp r
    refine mapM_eq_ok_map (fun a b => ?_)
    simp
    grind
  unfold StreamingFee.collect
  simp only [bind_eq_ok, sub_eq_ok]
  constructor
  · rintro ⟨delta, ⟨hle, rfl⟩, h⟩
    refine ⟨hle, ?_⟩
    split at h
    · rename_i hf
      left
      simp at h
      refine ⟨?_, h.1.symm, h.2.symm⟩
      rcases hf with hf | hf
      · exact .inl hf
      · exact .inr (by omega)
    · rename_i hf
      right
      simp only [not_or] at hf
      simp only [bind_eq_ok, add_eq_ok, sub_eq_ok, hsplit] at h
      obtain ⟨base, ⟨hb, rfl⟩, p, hp, k, ⟨hk, hk2⟩, sp, ⟨hs1, rfl⟩, am, ha, col, hcol, he⟩ := h
      have hp2 : p = ONE + k := by omega
      rw [hp2] at hp
      have ha := (hamt _ _).1 ha
      obtain ⟨ha1, rfl⟩ := ha
      simp at he
      refine ⟨Bool.eq_false_iff.2 hf.1, by omega, hb, k, hp, hs1, ?_, col, ?_, he.1.symm, ?_⟩
      · intro e he
        exact ha1 _ (List.mem_map.2 ⟨e, he, rfl⟩)
      · rw [List.map_map] at hcol
        exact hcol
      · rw [← he.2]
        rfl
  · rintro ⟨hle, h⟩
    refine ⟨_, ⟨hle, rfl⟩, ?_⟩
    rcases h with ⟨hf, rfl, rfl⟩ | ⟨hf, hlt, hb, k, hp, hs1, hs2, col, hcol, rfl, rfl⟩
    · rw [if_pos (by rcases hf with h | h; exact .inl h; right; omega)]
    · rw [if_neg (by simp [hf]; omega)]
      simp only [bind_eq_ok, add_eq_ok, sub_eq_ok, hsplit]
      refine ⟨_, ⟨hb, rfl⟩, _, hp, k, ⟨by omega, by omega⟩, _, ⟨hs1, rfl⟩,
        feeAmounts units k supply, ?_, col, hcol, ?_⟩
      · refine (hamt _ _).2 ⟨?_, ?_⟩
        · intro e he
          obtain ⟨x, hx, rfl⟩ := List.mem_map.1 he
          exact hs2 x hx
        · rw [List.map_map]; rfl
      · rw [List.map_map]; rfl

theorem collectStreamingFee_eq_ok {s s' : State} {now : Nat} :
    collectStreamingFee s now = .ok s' ↔
      (s.fee.streamingFee = none ∧ s' = s) ∨
      (∃ sf sf' us', s.fee.streamingFee = some sf ∧
        sf.collect s.indexUnits now s.totalSupply = .ok (sf', us') ∧
        s' = { s with fee := { s.fee with streamingFee := some sf' }, indexUnits := us' }) := by
  unfold collectStreamingFee
  cases h : s.fee.streamingFee with
  | none => simp; exact eq_comm
  | some sf => simp; grind

/-- What an accrual can change. -/
theorem collectStreamingFee_frame {s s' : State} {now : Nat} (h : collectStreamingFee s now = .ok s') :
    s'.config = s.config ∧ s'.pendingGov = s.pendingGov ∧ s'.totalSupply = s.totalSupply ∧
    s'.rebalance = s.rebalance ∧ s'.reserveUnits = s.reserveUnits ∧ s'.tradeInfos = s.tradeInfos ∧
    s'.fee.collector = s.fee.collector ∧ s'.fee.mintFee = s.fee.mintFee ∧
    s'.fee.burnFee = s.fee.burnFee ∧
    s'.fee.streamingFee.map (fun x => (x.rate, x.freeze)) = s.fee.streamingFee.map (fun x => (x.rate, x.freeze)) ∧
    s'.indexUnits.denoms = s.indexUnits.denoms := by
  rcases collectStreamingFee_eq_ok.1 h with ⟨_, rfl⟩ | ⟨sf, sf', us', h1, h2, rfl⟩
  · simp
  · obtain ⟨_, h3⟩ := collect_eq_ok.1 h2
    rcases h3 with ⟨_, rfl, rfl⟩ | ⟨_, _, _, p, _, _, _, col, _, rfl, rfl⟩
    · simp [h1]
    · simp [h1, chargedUnits, Units.denoms]

@[simp] theorem realize_eq_ok {s s' : State} {info : Info} {ms : List Msg} :
    realizeStreamingFee s info = .ok (s', ms) ↔
      s.fee.collector = info.sender ∧
      ((s.fee.streamingFee = none ∧ s' = s ∧ ms = []) ∨
       (∃ sf, s.fee.streamingFee = some sf ∧
        s' = { s with fee := { s.fee with streamingFee := some { sf with collected := [] } } } ∧
        ms = [.send s.fee.collector sf.collected])) := by
  unfold realizeStreamingFee
  cases h : s.fee.streamingFee with
  | none => simp; grind
  | some sf => simp; grind

/-! ### Mint and burn -/

@[simp] theorem mintFeeAmount_eq_ok {rate f : Option Nat} {amount : Nat} :
    mintFeeAmount rate amount = .ok f ↔
      (∀ v, rate = some v → v * amount / ONE < U128) ∧
      f = rate.map fun v => max (v * amount / ONE) 1 := by
  cases rate <;> simp [mintFeeAmount] <;> grind

@[simp] theorem feeAmount_eq_ok {rate f : Option Nat} {amount : Nat} :
    feeAmount rate amount = .ok f ↔
      (∀ v, rate = some v → v * amount / ONE < U128) ∧
      f = rate.map fun v => v * amount / ONE := by
  cases rate <;> simp [feeAmount] <;> grind

theorem mint_eq_ok {s s' : State} {env : Env} {info : Info} {amount : Nat}
    {receiver refundTo : Option Addr} {ms : List Msg} :
    mint s env info amount receiver refundTo = .ok (s', ms) ↔
      (s.config.paused.refresh env.now).paused = false ∧ s.rebalance = none ∧
      (∀ x, receiver = some x → env.validAddr x = true) ∧
      (∀ x, refundTo = some x → env.validAddr x = true) ∧
      (∀ v, s.fee.mintFee = some v → v * amount / ONE < U128) ∧
      (s.fee.mintFee.map fun v => max (v * amount / ONE) 1).getD 0 ≤ amount ∧
      s.totalSupply + amount < U128 ∧
      s' = { s with totalSupply := s.totalSupply + amount } ∧
      ∃ refund, s.indexUnits.calcRefund info.funds amount = .ok refund ∧
      ms = [.tfMint env.contract env.contract ⟨s.config.indexDenom, amount⟩]
        ++ feeMsg s.fee.collector s.config.indexDenom (s.fee.mintFee.map fun v => max (v * amount / ONE) 1)
        ++ [.send (receiver.getD info.sender) [⟨s.config.indexDenom,
              amount - (s.fee.mintFee.map fun v => max (v * amount / ONE) 1).getD 0⟩],
            .send (refundTo.getD info.sender) refund] := by
  simp only [mint, bind_eq_ok, assertNotPaused_eq_ok, require_eq_ok, unwrapAddr_eq_ok,
    mintFeeAmount_eq_ok, sub_eq_ok, add_eq_ok, Except.ok.injEq, Prod.mk.injEq]
  constructor
  · rintro ⟨_, h1, _, h2, _, ⟨h3, rfl⟩, _, ⟨h4, rfl⟩, refund, h5, _, ⟨h6, rfl⟩, _, ⟨h7, rfl⟩, _, ⟨h8, rfl⟩, rfl, rfl⟩
    exact ⟨h1, h2, h3, h4, h6, h7, h8, rfl, refund, h5, rfl⟩
  · rintro ⟨h1, h2, h3, h4, h6, h7, h8, rfl, refund, h5, rfl⟩
    exact ⟨(), h1, (), h2, _, ⟨h3, rfl⟩, _, ⟨h4, rfl⟩, refund, h5, _, ⟨h6, rfl⟩, _, ⟨h7, rfl⟩, _, ⟨h8, rfl⟩, rfl, rfl⟩

theorem burn_eq_ok {s s' : State} {env : Env} {info : Info} {redeemTo : Option Addr} {ms : List Msg} :
    burn s env info redeemTo = .ok (s', ms) ↔
      (s.config.paused.refresh env.now).paused = false ∧ s.rebalance = none ∧
      (∀ x, redeemTo = some x → env.validAddr x = true) ∧
      ∃ received fee burned, info.funds = [⟨s.config.indexDenom, received⟩] ∧ received ≠ 0 ∧
      fee = (s.fee.burnFee.map fun v => v * received / ONE) ∧
      fee.getD 0 ≤ received ∧ burned = received - fee.getD 0 ∧
      (∀ v, s.fee.burnFee = some v → v * received / ONE < U128) ∧
      (∀ e ∈ s.indexUnits, e.2 * burned / ONE < U128) ∧
      burned ≤ s.totalSupply ∧
      s' = { s with totalSupply := s.totalSupply - burned } ∧
      ms = [.tfBurn env.contract env.contract ⟨s.config.indexDenom, burned⟩]
        ++ feeMsg s.fee.collector s.config.indexDenom fee
        ++ [.send (redeemTo.getD info.sender)
              (sortCoins (s.indexUnits.map fun e => ⟨e.1, e.2 * burned / ONE⟩))] := by
  simp only [burn, bind_eq_ok, assertNotPaused_eq_ok, require_eq_ok, unwrapAddr_eq_ok,
    feeAmount_eq_ok, sub_eq_ok, mustPay_eq_ok, Units.calcRequire_eq_ok, Except.ok.injEq, Prod.mk.injEq]
  constructor
  · rintro ⟨_, h1, _, h2, _, ⟨h3, rfl⟩, received, ⟨h4, h5⟩, _, ⟨h6, rfl⟩, _, ⟨h7, rfl⟩, _, ⟨h8, rfl⟩, _, ⟨h9, rfl⟩, rfl, rfl⟩
    exact ⟨h1, h2, h3, received, _, _, h4, h5, rfl, h7, rfl, h6, h8, h9, rfl, rfl⟩
  · rintro ⟨h1, h2, h3, received, _, _, h4, h5, rfl, h7, rfl, h6, h8, h9, rfl, rfl⟩
    exact ⟨(), h1, (), h2, _, ⟨h3, rfl⟩, received, ⟨h4, h5⟩, _, ⟨h6, rfl⟩, _, ⟨h7, rfl⟩, _, ⟨h8, rfl⟩, _, ⟨h9, rfl⟩, rfl, rfl⟩

/-! ### Governance -/

theorem pause_eq_ok {s s' : State} {env : Env} {info : Info} {e : Option Nat} {ms : List Msg} :
    pause s env info e = .ok (s', ms) ↔
      s.config.gov = info.sender ∧ (s.config.paused.refresh env.now).paused = false ∧
      (∀ x, e = some x → env.now < x) ∧
      s' = { s with config := { s.config with paused := { paused := true, expiresAt := e } } } ∧
      ms = [] := by
  cases e <;> simp [pause] <;> grind

theorem release_eq_ok {s s' : State} {env : Env} {info : Info} {ms : List Msg} :
    release s env info = .ok (s', ms) ↔
      s.config.gov = info.sender ∧ (s.config.paused.refresh env.now).paused = true ∧
      s' = { s with config := { s.config with paused := {} } } ∧ ms = [] := by
  simp [release]; grind

theorem updateGov_eq_ok {s s' : State} {env : Env} {info : Info} {g : Addr} {ms : List Msg} :
    updateGov s env info g = .ok (s', ms) ↔
      s.config.gov = info.sender ∧ s.pendingGov = none ∧ env.validAddr g = true ∧
      s' = { s with pendingGov := some g } ∧ ms = [] := by
  simp [updateGov]; grind

theorem acceptGov_eq_ok {s s' : State} {info : Info} {ms : List Msg} :
    acceptGov s info = .ok (s', ms) ↔
      s.pendingGov = some info.sender ∧
      s' = { s with pendingGov := none, config := { s.config with gov := info.sender } } ∧ ms = [] := by
  unfold acceptGov
  cases s.pendingGov <;> simp <;> grind

theorem revokeGov_eq_ok {s s' : State} {info : Info} {ms : List Msg} :
    revokeGov s info = .ok (s', ms) ↔
      s.pendingGov.isSome = true ∧ s.config.gov = info.sender ∧
      s' = { s with pendingGov := none } ∧ ms = [] := by
  unfold revokeGov
  cases s.pendingGov <;> simp <;> grind

theorem updateFee_eq_ok {s s' : State} {env : Env} {info : Info} {p : FeePayload} {ms : List Msg} :
    updateFee s env info p = .ok (s', ms) ↔
      s.config.gov = info.sender ∧ s.rebalance = none ∧ env.validAddr p.collector = true ∧
      (∀ x, p.mintFee = some x → 0 < x ∧ x < ONE) ∧
      (∀ x, p.burnFee = some x → 0 < x ∧ x < ONE) ∧
      (∀ sf, p.streamingFee = some sf → 0 < sf.rate ∧ sf.rate ≤ MAX_STREAMING_FEE_RATE) ∧
      s' = { s with fee :=
        { collector := p.collector, mintFee := p.mintFee, burnFee := p.burnFee
          streamingFee := p.streamingFee.map fun sf =>
            { rate := sf.rate, collected := [], freeze := sf.freeze, lastCollectedAt := env.now } } } ∧
      ms = [] := by
  cases h : p.streamingFee <;> simp [updateFee, StreamingFeePayload.toState, h] <;> grind

theorem updateRebalanceManager_eq_ok {s s' : State} {env : Env} {info : Info} {m : Option Addr}
    {ms : List Msg} :
    updateRebalanceManager s env info m = .ok (s', ms) ↔
      s.config.gov = info.sender ∧ (∀ x, m = some x → env.validAddr x = true) ∧
      (∃ r, s.rebalance = some r ∧ s' = { s with rebalance := some { r with manager := m } }) ∧
      ms = [] := by
  unfold updateRebalanceManager
  cases s.rebalance <;> simp <;> grind

theorem updateReserveDenom_eq_ok {s s' : State} {info : Info} {d : Denom} {ms : List Msg} :
    updateReserveDenom s info d = .ok (s', ms) ↔
      s.config.gov = info.sender ∧ s.rebalance = none ∧
      s' = { s with config := { s.config with reserveDenom := d } } ∧ ms = [] := by
  simp [updateReserveDenom]; grind

theorem updateTradeInfo_eq_ok {s s' : State} {info : Info} {d : Denom} {routes : List SwapRoute}
    {cd mx : Nat} {ms : List Msg} :
    updateTradeInfo s info d routes cd mx = .ok (s', ms) ↔
      s.config.gov = info.sender ∧
      (∃ r rs, routes = r :: rs ∧
        s' = { s with tradeInfos := s.tradeInfos.set (d, r.tokenDenom) (TradeInfo.mk routes cd mx none) }) ∧
      ms = [] := by
  unfold updateTradeInfo
  cases routes <;> simp [denomLast] <;> grind

/-! ### Rebalance -/

@[simp] theorem loadReserve_eq_ok {s : State} {r : Units} :
    loadReserve s = .ok r ↔ s.reserveUnits = some r := by
  unfold loadReserve; split <;> simp_all

@[simp] theorem checkManager_eq_ok {r : Rebalance} {a : Addr} {u : Unit} :
    checkManager r a = .ok u ↔ ∀ m, r.manager = some m → m = a := by
  unfold checkManager; cases r.manager <;> simp

theorem checkDeflation_eq_ok {base ds : Units} {u : Unit} (hn : ds.denoms.Nodup) :
    checkDeflation base ds = .ok u ↔ ∀ e ∈ ds, ∃ cur, base.getKey e.1 = some cur ∧ e.2 ≤ cur := by
  induction ds generalizing base with
  | nil => simp [checkDeflation]
  | cons e ds ih =>
    obtain ⟨d, t⟩ := e
    have hn' : d ∉ Units.denoms ds ∧ (Units.denoms ds).Nodup := by
      simpa [Units.denoms] using hn
    unfold checkDeflation
    cases hp : base.popKey d with
    | none =>
      have := Units.popKey_eq_none.1 hp
      have := Units.getKey_eq_none.2 this
      simp [this]
    | some p =>
      obtain ⟨unit, rest⟩ := p
      obtain ⟨h1, h2⟩ := Units.popKey_eq_some hp
      simp only [bind_eq_ok, require_eq_ok, ih hn'.2]
      simp only [List.forall_mem_cons]
      rw [h1]
      have hrest : ∀ e ∈ ds, rest.getKey e.1 = base.getKey e.1 := by
        intro e he
        apply h2
        rintro rfl
        exact hn'.1 (List.mem_map.2 ⟨e, he, rfl⟩)
      constructor
      · rintro ⟨_, h3, h4⟩
        refine ⟨⟨unit, rfl, by omega⟩, ?_⟩
        intro e he
        have := h4 e he
        rwa [hrest e he] at this
      · rintro ⟨⟨cur, hc, h3⟩, h4⟩
        cases hc
        refine ⟨(), by omega, ?_⟩
        intro e he
        rw [hrest e he]
        exact h4 e he

theorem validate_rebalance_eq_ok {r : Rebalance} {us : Units} {u : Unit} :
    r.validate us = .ok u ↔
      r.deflation ≠ [] ∧ r.inflation ≠ [] ∧
      (∀ e ∈ r.deflation, ∃ cur, us.getKey e.1 = some cur ∧ e.2 ≤ cur) ∧
      (r.deflation.denoms ++ r.inflation.denoms).Nodup := by
  simp only [Rebalance.validate, bind_eq_ok, require_eq_ok, Units.checkDuplicate_eq_false,
    Units.denoms_append]
  constructor
  · rintro ⟨_, h1, _, h2, _, h3, _, h4, _, h5, h6⟩
    exact ⟨h1, h2, (checkDeflation_eq_ok h3).1 h5, h6⟩
  · rintro ⟨h1, h2, h5, h6⟩
    have hd := (List.nodup_append.1 h6)
    exact ⟨(), h1, (), h2, (), hd.1, (), hd.2.1, (), (checkDeflation_eq_ok hd.1).2 h5, h6⟩

theorem init_eq_ok {s s' : State} {env : Env} {info : Info} {m : Option Addr} {defl infl : Units}
    {ms : List Msg} :
    init s env info m defl infl = .ok (s', ms) ↔
      s.config.gov = info.sender ∧ s.rebalance = none ∧
      (∀ x, m = some x → env.validAddr x = true) ∧
      defl ≠ [] ∧ infl ≠ [] ∧
      (∀ e ∈ defl, ∃ cur, s.indexUnits.getKey e.1 = some cur ∧ e.2 ≤ cur) ∧
      (defl.denoms ++ infl.denoms).Nodup ∧
      s' = { s with
        fee := { s.fee with streamingFee := s.fee.streamingFee.map fun sf => { sf with freeze := true } }
        rebalance := some { manager := m, deflation := defl, inflation := infl }
        reserveUnits := some [] } ∧
      ms = [] := by
  simp only [init, bind_eq_ok, checkGov_eq_ok, require_eq_ok, validateOpt_eq_ok,
    validate_rebalance_eq_ok, Except.ok.injEq, Prod.mk.injEq]
  constructor
  · rintro ⟨_, h1, _, h2, _, ⟨h3, rfl⟩, _, ⟨h4, h5, h6, h7⟩, rfl, rfl⟩
    exact ⟨h1, h2, h3, h4, h5, h6, h7, rfl, rfl⟩
  · rintro ⟨h1, h2, h3, h4, h5, h6, h7, rfl, rfl⟩
    exact ⟨(), h1, (), h2, _, ⟨h3, rfl⟩, (), ⟨h4, h5, h6, h7⟩, rfl, rfl⟩

@[simp] theorem checkTargets_eq_ok {us ds : Units} {u : Unit} :
    checkTargets us ds = .ok u ↔ ∀ e ∈ ds, ∃ cur, us.getKey e.1 = some cur ∧ cur ≤ e.2 := by
  induction ds with
  | nil => simp [checkTargets]
  | cons e ds ih =>
    obtain ⟨d, t⟩ := e
    simp [checkTargets, ih]
    grind

theorem finalize_eq_ok {s s' : State} {env : Env} {info : Info} {ms : List Msg} :
    finalize s env info = .ok (s', ms) ↔
      ∃ r res, s.rebalance = some r ∧ s.reserveUnits = some res ∧
      (∀ m, r.manager = some m → m = info.sender) ∧
      (∀ e ∈ r.deflation, ∃ cur, s.indexUnits.getKey e.1 = some cur ∧ cur ≤ e.2) ∧
      (∀ e ∈ res, e.2 = 0) ∧
      s' = { s with
        fee := { s.fee with streamingFee := s.fee.streamingFee.map fun sf =>
          { sf with freeze := false, lastCollectedAt := env.now } }
        indexUnits := s.indexUnits.filter (fun e => e.2 ≠ 0)
        rebalance := none
        reserveUnits := none } ∧
      ms = [] := by
  simp only [finalize, unfreezeStreamingFee]
  cases hr : s.rebalance with
  | none => simp
  | some r =>
    simp only [bind_eq_ok, checkManager_eq_ok, checkTargets_eq_ok, loadReserve_eq_ok, require_eq_ok,
      Units.checkEmpty_eq_true, Except.ok.injEq, Prod.mk.injEq]
    constructor
    · rintro ⟨_, h1, _, h2, res, h3, _, h4, rfl, rfl⟩
      exact ⟨r, res, rfl, h3, h1, h2, h4, rfl, rfl⟩
    · rintro ⟨r', res, he, h3, h1, h2, h4, rfl, rfl⟩
      simp at he
      subst he
      exact ⟨(), h1, (), h2, res, h3, (), h4, rfl, rfl⟩

@[simp] theorem assertCooldown_eq_ok {t : TradeInfo} {now : Nat} {u : Unit} :
    t.assertCooldown now = .ok u ↔
      ∀ l, t.lastTradedAt = some l → l + t.cooldown < 2 ^ 64 ∧ l + t.cooldown ≤ now := by
  unfold TradeInfo.assertCooldown
  cases t.lastTradedAt <;> simp

@[simp] theorem simSwapExactOut_eq_ok {env : Env} {r : List SwapRoute} {c : Coin} {n : Nat} :
    simSwapExactOut env r c = .ok n ↔ r ≠ [] ∧ env.estIn r c = .ok n := by
  cases r <;> simp [simSwapExactOut]

@[simp] theorem simSwapExactIn_eq_ok {env : Env} {r : List SwapRoute} {c : Coin} {n : Nat} :
    simSwapExactIn env r c = .ok n ↔ r ≠ [] ∧ env.estOut r c = .ok n := by
  cases r <;> simp [simSwapExactIn]

theorem deflateReserve_eq_ok {s s' : State} {r : Rebalance} {d : Denom} {ms : List Msg} :
    deflateReserve s r d = .ok (s', ms) ↔
      ∃ res target current us' res',
        s.reserveUnits = some res ∧ r.deflation.getKey d = some target ∧
        s.indexUnits.getKey d = some current ∧ target ≤ current ∧
        (current - target) * s.totalSupply / ONE < U128 ∧
        s.indexUnits.subKey d (current - target) = .ok us' ∧
        inflateReserveUnit res (current - target) r.inflation = .ok res' ∧
        s' = { s with indexUnits := us', reserveUnits := some res' } ∧ ms = [] := by
  simp [deflateReserve]
  grind

theorem deflate_eq_ok {s s' : State} {env : Env} {r : Rebalance} {d : Denom} {out maxIn : Nat}
    {ms : List Msg} :
    deflate s env r d out maxIn = .ok (s', ms) ↔
      ∃ t res target current simIn us' res',
        s.tradeInfos.get (d, s.config.reserveDenom) = some t ∧
        s.reserveUnits = some res ∧ r.deflation.getKey d = some target ∧
        s.indexUnits.getKey d = some current ∧
        (∀ l, t.lastTradedAt = some l → l + t.cooldown < 2 ^ 64 ∧ l + t.cooldown ≤ env.now) ∧
        out ≤ t.maxTradeAmount ∧ target ≤ current ∧
        (current - target) * s.totalSupply / ONE < U128 ∧
        t.routes ≠ [] ∧ env.estIn t.routes ⟨s.config.reserveDenom, out⟩ = .ok simIn ∧
        simIn ≤ (current - target) * s.totalSupply / ONE ∧ simIn ≤ maxIn ∧
        s.totalSupply ≠ 0 ∧ simIn * ONE / s.totalSupply < U128 ∧ out * ONE / s.totalSupply < U128 ∧
        s.indexUnits.subKey d (simIn * ONE / s.totalSupply) = .ok us' ∧
        inflateReserveUnit res (out * ONE / s.totalSupply) r.inflation = .ok res' ∧
        s' = { s with
          indexUnits := us', reserveUnits := some res'
          tradeInfos := s.tradeInfos.set (d, s.config.reserveDenom)
            { t with lastTradedAt := some env.now } } ∧
        ms = [.swapExactOut env.contract t.routes ⟨s.config.reserveDenom, out⟩ simIn] := by
  simp only [deflate, bind_eq_ok, KV.load_eq_ok, loadReserve_eq_ok, Units.getKey!_eq_ok,
    assertCooldown_eq_ok, require_eq_ok, sub_eq_ok, mulInt_eq_ok, simSwapExactOut_eq_ok, ratio_eq_ok,
    Except.ok.injEq, Prod.mk.injEq, not_lt]
  constructor
  · rintro ⟨t, h1, res, h2, target, h3, current, h4, _, h5, _, h6, _, ⟨h7, rfl⟩, _, ⟨h8, rfl⟩, simIn,
      ⟨h9, h10⟩, _, h11, _, h12, _, ⟨h13, h14, rfl⟩, _, ⟨_, h15, rfl⟩, us', h16, res', h17, rfl, rfl⟩
    exact ⟨t, res, target, current, simIn, us', res', h1, h2, h3, h4, h5, h6, h7, h8, h9, h10, h11, h12,
      h13, h14, h15, h16, h17, rfl, rfl⟩
  · rintro ⟨t, res, target, current, simIn, us', res', h1, h2, h3, h4, h5, h6, h7, h8, h9, h10, h11, h12,
      h13, h14, h15, h16, h17, rfl, rfl⟩
    exact ⟨t, h1, res, h2, target, h3, current, h4, (), h5, (), h6, _, ⟨h7, rfl⟩, _, ⟨h8, rfl⟩, simIn,
      ⟨h9, h10⟩, (), h11, (), h12, _, ⟨h13, h14, rfl⟩, _, ⟨h13, h15, rfl⟩, us', h16, res', h17, rfl, rfl⟩

theorem inflateReserve_eq_ok {s s' : State} {d : Denom} {ms : List Msg} :
    inflateReserve s d = .ok (s', ms) ↔
      ∃ res unit us' res',
        s.reserveUnits = some res ∧ res.getKey d = some unit ∧
        unit * s.totalSupply / ONE < U128 ∧
        s.indexUnits.addKey d unit = .ok us' ∧ res.subKey d unit = .ok res' ∧
        s' = { s with indexUnits := us', reserveUnits := some res' } ∧ ms = [] := by
  simp [inflateReserve]
  grind

theorem inflate_eq_ok {s s' : State} {env : Env} {d : Denom} {amtIn minOut : Nat} {ms : List Msg} :
    inflate s env d amtIn minOut = .ok (s', ms) ↔
      ∃ t res unit simOut us' res',
        s.tradeInfos.get (s.config.reserveDenom, d) = some t ∧
        s.reserveUnits = some res ∧ res.getKey d = some unit ∧
        (∀ l, t.lastTradedAt = some l → l + t.cooldown < 2 ^ 64 ∧ l + t.cooldown ≤ env.now) ∧
        amtIn ≤ t.maxTradeAmount ∧ unit * s.totalSupply / ONE < U128 ∧
        amtIn ≤ unit * s.totalSupply / ONE ∧
        t.routes ≠ [] ∧ env.estOut t.routes ⟨s.config.reserveDenom, amtIn⟩ = .ok simOut ∧
        minOut ≤ simOut ∧
        s.totalSupply ≠ 0 ∧ amtIn * ONE / s.totalSupply < U128 ∧ simOut * ONE / s.totalSupply < U128 ∧
        s.indexUnits.addKey d (simOut * ONE / s.totalSupply) = .ok us' ∧
        res.subKey d (amtIn * ONE / s.totalSupply) = .ok res' ∧
        s' = { s with
          indexUnits := us', reserveUnits := some res'
          tradeInfos := s.tradeInfos.set (s.config.reserveDenom, d)
            { t with lastTradedAt := some env.now } } ∧
        ms = [.swapExactIn env.contract t.routes ⟨s.config.reserveDenom, amtIn⟩ simOut] := by
  simp only [inflate, bind_eq_ok, KV.load_eq_ok, loadReserve_eq_ok, Units.getKey!_eq_ok,
    assertCooldown_eq_ok, require_eq_ok, mulInt_eq_ok, simSwapExactIn_eq_ok, ratio_eq_ok,
    Except.ok.injEq, Prod.mk.injEq, not_lt]
  constructor
  · rintro ⟨t, h1, res, h2, unit, h3, _, h5, _, h6, _, ⟨h8, rfl⟩, _, h9, simOut, ⟨h10, h11⟩, _, h12,
      _, ⟨h13, h14, rfl⟩, _, ⟨_, h15, rfl⟩, us', h16, res', h17, rfl, rfl⟩
    exact ⟨t, res, unit, simOut, us', res', h1, h2, h3, h5, h6, h8, h9, h10, h11, h12,
      h13, h14, h15, h16, h17, rfl, rfl⟩
  · rintro ⟨t, res, unit, simOut, us', res', h1, h2, h3, h5, h6, h8, h9, h10, h11, h12,
      h13, h14, h15, h16, h17, rfl, rfl⟩
    exact ⟨t, h1, res, h2, unit, h3, (), h5, (), h6, _, ⟨h8, rfl⟩, (), h9, simOut, ⟨h10, h11⟩, (), h12,
      _, ⟨h13, h14, rfl⟩, _, ⟨h13, h15, rfl⟩, us', h16, res', h17, rfl, rfl⟩

theorem trade_eq_ok {s s' : State} {env : Env} {info : Info} {m : TradeMsg} {ms : List Msg} :
    trade s env info m = .ok (s', ms) ↔
      ∃ r, s.rebalance = some r ∧ (∀ a, r.manager = some a → a = info.sender) ∧
      ((∃ d out maxIn, m = .deflate d out maxIn ∧ s.config.reserveDenom = d ∧
          deflateReserve s r d = .ok (s', ms)) ∨
       (∃ d out maxIn, m = .deflate d out maxIn ∧ s.config.reserveDenom ≠ d ∧
          deflate s env r d out maxIn = .ok (s', ms)) ∨
       (∃ d amtIn minOut, m = .inflate d amtIn minOut ∧ s.config.reserveDenom = d ∧
          inflateReserve s d = .ok (s', ms)) ∨
       (∃ d amtIn minOut, m = .inflate d amtIn minOut ∧ s.config.reserveDenom ≠ d ∧
          inflate s env d amtIn minOut = .ok (s', ms))) := by
  unfold trade
  cases hr : s.rebalance with
  | none => simp
  | some r =>
    simp only [bind_eq_ok, checkManager_eq_ok, Option.some.injEq, exists_eq_left']
    cases m with
    | deflate d o mi =>
      by_cases h : s.config.reserveDenom = d <;> simp [h] <;> grind
    | inflate d o mi =>
      by_cases h : s.config.reserveDenom = d <;> simp [h] <;> grind

end Ibcx.Core
