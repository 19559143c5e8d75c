import Verif.Periphery.Lemmas
/-!
# Property C46: the basket attached by the periphery and the core contract
-/

namespace Ibcx.Props
open Ibcx Ibcx.Core Ibcx.Periphery Ibcx.Spec

/-- What the wasm module keeps of attached funds: it drops zero coins. -/
def attached (cs : List Coin) : List Coin := cs.filter fun c => c.amount ≠ 0

theorem basket_denoms (us : Units) (n : Nat) : (basket us n).map (·.denom) = us.denoms := by
  unfold basket Units.denoms
  rw [List.map_map]; rfl

theorem total_basket {us : Units} (hn : us.denoms.Nodup) (n : Nat) (d : Denom) :
    total d (basket us n) = ((us.lookup d).map fun u => part u n).getD 0 :=
  total_units hn (fun u => part u n) d

theorem total_attached (d : Denom) (cs : List Coin) : total d (attached cs) = total d cs := by
  rw [attached, total_eq, total_eq, amountOf_filter_pos]

theorem total_sortCoins (d : Denom) (cs : List Coin) : total d (sortCoins cs) = total d cs := by
  rw [total_eq, total_eq, amountOf_sortCoins]

theorem distinct_attached_basket {us : Units} (hn : us.denoms.Nodup) (n : Nat) :
    distinct (attached (sortCoins (basket us n))) := by
  unfold distinct attached
  have h : ((sortCoins (basket us n)).map (·.denom)).Nodup :=
    ((sortCoins_perm _).map _).nodup_iff.2 (by rw [basket_denoms]; exact hn)
  exact h.sublist (List.filter_sublist.map _)

/-- **C46.** The coins that the periphery attaches to `Mint` (the basket of the portfolio units, in denom order, zero
coins dropped by the chain) are accepted by the core contract exactly when no requirement rounds down to zero (and the
conditions of every mint hold: not paused, not rebalancing, valid addresses, fee at most the amount, no overflow); in
that case nothing is refunded. -/
theorem C46_basket_accepted_iff {s s' : State} {env : Env} {port : PortfolioResp} {funds : List Coin} {zap user : Addr}
    {amount : Nat} {ms : List Msg} (hr : Reachable s) (hport : getPortfolio s env none = .ok port)
    (hfunds : basketCoins port.units amount = .ok funds) :
    execute s env ⟨zap, attached funds⟩ (.mint amount (some user) (some user)) = .ok (s', ms) ↔
      (∀ e ∈ port.units, 1 ≤ part e.2 amount) ∧
      ¬ pausedAt s env.now ∧ s.rebalance = none ∧ env.validAddr user = true ∧ mintFeeOf s amount ≤ amount ∧
      s.totalSupply + amount < 2 ^ 128 ∧
      (∃ s1, collectStreamingFee s env.now = .ok s1 ∧ s' = { s1 with totalSupply := s.totalSupply + amount }) ∧
      ms = [.tfMint env.contract env.contract ⟨s.config.indexDenom, amount⟩]
        ++ feeTransfer s.fee.mintFee s.fee.collector s.config.indexDenom (mintFeeOf s amount)
        ++ [.send user [⟨s.config.indexDenom, amount - mintFeeOf s amount⟩], .send user []] := by
  obtain ⟨s1, hc, hu⟩ := getPortfolio_units hport
  rw [hu] at hfunds ⊢
  obtain ⟨hlt, rfl⟩ := basketCoins_eq_ok.1 hfunds
  have hn : s1.indexUnits.denoms.Nodup := (hr.inv.collect hc).nodup
  rw [C03_mint_accepted_iff hr (distinct_attached_basket hn amount)]
  have hmem : ∀ c, c ∈ attached (sortCoins (basket s1.indexUnits amount)) ↔
      ∃ e ∈ s1.indexUnits, c = ⟨e.1, part e.2 amount⟩ ∧ 1 ≤ part e.2 amount := by
    intro c
    unfold attached
    rw [List.mem_filter, (sortCoins_perm _).mem_iff, basket, List.mem_map]
    constructor
    · rintro ⟨⟨e, he, rfl⟩, h⟩
      exact ⟨e, he, rfl, by simp at h; omega⟩
    · rintro ⟨e, he, rfl, h⟩
      exact ⟨⟨e, he, rfl⟩, by simp; omega⟩
  have hnil : (∀ e ∈ s1.indexUnits, 1 ≤ part e.2 amount) →
      (((attached (sortCoins (basket s1.indexUnits amount))).map fun c =>
        (⟨c.denom, c.amount - keptBy s1.indexUnits amount c.denom⟩ : Coin)).filter fun c => c.amount ≠ 0) = [] := by
    intro h1
    rw [List.filter_eq_nil_iff]
    intro c hcm
    obtain ⟨c', hc', rfl⟩ := List.mem_map.1 hcm
    obtain ⟨e, he, rfl, hge⟩ := (hmem _).1 hc'
    have : keptBy s1.indexUnits amount e.1 = part e.2 amount := by
      rw [keptBy_of_mem (List.mem_map.2 ⟨e, he, rfl⟩), Units.mem_getKey hn he]
      rw [part_eq] at *
      simp only [Option.getD_some]
      omega
    simp [this]
  constructor
  · rintro ⟨s1', hc', hp, hnr, ha, _, h5, h6, h7, h8, h9, rfl, rfl⟩
    rw [hc] at hc'; cases hc'
    have h1 : ∀ e ∈ s1.indexUnits, 1 ≤ part e.2 amount := by
      intro e he
      obtain ⟨c, hcm, hce, hmax⟩ := h5 e he
      obtain ⟨e', he', rfl, hge⟩ := (hmem _).1 hcm
      simp only at hce
      have e1 := Units.mem_getKey hn he
      have e2 := Units.mem_getKey hn he'
      rw [hce, e1] at e2
      simp only [Option.some.injEq] at e2
      rw [e2]
      exact hge
    refine ⟨h1, hp, hnr, ha _ rfl, h7, h9, ⟨s1, hc, rfl⟩, ?_⟩
    rw [hnil h1]; rfl
  · rintro ⟨h1, hp, hnr, ha, h7, h9, ⟨s1', hc', rfl⟩, rfl⟩
    rw [hc] at hc'; cases hc'
    refine ⟨s1, hc, hp, hnr, by simpa using ha, by simpa using ha, ?_, ?_, h7, hlt, h9, rfl, ?_⟩
    · intro e he
      exact ⟨_, (hmem _).2 ⟨e, he, rfl, h1 e he⟩, rfl, by simp only; have := h1 e he; omega⟩
    · intro c hcm
      obtain ⟨e, he, rfl, _⟩ := (hmem _).1 hcm
      exact List.mem_map.2 ⟨e, he, rfl⟩
    · rw [hnil h1]; rfl

/-- The example contract: for 10000 index tokens the basket is 2500 uatom and 15000 uosmo and the core contract takes
it; for 3 index tokens the uatom requirement rounds to zero and the core contract refuses. -/
example : Reachable Demo.s0 ∧
    ((getPortfolio Demo.s0 (Demo.env 1000) none).toOption.bind fun p => (basketCoins p.units 10000).toOption) =
      some [⟨"uatom", 2500⟩, ⟨"uosmo", 15000⟩] ∧
    (execute Demo.s0 (Demo.env 1000) ⟨"zap", attached [⟨"uatom", 2500⟩, ⟨"uosmo", 15000⟩]⟩
      (.mint 10000 (some "bob") (some "bob"))).map (·.2) =
      .ok [.tfMint "core" "core" ⟨"factory/core/ibcx", 10000⟩, .send "collector" [⟨"factory/core/ibcx", 100⟩],
        .send "bob" [⟨"factory/core/ibcx", 9900⟩], .send "bob" []] ∧
    ((getPortfolio Demo.s0 (Demo.env 1000) none).toOption.bind fun p => (basketCoins p.units 3).toOption) =
      some [⟨"uatom", 0⟩, ⟨"uosmo", 4⟩] ∧
    (execute Demo.s0 (Demo.env 1000) ⟨"zap", attached [⟨"uatom", 0⟩, ⟨"uosmo", 4⟩]⟩
      (.mint 3 (some "bob") (some "bob"))).toOption = none :=
  ⟨Demo.s0_reachable, by decide +kernel, by decide +kernel, by decide +kernel, by decide +kernel⟩

end Ibcx.Props
