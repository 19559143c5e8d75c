import Verif.Periphery.Query
import Verif.Pool.Lemmas
import Verif.Spec.Zap
import Verif.Props.Sim
/-!
# Facts about the operations of the periphery

Not part of the model.
-/

namespace Ibcx.Periphery
open Ibcx Ibcx.Core Ibcx.Pool Ibcx.Spec Ibcx.Props

theorem findCore_eq_ok {p : PEnv} {a : Addr} {s : Core.State} :
    findCore p a = .ok s ↔ p.env.validAddr a = true ∧ p.core a = some s := by
  unfold findCore validate
  by_cases h : p.env.validAddr a = true
  · simp only [h, if_true, ok_bind, true_and]
    cases p.core a <;> simp
  · simp [h]

theorem getFee_frame {s : Core.State} {env : Env} {t : Option Nat} {f : Fee} (h : getFee s env t = .ok f) :
    f.mintFee = s.fee.mintFee ∧ f.burnFee = s.fee.burnFee ∧ f.collector = s.fee.collector := by
  unfold getFee at h
  split at h
  · cases h; exact ⟨rfl, rfl, rfl⟩
  · simp only [bind_eq_ok, Except.ok.injEq] at h
    obtain ⟨x, _, rfl⟩ := h
    exact ⟨rfl, rfl, rfl⟩

theorem getConfig_frame {s : Core.State} {env : Env} {t : Option Nat} {c : ConfigResp} (h : getConfig s env t = .ok c) :
    c.indexDenom = s.config.indexDenom := by
  simp only [getConfig, bind_eq_ok, Except.ok.injEq] at h
  obtain ⟨_, _, rfl⟩ := h
  rfl

theorem getPortfolio_units {s : Core.State} {env : Env} {r : PortfolioResp} (h : getPortfolio s env none = .ok r) :
    ∃ s1, collectStreamingFee s env.now = .ok s1 ∧ r.units = s1.indexUnits := by
  simp only [getPortfolio, bind_eq_ok, Except.ok.injEq, unitsAt_eq_ok, Option.getD_none] at h
  obtain ⟨_, ⟨s1, h1, rfl⟩, _, _, rfl⟩ := h
  exact ⟨s1, h1, rfl⟩

theorem makeSim_units {p : PEnv} {infos : List SwapInfo} {us : Core.Units} {s : Simulator}
    (h : makeSim p infos us = .ok s) : s.env = p.env ∧ s.swapInfo = infos ∧ s.units = us := by
  simp only [makeSim, bind_eq_ok, Except.ok.injEq] at h
  obtain ⟨_, _, rfl⟩ := h
  exact ⟨rfl, rfl, rfl⟩

theorem basketCoins_eq_ok {us : Core.Units} {n : Nat} {cs : List Coin} :
    basketCoins us n = .ok cs ↔ (∀ e ∈ us, part e.2 n < 2 ^ 128) ∧ cs = sortCoins (basket us n) := by
  have hU : U128 = 2 ^ 128 := rfl
  unfold basketCoins basket
  simp only [bind_eq_ok, Except.ok.injEq]
  constructor
  · rintro ⟨x, h, rfl⟩
    obtain ⟨h1, rfl⟩ := (mapM_eq_ok_map (P := fun e : Denom × Nat => part e.2 n < 2 ^ 128)
      (g := fun e => (⟨e.1, part e.2 n⟩ : Coin)) (by
        rintro ⟨d, u⟩ b
        simp only [bind_eq_ok, mulInt_eq_ok, part_eq, Except.ok.injEq, hU]
        constructor
        · rintro ⟨a, ⟨h, rfl⟩, rfl⟩; exact ⟨h, rfl⟩
        · rintro ⟨h, rfl⟩; exact ⟨_, ⟨h, rfl⟩, rfl⟩)).1 h
    exact ⟨h1, rfl⟩
  · rintro ⟨h, rfl⟩
    refine ⟨_, (mapM_eq_ok_map (P := fun e : Denom × Nat => part e.2 n < 2 ^ 128)
      (g := fun e => (⟨e.1, part e.2 n⟩ : Coin)) (by
        rintro ⟨d, u⟩ b
        simp only [bind_eq_ok, mulInt_eq_ok, part_eq, Except.ok.injEq, hU]
        constructor
        · rintro ⟨a, ⟨h, rfl⟩, rfl⟩; exact ⟨h, rfl⟩
        · rintro ⟨h, rfl⟩; exact ⟨_, ⟨h, rfl⟩, rfl⟩)).2 ⟨h, rfl⟩, rfl⟩

/-- `MintExactAmountIn`: what an accepted call consists of. -/
theorem mintExactIn_spec {p : PEnv} {info : Info} {a : Addr} {denom : Denom} {min : Nat} {infos : List SwapInfo}
    {ms : List PMsg} (h : mintExactIn p info a denom min infos = .ok ms) :
    ∃ core s1 paid sim res est swaps,
      p.env.validAddr a = true ∧ p.core a = some core ∧ collectStreamingFee core p.env.now = .ok s1 ∧
      info.funds = [⟨denom, paid⟩] ∧ paid ≠ 0 ∧ makeSim p infos s1.indexUnits = .ok sim ∧
      estIndexForInput sim ⟨denom, paid⟩ (some min) (some min) = .ok (res, some est) ∧
      inMsgs est.routes p.env.contract (est.spent + 10000) = .ok swaps ∧
      (∀ e ∈ s1.indexUnits, part e.2 est.index < 2 ^ 128) ∧ (∃ port, getPortfolio core p.env none = .ok port) ∧
      ms = swaps.map PMsg.chain ++ [.core a (.mint est.index (some info.sender) (some info.sender))
        (sortCoins (basket s1.indexUnits est.index)), .finish info.sender denom] := by
  simp only [mintExactIn, bind_eq_ok, findCore_eq_ok, mustPay_eq_ok] at h
  obtain ⟨core, ⟨hv, hc⟩, fee, hfee, cfg, hcfg, port, hport, paid, ⟨hf, hp⟩, sim, hsim, ⟨res, est⟩, hest, h⟩ := h
  obtain ⟨s1, hs1, hu⟩ := getPortfolio_units hport
  rw [hu] at hsim
  cases est with
  | none => cases h
  | some est =>
    simp only [bind_eq_ok, add_eq_ok, basketCoins_eq_ok, hu, Except.ok.injEq] at h
    obtain ⟨_, ⟨_, rfl⟩, swaps, hsw, funds, ⟨hlt, rfl⟩, _, _, _, _, rfl⟩ := h
    exact ⟨core, s1, paid, sim, res, est, swaps, hv, hc, hs1, hf, hp, hsim, hest, hsw, hlt, ⟨_, hport⟩, rfl⟩

/-- `MintExactAmountOut`: what an accepted call consists of. -/
theorem mintExactOut_spec {p : PEnv} {info : Info} {a : Addr} {index : Nat} {denom : Denom} {infos : List SwapInfo}
    {ms : List PMsg} (h : mintExactOut p info a index denom infos = .ok ms) :
    ∃ core s1 paid sim total routes swaps,
      p.env.validAddr a = true ∧ p.core a = some core ∧ collectStreamingFee core p.env.now = .ok s1 ∧
      info.funds = [⟨denom, paid⟩] ∧ paid ≠ 0 ∧ makeSim p infos s1.indexUnits = .ok sim ∧
      tokenGivenIndexOut sim index denom = .ok (total, routes) ∧ total ≤ paid ∧
      inMsgs routes p.env.contract paid = .ok swaps ∧
      (∀ e ∈ s1.indexUnits, part e.2 index < 2 ^ 128) ∧ (∃ port, getPortfolio core p.env none = .ok port) ∧
      ms = swaps.map PMsg.chain ++ [.core a (.mint index (some info.sender) (some info.sender))
        (sortCoins (basket s1.indexUnits index)), .finish info.sender denom] := by
  simp only [mintExactOut, bind_eq_ok, findCore_eq_ok, mustPay_eq_ok] at h
  obtain ⟨core, ⟨hv, hc⟩, fee, hfee, cfg, hcfg, port, hport, paid, ⟨hf, hp⟩, sim, hsim, ⟨total, routes⟩, hest, h⟩ := h
  obtain ⟨s1, hs1, hu⟩ := getPortfolio_units hport
  rw [hu] at hsim
  simp only [bind_eq_ok, sub_eq_ok, basketCoins_eq_ok, hu, Except.ok.injEq] at h
  obtain ⟨_, ⟨hle, _⟩, swaps, hsw, funds, ⟨hlt, rfl⟩, _, _, _, _, rfl⟩ := h
  exact ⟨core, s1, paid, sim, total, routes, swaps, hv, hc, hs1, hf, hp, hsim, hest, hle, hsw, hlt, ⟨_, hport⟩, rfl⟩

theorem deductFee_eq_ok {f : Option Nat} {r : Nat} :
    deductFee f = .ok r ↔ f.getD 0 ≤ ONE ∧ r = ONE - f.getD 0 := by
  cases f with
  | none => simp [deductFee, eq_comm]
  | some v => simp [deductFee]

theorem expandFee_eq_ok {f : Option Nat} {r : Nat} :
    expandFee f = .ok r ↔ (f = none ∧ r = ONE) ∨
      ∃ v, f = some v ∧ v < ONE ∧ ONE * ONE / (ONE - v) < U128 ∧ r = ONE * ONE / (ONE - v) := by
  cases f with
  | none => simp [expandFee, eq_comm]
  | some v =>
    simp only [expandFee, bind_eq_ok, sub_eq_ok, ratio_eq_ok]
    constructor
    · rintro ⟨k, ⟨h1, rfl⟩, h2, h3, h4⟩
      exact .inr ⟨v, rfl, by omega, h3, h4⟩
    · rintro (⟨h, _⟩ | ⟨v', h, h1, h3, h4⟩)
      · cases h
      · cases h
        exact ⟨_, ⟨by omega, rfl⟩, by omega, h3, h4⟩

/-- `BurnExactAmountIn`: what an accepted call consists of. -/
theorem burnExactIn_spec {p : PEnv} {info : Info} {a : Addr} {output : Denom} {min : Nat} {infos : List SwapInfo}
    {ms : List PMsg} (h : burnExactIn p info a output min infos = .ok ms) :
    ∃ core s1 paid sim total routes swaps,
      p.env.validAddr a = true ∧ p.core a = some core ∧ collectStreamingFee core p.env.now = .ok s1 ∧
      info.funds = [⟨core.config.indexDenom, paid⟩] ∧ paid ≠ 0 ∧ makeSim p infos s1.indexUnits = .ok sim ∧
      core.fee.burnFee.getD 0 ≤ ONE ∧
      tokenGivenIndexIn sim ((ONE - core.fee.burnFee.getD 0) * paid / ONE) output = .ok (total, routes) ∧
      outMsgs routes p.env.contract min = .ok swaps ∧
      ms = .core a (.burn none) [⟨core.config.indexDenom, paid⟩] ::
        (swaps.map PMsg.chain ++ [.finish info.sender output]) := by
  simp only [burnExactIn, bind_eq_ok, findCore_eq_ok, mustPay_eq_ok] at h
  obtain ⟨core, ⟨hv, hc⟩, fee, hfee, cfg, hcfg, port, hport, paid, ⟨hf, hp⟩, sim, hsim, h⟩ := h
  obtain ⟨s1, hs1, hu⟩ := getPortfolio_units hport
  obtain ⟨_, hbf, _⟩ := getFee_frame hfee
  rw [hu] at hsim
  rw [getConfig_frame hcfg] at hf h
  simp only [deductFee_eq_ok, hbf, mulInt_eq_ok, Except.ok.injEq] at h
  obtain ⟨_, ⟨hle, rfl⟩, _, ⟨_, rfl⟩, ⟨total, routes⟩, hest, swaps, hsw, rfl⟩ := h
  exact ⟨core, s1, paid, sim, total, routes, swaps, hv, hc, hs1, hf, hp, hsim, hle, hest, hsw, rfl⟩

/-- `BurnExactAmountOut`: what an accepted call consists of. -/
theorem burnExactOut_spec {p : PEnv} {info : Info} {a : Addr} {desired : Coin} {infos : List SwapInfo}
    {ms : List PMsg} (h : burnExactOut p info a desired infos = .ok ms) :
    ∃ core s1 paid sim min rev rate burn total routes swaps,
      p.env.validAddr a = true ∧ p.core a = some core ∧ collectStreamingFee core p.env.now = .ok s1 ∧
      info.funds = [⟨core.config.indexDenom, paid⟩] ∧ paid ≠ 0 ∧ makeSim p infos s1.indexUnits = .ok sim ∧
      estIndexForOutput sim desired (some paid) (some paid) = .ok (min, rev) ∧
      expandFee core.fee.burnFee = .ok rate ∧ burn + 1 = rate * min.index / ONE ∧ burn ≤ paid ∧
      core.fee.burnFee.getD 0 ≤ ONE ∧
      tokenGivenIndexIn sim ((ONE - core.fee.burnFee.getD 0) * burn / ONE) desired.denom = .ok (total, routes) ∧
      outMsgs routes p.env.contract total = .ok swaps ∧
      ms = .core a (.burn none) [⟨core.config.indexDenom, burn⟩] ::
        (swaps.map PMsg.chain ++ [.finish info.sender core.config.indexDenom, .finish info.sender desired.denom]) := by
  simp only [burnExactOut, bind_eq_ok, findCore_eq_ok, mustPay_eq_ok] at h
  obtain ⟨core, ⟨hv, hc⟩, fee, hfee, cfg, hcfg, port, hport, paid, ⟨hf, hp⟩, sim, hsim, ⟨min, rev⟩, hmin, rate, hrate, h⟩ := h
  obtain ⟨s1, hs1, hu⟩ := getPortfolio_units hport
  obtain ⟨_, hbf, _⟩ := getFee_frame hfee
  rw [hu] at hsim
  rw [hbf] at hrate
  rw [getConfig_frame hcfg] at hf h
  simp only [deductFee_eq_ok, hbf, mulInt_eq_ok, sub_eq_ok, require_eq_ok, Except.ok.injEq] at h
  obtain ⟨_, ⟨_, rfl⟩, _, ⟨h1, rfl⟩, _, h2, _, ⟨hle, rfl⟩, _, ⟨_, rfl⟩, ⟨total, routes⟩, hest, swaps, hsw, rfl⟩ := h
  exact ⟨core, s1, paid, sim, min, rev, rate, _, total, routes, swaps, hv, hc, hs1, hf, hp, hsim, hmin, hrate,
    Nat.sub_add_cancel h1, Nat.le_of_not_lt h2, hle, hest, hsw, rfl⟩

theorem finishOperation_eq_ok {p : PEnv} {info : Info} {r : Addr} {d : Denom} {ms : List PMsg} :
    finishOperation p info r d = .ok ms ↔ info.sender = p.env.contract ∧ p.env.validAddr r = true ∧
      ms = [.chain (.send r [⟨d, p.balance d⟩])] := by
  simp only [finishOperation, bind_eq_ok, require_eq_ok, validate, Except.ok.injEq]
  by_cases h : p.env.validAddr r = true
  · simp [h, eq_comm]
  · simp [h]

end Ibcx.Periphery
