import Verif.Spec.ZapAccept
import Verif.Props.Route
import Verif.Props.ZapBasket
import Verif.Props.ZapBurn
import Verif.Props.AcceptGov
/-!
# C84: exactly when the periphery accepts an operation, and what it then does
-/

namespace Ibcx.Props
open Ibcx Ibcx.Core Ibcx.Pool Ibcx.Spec Ibcx.Periphery

/-! ### What is read -/

private theorem ids_unique {xs ys : List Nat} (hx : xs.Pairwise (· < ·)) (hy : ys.Pairwise (· < ·))
    (h : ∀ n, n ∈ xs ↔ n ∈ ys) : xs = ys :=
  ((List.perm_ext_iff_of_nodup (hx.imp fun h => Nat.ne_of_lt h) (hy.imp fun h => Nat.ne_of_lt h)).2 h).eq_of_pairwise
    (fun a b _ _ h h' => absurd h (Nat.lt_asymm h')) hx hy

theorem queryPools_iff {ask : Nat → Res (Option Pool)} {infos : List SwapInfo} {pools : List Pool} :
    queryPools ask (extractPoolIds infos) = .ok pools ↔ PoolsRead ask infos pools := by
  obtain ⟨h1, h2⟩ := C56_pool_ids infos
  simp only [queryPools, bind_eq_ok, mapM_eq_ok, Except.ok.injEq]
  constructor
  · rintro ⟨answers, h, rfl⟩
    exact ⟨_, answers, h1, h2, h, rfl⟩
  · rintro ⟨ids, answers, h3, h4, h5, rfl⟩
    obtain rfl := ids_unique h3 h1 fun n => (h4 n).trans (h2 n).symm
    exact ⟨answers, h5, rfl⟩

theorem makeSim_iff {p : PEnv} {infos : List SwapInfo} {us : Core.Units} {s : Simulator} :
    makeSim p infos us = .ok s ↔
      ∃ pools, PoolsRead p.pool infos pools ∧ s = { env := p.env, pools := pools, swapInfo := infos, units := us } := by
  simp only [makeSim, bind_eq_ok, queryPools_iff, Except.ok.injEq]
  constructor
  · rintro ⟨pools, h, rfl⟩; exact ⟨pools, h, rfl⟩
  · rintro ⟨pools, h, rfl⟩; exact ⟨pools, h, rfl⟩

theorem getPortfolio_iff {c : Core.State} {env : Env} {r : PortfolioResp} :
    getPortfolio c env none = .ok r ↔
      ∃ c1, collectStreamingFee c env.now = .ok c1 ∧ (∀ e ∈ c1.indexUnits, part e.2 c.totalSupply < 2 ^ 128) ∧
        r = ⟨c.totalSupply, basket c1.indexUnits c.totalSupply, c1.indexUnits⟩ := by
  have e2 : U128 = 2 ^ 128 := rfl
  simp only [getPortfolio, bind_eq_ok, Except.ok.injEq, unitsAt_eq_ok, Option.getD_none, Units.calcRequire_eq_ok, basket,
    part_eq, ← e2]
  constructor
  · rintro ⟨_, ⟨c1, h1, rfl⟩, _, ⟨h2, rfl⟩, rfl⟩
    exact ⟨c1, h1, h2, rfl⟩
  · rintro ⟨c1, h1, h2, rfl⟩
    exact ⟨_, ⟨c1, h1, rfl⟩, _, ⟨h2, rfl⟩, rfl⟩

theorem getFee_of_collect {c c1 : Core.State} {env : Env} (h : collectStreamingFee c env.now = .ok c1) :
    ∃ f, getFee c env none = .ok f ∧ f.mintFee = c.fee.mintFee ∧ f.burnFee = c.fee.burnFee := by
  unfold collectStreamingFee at h
  unfold getFee
  cases hs : c.fee.streamingFee with
  | none => exact ⟨_, rfl, rfl, rfl⟩
  | some sf =>
    simp only [hs, bind_eq_ok] at h
    obtain ⟨⟨sf', us⟩, h1, _⟩ := h
    refine ⟨{ c.fee with streamingFee := some sf' }, ?_, rfl, rfl⟩
    simp only [Option.getD_none, h1, ok_bind]

theorem getConfig_iff {c : Core.State} {env : Env} {r : ConfigResp} :
    getConfig c env none = .ok r ↔ env.now * 10 ^ 9 < 2 ^ 64 ∧
      r = ⟨c.config.gov, c.pendingGov, c.config.paused.refresh env.now, c.config.indexDenom, c.config.reserveDenom⟩ := by
  simp only [getConfig, bind_eq_ok, require_eq_ok, Except.ok.injEq, Option.getD_none]
  constructor
  · rintro ⟨_, h, rfl⟩; exact ⟨h, rfl⟩
  · rintro ⟨h, rfl⟩; exact ⟨(), h, rfl⟩

/-! ### The routes of a simulation -/

/-- The entries of a simulated purchase. -/
def buyEntries (infos : List SwapInfo) (input : Denom) : List Coin → List Nat → List SimIn
  | c :: cs, v :: vs =>
    ⟨v, c, if c.denom = input then none
      else (infos.find? fun i => decide (i.src = input ∧ i.dst = c.denom)).map fun i => i.routes.reverse⟩
      :: buyEntries infos input cs vs
  | _, _ => []

def sellEntries (infos : List SwapInfo) (output : Denom) : List Coin → List Nat → List SimOut
  | c :: cs, v :: vs =>
    ⟨c, v, if c.denom = output then none
      else (infos.find? fun i => decide (i.src = c.denom ∧ i.dst = output)).map fun i => i.routes⟩
      :: sellEntries infos output cs vs
  | _, _ => []

private theorem bought_length {env : Env} {infos : List SwapInfo} {input : Denom} {ps : Pools} {cs : List Coin}
    {vs : List Nat} (h : BasketBought env infos input ps cs vs) : cs.length = vs.length := by
  induction h with
  | nil => rfl
  | keep _ _ ih => simp [ih]
  | buy _ _ _ _ ih => simp [ih]

private theorem sold_length {env : Env} {infos : List SwapInfo} {output : Denom} {ps : Pools} {cs : List Coin}
    {vs : List Nat} (h : BasketSold env infos output ps cs vs) : cs.length = vs.length := by
  induction h with
  | nil => rfl
  | keep _ _ ih => simp [ih]
  | sell _ _ _ _ ih => simp [ih]

private theorem inRoutes_iff {s : Simulator} {index : Nat} {input : Denom} :
    ∀ {us : Core.Units} {m : KV Nat Pool} {rs : List SimIn},
      inRoutes s index input us m = .ok rs ↔ ∃ costs, Fits us index ∧
          BasketBought s.env s.swapInfo input m.get (basket us index) costs ∧
          rs = buyEntries s.swapInfo input (basket us index) costs := by
  intro us
  induction us with
  | nil =>
    intro m rs
    constructor
    · intro h
      cases h
      exact ⟨[], by simp [Fits, basket], .nil _, rfl⟩
    · rintro ⟨_, _, h, rfl⟩
      cases h
      rfl
  | cons e us ih =>
    obtain ⟨d, u⟩ := e
    intro m rs
    have eb : basket ((d, u) :: us) index = ⟨d, u * index / ONE⟩ :: basket us index := rfl
    have e128 : U128 = 2 ^ 128 := rfl
    have ef : Fits ((d, u) :: us) index ↔ u * index / ONE < U128 ∧ Fits us index := by
      unfold Fits
      rw [eb, e128]
      simp only [List.mem_cons, forall_eq_or_imp]
    rw [eb, ef]
    by_cases hd : d = input
    · constructor
      · intro h
        simp only [inRoutes, hd, if_true, bind_eq_ok, mulInt_eq_ok, Except.ok.injEq] at h
        obtain ⟨a, ⟨ha, rfl⟩, x, rfl, rs', h, rfl⟩ := h
        obtain ⟨costs, i1, i2, rfl⟩ := ih.1 h
        refine ⟨_, ⟨ha, i1⟩, .keep hd i2, ?_⟩
        simp [buyEntries, hd]
      · rintro ⟨costs, ⟨h0, h1⟩, h2, rfl⟩
        cases h2 with
        | @keep _ _ _ costs _ h3 =>
          simp only [inRoutes, hd, if_true, bind_eq_ok, mulInt_eq_ok, Except.ok.injEq]
          exact ⟨_, ⟨h0, rfl⟩, _, rfl, _, ih.2 ⟨costs, h1, h3, rfl⟩, by simp [buyEntries]⟩
        | buy h3 => exact absurd hd h3
    · constructor
      · intro h
        simp only [inRoutes, hd, if_false, bind_eq_ok, mulInt_eq_ok, estInGivenOut, findRoutes_eq_ok,
          Except.ok.injEq] at h
        obtain ⟨a, ⟨ha, rfl⟩, x, ⟨routes, ⟨i, hi, rfl⟩, ⟨m', c'⟩, hf, rfl⟩, rs', h, rfl⟩ := h
        obtain ⟨costs, i1, i2, rfl⟩ := ih.1 h
        have hs := foldOut_eq_ok.1 ⟨m', c', hf, rfl, rfl⟩
        refine ⟨c'.amount :: costs, ⟨ha, i1⟩, .buy hd hi hs i2, ?_⟩
        simp only [buyEntries, hd, if_false, hi, Option.map_some]
      · rintro ⟨costs, ⟨h0, h1⟩, h2, rfl⟩
        cases h2 with
        | keep h3 => exact absurd h3 hd
        | @buy _ _ _ _ i _ costs h3 h4 h5 h6 =>
          obtain ⟨m', c', h7, rfl, rfl⟩ := foldOut_eq_ok.2 h5
          simp only [inRoutes, hd, if_false, bind_eq_ok, mulInt_eq_ok, estInGivenOut, findRoutes_eq_ok,
            Except.ok.injEq]
          refine ⟨_, ⟨h0, rfl⟩, _, ⟨_, ⟨_, h4, rfl⟩, _, h7, rfl⟩, _, ih.2 ⟨costs, h1, h6, rfl⟩, ?_⟩
          simp only [buyEntries, hd, if_false, h4, Option.map_some]

private theorem outRoutes_iff {s : Simulator} {index : Nat} {output : Denom} :
    ∀ {us : Core.Units} {m : KV Nat Pool} {rs : List SimOut},
      outRoutes s index output us m = .ok rs ↔ ∃ outs, Fits us index ∧
          BasketSold s.env s.swapInfo output m.get (basket us index) outs ∧
          rs = sellEntries s.swapInfo output (basket us index) outs := by
  intro us
  induction us with
  | nil =>
    intro m rs
    constructor
    · intro h
      cases h
      exact ⟨[], by simp [Fits, basket], .nil _, rfl⟩
    · rintro ⟨_, _, h, rfl⟩
      cases h
      rfl
  | cons e us ih =>
    obtain ⟨d, u⟩ := e
    intro m rs
    have eb : basket ((d, u) :: us) index = ⟨d, u * index / ONE⟩ :: basket us index := rfl
    have e128 : U128 = 2 ^ 128 := rfl
    have ef : Fits ((d, u) :: us) index ↔ u * index / ONE < U128 ∧ Fits us index := by
      unfold Fits
      rw [eb, e128]
      simp only [List.mem_cons, forall_eq_or_imp]
    rw [eb, ef]
    by_cases hd : d = output
    · constructor
      · intro h
        simp only [outRoutes, hd, if_true, bind_eq_ok, mulInt_eq_ok, Except.ok.injEq] at h
        obtain ⟨a, ⟨ha, rfl⟩, x, rfl, rs', h, rfl⟩ := h
        obtain ⟨costs, i1, i2, rfl⟩ := ih.1 h
        refine ⟨_, ⟨ha, i1⟩, .keep hd i2, ?_⟩
        simp [sellEntries, hd]
      · rintro ⟨costs, ⟨h0, h1⟩, h2, rfl⟩
        cases h2 with
        | @keep _ _ _ costs _ h3 =>
          simp only [outRoutes, hd, if_true, bind_eq_ok, mulInt_eq_ok, Except.ok.injEq]
          exact ⟨_, ⟨h0, rfl⟩, _, rfl, _, ih.2 ⟨costs, h1, h3, rfl⟩, by simp [sellEntries]⟩
        | sell h3 => exact absurd hd h3
    · constructor
      · intro h
        simp only [outRoutes, hd, if_false, bind_eq_ok, mulInt_eq_ok, estOutGivenIn, findRoutes_eq_ok,
          Except.ok.injEq] at h
        obtain ⟨a, ⟨ha, rfl⟩, x, ⟨routes, ⟨i, hi, rfl⟩, ⟨m', c'⟩, hf, rfl⟩, rs', h, rfl⟩ := h
        obtain ⟨costs, i1, i2, rfl⟩ := ih.1 h
        have hs := foldIn_eq_ok.1 ⟨m', c', hf, rfl, rfl⟩
        refine ⟨c'.amount :: costs, ⟨ha, i1⟩, .sell hd hi hs i2, ?_⟩
        simp only [sellEntries, hd, if_false, hi, Option.map_some]
      · rintro ⟨costs, ⟨h0, h1⟩, h2, rfl⟩
        cases h2 with
        | keep h3 => exact absurd h3 hd
        | @sell _ _ _ _ i _ costs h3 h4 h5 h6 =>
          obtain ⟨m', c', h7, rfl, rfl⟩ := foldIn_eq_ok.2 h5
          simp only [outRoutes, hd, if_false, bind_eq_ok, mulInt_eq_ok, estOutGivenIn, findRoutes_eq_ok,
            Except.ok.injEq]
          refine ⟨_, ⟨h0, rfl⟩, _, ⟨_, ⟨_, h4, rfl⟩, _, h7, rfl⟩, _, ih.2 ⟨costs, h1, h6, rfl⟩, ?_⟩
          simp only [sellEntries, hd, if_false, h4, Option.map_some]

private theorem buyEntries_values {infos : List SwapInfo} {input : Denom} : ∀ {cs : List Coin} {vs : List Nat},
    cs.length = vs.length → (buyEntries infos input cs vs).map (·.simAmountIn) = vs
  | [], [], _ => rfl
  | c :: cs, v :: vs, h => by
    simp only [buyEntries, List.map_cons]
    rw [buyEntries_values (by simpa using h)]

private theorem sellEntries_values {infos : List SwapInfo} {output : Denom} : ∀ {cs : List Coin} {vs : List Nat},
    cs.length = vs.length → (sellEntries infos output cs vs).map (·.simAmountOut) = vs
  | [], [], _ => rfl
  | c :: cs, v :: vs, h => by
    simp only [sellEntries, List.map_cons]
    rw [sellEntries_values (by simpa using h)]

theorem tokenOut_iff {s : Simulator} {index : Nat} {input : Denom} {t : Nat} {rs : List SimIn} :
    tokenGivenIndexOut s index input = .ok (t, rs) ↔
      ∃ costs, Bill s.env s.swapInfo (byId s.pools) s.units input index costs ∧ t = costs.sum ∧
        rs = buyEntries s.swapInfo input (basket s.units index) costs := by
  simp only [tokenGivenIndexOut, bind_eq_ok, inRoutes_iff, sumIn, Except.ok.injEq, Prod.mk.injEq, poolsMap_get]
  constructor
  · rintro ⟨_, ⟨costs, h1, h2, rfl⟩, t, h3, rfl, rfl⟩
    rw [foldAdd_eq_ok _ _ _ _ (by omega), Nat.zero_add, buyEntries_values (bought_length h2)] at h3
    exact ⟨costs, ⟨h1, h2, h3.1⟩, h3.2, rfl⟩
  · rintro ⟨costs, ⟨h1, h2, h3⟩, rfl, rfl⟩
    refine ⟨_, ⟨costs, h1, h2, rfl⟩, _, ?_, rfl, rfl⟩
    rw [foldAdd_eq_ok _ _ _ _ (by omega), Nat.zero_add, buyEntries_values (bought_length h2)]
    exact ⟨h3, rfl⟩

theorem tokenIn_iff {s : Simulator} {index : Nat} {output : Denom} {t : Nat} {rs : List SimOut} :
    tokenGivenIndexIn s index output = .ok (t, rs) ↔
      ∃ outs, Sale s.env s.swapInfo (byId s.pools) s.units output index outs ∧ t = outs.sum ∧
        rs = sellEntries s.swapInfo output (basket s.units index) outs := by
  simp only [tokenGivenIndexIn, bind_eq_ok, outRoutes_iff, sumOut, Except.ok.injEq, Prod.mk.injEq, poolsMap_get]
  constructor
  · rintro ⟨_, ⟨costs, h1, h2, rfl⟩, t, h3, rfl, rfl⟩
    rw [foldAdd_eq_ok _ _ _ _ (by omega), Nat.zero_add, sellEntries_values (sold_length h2)] at h3
    exact ⟨costs, ⟨h1, h2, h3.1⟩, h3.2, rfl⟩
  · rintro ⟨costs, ⟨h1, h2, h3⟩, rfl, rfl⟩
    refine ⟨_, ⟨costs, h1, h2, rfl⟩, _, ?_, rfl, rfl⟩
    rw [foldAdd_eq_ok _ _ _ _ (by omega), Nat.zero_add, sellEntries_values (sold_length h2)]
    exact ⟨h3, rfl⟩

theorem Costs_eq (s : Simulator) (d : Denom) :
    Costs s d = CostsInAll s.env s.swapInfo (byId s.pools) s.units d := by
  funext i v
  refine propext ⟨?_, ?_⟩
  · rintro ⟨rs, h⟩
    obtain ⟨costs, h1, h2, _⟩ := tokenOut_iff.1 h
    exact ⟨costs, h1, h2⟩
  · rintro ⟨costs, h1, h2⟩
    exact ⟨_, tokenOut_iff.2 ⟨costs, h1, h2, rfl⟩⟩

theorem Brings_eq (s : Simulator) (d : Denom) :
    Brings s d = BringsInAll s.env s.swapInfo (byId s.pools) s.units d := by
  funext i v
  refine propext ⟨?_, ?_⟩
  · rintro ⟨rs, h⟩
    obtain ⟨costs, h1, h2, _⟩ := tokenIn_iff.1 h
    exact ⟨costs, h1, h2⟩
  · rintro ⟨costs, h1, h2⟩
    exact ⟨_, tokenIn_iff.2 ⟨costs, h1, h2, rfl⟩⟩

/-! ### The swap messages -/

private theorem share_le {limit all one : Nat} (h : one ≤ all) : shareOfLimit limit all one ≤ limit := by
  unfold shareOfLimit
  generalize (10 : Nat) ^ 18 = P
  apply Nat.div_le_of_le_mul
  rcases Nat.eq_zero_or_pos all with h0 | h0
  · subst h0; simp
  · calc limit * P / all * one ≤ limit * P / all * all := Nat.mul_le_mul_left _ h
      _ ≤ limit * P := Nat.div_mul_le_self _ _
      _ = P * limit := Nat.mul_comm _ _

private theorem buyMsgs_map {contract : Addr} {infos : List SwapInfo} {input : Denom} {limit all : Nat}
    (hlim : limit < 2 ^ 128) : ∀ {cs : List Coin} {vs : List Nat}, (∀ v ∈ vs, v ≤ all) →
    ∃ ms, (buyEntries infos input cs vs).mapM (inMsg contract (limit * 10 ^ 18 / all)) = .ok ms ∧
      (ms.filterMap id).map PMsg.chain = (cs.zip vs).filterMap fun x =>
        if x.1.denom = input then none
        else (infos.find? fun i => decide (i.src = input ∧ i.dst = x.1.denom)).map fun i =>
          .chain (.swapExactOut contract i.routes x.1 (shareOfLimit limit all x.2))
  | [], _, _ => ⟨[], rfl, rfl⟩
  | _ :: _, [], _ => ⟨[], rfl, rfl⟩
  | c :: cs, v :: vs, h => by
    obtain ⟨ms, h1, h2⟩ := buyMsgs_map (contract := contract) (infos := infos) (input := input) hlim (cs := cs) (vs := vs) fun v hv => h v (List.mem_cons_of_mem _ hv)
    simp only [buyEntries, List.mapM_cons, h1, ok_bind, List.zip_cons_cons, List.filterMap_cons, ← h2]
    by_cases hd : c.denom = input
    · refine ⟨none :: ms, ?_, ?_⟩
      · simp only [hd, if_true, inMsg, ok_bind]; rfl
      · simp only [hd, if_true, List.filterMap_cons, id]
    · cases hf : infos.find? fun i => decide (i.src = input ∧ i.dst = c.denom) with
      | none =>
        refine ⟨none :: ms, ?_, ?_⟩
        · simp only [hd, if_false, Option.map_none, inMsg, ok_bind]; rfl
        · simp only [hd, if_false, Option.map_none, List.filterMap_cons, id]
      | some i =>
        have hm : mulInt (limit * 10 ^ 18 / all) v = .ok (shareOfLimit limit all v) := by
          have e1 : ONE = 10 ^ 18 := rfl
          have e2 : U128 = 2 ^ 128 := rfl
          rw [mulInt_eq_ok, e1, e2]
          exact ⟨Nat.lt_of_le_of_lt (share_le (h v List.mem_cons_self)) hlim, rfl⟩
        refine ⟨some (.swapExactOut contract i.routes c (shareOfLimit limit all v)) :: ms, ?_, ?_⟩
        · simp only [hd, if_false, Option.map_some, inMsg, hm, ok_bind, List.reverse_reverse]; rfl
        · simp only [hd, if_false, Option.map_some, List.filterMap_cons, id, List.map_cons]

private theorem sellMsgs_map {contract : Addr} {infos : List SwapInfo} {output : Denom} {limit all : Nat}
    (hlim : limit < 2 ^ 128) : ∀ {cs : List Coin} {vs : List Nat}, (∀ v ∈ vs, v ≤ all) →
    ∃ ms, (sellEntries infos output cs vs).mapM (outMsg contract (limit * 10 ^ 18 / all)) = .ok ms ∧
      (ms.filterMap id).map PMsg.chain = (cs.zip vs).filterMap fun x =>
        if x.1.denom = output then none
        else (infos.find? fun i => decide (i.src = x.1.denom ∧ i.dst = output)).map fun i =>
          .chain (.swapExactIn contract i.routes x.1 (shareOfLimit limit all x.2))
  | [], _, _ => ⟨[], rfl, rfl⟩
  | _ :: _, [], _ => ⟨[], rfl, rfl⟩
  | c :: cs, v :: vs, h => by
    obtain ⟨ms, h1, h2⟩ := sellMsgs_map (contract := contract) (infos := infos) (output := output) hlim (cs := cs) (vs := vs) fun v hv => h v (List.mem_cons_of_mem _ hv)
    simp only [sellEntries, List.mapM_cons, h1, ok_bind, List.zip_cons_cons, List.filterMap_cons, ← h2]
    by_cases hd : c.denom = output
    · refine ⟨none :: ms, ?_, ?_⟩
      · simp only [hd, if_true, outMsg, ok_bind]; rfl
      · simp only [hd, if_true, List.filterMap_cons, id]
    · cases hf : infos.find? fun i => decide (i.src = c.denom ∧ i.dst = output) with
      | none =>
        refine ⟨none :: ms, ?_, ?_⟩
        · simp only [hd, if_false, Option.map_none, outMsg, ok_bind]; rfl
        · simp only [hd, if_false, Option.map_none, List.filterMap_cons, id]
      | some i =>
        have hm : mulInt (limit * 10 ^ 18 / all) v = .ok (shareOfLimit limit all v) := by
          have e1 : ONE = 10 ^ 18 := rfl
          have e2 : U128 = 2 ^ 128 := rfl
          rw [mulInt_eq_ok, e1, e2]
          exact ⟨Nat.lt_of_le_of_lt (share_le (h v List.mem_cons_self)) hlim, rfl⟩
        refine ⟨some (.swapExactIn contract i.routes c (shareOfLimit limit all v)) :: ms, ?_, ?_⟩
        · simp only [hd, if_false, Option.map_some, outMsg, hm, ok_bind]; rfl
        · simp only [hd, if_false, Option.map_some, List.filterMap_cons, id, List.map_cons]

private theorem inMsgs_iff {contract : Addr} {infos : List SwapInfo} {input : Denom} {limit : Nat} {cs : List Coin}
    {vs : List Nat} (hlim : limit < 2 ^ 128) (hlen : cs.length = vs.length) (hsum : vs.sum < 2 ^ 128) :
    ∀ {ms : List PMsg}, (∃ sw, inMsgs (buyEntries infos input cs vs) contract limit = .ok sw ∧ ms = sw.map PMsg.chain) ↔
      vs.sum ≤ limit ∧ Shareable limit vs.sum ∧ ms = purchases contract infos input limit cs vs := by
  intro ms
  obtain ⟨l, h1, h2⟩ := buyMsgs_map (contract := contract) (infos := infos) (input := input) (limit := limit)
    (all := vs.sum) hlim (cs := cs) (vs := vs) fun v hv => List.le_sum_of_mem hv
  simp only [inMsgs, bind_eq_ok, sumIn, require_eq_ok, ratio_iff, Except.ok.injEq]
  rw [purchases, ← h2]
  constructor
  · rintro ⟨sw, ⟨t, ht, _, hle, _, ⟨h3, h4, rfl⟩, l', h5, rfl⟩, rfl⟩
    rw [foldAdd_eq_ok _ _ _ _ (by omega), Nat.zero_add, buyEntries_values hlen] at ht
    obtain ⟨_, rfl⟩ := ht
    rw [h1] at h5
    cases h5
    exact ⟨by omega, ⟨h3, h4⟩, rfl⟩
  · rintro ⟨h3, ⟨h4, h5⟩, rfl⟩
    refine ⟨_, ⟨vs.sum, ?_, (), by omega, _, ⟨h4, h5, rfl⟩, l, h1, rfl⟩, rfl⟩
    rw [foldAdd_eq_ok _ _ _ _ (by omega), Nat.zero_add, buyEntries_values hlen]
    exact ⟨hsum, rfl⟩

private theorem outMsgs_iff {contract : Addr} {infos : List SwapInfo} {output : Denom} {limit : Nat} {cs : List Coin}
    {vs : List Nat} (hlim : limit < 2 ^ 128) (hlen : cs.length = vs.length) (hsum : vs.sum < 2 ^ 128) :
    ∀ {ms : List PMsg},
      (∃ sw, outMsgs (sellEntries infos output cs vs) contract limit = .ok sw ∧ ms = sw.map PMsg.chain) ↔
      limit ≤ vs.sum ∧ 0 < vs.sum ∧ ms = sales contract infos output limit cs vs := by
  intro ms
  obtain ⟨l, h1, h2⟩ := sellMsgs_map (contract := contract) (infos := infos) (output := output) (limit := limit)
    (all := vs.sum) hlim (cs := cs) (vs := vs) fun v hv => List.le_sum_of_mem hv
  simp only [outMsgs, bind_eq_ok, sumOut, require_eq_ok, ratio_iff, Except.ok.injEq]
  rw [sales, ← h2]
  constructor
  · rintro ⟨sw, ⟨t, ht, _, hle, _, ⟨h3, h4, rfl⟩, l', h5, rfl⟩, rfl⟩
    rw [foldAdd_eq_ok _ _ _ _ (by omega), Nat.zero_add, sellEntries_values hlen] at ht
    obtain ⟨_, rfl⟩ := ht
    rw [h1] at h5
    cases h5
    exact ⟨by omega, h3, rfl⟩
  · rintro ⟨h3, h4, rfl⟩
    refine ⟨_, ⟨vs.sum, ?_, (), by omega, _, ⟨h4, ?_, rfl⟩, l, h1, rfl⟩, rfl⟩
    · rw [foldAdd_eq_ok _ _ _ _ (by omega), Nat.zero_add, sellEntries_values hlen]
      exact ⟨hsum, rfl⟩
    · have h5 : (10 : Nat) ^ 18 < 2 ^ 128 := by norm_num
      generalize (10 : Nat) ^ 18 = P at h5 ⊢
      refine Nat.lt_of_le_of_lt (Nat.div_le_of_le_mul ?_) h5
      exact Nat.mul_le_mul_right _ h3

/-! ### Fees and the search -/

private theorem rate_lt {f : Option Nat} (h : ∀ x, f = some x → 0 < x ∧ x < ONE) : f.getD 0 < 10 ^ 18 := by
  cases f with
  | none => exact Nat.pow_pos (by norm_num)
  | some x => exact (h x rfl).2

theorem deduct_ok {f : Option Nat} (h : ∀ x, f = some x → 0 < x ∧ x < ONE) {r : Nat} :
    deductFee f = .ok r ↔ r = 10 ^ 18 - f.getD 0 := by
  have e1 : ONE = 10 ^ 18 := rfl
  rw [deductFee_eq_ok, e1]
  exact ⟨fun h => h.2, fun h' => ⟨Nat.le_of_lt (rate_lt h), h'⟩⟩

theorem expand_ok {f : Option Nat} (h : ∀ x, f = some x → 0 < x ∧ x < ONE) {r : Nat} :
    expandFee f = .ok r ↔ r = undoRate f := by
  have e1 : ONE = 10 ^ 18 := rfl
  have e2 : U128 = 2 ^ 128 := rfl
  have h10 : (10 : Nat) ^ 18 * 10 ^ 18 < 2 ^ 128 := by norm_num
  have hp : 0 < (10 : Nat) ^ 18 := by norm_num
  rw [expandFee_eq_ok]
  cases f with
  | none =>
    simp only [true_and, reduceCtorEq, false_and, exists_false, or_false, undoRate, Option.getD_none, Nat.sub_zero, e1]
    rw [Nat.mul_div_cancel _ hp]
  | some x =>
    have hx := h x rfl
    simp only [reduceCtorEq, false_and, false_or, Option.some.injEq, undoRate, Option.getD_some, e1, e2] at hx ⊢
    constructor
    · rintro ⟨v, rfl, _, _, h4⟩; exact h4
    · intro h4
      exact ⟨x, rfl, hx.2, Nat.lt_of_le_of_lt (Nat.div_le_self _ _) h10, h4⟩

theorem part18 (u n : Nat) : u * n / ONE = part u n := (part_eq u n).symm

private theorem lessFee_lt {f : Option Nat} {n : Nat} (h : n < 2 ^ 128) : lessFee f n < 2 ^ 128 := by
  unfold lessFee
  rw [part_eq]
  have e1 : ONE = 10 ^ 18 := rfl
  rw [e1]
  generalize (10 : Nat) ^ 18 = P
  refine Nat.lt_of_le_of_lt (Nat.div_le_of_le_mul (Nat.mul_le_mul_right _ (Nat.sub_le _ _))) h

private theorem third_le (g : Nat) : third g ≤ g := by
  unfold third
  apply Nat.div_le_of_le_mul
  exact Nat.mul_le_mul_right _ (by norm_num)

private theorem search_lt {P : Nat → Nat → Prop} {target n : Nat} {t r : Trial} (h : Search P target n t r) :
    r.index < 2 ^ 128 := by
  induction h with
  | stop h1 _ => exact h1.2.2.2.1
  | more _ _ _ ih => exact ih

private theorem basketCoins_iff {us : Core.Units} (hn : us.denoms.Nodup) {n : Nat} {cs : List Coin} :
    basketCoins us n = .ok cs ↔ Fits us n ∧ Sorted cs us n := by
  rw [basketCoins_eq_ok, Sorted, sorted_unique (by rw [basket_denoms]; exact hn)]
  apply and_congr_left
  intro _
  unfold Fits basket
  simp only [List.mem_map, forall_exists_index, and_imp, forall_apply_eq_imp_iff₂]

/-! ### C84 -/

/-- **C84 (1).** `MintExactAmountOut` is accepted exactly when the routes can be read, the core contract and the pools
answer, exactly one coin is attached, of the input denom and not zero, buying the basket of the wanted amount is
simulated to cost at most the attached amount (and not nothing), and the ratio of the two fits 128 bits.  Then it buys
the coins of the basket, each for at most its share of the attached amount, calls `Mint` for the sender with the
basket, and returns what is left of the input. -/
theorem C84_mint_exact_out_accepted_iff {p : PEnv} {info : Info} {a : Addr} {index : Nat} {input : Denom}
    {si : List Compact} {ms : List PMsg} (hr : ∀ c, p.core a = some c → Reachable c)
    (hf : ∀ c ∈ info.funds, c.amount < 2 ^ 128) (hi : index < 2 ^ 128) :
    Periphery.execute p info (.mintExactOut a index input si) = .ok ms ↔
      ∃ infos c us ps paid costs funds, parseInfos si = .ok infos ∧ Reads p a infos c us ps ∧
        p.env.now * 10 ^ 9 < 2 ^ 64 ∧ info.funds = [⟨input, paid⟩] ∧ paid ≠ 0 ∧
        Bill p.env infos ps us input index costs ∧ costs.sum ≤ paid ∧ Shareable paid costs.sum ∧
        Sorted funds us index ∧
        ms = purchases p.env.contract infos input paid (basket us index) costs ++
          [.core a (.mint index (some info.sender) (some info.sender)) funds, .finish info.sender input] := by
  have e2 : U128 = 2 ^ 128 := rfl
  simp only [Periphery.execute, mintExactOut, bind_eq_ok, findCore_eq_ok, mustPay_eq_ok, getPortfolio_iff, makeSim_iff,
    getConfig_iff, sub_eq_ok, mulInt_eq_ok, Except.ok.injEq]
  constructor
  · rintro ⟨infos, hin, c, ⟨hv, hc⟩, fee, hfee, _, ⟨hnow, rfl⟩, _, ⟨c1, hc1, hw, rfl⟩, paid, ⟨hfu, hp⟩, _,
      ⟨pools, hpools, rfl⟩, ⟨t, rs⟩, htok, _, ⟨hle, _⟩, sw, hsw, funds, hfunds, _, _, _, _, rfl⟩
    obtain ⟨costs, hb, rfl, rfl⟩ := tokenOut_iff.1 htok
    have hn : c1.indexUnits.denoms.Nodup := ((hr c hc).inv.collect hc1).nodup
    have hpaid : paid < 2 ^ 128 := hf ⟨input, paid⟩ (by simp [hfu])
    obtain ⟨_, hso⟩ := (basketCoins_iff hn).1 hfunds
    obtain ⟨h1, h2, h3⟩ := (inMsgs_iff hpaid (bought_length hb.bought) hb.sum).1 ⟨sw, hsw, rfl⟩
    exact ⟨infos, c, _, _, paid, costs, funds, hin, ⟨hv, hc, ⟨c1, hc1, rfl⟩, hw, pools, hpools, rfl⟩, hnow, hfu, hp, hb,
      h1, h2, hso, by rw [← h3]⟩
  · rintro ⟨infos, c, us, ps, paid, costs, funds, hin, ⟨hv, hc, ⟨c1, hc1, rfl⟩, hw, pools, hpools, rfl⟩, hnow, hfu, hp, hb,
      h1, h2, hso, rfl⟩
    have hn : c1.indexUnits.denoms.Nodup := ((hr c hc).inv.collect hc1).nodup
    have hpaid : paid < 2 ^ 128 := hf ⟨input, paid⟩ (by simp [hfu])
    obtain ⟨fee, hfee, hmf, _⟩ := getFee_of_collect hc1
    obtain ⟨sw, hsw, he⟩ := (inMsgs_iff hpaid (bought_length hb.bought) hb.sum).2 ⟨h1, h2, rfl⟩
    exact ⟨infos, hin, c, ⟨hv, hc⟩, fee, hfee, _, ⟨hnow, rfl⟩, _, ⟨c1, hc1, hw, rfl⟩, paid, ⟨hfu, hp⟩, _,
      ⟨pools, hpools, rfl⟩, (costs.sum, _), tokenOut_iff.2 ⟨costs, hb, rfl, rfl⟩, _, ⟨h1, rfl⟩, sw, hsw, funds,
      (basketCoins_iff hn).2 ⟨hb.fits, hso⟩, _, by rw [hmf, deduct_ok (hr c hc).inv.mintRate], _,
      ⟨by rw [part18, e2]; exact lessFee_lt hi, rfl⟩, by rw [he]⟩

/-- 40000 index tokens cost 70000 uosmo; 69999 are not enough. -/
example :
    (Periphery.execute (zapWorld.penv zapEnv zapPools) ⟨"bob", [⟨"uosmo", 80000⟩]⟩
      (.mintExactOut "core" 40000 "uosmo" zapRoutes)).toOption =
      some [.chain (.swapExactOut "zap" [⟨1, "uosmo"⟩] ⟨"uatom", 10000⟩ 11428),
        .core "core" (.mint 40000 (some "bob") (some "bob")) [⟨"uatom", 10000⟩, ⟨"uosmo", 60000⟩], .finish "bob" "uosmo"] ∧
    (Periphery.execute (zapWorld.penv zapEnv zapPools) ⟨"bob", [⟨"uosmo", 69999⟩]⟩
      (.mintExactOut "core" 40000 "uosmo" zapRoutes)).toOption = none := by
  decide +kernel

/-- **C84 (2).** `MintExactAmountIn` is accepted exactly when the routes can be read, the core contract and the pools
answer, exactly one coin is attached, of the input denom and not zero, the search (which starts at the minimum) ends at
an amount not below the minimum, and the purchase revised a third of the way towards the minimum is simulated to cost
something; its cost plus 10000 is the limit for the purchases, whether or not as much was attached. -/
theorem C84_mint_exact_in_accepted_iff {p : PEnv} {info : Info} {a : Addr} {input : Denom} {min : Nat}
    {si : List Compact} {ms : List PMsg} (hr : ∀ c, p.core a = some c → Reachable c) :
    Periphery.execute p info (.mintExactIn a input min si) = .ok ms ↔
      ∃ infos c us ps paid v0 found index costs funds, parseInfos si = .ok infos ∧ Reads p a infos c us ps ∧
        p.env.now * 10 ^ 9 < 2 ^ 64 ∧ info.funds = [⟨input, paid⟩] ∧ paid ≠ 0 ∧
        CostsInAll p.env infos ps us input min v0 ∧
        Search (CostsInAll p.env infos ps us input) paid 256 ⟨min, v0⟩ found ∧
        min ≤ found.index ∧ index = found.index - third (found.index - min) ∧
        Bill p.env infos ps us input index costs ∧ costs.sum + 10000 < 2 ^ 128 ∧
        Shareable (costs.sum + 10000) costs.sum ∧ Sorted funds us index ∧
        ms = purchases p.env.contract infos input (costs.sum + 10000) (basket us index) costs ++
          [.core a (.mint index (some info.sender) (some info.sender)) funds, .finish info.sender input] := by
  have e2 : U128 = 2 ^ 128 := rfl
  simp only [Periphery.execute, mintExactIn, bind_eq_ok, findCore_eq_ok, mustPay_eq_ok, getPortfolio_iff, makeSim_iff,
    getConfig_iff]
  constructor
  · rintro ⟨infos, hin, c, ⟨hv, hc⟩, fee, hfee, _, ⟨hnow, rfl⟩, _, ⟨c1, hc1, hw, rfl⟩, paid, ⟨hfu, hp⟩, _,
      ⟨pools, hpools, rfl⟩, ⟨res, est⟩, hest, h⟩
    rw [C71_revised_purchase] at hest
    obtain ⟨hs, hm, h3, est, rfl, hidx, htok⟩ := hest
    obtain ⟨v0, hv0, hsr⟩ := (C71_search_for_input _ _ _ _ _).1 ⟨res, hs, rfl, rfl⟩
    rw [Costs_eq] at hv0 hsr
    simp only [bind_eq_ok, add_eq_ok, Except.ok.injEq, e2] at h
    obtain ⟨_, ⟨hbud, rfl⟩, sw, hsw, funds, hfunds, _, _, _, _, rfl⟩ := h
    obtain ⟨costs, hb, he, hrs⟩ := tokenOut_iff.1 htok
    rw [hrs, he] at hsw
    rw [he] at hbud
    have hn : c1.indexUnits.denoms.Nodup := ((hr c hc).inv.collect hc1).nodup
    obtain ⟨_, hso⟩ := (basketCoins_iff hn).1 hfunds
    obtain ⟨h4, h5, h6⟩ := (inMsgs_iff hbud (bought_length hb.bought) hb.sum).1 ⟨sw, hsw, rfl⟩
    exact ⟨infos, c, _, _, paid, v0, _, est.index, costs, funds, hin, ⟨hv, hc, ⟨c1, hc1, rfl⟩, hw, pools, hpools, rfl⟩,
      hnow, hfu, hp, hv0, hsr, hm, hidx, hb, hbud, h5, hso, by rw [← h6]⟩
  · rintro ⟨infos, c, us, ps, paid, v0, found, index, costs, funds, hin, ⟨hv, hc, ⟨c1, hc1, rfl⟩, hw, pools, hpools, rfl⟩,
      hnow, hfu, hp, hv0, hsr, hm, hidx, hb, hbud, h5, hso, rfl⟩
    have hn : c1.indexUnits.denoms.Nodup := ((hr c hc).inv.collect hc1).nodup
    obtain ⟨fee, hfee, hmf, _⟩ := getFee_of_collect hc1
    obtain ⟨sw, hsw, he⟩ := (inMsgs_iff hbud (bought_length hb.bought) hb.sum).2 ⟨Nat.le_add_right _ _, h5, rfl⟩
    have hflt := search_lt hsr
    have hilt : index < 2 ^ 128 := by omega
    obtain ⟨fi, fv⟩ := found
    obtain ⟨res, hs, rfl, rfl⟩ := (C71_search_for_input
      { env := p.env, pools := pools, swapInfo := infos, units := c1.indexUnits } ⟨input, paid⟩ (some min) fi fv).2
      ⟨v0, by rw [Costs_eq]; exact hv0, by rw [Costs_eq]; exact hsr⟩
    refine ⟨infos, hin, c, ⟨hv, hc⟩, fee, hfee, _, ⟨hnow, rfl⟩, _, ⟨c1, hc1, hw, rfl⟩, paid, ⟨hfu, hp⟩, _,
      ⟨pools, hpools, rfl⟩, (res, some ⟨costs.sum, index,
        buyEntries infos input (basket c1.indexUnits index) costs⟩), ?_, ?_⟩
    · rw [C71_revised_purchase]
      exact ⟨hs, hm, Nat.lt_of_le_of_lt (third_le _) (Nat.lt_of_le_of_lt (Nat.sub_le _ _) hflt), _, rfl, hidx, tokenOut_iff.2 ⟨costs, hb, rfl, rfl⟩⟩
    · simp only [bind_eq_ok, add_eq_ok, Except.ok.injEq, e2]
      exact ⟨_, ⟨hbud, rfl⟩, sw, hsw, funds, (basketCoins_iff hn).2 ⟨hb.fits, hso⟩, _,
        by rw [hmf, deduct_ok (hr c hc).inv.mintRate], _,
        by rw [mulInt_eq_ok, part18, e2]; exact ⟨lessFee_lt hilt, rfl⟩, by rw [he]⟩

/-- 70000 uosmo buy at least 30000 index tokens, but not 40001. -/
example :
    (Periphery.execute (zapWorld.penv zapEnv zapPools) ⟨"bob", [⟨"uosmo", 70000⟩]⟩
      (.mintExactIn "core" "uosmo" 30000 zapRoutes)).toOption =
      some [.chain (.swapExactOut "zap" [⟨1, "uosmo"⟩] ⟨"uatom", 9166⟩ 10594),
        .core "core" (.mint 36667 (some "bob") (some "bob")) [⟨"uatom", 9166⟩, ⟨"uosmo", 55000⟩], .finish "bob" "uosmo"] ∧
    (Periphery.execute (zapWorld.penv zapEnv zapPools) ⟨"bob", [⟨"uosmo", 70000⟩]⟩
      (.mintExactIn "core" "uosmo" 40001 zapRoutes)).toOption = none := by
  decide +kernel

/-- **C84 (3).** `BurnExactAmountIn` is accepted exactly when the routes can be read, the core contract and the pools
answer, exactly one coin is attached, of the index denom and not zero, and selling the basket of what is left of it
after the burn fee is simulated to bring at least the minimum (and not nothing).  Then it burns all that was attached,
sells the coins of the basket, each for at least its share of the minimum, and pays out the output. -/
theorem C84_burn_exact_in_accepted_iff {p : PEnv} {info : Info} {a : Addr} {output : Denom} {min : Nat}
    {si : List Compact} {ms : List PMsg} (hr : ∀ c, p.core a = some c → Reachable c)
    (hf : ∀ c ∈ info.funds, c.amount < 2 ^ 128) (hmin : min < 2 ^ 128) :
    Periphery.execute p info (.burnExactIn a output min si) = .ok ms ↔
      ∃ infos c us ps paid outs, parseInfos si = .ok infos ∧ Reads p a infos c us ps ∧
        p.env.now * 10 ^ 9 < 2 ^ 64 ∧ info.funds = [⟨c.config.indexDenom, paid⟩] ∧ paid ≠ 0 ∧
        Sale p.env infos ps us output (lessFee c.fee.burnFee paid) outs ∧ min ≤ outs.sum ∧ 0 < outs.sum ∧
        ms = .core a (.burn none) [⟨c.config.indexDenom, paid⟩] ::
          (sales p.env.contract infos output min (basket us (lessFee c.fee.burnFee paid)) outs ++
            [.finish info.sender output]) := by
  have e2 : U128 = 2 ^ 128 := rfl
  simp only [Periphery.execute, burnExactIn, bind_eq_ok, findCore_eq_ok, mustPay_eq_ok, getPortfolio_iff, makeSim_iff,
    getConfig_iff, mulInt_eq_ok, Except.ok.injEq]
  constructor
  · rintro ⟨infos, hin, c, ⟨hv, hc⟩, fee, hfee, _, ⟨hnow, rfl⟩, _, ⟨c1, hc1, hw, rfl⟩, paid, ⟨hfu, hp⟩, _,
      ⟨pools, hpools, rfl⟩, rate, hrate, _, ⟨_, rfl⟩, ⟨t, rs⟩, htok, sw, hsw, rfl⟩
    rw [(getFee_frame hfee).2.1, deduct_ok (hr c hc).inv.burnRate] at hrate
    subst hrate
    rw [part18] at htok
    obtain ⟨outs, hb, rfl, rfl⟩ := tokenIn_iff.1 htok
    obtain ⟨h1, h2, h3⟩ := (outMsgs_iff hmin (sold_length hb.sold) hb.sum).1 ⟨sw, hsw, rfl⟩
    exact ⟨infos, c, _, _, paid, outs, hin, ⟨hv, hc, ⟨c1, hc1, rfl⟩, hw, pools, hpools, rfl⟩, hnow, hfu, hp, hb,
      h1, h2, by rw [h3]; rfl⟩
  · rintro ⟨infos, c, us, ps, paid, outs, hin, ⟨hv, hc, ⟨c1, hc1, rfl⟩, hw, pools, hpools, rfl⟩, hnow, hfu, hp, hb,
      h1, h2, rfl⟩
    have hpaid : paid < 2 ^ 128 := hf ⟨_, paid⟩ (by rw [hfu]; exact List.mem_singleton_self _)
    obtain ⟨fee, hfee, _, hbf⟩ := getFee_of_collect hc1
    obtain ⟨sw, hsw, he⟩ := (outMsgs_iff hmin (sold_length hb.sold) hb.sum).2 ⟨h1, h2, rfl⟩
    exact ⟨infos, hin, c, ⟨hv, hc⟩, fee, hfee, _, ⟨hnow, rfl⟩, _, ⟨c1, hc1, hw, rfl⟩, paid, ⟨hfu, hp⟩, _,
      ⟨pools, hpools, rfl⟩, _, by rw [hbf, deduct_ok (hr c hc).inv.burnRate], _,
      ⟨by rw [part18, e2]; exact lessFee_lt hpaid, rfl⟩, (outs.sum, _),
      by rw [part18]; exact tokenIn_iff.2 ⟨outs, hb, rfl, rfl⟩, sw, hsw, by rw [he]⟩

/-- 1012 index tokens bring 1733 uosmo. -/
example :
    (Periphery.execute (zapWorld2.penv zapEnv zapPools) ⟨"bob", [⟨"factory/core/ibcx", 1012⟩]⟩
      (.burnExactIn "core" "uosmo" 1717 zapSaleRoutes)).toOption =
      some [.core "core" (.burn none) [⟨"factory/core/ibcx", 1012⟩],
        .chain (.swapExactIn "zap" [⟨1, "uosmo"⟩] ⟨"uatom", 247⟩ 244), .finish "bob" "uosmo"] ∧
    (Periphery.execute (zapWorld2.penv zapEnv zapPools) ⟨"bob", [⟨"factory/core/ibcx", 1012⟩]⟩
      (.burnExactIn "core" "uosmo" 1734 zapSaleRoutes)).toOption = none := by
  decide +kernel

/-- **C84 (4).** `BurnExactAmountOut` is accepted exactly when the routes can be read, the core contract and the pools
answer, exactly one coin is attached, of the index denom and not zero, the search (which starts at the attached amount)
ends at an amount not above the attached one (and the revised amount, which is not used, can be simulated too), the
amount to burn (the amount found with the fee undone, less one) is at most the attached one, and selling the basket of
what is left of it after the fee is simulated to bring something.  Then it burns that amount, sells the coins of the
basket, each for at least its share of the simulated proceeds, and returns the rest of the index tokens and pays out
the output. -/
theorem C84_burn_exact_out_accepted_iff {p : PEnv} {info : Info} {a : Addr} {desired : Coin}
    {si : List Compact} {ms : List PMsg} (hr : ∀ c, p.core a = some c → Reachable c)
    (hf : ∀ c ∈ info.funds, c.amount < 2 ^ 128) :
    Periphery.execute p info (.burnExactOut a desired si) = .ok ms ↔
      ∃ infos c us ps paid v0 found v1 burn outs, parseInfos si = .ok infos ∧ Reads p a infos c us ps ∧
        p.env.now * 10 ^ 9 < 2 ^ 64 ∧ info.funds = [⟨c.config.indexDenom, paid⟩] ∧ paid ≠ 0 ∧
        BringsInAll p.env infos ps us desired.denom paid v0 ∧
        Search (BringsInAll p.env infos ps us desired.denom) desired.amount 256 ⟨paid, v0⟩ found ∧
        found.index ≤ paid ∧
        BringsInAll p.env infos ps us desired.denom (found.index + third (paid - found.index)) v1 ∧
        burn + 1 = part (undoRate c.fee.burnFee) found.index ∧ burn ≤ paid ∧ burn + 1 < 2 ^ 128 ∧
        Sale p.env infos ps us desired.denom (lessFee c.fee.burnFee burn) outs ∧ 0 < outs.sum ∧
        ms = .core a (.burn none) [⟨c.config.indexDenom, burn⟩] ::
          (sales p.env.contract infos desired.denom outs.sum (basket us (lessFee c.fee.burnFee burn)) outs ++
            [.finish info.sender c.config.indexDenom, .finish info.sender desired.denom]) := by
  have e2 : U128 = 2 ^ 128 := rfl
  simp only [Periphery.execute, burnExactOut, bind_eq_ok, findCore_eq_ok, mustPay_eq_ok, getPortfolio_iff, makeSim_iff,
    getConfig_iff, mulInt_eq_ok, sub_eq_ok, require_eq_ok, Except.ok.injEq]
  constructor
  · rintro ⟨infos, hin, c, ⟨hv, hc⟩, fee, hfee, _, ⟨hnow, rfl⟩, _, ⟨c1, hc1, hw, rfl⟩, paid, ⟨hfu, hp⟩, _,
      ⟨pools, hpools, rfl⟩, ⟨res, est⟩, hest, rate, hrate, b1, ⟨hb1, hb1'⟩, burn, ⟨hone, hburn⟩, _, hbp, rate', hrate', _,
      ⟨_, rfl⟩, ⟨t, rs⟩, htok, sw, hsw, rfl⟩
    rw [(getFee_frame hfee).2.1] at hrate hrate'
    rw [expand_ok (hr c hc).inv.burnRate] at hrate
    rw [deduct_ok (hr c hc).inv.burnRate] at hrate'
    subst hrate hrate'
    rw [part18] at htok
    rw [part18, e2] at hb1
    rw [part18] at hb1'
    rw [C71_revised_sale] at hest
    obtain ⟨hs, hm, _, _, est, rfl, hidx, htok1⟩ := hest
    obtain ⟨v0, hv0, hsr⟩ := (C71_search_for_output _ _ _ _ _).1 ⟨res, hs, rfl, rfl⟩
    rw [Brings_eq] at hv0 hsr
    obtain ⟨outs1, hb0, _, _⟩ := tokenIn_iff.1 htok1
    rw [hidx] at hb0
    obtain ⟨outs, hb, rfl, rfl⟩ := tokenIn_iff.1 htok
    obtain ⟨h1, h2, h3⟩ := (outMsgs_iff hb.sum (sold_length hb.sold) hb.sum).1 ⟨sw, hsw, rfl⟩
    have e : burn + 1 = b1 := by omega
    exact ⟨infos, c, _, _, paid, v0, _, _, burn, outs, hin, ⟨hv, hc, ⟨c1, hc1, rfl⟩, hw, pools, hpools, rfl⟩, hnow, hfu, hp,
      hv0, hsr, hm, ⟨_, hb0, rfl⟩, e.trans hb1', by omega, by rw [e, hb1']; exact hb1, hb, h2, by rw [h3]; rfl⟩
  · rintro ⟨infos, c, us, ps, paid, v0, found, v1, burn, outs, hin, ⟨hv, hc, ⟨c1, hc1, rfl⟩, hw, pools, hpools, rfl⟩, hnow,
      hfu, hp, hv0, hsr, hm, ⟨outs1, hb0, rfl⟩, hburn, hbp, hblt, hb, h2, rfl⟩
    have hpaid : paid < 2 ^ 128 := hf ⟨_, paid⟩ (by rw [hfu]; exact List.mem_singleton_self _)
    obtain ⟨fee, hfee, _, hbf⟩ := getFee_of_collect hc1
    obtain ⟨sw, hsw, he⟩ := (outMsgs_iff hb.sum (sold_length hb.sold) hb.sum).2 ⟨Nat.le_refl _, h2, rfl⟩
    have ht := third_le (paid - found.index)
    obtain ⟨fi, fv⟩ := found
    obtain ⟨res, hs, rfl, rfl⟩ := (C71_search_for_output
      { env := p.env, pools := pools, swapInfo := infos, units := c1.indexUnits } desired (some paid) fi fv).2
      ⟨v0, by rw [Brings_eq]; exact hv0, by rw [Brings_eq]; exact hsr⟩
    refine ⟨infos, hin, c, ⟨hv, hc⟩, fee, hfee, _, ⟨hnow, rfl⟩, _, ⟨c1, hc1, hw, rfl⟩, paid, ⟨hfu, hp⟩, _,
      ⟨pools, hpools, rfl⟩, (res, some ⟨res.index + third (paid - res.index), outs1.sum,
        sellEntries infos desired.denom (basket c1.indexUnits (res.index + third (paid - res.index))) outs1⟩), ?_, _,
      by rw [hbf, expand_ok (hr c hc).inv.burnRate], _, ⟨?_, rfl⟩, burn, ?_, (), ?_, _,
      by rw [hbf, deduct_ok (hr c hc).inv.burnRate], _, ⟨?_, rfl⟩, (outs.sum, _), ?_, sw, hsw, by rw [he]⟩
    · rw [C71_revised_sale]
      refine ⟨hs, hm, Nat.lt_of_le_of_lt ht (by omega), ?_, _, rfl, rfl, tokenIn_iff.2 ⟨outs1, hb0, rfl, rfl⟩⟩
      change res.index + third (paid - res.index) < 2 ^ 128
      simp only at hm ht
      omega
    · rw [part18, e2]; rw [← hburn]; exact hblt
    · rw [part18, ← hburn]; exact ⟨Nat.le_add_left _ _, rfl⟩
    · omega
    · rw [part18, e2]; exact lessFee_lt (by omega)
    · rw [part18]; exact tokenIn_iff.2 ⟨outs, hb, rfl, rfl⟩

/-- The core address of the examples. -/
theorem zapWorld_core {c : Core.State} {ps : Nat → Res (Option Pool)}
    (h : (zapWorld.penv zapEnv ps).core "core" = some c) : Reachable c := by
  have : some zapWorld.core = some c := h
  cases this
  exact Demo.s0_reachable

/-- The mints with their messages, and calls that are rejected: too little attached, another coin attached, a minimum
that is not affordable. -/
example :
    (Periphery.execute (zapWorld.penv zapEnv zapPools) ⟨"bob", [⟨"uosmo", 80000⟩]⟩
      (.mintExactOut "core" 40000 "uosmo" zapRoutes)).toOption =
      some [.chain (.swapExactOut "zap" [⟨1, "uosmo"⟩] ⟨"uatom", 10000⟩ 11428),
        .core "core" (.mint 40000 (some "bob") (some "bob")) [⟨"uatom", 10000⟩, ⟨"uosmo", 60000⟩], .finish "bob" "uosmo"] ∧
    (Periphery.execute (zapWorld.penv zapEnv zapPools) ⟨"bob", [⟨"uosmo", 69999⟩]⟩
      (.mintExactOut "core" 40000 "uosmo" zapRoutes)).toOption = none ∧
    (Periphery.execute (zapWorld.penv zapEnv zapPools) ⟨"bob", [⟨"uatom", 80000⟩]⟩
      (.mintExactOut "core" 40000 "uosmo" zapRoutes)).toOption = none ∧
    (Periphery.execute (zapWorld.penv zapEnv zapPools) ⟨"bob", [⟨"uosmo", 70000⟩]⟩
      (.mintExactIn "core" "uosmo" 30000 zapRoutes)).toOption =
      some [.chain (.swapExactOut "zap" [⟨1, "uosmo"⟩] ⟨"uatom", 9166⟩ 10594),
        .core "core" (.mint 36667 (some "bob") (some "bob")) [⟨"uatom", 9166⟩, ⟨"uosmo", 55000⟩], .finish "bob" "uosmo"] ∧
    (Periphery.execute (zapWorld.penv zapEnv zapPools) ⟨"bob", [⟨"uosmo", 70000⟩]⟩
      (.mintExactIn "core" "uosmo" 40001 zapRoutes)).toOption = none := by
  decide +kernel

/-- The burns with their messages; more than the basket brings is refused. -/
example :
    (Periphery.execute (zapWorld2.penv zapEnv zapPools) ⟨"bob", [⟨"factory/core/ibcx", 1012⟩]⟩
      (.burnExactIn "core" "uosmo" 1717 zapSaleRoutes)).toOption =
      some [.core "core" (.burn none) [⟨"factory/core/ibcx", 1012⟩],
        .chain (.swapExactIn "zap" [⟨1, "uosmo"⟩] ⟨"uatom", 247⟩ 244), .finish "bob" "uosmo"] ∧
    (Periphery.execute (zapWorld2.penv zapEnv zapPools) ⟨"bob", [⟨"factory/core/ibcx", 1012⟩]⟩
      (.burnExactIn "core" "uosmo" 1734 zapSaleRoutes)).toOption = none ∧
    (Periphery.execute (zapWorld2.penv zapEnv zapPools) ⟨"bob", [⟨"factory/core/ibcx", 5000⟩]⟩
      (.burnExactOut "core" ⟨"uosmo", 1717⟩ zapSaleRoutes)).toOption =
      some [.core "core" (.burn none) [⟨"factory/core/ibcx", 1000⟩],
        .chain (.swapExactIn "zap" [⟨1, "uosmo"⟩] ⟨"uatom", 245⟩ 245), .finish "bob" "factory/core/ibcx",
        .finish "bob" "uosmo"] ∧
    (Periphery.execute (zapWorld2.penv zapEnv zapPools) ⟨"bob", [⟨"factory/core/ibcx", 900⟩]⟩
      (.burnExactOut "core" ⟨"uosmo", 1717⟩ zapSaleRoutes)).toOption = none := by
  decide +kernel

/-! ### C85 -/

/-- **C85 (1).** `SimulateMintExactAmountIn` answers exactly when the core contract and the pools answer and the search,
which starts at one million, ends.  The amount is the amount found with the mint fee undone less 100, the coins are its
basket, and the swap result is the cost of the amount found. -/
theorem C85_simulate_mint_exact_in_iff {p : PEnv} {a : Addr} {input : Coin} {infos : List SwapInfo} {r : SimResp}
    (hr : ∀ c, p.core a = some c → Reachable c) :
    simMintExactIn p a input infos = .ok r ↔
      ∃ c us ps v0 found, Reads p a infos c us ps ∧
        CostsInAll p.env infos ps us input.denom 1000000 v0 ∧
        Search (CostsInAll p.env infos ps us input.denom) input.amount 256 ⟨1000000, v0⟩ found ∧
        r.amount + 100 = part (undoRate c.fee.mintFee) found.index ∧ r.amount + 100 < 2 ^ 128 ∧
        Fits us r.amount ∧ Sorted r.coins us r.amount ∧ r.swapResult = ⟨input.denom, found.value⟩ := by
  have e2 : U128 = 2 ^ 128 := rfl
  obtain ⟨ra, rc, rr⟩ := r
  simp only [simMintExactIn, bind_eq_ok, findCore_eq_ok, getPortfolio_iff, makeSim_iff, mulInt_eq_ok, sub_eq_ok,
    estIndexForInput, Except.ok.injEq, SimResp.mk.injEq]
  constructor
  · rintro ⟨c, ⟨hv, hc⟩, fee, hfee, _, ⟨c1, hc1, hw, rfl⟩, _, ⟨pools, hpools, rfl⟩, _, ⟨res, hs, rfl⟩, rate, hrate, _,
      ⟨h1, rfl⟩, am, ⟨h2, h2'⟩, coins, hcoins, rfl, rfl, rfl⟩
    have hn : c1.indexUnits.denoms.Nodup := ((hr c hc).inv.collect hc1).nodup
    rw [(getFee_frame hfee).1, expand_ok (hr c hc).inv.mintRate] at hrate
    subst hrate
    rw [part18] at h1 h2 h2'
    dsimp only at h1 h2 h2'
    obtain ⟨v0, hv0, hsr⟩ := (C71_search_for_input _ _ _ _ _).1 ⟨res, hs, rfl, rfl⟩
    rw [Costs_eq] at hv0 hsr
    obtain ⟨hfit, hso⟩ := (basketCoins_iff hn).1 hcoins
    have e : am + 100 = part (undoRate c.fee.mintFee) res.index := by omega
    exact ⟨c, _, _, v0, _, ⟨hv, hc, ⟨c1, hc1, rfl⟩, hw, pools, hpools, rfl⟩, hv0, hsr, e, by rw [e]; exact h1, hfit, hso,
      rfl⟩
  · rintro ⟨c, us, ps, v0, ⟨fi, fv⟩, ⟨hv, hc, ⟨c1, hc1, rfl⟩, hw, pools, hpools, rfl⟩, hv0, hsr, h1, h2, hfit, hso, h3⟩
    have hn : c1.indexUnits.denoms.Nodup := ((hr c hc).inv.collect hc1).nodup
    obtain ⟨fee, hfee, hmf, _⟩ := getFee_of_collect hc1
    obtain ⟨res, hs, rfl, rfl⟩ := (C71_search_for_input
      { env := p.env, pools := pools, swapInfo := infos, units := c1.indexUnits } input none fi fv).2
      ⟨v0, by rw [Costs_eq]; exact hv0, by rw [Costs_eq]; exact hsr⟩
    dsimp only at h1 h2 hfit hso h3
    refine ⟨c, ⟨hv, hc⟩, fee, hfee, _, ⟨c1, hc1, hw, rfl⟩, _, ⟨pools, hpools, rfl⟩, (res, none), ⟨res, hs, rfl⟩, _,
      by rw [hmf, expand_ok (hr c hc).inv.mintRate], _, ⟨?_, rfl⟩, ra, ⟨?_, ?_⟩, rc, (basketCoins_iff hn).2 ⟨hfit, hso⟩,
      rfl, rfl, h3.symm⟩
    · rw [part18, e2]; rw [← h1]; exact h2
    · rw [part18, ← h1]; exact Nat.le_add_left _ _
    · rw [part18, ← h1, Nat.add_sub_cancel]

/-- The simulation of a purchase with 70000 uosmo. -/
example : (simMintExactIn (zapWorld.penv zapEnv zapPools) "core" ⟨"uosmo", 70000⟩
      [⟨"uosmo", "uatom", [⟨1, "uosmo"⟩]⟩]).toOption =
      some ⟨40304, [⟨"uatom", 10076⟩, ⟨"uosmo", 60456⟩], ⟨"uosmo", 70000⟩⟩ := by
  decide +kernel

/-- **C85 (2).** `SimulateMintExactAmountOut` answers exactly when the core contract and the pools answer and the
purchase of the basket of the amount less the mint fee can be simulated; it answers that amount, its basket and the
cost. -/
theorem C85_simulate_mint_exact_out_iff {p : PEnv} {a : Addr} {index : Nat} {input : Denom} {infos : List SwapInfo}
    {r : SimResp} (hr : ∀ c, p.core a = some c → Reachable c) (hi : index < 2 ^ 128) :
    simMintExactOut p a index input infos = .ok r ↔
      ∃ c us ps costs, Reads p a infos c us ps ∧ r.amount = lessFee c.fee.mintFee index ∧
        Bill p.env infos ps us input r.amount costs ∧ Sorted r.coins us r.amount ∧
        r.swapResult = ⟨input, costs.sum⟩ := by
  have e2 : U128 = 2 ^ 128 := rfl
  obtain ⟨ra, rc, rr⟩ := r
  simp only [simMintExactOut, bind_eq_ok, findCore_eq_ok, getPortfolio_iff, makeSim_iff, mulInt_eq_ok, Except.ok.injEq,
    SimResp.mk.injEq]
  constructor
  · rintro ⟨c, ⟨hv, hc⟩, fee, hfee, _, ⟨c1, hc1, hw, rfl⟩, _, ⟨pools, hpools, rfl⟩, rate, hrate, am, ⟨_, ham⟩, coins, hcoins,
      ⟨t, rs⟩, htok, rfl, rfl, rfl⟩
    have hn : c1.indexUnits.denoms.Nodup := ((hr c hc).inv.collect hc1).nodup
    rw [(getFee_frame hfee).1, deduct_ok (hr c hc).inv.mintRate] at hrate
    subst hrate
    rw [part18] at ham
    obtain ⟨costs, hb, rfl, _⟩ := tokenOut_iff.1 htok
    exact ⟨c, _, _, costs, ⟨hv, hc, ⟨c1, hc1, rfl⟩, hw, pools, hpools, rfl⟩, ham, hb, ((basketCoins_iff hn).1 hcoins).2, rfl⟩
  · rintro ⟨c, us, ps, costs, ⟨hv, hc, ⟨c1, hc1, rfl⟩, hw, pools, hpools, rfl⟩, ham, hb, hso, h3⟩
    have hn : c1.indexUnits.denoms.Nodup := ((hr c hc).inv.collect hc1).nodup
    obtain ⟨fee, hfee, hmf, _⟩ := getFee_of_collect hc1
    exact ⟨c, ⟨hv, hc⟩, fee, hfee, _, ⟨c1, hc1, hw, rfl⟩, _, ⟨pools, hpools, rfl⟩, _,
      by rw [hmf, deduct_ok (hr c hc).inv.mintRate], ra, ⟨by rw [part18, e2]; exact lessFee_lt hi, by rw [part18]; exact ham⟩,
      rc, (basketCoins_iff hn).2 ⟨hb.fits, hso⟩, (costs.sum, _), tokenOut_iff.2 ⟨costs, hb, rfl, rfl⟩, rfl, rfl, h3.symm⟩

/-- The simulation of a purchase of 40000 index tokens. -/
example : (simMintExactOut (zapWorld.penv zapEnv zapPools) "core" 40000 "uosmo"
      [⟨"uosmo", "uatom", [⟨1, "uosmo"⟩]⟩]).toOption =
      some ⟨39600, [⟨"uatom", 9900⟩, ⟨"uosmo", 59400⟩], ⟨"uosmo", 69300⟩⟩ := by
  decide +kernel

/-- **C85 (3).** `SimulateBurnExactAmountIn` answers exactly when the core contract and the pools answer and the sale of
the basket of the amount less the burn fee can be simulated; it answers that amount, its basket and the proceeds. -/
theorem C85_simulate_burn_exact_in_iff {p : PEnv} {a : Addr} {index : Nat} {output : Denom} {infos : List SwapInfo}
    {r : SimResp} (hr : ∀ c, p.core a = some c → Reachable c) (hi : index < 2 ^ 128) :
    simBurnExactIn p a index output infos = .ok r ↔
      ∃ c us ps outs, Reads p a infos c us ps ∧ r.amount = lessFee c.fee.burnFee index ∧
        Sale p.env infos ps us output r.amount outs ∧ Sorted r.coins us r.amount ∧
        r.swapResult = ⟨output, outs.sum⟩ := by
  have e2 : U128 = 2 ^ 128 := rfl
  obtain ⟨ra, rc, rr⟩ := r
  simp only [simBurnExactIn, bind_eq_ok, findCore_eq_ok, getPortfolio_iff, makeSim_iff, mulInt_eq_ok, Except.ok.injEq,
    SimResp.mk.injEq]
  constructor
  · rintro ⟨c, ⟨hv, hc⟩, fee, hfee, _, ⟨c1, hc1, hw, rfl⟩, _, ⟨pools, hpools, rfl⟩, rate, hrate, am, ⟨_, ham⟩, coins, hcoins,
      ⟨t, rs⟩, htok, rfl, rfl, rfl⟩
    have hn : c1.indexUnits.denoms.Nodup := ((hr c hc).inv.collect hc1).nodup
    rw [(getFee_frame hfee).2.1, deduct_ok (hr c hc).inv.burnRate] at hrate
    subst hrate
    rw [part18] at ham
    obtain ⟨costs, hb, rfl, _⟩ := tokenIn_iff.1 htok
    exact ⟨c, _, _, costs, ⟨hv, hc, ⟨c1, hc1, rfl⟩, hw, pools, hpools, rfl⟩, ham, hb, ((basketCoins_iff hn).1 hcoins).2, rfl⟩
  · rintro ⟨c, us, ps, costs, ⟨hv, hc, ⟨c1, hc1, rfl⟩, hw, pools, hpools, rfl⟩, ham, hb, hso, h3⟩
    have hn : c1.indexUnits.denoms.Nodup := ((hr c hc).inv.collect hc1).nodup
    obtain ⟨fee, hfee, _, hmf⟩ := getFee_of_collect hc1
    exact ⟨c, ⟨hv, hc⟩, fee, hfee, _, ⟨c1, hc1, hw, rfl⟩, _, ⟨pools, hpools, rfl⟩, _,
      by rw [hmf, deduct_ok (hr c hc).inv.burnRate], ra, ⟨by rw [part18, e2]; exact lessFee_lt hi, by rw [part18]; exact ham⟩,
      rc, (basketCoins_iff hn).2 ⟨hb.fits, hso⟩, (costs.sum, _), tokenIn_iff.2 ⟨costs, hb, rfl, rfl⟩, rfl, rfl, h3.symm⟩

/-- The simulation of a sale of 1012 index tokens. -/
example : (simBurnExactIn (zapWorld2.penv zapEnv zapPools) "core" 1012 "uosmo"
      [⟨"uatom", "uosmo", [⟨1, "uosmo"⟩]⟩]).toOption =
      some ⟨991, [⟨"uatom", 247⟩, ⟨"uosmo", 1486⟩], ⟨"uosmo", 1733⟩⟩ := by
  decide +kernel

/-- **C85 (4).** `SimulateBurnExactAmountOut` answers exactly when the core contract and the pools answer and the search,
which starts at one million, ends.  The amount is the amount found with the burn fee undone, the coins are its basket,
and the swap result is what the amount found brings. -/
theorem C85_simulate_burn_exact_out_iff {p : PEnv} {a : Addr} {output : Coin} {infos : List SwapInfo} {r : SimResp}
    (hr : ∀ c, p.core a = some c → Reachable c) :
    simBurnExactOut p a output infos = .ok r ↔
      ∃ c us ps v0 found, Reads p a infos c us ps ∧
        BringsInAll p.env infos ps us output.denom 1000000 v0 ∧
        Search (BringsInAll p.env infos ps us output.denom) output.amount 256 ⟨1000000, v0⟩ found ∧
        r.amount = part (undoRate c.fee.burnFee) found.index ∧ r.amount < 2 ^ 128 ∧
        Fits us r.amount ∧ Sorted r.coins us r.amount ∧ r.swapResult = ⟨output.denom, found.value⟩ := by
  have e2 : U128 = 2 ^ 128 := rfl
  obtain ⟨ra, rc, rr⟩ := r
  simp only [simBurnExactOut, bind_eq_ok, findCore_eq_ok, getPortfolio_iff, makeSim_iff, mulInt_eq_ok,
    estIndexForOutput, Except.ok.injEq, SimResp.mk.injEq]
  constructor
  · rintro ⟨c, ⟨hv, hc⟩, fee, hfee, _, ⟨c1, hc1, hw, rfl⟩, _, ⟨pools, hpools, rfl⟩, _, ⟨res, hs, rfl⟩, rate, hrate, am,
      ⟨h1, h2⟩, coins, hcoins, rfl, rfl, rfl⟩
    have hn : c1.indexUnits.denoms.Nodup := ((hr c hc).inv.collect hc1).nodup
    rw [(getFee_frame hfee).2.1, expand_ok (hr c hc).inv.burnRate] at hrate
    subst hrate
    rw [part18] at h1 h2
    obtain ⟨v0, hv0, hsr⟩ := (C71_search_for_output _ _ _ _ _).1 ⟨res, hs, rfl, rfl⟩
    rw [Brings_eq] at hv0 hsr
    obtain ⟨hfit, hso⟩ := (basketCoins_iff hn).1 hcoins
    exact ⟨c, _, _, v0, _, ⟨hv, hc, ⟨c1, hc1, rfl⟩, hw, pools, hpools, rfl⟩, hv0, hsr, h2, by rw [h2]; exact h1, hfit, hso,
      rfl⟩
  · rintro ⟨c, us, ps, v0, ⟨fi, fv⟩, ⟨hv, hc, ⟨c1, hc1, rfl⟩, hw, pools, hpools, rfl⟩, hv0, hsr, h1, h2, hfit, hso, h3⟩
    have hn : c1.indexUnits.denoms.Nodup := ((hr c hc).inv.collect hc1).nodup
    obtain ⟨fee, hfee, _, hmf⟩ := getFee_of_collect hc1
    obtain ⟨res, hs, rfl, rfl⟩ := (C71_search_for_output
      { env := p.env, pools := pools, swapInfo := infos, units := c1.indexUnits } output none fi fv).2
      ⟨v0, by rw [Brings_eq]; exact hv0, by rw [Brings_eq]; exact hsr⟩
    dsimp only at h1 h2 hfit hso h3
    refine ⟨c, ⟨hv, hc⟩, fee, hfee, _, ⟨c1, hc1, hw, rfl⟩, _, ⟨pools, hpools, rfl⟩, (res, none), ⟨res, hs, rfl⟩, _,
      by rw [hmf, expand_ok (hr c hc).inv.burnRate], ra, ⟨?_, ?_⟩, rc, (basketCoins_iff hn).2 ⟨hfit, hso⟩,
      rfl, rfl, h3.symm⟩
    · rw [part18, e2]; rw [← h1]; exact h2
    · rw [part18]; exact h1

/-- The four queries on the example. -/
example :
    (simMintExactIn (zapWorld.penv zapEnv zapPools) "core" ⟨"uosmo", 70000⟩
      [⟨"uosmo", "uatom", [⟨1, "uosmo"⟩]⟩]).toOption =
      some ⟨40304, [⟨"uatom", 10076⟩, ⟨"uosmo", 60456⟩], ⟨"uosmo", 70000⟩⟩ ∧
    (simMintExactOut (zapWorld.penv zapEnv zapPools) "core" 40000 "uosmo"
      [⟨"uosmo", "uatom", [⟨1, "uosmo"⟩]⟩]).toOption =
      some ⟨39600, [⟨"uatom", 9900⟩, ⟨"uosmo", 59400⟩], ⟨"uosmo", 69300⟩⟩ ∧
    (simBurnExactIn (zapWorld2.penv zapEnv zapPools) "core" 1012 "uosmo"
      [⟨"uatom", "uosmo", [⟨1, "uosmo"⟩]⟩]).toOption =
      some ⟨991, [⟨"uatom", 247⟩, ⟨"uosmo", 1486⟩], ⟨"uosmo", 1733⟩⟩ ∧
    (simBurnExactOut (zapWorld2.penv zapEnv zapPools) "core" ⟨"uosmo", 1717⟩
      [⟨"uatom", "uosmo", [⟨1, "uosmo"⟩]⟩]).toOption =
      some ⟨1001, [⟨"uatom", 250⟩, ⟨"uosmo", 1501⟩], ⟨"uosmo", 1716⟩⟩ := by
  decide +kernel

end Ibcx.Props
