import Verif.Props.Settle
/-!
# C112: what accepted trades and settings do on the chain
-/

namespace Ibcx.Props
open Ibcx Ibcx.Core Ibcx.Spec Ibcx.Chain

/-- Each coin in the list is traded for a different one. -/
def Differ (ds : List Denom) : Prop := List.IsChain (· ≠ ·) ds

/-- The denoms named by a route, hop by hop. -/
def stations (rs : List SwapRoute) : List Denom := rs.map (·.tokenDenom)

/-- What the account has once the attached coins have moved from the sender to the contract. -/
def afterFunds (w : World) (info : Info) (a : Addr) (d : Denom) : Nat :=
  if a = info.sender then w.bank.bal a d - total d info.funds
  else if a = w.self then w.bank.bal a d + total d info.funds
  else w.bank.bal a d

/-- The sender can pay the attached coins, and the message is one that the chain passes on. -/
def Sound (w : World) (env : Env) (info : Info) : Prop :=
  env.contract = w.self ∧ info.sender ≠ w.self ∧ (info.funds.map (·.denom)).Nodup ∧
    ∀ d, total d info.funds ≤ w.bank.bal info.sender d

private theorem hopsIn_iff {rs : List SwapRoute} : ∀ {d : Denom}, hopsInOk d rs = true ↔ Differ (d :: stations rs) := by
  induction rs with
  | nil => intro d; simp [hopsInOk, Differ, stations]
  | cons r rs ih =>
    intro d
    simp only [hopsInOk, Bool.and_eq_true, decide_eq_true_eq, ih]
    simp only [Differ, stations, List.map_cons, List.isChain_cons_cons, ne_eq]

private theorem hopsOut_iff {out : Denom} {rs : List SwapRoute} :
    hopsOutOk rs out = true ↔ Differ (stations rs ++ [out]) := by
  induction rs with
  | nil => simp [hopsOutOk, Differ, stations]
  | cons r rs ih =>
    cases rs with
    | nil => simp [hopsOutOk, Differ, stations]
    | cons r' rs =>
      simp only [hopsOutOk, Bool.and_eq_true, decide_eq_true_eq, ih]
      simp only [Differ, stations, List.map_cons, List.cons_append, List.isChain_cons_cons, ne_eq]

private theorem after_send {w : World} {info : Info} (hs : info.sender ≠ w.self) (a : Addr) (d : Denom) :
    (if a = info.sender then w.bank.bal a d - total d info.funds else w.bank.bal a d)
      + (if a = w.self then total d info.funds else 0) = afterFunds w info a d := by
  unfold afterFunds
  by_cases h1 : a = info.sender
  · subst h1; simp [hs]
  · by_cases h2 : a = w.self
    · subst h2; simp [h1]
    · simp [h1, h2]

/-- An accepted message goes through exactly when its messages do, on the balances after the attached coins moved. -/
private theorem call_iff {w w' : World} {env : Env} {info : Info} {msg : ExecMsg} {market : List Nat} {s' : State}
    {ms : List Msg} (hw : Sound w env info) (hx : execute w.core env info msg = .ok (s', ms)) :
    apply w (.call env info msg market) = .ok w' ↔
      ∃ b', runMsgs w.self { w.bank with bal := afterFunds w info } market ms = .ok b' ∧
        w' = { w with core := s', bank := b' } := by
  obtain ⟨h1, h2, h3, h4⟩ := hw
  have hb : w.bank.send info.sender w.self info.funds = .ok { w.bank with bal := afterFunds w info } := by
    rw [send_eq_ok]
    have he : afterFunds w info = fun a d =>
        (if a = info.sender then w.bank.bal a d - total d info.funds else w.bank.bal a d)
          + (if a = w.self then total d info.funds else 0) := by
      funext a d
      exact (after_send h2 a d).symm
    rw [he]
    exact ⟨h4, rfl⟩
  rw [apply_call]
  constructor
  · rintro ⟨b, core, ms', b', _, _, _, g4, g5, g6, rfl⟩
    rw [hx] at g5
    cases g5
    rw [hb] at g4
    cases g4
    exact ⟨b', g6, rfl⟩
  · rintro ⟨b', g, rfl⟩
    exact ⟨_, s', ms, b', h1, h2, h3, hb, hx, g, rfl⟩

private theorem run_out {self : Addr} {b b' : Bank} {mk : List Nat} {r : SwapRoute} {rs : List SwapRoute} {c : Coin}
    {x : Nat} : runMsgs self b mk [.swapExactOut self (r :: rs) c x] = .ok b' ↔
      ∃ spent mk', mk = spent :: mk' ∧ Differ (stations (r :: rs) ++ [c.denom]) ∧ spent ≤ x ∧
        spent ≤ b.bal self r.tokenDenom ∧
        b' = { b with bal := fun a d => b.bal a d - (if a = self ∧ d = r.tokenDenom then spent else 0)
                      + (if a = self ∧ d = c.denom then c.amount else 0) } := by
  cases mk with
  | nil => simp [runMsgs, runMsg]
  | cons y mk =>
    simp only [runMsgs, runMsg, bind_eq_ok, require_eq_ok, debit_eq_ok, hopsOut_iff, Except.ok.injEq,
      List.cons.injEq, Bank.credit]
    constructor
    · rintro ⟨_, ⟨_, h1, _, h2, _, ⟨h3, rfl⟩, rfl⟩, rfl⟩
      exact ⟨y, mk, ⟨rfl, rfl⟩, h1, h2, h3, rfl⟩
    · rintro ⟨_, _, ⟨rfl, rfl⟩, h1, h2, h3, rfl⟩
      exact ⟨_, ⟨(), h1, (), h2, _, ⟨h3, rfl⟩, rfl⟩, rfl⟩

private theorem run_in {self : Addr} {b b' : Bank} {mk : List Nat} {rs : List SwapRoute} {c : Coin} {x : Nat} :
    runMsgs self b mk [.swapExactIn self rs c x] = .ok b' ↔
      ∃ got mk' last, mk = got :: mk' ∧ (stations rs).getLast? = some last ∧ Differ (c.denom :: stations rs) ∧ x ≤ got ∧
        c.amount ≤ b.bal self c.denom ∧
        b' = { b with bal := fun a d => b.bal a d - (if a = self ∧ d = c.denom then c.amount else 0)
                      + (if a = self ∧ d = last then got else 0) } := by
  cases mk with
  | nil => simp [runMsgs, runMsg]
  | cons y mk =>
    cases hl : rs.getLast? with
    | none => simp [runMsgs, runMsg, hl, stations, List.getLast?_map]
    | some l =>
      simp only [runMsgs, runMsg, hl, bind_eq_ok, require_eq_ok, debit_eq_ok, hopsIn_iff, Except.ok.injEq,
        List.cons.injEq, Bank.credit, stations, List.getLast?_map, Option.map_some, Option.some.injEq]
      constructor
      · rintro ⟨_, ⟨_, h1, _, h2, _, ⟨h3, rfl⟩, rfl⟩, rfl⟩
        exact ⟨y, mk, _, ⟨rfl, rfl⟩, rfl, h1, h2, h3, rfl⟩
      · rintro ⟨_, _, _, ⟨rfl, rfl⟩, rfl, h1, h2, h3, rfl⟩
        exact ⟨_, ⟨(), h1, (), h2, _, ⟨h3, rfl⟩, rfl⟩, rfl⟩

/-- **C112 (sales).** A deflation of a denom other than the reserve denom that the contract accepts goes through exactly
when the hops of the stored route, from its first denom to the reserve denom, trade different denoms, the pools settle
it for at most the estimated cost, and the contract holds that much of the *reserve* denom.  The contract then has paid
the settled amount and received the amount asked for, both in the reserve denom; no other balance of anybody changes,
but for the coins attached to the message.  In particular the denom that was to be sold stays in the contract. -/
theorem C112_deflate_settles_iff {w : World} {env : Env} {info : Info} {d : Denom} {out maxIn : Nat} {s' : State}
    {ms : List Msg} {market : List Nat} (hr : Reachable w.core) (hw : Sound w env info)
    (hd : d ≠ w.core.config.reserveDenom)
    (hx : execute w.core env info (.rebalance (.trade (.deflate d out maxIn))) = .ok (s', ms)) :
    ∃ t cost, w.core.tradeInfos.get (d, w.core.config.reserveDenom) = some t ∧
      env.estIn t.routes ⟨w.core.config.reserveDenom, out⟩ = .ok cost ∧
      ((∃ w', apply w (.call env info (.rebalance (.trade (.deflate d out maxIn))) market) = .ok w') ↔
        ∃ spent, market.head? = some spent ∧ Differ (stations t.routes ++ [w.core.config.reserveDenom]) ∧ spent ≤ cost ∧
          spent ≤ afterFunds w info w.self w.core.config.reserveDenom) ∧
      ∀ w', apply w (.call env info (.rebalance (.trade (.deflate d out maxIn))) market) = .ok w' →
        w'.core = s' ∧ w'.self = w.self ∧ w'.bank.supply = w.bank.supply ∧
        ∃ spent, market.head? = some spent ∧
          w'.bank.bal w.self w.core.config.reserveDenom
            = afterFunds w info w.self w.core.config.reserveDenom - spent + out ∧
          ∀ a e, a ≠ w.self ∨ e ≠ w.core.config.reserveDenom → w'.bank.bal a e = afterFunds w info a e := by
  obtain ⟨t, r, target, cur, cost, g1, _, _, _, _, _, _, _, g2, rfl⟩ := C24_deflate_limits hd hx
  obtain ⟨r, rs, g3, g4⟩ := hr.inv.routes _ _ _ g1
  refine ⟨t, cost, g1, g2, ?_⟩
  have key := fun w' => call_iff (market := market) (w' := w') hw hx
  simp only [hw.1, g3, run_out] at key
  simp only [key, g3, g4]
  refine ⟨⟨?_, ?_⟩, ?_⟩
  · rintro ⟨w', b', ⟨sp, mk, rfl, h1, h2, h3, rfl⟩, rfl⟩
    exact ⟨sp, rfl, h1, h2, h3⟩
  · rintro ⟨sp, h0, h1, h2, h3⟩
    cases market with
    | nil => cases h0
    | cons y mk =>
      cases h0
      exact ⟨_, _, ⟨_, _, rfl, h1, h2, h3, rfl⟩, rfl⟩
  · rintro w' ⟨b', ⟨sp, mk, rfl, h1, h2, h3, rfl⟩, rfl⟩
    refine ⟨rfl, rfl, rfl, sp, rfl, by simp, ?_⟩
    intro a e hae
    have : ¬ (a = w.self ∧ e = w.core.config.reserveDenom) := by
      rintro ⟨rfl, rfl⟩
      rcases hae with h | h <;> exact h rfl
    simp [this]

/-- A mint, a route with two hops under uatom and the reserve denom, and a rebalance from uatom to uion. -/
def sellTxs : List Tx :=
  [.call (Demo.env 1000) Demo.mintInfo (.mint 10000 none none) [],
   .call (Demo.env 1000) ⟨"gov", []⟩ (.gov (.updateTradeInfo "uatom" [⟨1, "uosmo"⟩, ⟨3, "ujuno"⟩] 60 1000)) [],
   .call (Demo.env 1000) ⟨"gov", []⟩ (.gov (.updateTradeInfo "uosmo" [⟨2, "uion"⟩] 60 1000)) [],
   .call (Demo.env 1000) ⟨"gov", []⟩ (.rebalance (.init none [("uatom", 50000000000000000)]
      [("uion", 1000000000000000000)])) []]

/-- The sale of uatom for 900 uosmo, settled by the pools at 890. -/
def sellTx : Tx := .call (Demo.env 2000) ⟨"bob", []⟩ (.rebalance (.trade (.deflate "uatom" 900 1000))) [890]

/-- It goes through.  The contract has paid 890 uosmo for 900 uosmo and still has all its 2500 uatom, although the
tokens are now said to hold a lower unit of it. -/
example : Start demoWorld ∧ "uatom" ≠ (runTxs demoWorld sellTxs).core.config.reserveDenom ∧
    txAccepted (runTxs demoWorld sellTxs) sellTx = true ∧
    ((runTxs demoWorld sellTxs).bank.bal "core" "uosmo", (runTxs demoWorld sellTxs).bank.bal "core" "uatom",
      (runTxs demoWorld sellTxs).core.indexUnits) =
      (15000, 2500, [("uosmo", 1500000000000000000), ("uatom", 250000000000000000)]) ∧
    ((deliver (runTxs demoWorld sellTxs) sellTx).bank.bal "core" "uosmo",
      (deliver (runTxs demoWorld sellTxs) sellTx).bank.bal "core" "uatom",
      (deliver (runTxs demoWorld sellTxs) sellTx).core.indexUnits) =
      (15010, 2500, [("uosmo", 1500000000000000000), ("uatom", 159900000000000000)]) :=
  ⟨demoWorld_start, by decide +kernel, by decide +kernel, by decide +kernel, by decide +kernel⟩

/-- The sender has nothing to pay. -/
example : Sound (runTxs demoWorld sellTxs) (Demo.env 2000) ⟨"bob", []⟩ := by
  have h : (runTxs demoWorld sellTxs).self = "core" := (winv_run (start_inv demoWorld_start) sellTxs).2.1
  refine ⟨h.symm, ?_, by simp, by simp [total]⟩
  rw [h]
  decide

/-- **C112 (purchases).** An inflation of a denom other than the reserve denom that the contract accepts goes through
exactly when the hops of the stored route, starting from the reserve denom, trade different denoms, the pools settle it
for at least the estimate, and the contract holds the amount given in.  The contract then has paid exactly that amount of
the reserve denom and received the settled amount of the denom at the end of the route; no other balance of anybody
changes, but for the coins attached to the message. -/
theorem C112_inflate_settles_iff {w : World} {env : Env} {info : Info} {d : Denom} {amountIn minOut : Nat} {s' : State}
    {ms : List Msg} {market : List Nat} (hr : Reachable w.core) (hw : Sound w env info)
    (hd : d ≠ w.core.config.reserveDenom)
    (hx : execute w.core env info (.rebalance (.trade (.inflate d amountIn minOut))) = .ok (s', ms)) :
    ∃ t est last, w.core.tradeInfos.get (w.core.config.reserveDenom, d) = some t ∧
      env.estOut t.routes ⟨w.core.config.reserveDenom, amountIn⟩ = .ok est ∧ minOut ≤ est ∧
      (stations t.routes).getLast? = some last ∧
      ((∃ w', apply w (.call env info (.rebalance (.trade (.inflate d amountIn minOut))) market) = .ok w') ↔
        ∃ got, market.head? = some got ∧ Differ (w.core.config.reserveDenom :: stations t.routes) ∧ est ≤ got ∧
          amountIn ≤ afterFunds w info w.self w.core.config.reserveDenom) ∧
      ∀ w', apply w (.call env info (.rebalance (.trade (.inflate d amountIn minOut))) market) = .ok w' →
        w'.core = s' ∧ w'.self = w.self ∧ w'.bank.supply = w.bank.supply ∧
        ∃ got, market.head? = some got ∧
          (∀ e, w'.bank.bal w.self e + (if e = w.core.config.reserveDenom then amountIn else 0)
            = afterFunds w info w.self e + (if e = last then got else 0)) ∧
          ∀ a e, a ≠ w.self → w'.bank.bal a e = afterFunds w info a e := by
  obtain ⟨t, res, unit, est, g1, _, _, _, g5, _, g2, rfl⟩ := C24_inflate_limits hd hx
  obtain ⟨r, rs, g3, g4⟩ := hr.inv.routes _ _ _ g1
  obtain ⟨last, hl⟩ : ∃ last, (stations t.routes).getLast? = some last := by
    rw [g3]
    exact ⟨_, List.getLast?_eq_some_getLast (by simp [stations])⟩
  refine ⟨t, est, last, g1, g2, g5, hl, ?_⟩
  have key := fun w' => call_iff (market := market) (w' := w') hw hx
  simp only [hw.1, run_in] at key
  simp only [key]
  refine ⟨⟨?_, ?_⟩, ?_⟩
  · rintro ⟨w', b', ⟨got, mk, l, rfl, h0, h1, h2, h3, rfl⟩, rfl⟩
    exact ⟨got, rfl, h1, h2, h3⟩
  · rintro ⟨got, h0, h1, h2, h3⟩
    cases market with
    | nil => cases h0
    | cons y mk =>
      cases h0
      exact ⟨_, _, ⟨_, _, last, rfl, hl, h1, h2, h3, rfl⟩, rfl⟩
  · rintro w' ⟨b', ⟨got, mk, l, rfl, h0, h1, h2, h3, rfl⟩, rfl⟩
    rw [hl] at h0
    cases h0
    refine ⟨rfl, rfl, rfl, got, rfl, ?_, ?_⟩
    · intro e
      by_cases he : e = w.core.config.reserveDenom
      · subst he
        simp only [true_and, if_true] at h3 ⊢
        omega
      · simp [he]
    · intro a e ha
      simp [ha]

/-- A purchase of uion for 500 uosmo, estimated at 499 and settled at 510. -/
example : Start demoWorld ∧ "uion" ≠ (runTxs demoWorld (demoTxs.take 5)).core.config.reserveDenom ∧
    txAccepted (runTxs demoWorld (demoTxs.take 5))
      (.call (Demo.env 2000) ⟨"bob", []⟩ (.rebalance (.trade (.inflate "uion" 500 400))) [510]) = true ∧
    txAccepted (runTxs demoWorld (demoTxs.take 5))
      (.call (Demo.env 2000) ⟨"bob", []⟩ (.rebalance (.trade (.inflate "uion" 500 400))) [498]) = false ∧
    ((runTxs demoWorld (demoTxs.take 5)).bank.bal "core" "uosmo", (runTxs demoWorld demoTxs).bank.bal "core" "uosmo",
      (runTxs demoWorld demoTxs).bank.bal "core" "uion") = (15000, 14500, 510) :=
  ⟨demoWorld_start, by decide +kernel, by decide +kernel, by decide +kernel, by decide +kernel⟩

/-- The messages that only change the contract's records: settings, the start and the end of a rebalance, and trades of
the reserve denom itself. -/
def Bookkeeping (s : State) : ExecMsg → Prop
  | .gov _ => True
  | .rebalance (.init ..) => True
  | .rebalance .finalize => True
  | .rebalance (.trade (.deflate d _ _)) => d = s.config.reserveDenom
  | .rebalance (.trade (.inflate d _ _)) => d = s.config.reserveDenom
  | _ => False

/-- **C112 (records).** A setting, the start or the end of a rebalance, or a trade of the reserve denom that the contract
accepts always goes through, and moves no coins but the attached ones. -/
theorem C112_bookkeeping_settles {w : World} {env : Env} {info : Info} {msg : ExecMsg} {s' : State} {ms : List Msg}
    (market : List Nat) (hw : Sound w env info) (hb : Bookkeeping w.core msg)
    (hx : execute w.core env info msg = .ok (s', ms)) :
    apply w (.call env info msg market) =
      .ok { w with core := s', bank := { w.bank with bal := afterFunds w info } } := by
  have hms : ms = [] := by
    obtain ⟨s1, hc, hx'⟩ := execute_eq_ok.1 hx
    cases msg with
    | mint a r f => exact hb.elim
    | burn r => exact hb.elim
    | realize => exact hb.elim
    | gov m =>
      cases m with
      | updateFeeStrategy p => obtain ⟨_, _, _, _, _, _, _, rfl⟩ := updateFee_eq_ok.1 hx'; rfl
      | pause e => obtain ⟨a, b, c, _, rfl⟩ := pause_eq_ok.1 hx'; rfl
      | release => obtain ⟨a, b, _, rfl⟩ := release_eq_ok.1 hx'; rfl
      | updateGov g => obtain ⟨a, b, _, _, rfl⟩ := updateGov_eq_ok.1 hx'; rfl
      | acceptGov => obtain ⟨a, _, rfl⟩ := acceptGov_eq_ok.1 hx'; rfl
      | revokeGov => obtain ⟨_, a, _, rfl⟩ := revokeGov_eq_ok.1 hx'; rfl
      | updateRebalanceManager m => obtain ⟨_, _, _, rfl⟩ := updateRebalanceManager_eq_ok.1 hx'; rfl
      | updateReserveDenom d => obtain ⟨a, b, _, rfl⟩ := updateReserveDenom_eq_ok.1 hx'; rfl
      | updateTradeInfo d rs c m => obtain ⟨_, _, rfl⟩ := updateTradeInfo_eq_ok.1 hx'; rfl
    | rebalance m =>
      cases m with
      | init m de inf => obtain ⟨_, _, _, _, _, _, _, _, rfl⟩ := init_eq_ok.1 hx'; rfl
      | finalize => obtain ⟨r, res, _, _, _, _, _, _, rfl⟩ := finalize_eq_ok.1 hx'; rfl
      | trade m =>
        obtain ⟨r, _, _, h⟩ := trade_eq_ok.1 (execute_trade.1 hx)
        rcases h with ⟨d, _, _, _, e, h⟩ | ⟨d, o, x, rfl, e, h⟩ | ⟨d, _, _, _, e, h⟩ | ⟨d, o, x, rfl, e, h⟩
        · obtain ⟨_, _, _, _, _, _, _, _, _, _, _, _, _, rfl⟩ := deflateReserve_eq_ok.1 h; rfl
        · exact absurd hb.symm e
        · obtain ⟨_, _, _, _, _, _, _, _, _, _, rfl⟩ := inflateReserve_eq_ok.1 h; rfl
        · exact absurd hb.symm e
  subst hms
  exact (call_iff hw hx).2 ⟨_, rfl, rfl⟩

/-- Storing a route and starting the rebalance are of this kind; the messages are accepted. -/
example : Bookkeeping Demo.s0 (.gov (.updateTradeInfo "uosmo" [⟨2, "uion"⟩] 60 1000)) ∧
    Bookkeeping (runTxs demoWorld (demoTxs.take 4)).core (.rebalance (.trade (.deflate "uosmo" 500000000000000000 0))) ∧
    txAccepted (runTxs demoWorld (demoTxs.take 4))
      (.call (Demo.env 2000) ⟨"bob", []⟩ (.rebalance (.trade (.deflate "uosmo" 500000000000000000 0))) []) = true :=
  ⟨trivial, by show _ = _; decide +kernel, by decide +kernel⟩

/-- **C112 (nothing is ever sold).** At every point of every history, with routes of any length and whatever the market,
no trade lowers the contract's balance of a denom other than the reserve denom: an asset that a rebalance removes from
the basket stays in the contract. -/
theorem C112_trades_sell_only_reserve (w : World) (txs : List Tx) (hw : Start w) (env : Env) (info : Info) (t : TradeMsg)
    (market : List Nat) (d : Denom) (hd : d ≠ (runTxs w txs).core.config.reserveDenom) :
    (runTxs w txs).bank.bal w.self d ≤
      (deliver (runTxs w txs) (.call env info (.rebalance (.trade t)) market)).bank.bal w.self d := by
  obtain ⟨hi, hself, _⟩ := winv_run (start_inv hw) txs
  have hreach := hi.reach
  rcases deliver_cases (runTxs w txs) (.call env info (.rebalance (.trade t)) market) with e | e
  · rw [e]
  · generalize deliver (runTxs w txs) (.call env info (.rebalance (.trade t)) market) = w' at e ⊢
    rw [← hself]
    generalize runTxs w txs = v at *
    obtain ⟨b, core, ms, b', h1, h2, h3, h4, hx, h6, _⟩ := apply_call.1 e
    have hs : Sound v env info := ⟨h1, h2, h3, (send_eq_ok.1 h4).1⟩
    have hge : v.bank.bal v.self d ≤ afterFunds v info v.self d := by
      simp only [afterFunds, if_neg (Ne.symm h2), if_true]
      omega
    by_cases hb : Bookkeeping v.core (.rebalance (.trade t))
    · have := C112_bookkeeping_settles market hs hb hx
      rw [e] at this
      cases this
      exact hge
    · cases t with
      | deflate k o x =>
        obtain ⟨_, _, _, _, _, h⟩ := C112_deflate_settles_iff (market := market) hreach hs hb hx
        obtain ⟨_, _, _, _, _, _, h⟩ := h w' e
        rw [h v.self d (.inr hd)]
        exact hge
      | inflate k o x =>
        obtain ⟨_, _, last, _, _, _, _, _, h⟩ := C112_inflate_settles_iff (market := market) hreach hs hb hx
        obtain ⟨_, _, _, got, _, h, _⟩ := h w' e
        have := h d
        rw [if_neg hd] at this
        omega

/-- The sale above leaves the 2500 uatom where they are. -/
example : Start demoWorld ∧ "uatom" ≠ (runTxs demoWorld sellTxs).core.config.reserveDenom ∧
    txAccepted (runTxs demoWorld sellTxs) sellTx = true ∧
    (deliver (runTxs demoWorld sellTxs) sellTx).bank.bal "core" "uatom" = 2500 :=
  ⟨demoWorld_start, by decide +kernel, by decide +kernel, by decide +kernel⟩

end Ibcx.Props
