import Verif.Events.Core
import Verif.Spec.Events
import Verif.Spec.Link
import Verif.Core.Frame
import Verif.Props.Trades
import Verif.Props.Accept
/-!
# C81: what the events of the core contract tell
-/

namespace Ibcx.Props
open Ibcx Ibcx.Core Ibcx.Spec

theorem readNum_toString (n : Nat) : readNum (toString n) = n := by
  have h : (toString n).toList = Nat.toDigits 10 n := Nat.toList_repr
  unfold readNum
  rw [h]
  have := Nat.ofDigitChars_ten_toDigits (n := n)
  rwa [Nat.ofDigitChars_eq_foldl] at this

theorem executeR_eq_ok {s : State} {env : Env} {info : Info} {msg : ExecMsg} {r : Response} :
    executeR s env info msg = .ok r ↔
      ∃ s1, (if collectsFirst msg = true then collectStreamingFee s env.now = .ok s1 else s1 = s) ∧
        dispatchR s1 env info msg = .ok r := by
  unfold executeR
  by_cases h : collectsFirst msg = true <;> simp [h]

theorem tradeR_trade {s : State} {env : Env} {info : Info} {m : TradeMsg} {o : Out} {as : List Attr}
    (h : tradeR s env info m = .ok (o, as)) : trade s env info m = .ok o := by
  unfold tradeR at h
  unfold trade
  cases hr : s.rebalance with
  | none => simp [hr] at h
  | some r =>
    simp only [hr, bind_eq_ok] at h ⊢
    obtain ⟨u, h1, h2⟩ := h
    refine ⟨u, h1, ?_⟩
    cases m with
    | deflate d a b =>
      by_cases hd : s.config.reserveDenom = d
      · simp only [hd, if_true, deflateReserveR, bind_eq_ok] at h2 ⊢
        obtain ⟨_, g, _, _, _, _, _, _, _, _, e⟩ := h2
        cases e; exact g
      · simp only [hd, if_false, deflateR, bind_eq_ok] at h2 ⊢
        obtain ⟨_, g, _, _, _, _, e⟩ := h2
        cases e; exact g
    | inflate d a b =>
      by_cases hd : s.config.reserveDenom = d
      · simp only [hd, if_true, inflateReserveR, bind_eq_ok] at h2 ⊢
        obtain ⟨_, g, _, _, _, _, _, _, e⟩ := h2
        cases e; exact g
      · simp only [hd, if_false, inflateR, bind_eq_ok] at h2 ⊢
        obtain ⟨_, g, _, _, _, _, e⟩ := h2
        cases e; exact g

theorem dispatchR_dispatch {s : State} {env : Env} {info : Info} {msg : ExecMsg} {o : Out} {as : List Attr}
    (h : dispatchR s env info msg = .ok (o, as)) : dispatch s env info msg = .ok o := by
  cases msg with
  | mint a r f =>
    simp only [dispatchR, mintR, bind_eq_ok] at h
    obtain ⟨_, g, _, _, _, _, e⟩ := h
    cases e; exact g
  | burn r =>
    simp only [dispatchR, burnR, bind_eq_ok] at h
    obtain ⟨_, g, _, _, _, _, _, _, _, _, e⟩ := h
    cases e; exact g
  | realize =>
    simp only [dispatchR, realizeR, bind_eq_ok] at h
    obtain ⟨_, g, e⟩ := h
    cases e; exact g
  | gov m =>
    simp only [dispatchR, govR, bind_eq_ok] at h
    obtain ⟨o', g, e⟩ := h
    suffices o' = o by subst this; exact g
    cases m with
    | revokeGov =>
      cases hp : s.pendingGov with
      | none => simp [hp] at e
      | some x => simp [hp] at e; exact e.1
    | updateTradeInfo d rs c mx =>
      simp only [bind_eq_ok] at e
      obtain ⟨_, _, e⟩ := e
      cases e; rfl
    | _ => cases e; rfl
  | rebalance m =>
    cases m with
    | init m d i =>
      simp only [dispatchR, initR, bind_eq_ok] at h
      obtain ⟨_, g, e⟩ := h
      cases e; exact g
    | trade t => exact tradeR_trade h
    | finalize =>
      simp only [dispatchR, finalizeR, bind_eq_ok] at h
      obtain ⟨_, g, e⟩ := h
      cases e; exact g

theorem executeR_execute {s : State} {env : Env} {info : Info} {msg : ExecMsg} {o : Out} {as : List Attr}
    (h : executeR s env info msg = .ok (o, as)) : execute s env info msg = .ok o := by
  obtain ⟨s1, h1, h2⟩ := executeR_eq_ok.1 h
  exact execute_eq_ok.2 ⟨s1, h1, dispatchR_dispatch h2⟩

theorem dispatch_dispatchR {s : State} {env : Env} {info : Info} {msg : ExecMsg} {o : Out}
    (h : dispatch s env info msg = .ok o) : ∃ as, dispatchR s env info msg = .ok (o, as) := by
  obtain ⟨s', ms⟩ := o
  cases msg with
  | mint a r f =>
    have g : mint s env info a r f = .ok (s', ms) := h
    obtain ⟨_, _, h3, h4, _⟩ := mint_eq_ok.1 g
    exact ⟨_, by simp only [dispatchR, mintR, g, ok_bind, unwrapAddr_eq_ok.2 ⟨h3, rfl⟩,
      unwrapAddr_eq_ok.2 ⟨h4, rfl⟩]; rfl⟩
  | burn r =>
    have g : burn s env info r = .ok (s', ms) := h
    obtain ⟨_, _, h3, rec, fee, burned, h4, h5, rfl, h6, rfl, h7, _⟩ := burn_eq_ok.1 g
    exact ⟨_, by simp only [dispatchR, burnR, g, ok_bind, unwrapAddr_eq_ok.2 ⟨h3, rfl⟩,
      mustPay_eq_ok.2 ⟨h4, h5⟩, feeAmount_eq_ok.2 ⟨h7, rfl⟩, sub_eq_ok.2 ⟨h6, rfl⟩]; rfl⟩
  | realize =>
    have g : realizeStreamingFee s info = .ok (s', ms) := h
    exact ⟨_, by simp only [dispatchR, realizeR, g, ok_bind]; rfl⟩
  | gov m =>
    have g : handleGov s env info m = .ok (s', ms) := h
    cases m with
    | revokeGov =>
      obtain ⟨hp, _⟩ := revokeGov_eq_ok.1 g
      obtain ⟨x, hx⟩ := Option.isSome_iff_exists.1 hp
      exact ⟨_, by simp only [dispatchR, govR, g, ok_bind, hx]; rfl⟩
    | updateTradeInfo d rs c mx =>
      obtain ⟨_, ⟨r, rs', rfl, _⟩, _⟩ := updateTradeInfo_eq_ok.1 g
      exact ⟨_, by simp only [dispatchR, govR, g, ok_bind, denomLast]; rfl⟩
    | _ => exact ⟨_, by simp only [dispatchR, govR, g, ok_bind]; rfl⟩
  | rebalance m =>
    cases m with
    | init m d i =>
      have g : init s env info m d i = .ok (s', ms) := h
      exact ⟨_, by simp only [dispatchR, initR, g, ok_bind]; rfl⟩
    | finalize =>
      have g : finalize s env info = .ok (s', ms) := h
      exact ⟨_, by simp only [dispatchR, finalizeR, g, ok_bind]; rfl⟩
    | trade t =>
      have g : trade s env info t = .ok (s', ms) := h
      obtain ⟨r, hr, hm, hh⟩ := trade_eq_ok.1 g
      have hc : checkManager r info.sender = .ok () := checkManager_eq_ok.2 hm
      rcases hh with ⟨d, a, b, rfl, hd, k⟩ | ⟨d, a, b, rfl, hd, k⟩ | ⟨d, a, b, rfl, hd, k⟩ | ⟨d, a, b, rfl, hd, k⟩
      · obtain ⟨res, tg, cur, us', res', k1, k2, k3, k4, k5, _⟩ := deflateReserve_eq_ok.1 k
        exact ⟨_, by simp only [dispatchR, tradeR, hr, hc, ok_bind, hd, if_true, deflateReserveR, k,
          Units.getKey!_eq_ok.2 k2, Units.getKey!_eq_ok.2 k3, sub_eq_ok.2 ⟨k4, rfl⟩, mulInt_eq_ok.2 ⟨k5, rfl⟩]; rfl⟩
      · obtain ⟨t, res, tg, cur, simIn, us', res', k1, k2, k3, k4, k5, k6, k7, k8, k9, k10, _⟩ := deflate_eq_ok.1 k
        exact ⟨_, by simp only [dispatchR, tradeR, hr, hc, ok_bind, hd, if_false, deflateR, k,
          KV.load_eq_ok.2 k1, simSwapExactOut_eq_ok.2 ⟨k9, k10⟩]; rfl⟩
      · obtain ⟨res, unit, us', res', k1, k2, k3, _⟩ := inflateReserve_eq_ok.1 k
        exact ⟨_, by simp only [dispatchR, tradeR, hr, hc, ok_bind, hd, if_true, inflateReserveR, k,
          loadReserve_eq_ok.2 k1, Units.getKey!_eq_ok.2 k2, mulInt_eq_ok.2 ⟨k3, rfl⟩]; rfl⟩
      · obtain ⟨t, res, unit, simOut, us', res', k1, k2, k3, k4, k5, k6, k7, k8, k9, _⟩ := inflate_eq_ok.1 k
        exact ⟨_, by simp only [dispatchR, tradeR, hr, hc, ok_bind, hd, if_false, inflateR, k,
          KV.load_eq_ok.2 k1, simSwapExactIn_eq_ok.2 ⟨k8, k9⟩]; rfl⟩

/-- **C81 (1).** Building the event never fails: a message is accepted with an event exactly when it is
accepted. -/
theorem C81_every_accepted_message_has_an_event {s : State} {env : Env} {info : Info} {msg : ExecMsg} {o : Out} :
    execute s env info msg = .ok o ↔ ∃ event, executeR s env info msg = .ok (o, event) := by
  constructor
  · intro h
    obtain ⟨s1, h1, h2⟩ := (execute_eq_ok (s' := o.1) (ms := o.2)).1 h
    obtain ⟨as, h3⟩ := dispatch_dispatchR h2
    exact ⟨as, executeR_eq_ok.2 ⟨s1, h1, h3⟩⟩
  · rintro ⟨as, h⟩
    exact executeR_execute h

/-- Bob's mint is accepted with an event of five attributes; Eve's pause has none. -/
example : (executeR Demo.s1 (Demo.env 1000) ⟨"bob", [⟨"uatom", 250⟩, ⟨"uosmo", 1600⟩]⟩ (.mint 1000 (some "alice") none)).map
      (fun r => r.2.length) = .ok 5 ∧
    (executeR Demo.s1 (Demo.env 1000) ⟨"eve", []⟩ (.gov (.pause none))).map (fun r => r.2.length) =
      .error .unauthorized := by
  decide +kernel

/-- **C81 (2).** Every event names the message and the sender. -/
theorem C81_event_names_message_and_sender {s : State} {env : Env} {info : Info} {msg : ExecMsg} {o : Out}
    {event : List Attr} (h : executeR s env info msg = .ok (o, event)) :
    said "method" event = some (methodOf msg) ∧ said "executor" event = some info.sender := by
  obtain ⟨s1, _, h⟩ := executeR_eq_ok.1 h
  cases msg with
  | mint a r f =>
    simp only [dispatchR, mintR, bind_eq_ok] at h
    obtain ⟨_, g, _, _, _, _, e⟩ := h
    cases e; exact ⟨rfl, rfl⟩
  | burn r =>
    simp only [dispatchR, burnR, bind_eq_ok] at h
    obtain ⟨_, g, _, _, _, _, _, _, _, _, e⟩ := h
    cases e; exact ⟨rfl, rfl⟩
  | realize =>
    simp only [dispatchR, realizeR, bind_eq_ok] at h
    obtain ⟨_, g, e⟩ := h
    cases e; exact ⟨rfl, rfl⟩
  | gov m =>
    simp only [dispatchR, govR, bind_eq_ok] at h
    obtain ⟨o', g, e⟩ := h
    cases m with
    | revokeGov =>
      cases hp : s1.pendingGov with
      | none => simp [hp] at e
      | some x => rw [hp] at e; cases e; exact ⟨rfl, rfl⟩
    | updateTradeInfo d rs c mx =>
      simp only [bind_eq_ok] at e
      obtain ⟨_, _, e⟩ := e
      cases e; exact ⟨rfl, rfl⟩
    | _ => cases e; exact ⟨rfl, rfl⟩
  | rebalance m =>
    cases m with
    | init m d i =>
      simp only [dispatchR, initR, bind_eq_ok] at h
      obtain ⟨_, g, e⟩ := h
      cases e; exact ⟨rfl, rfl⟩
    | finalize =>
      simp only [dispatchR, finalizeR, bind_eq_ok] at h
      obtain ⟨_, g, e⟩ := h
      cases e; exact ⟨rfl, rfl⟩
    | trade m =>
      simp only [dispatchR, tradeR] at h
      cases hr : s1.rebalance with
      | none => simp [hr] at h
      | some r =>
        simp only [hr, bind_eq_ok] at h
        obtain ⟨u, h1, h2⟩ := h
        cases m with
        | deflate d a b =>
          by_cases hd : s1.config.reserveDenom = d
          · simp only [hd, if_true, deflateReserveR, bind_eq_ok] at h2
            obtain ⟨_, g, _, _, _, _, _, _, _, _, e⟩ := h2
            cases e; exact ⟨rfl, rfl⟩
          · simp only [hd, if_false, deflateR, bind_eq_ok] at h2
            obtain ⟨_, g, _, _, _, _, e⟩ := h2
            cases e; exact ⟨rfl, rfl⟩
        | inflate d a b =>
          by_cases hd : s1.config.reserveDenom = d
          · simp only [hd, if_true, inflateReserveR, bind_eq_ok] at h2
            obtain ⟨_, g, _, _, _, _, _, _, e⟩ := h2
            cases e; exact ⟨rfl, rfl⟩
          · simp only [hd, if_false, inflateR, bind_eq_ok] at h2
            obtain ⟨_, g, _, _, _, _, e⟩ := h2
            cases e; exact ⟨rfl, rfl⟩

/-- Governance nominates a successor. -/
example : (executeR Demo.s1 (Demo.env 1000) ⟨"gov", []⟩ (.gov (.updateGov "dao"))).map
      (fun r => (said "method" r.2, said "executor" r.2)) =
    .ok (some (methodOf (.gov (.updateGov "dao"))), some "gov") := by
  decide +kernel

/-- **C81 (3).** The event of a mint reports the amount by which the supply grows and which is created, the
account that is sent the new tokens and the account that is sent what is left of the funds. -/
theorem C81_mint_event {s s' : State} {env : Env} {info : Info} {amount : Nat} {receiver refundTo : Option Addr}
    {ms : List Msg} {event : List Attr}
    (h : executeR s env info (.mint amount receiver refundTo) = .ok ((s', ms), event)) :
    saidNum "amount" event = amount ∧ s'.totalSupply = s.totalSupply + amount ∧
    .tfMint env.contract env.contract ⟨s.config.indexDenom, amount⟩ ∈ ms ∧
    ∃ dest back n left pre, said "receiver" event = some dest ∧ said "refund_to" event = some back ∧
      ms = pre ++ [.send dest [⟨s.config.indexDenom, n⟩], .send back left] := by
  obtain ⟨s1, hc, h⟩ := executeR_eq_ok.1 h
  have f := collectStreamingFee_frame hc
  simp only [dispatchR, mintR, bind_eq_ok, unwrapAddr_eq_ok] at h
  obtain ⟨_, g, _, ⟨_, rfl⟩, _, ⟨_, rfl⟩, e⟩ := h
  simp only [Except.ok.injEq, Prod.mk.injEq] at e
  obtain ⟨rfl, rfl⟩ := e
  obtain ⟨_, _, _, _, _, _, _, rfl, refund, _, rfl⟩ := mint_eq_ok.1 g
  rw [← f.1, ← f.2.2.1]
  exact ⟨readNum_toString _, rfl, by simp, _, _, _, _, _, rfl, rfl, rfl⟩

/-- Bob mints 1000 for Alice. -/
example : (executeR Demo.s1 (Demo.env 1000) ⟨"bob", [⟨"uatom", 250⟩, ⟨"uosmo", 1600⟩]⟩ (.mint 1000 (some "alice") none)).map
      (fun r => (saidNum "amount" r.2, r.1.1.totalSupply, said "receiver" r.2, said "refund_to" r.2)) =
    .ok (1000, 11000, some "alice", some "bob") := by
  decide +kernel

/-- **C81 (4).** The event of a burn reports the amount by which the supply falls and which is destroyed (the
tokens received less the burn fee), and the account that is sent the basket. -/
theorem C81_burn_event {s s' : State} {env : Env} {info : Info} {redeemTo : Option Addr}
    {ms : List Msg} {event : List Attr}
    (h : executeR s env info (.burn redeemTo) = .ok ((s', ms), event)) :
    s'.totalSupply + saidNum "amount" event = s.totalSupply ∧
    .tfBurn env.contract env.contract ⟨s.config.indexDenom, saidNum "amount" event⟩ ∈ ms ∧
    ∃ dest basket pre, said "redeem_to" event = some dest ∧ ms = pre ++ [.send dest basket] := by
  obtain ⟨s1, hc, h⟩ := executeR_eq_ok.1 h
  have f := collectStreamingFee_frame hc
  simp only [dispatchR, burnR, bind_eq_ok, unwrapAddr_eq_ok, mustPay_eq_ok, feeAmount_eq_ok, sub_eq_ok] at h
  obtain ⟨_, g, _, ⟨_, rfl⟩, x, ⟨hx, _⟩, _, ⟨_, rfl⟩, _, ⟨_, rfl⟩, e⟩ := h
  simp only [Except.ok.injEq, Prod.mk.injEq] at e
  obtain ⟨rfl, rfl⟩ := e
  obtain ⟨_, _, _, x', fee, burned, hx', _, rfl, _, rfl, _, _, hle, rfl, rfl⟩ := burn_eq_ok.1 g
  rw [hx] at hx'
  simp only [List.cons.injEq, Coin.mk.injEq, true_and, and_true] at hx'
  subst hx'
  have hn : saidNum "amount" (burnEvent info.sender (redeemTo.getD info.sender)
      (x - (s1.fee.burnFee.map fun v => v * x / ONE).getD 0)) =
      x - (s1.fee.burnFee.map fun v => v * x / ONE).getD 0 := readNum_toString _
  rw [hn]
  refine ⟨?_, ?_, _, _, _, rfl, rfl⟩
  · rw [← f.2.2.1]; simp only; omega
  · simp [f.1]

/-- What a mint, a burn and a trade look like: the contract with a mint fee of 0.5% and a burn fee of 1%. -/
example : (executeR Demo.s1 (Demo.env 1000) ⟨"bob", [⟨"uatom", 250⟩, ⟨"uosmo", 1600⟩]⟩ (.mint 1000 (some "alice") none)).map
      (fun r => r.2) =
    .ok [("method", "mint"), ("executor", "bob"), ("receiver", "alice"), ("refund_to", "bob"), ("amount", "1000")] := by
  decide +kernel

/-- **C81 (5).** The event of a rebalance trade gives the denom and two amounts.  If the denom is the reserve denom,
no message is sent and both amounts are the supply times the unit that is moved: the fall of the basket's unit
in a deflation, the reserve entry in an inflation.  Otherwise the amounts are those of the one swap that is sent. -/
theorem C81_trade_event {s s' : State} {env : Env} {info : Info} {m : TradeMsg} {ms : List Msg} {event : List Attr}
    (h : executeR s env info (.rebalance (.trade m)) = .ok ((s', ms), event)) :
    match m with
    | .deflate d out _ =>
      said "denom" event = some d ∧
      if d = s.config.reserveDenom then
        said "is_reserve" event = some "true" ∧ ms = [] ∧
        saidNum "amount_in" event = saidNum "amount_out" event ∧
        ∃ r target unit, s.rebalance = some r ∧ r.deflation.lookup d = some target ∧
          s.indexUnits.lookup d = some unit ∧ target ≤ unit ∧
          saidNum "amount_in" event = part (unit - target) s.totalSupply
      else
        said "is_reserve" event = some "false" ∧ saidNum "amount_out" event = out ∧
        ∃ routes, ms = [.swapExactOut env.contract routes ⟨s.config.reserveDenom, saidNum "amount_out" event⟩
          (saidNum "amount_in" event)]
    | .inflate d amountIn _ =>
      said "denom" event = some d ∧
      if d = s.config.reserveDenom then
        said "is_reserve" event = some "true" ∧ ms = [] ∧
        saidNum "amount_in" event = saidNum "amount_out" event ∧
        ∃ res unit, s.reserveUnits = some res ∧ res.lookup d = some unit ∧
          saidNum "amount_in" event = part unit s.totalSupply
      else
        said "is_reserve" event = some "false" ∧ saidNum "amount_in" event = amountIn ∧
        ∃ routes, ms = [.swapExactIn env.contract routes ⟨s.config.reserveDenom, saidNum "amount_in" event⟩
          (saidNum "amount_out" event)] := by
  replace h := executeR_eq_ok.1 h
  obtain ⟨s1, hs, h⟩ := h
  have hs : s1 = s := hs
  subst hs
  change tradeR s1 env info m = _ at h
  unfold tradeR at h
  cases hr : s1.rebalance with
  | none => simp [hr] at h
  | some r =>
    simp only [hr, bind_eq_ok] at h
    obtain ⟨u, h1, h2⟩ := h
    cases m with
    | deflate d a b =>
      by_cases hd : s1.config.reserveDenom = d
      · simp only [hd, if_true, deflateReserveR, bind_eq_ok, Units.getKey!_eq_ok, sub_eq_ok, mulInt_eq_ok] at h2
        obtain ⟨_, g, target, k1, unit, k2, _, ⟨k3, rfl⟩, _, ⟨k4, rfl⟩, e⟩ := h2
        simp only [Except.ok.injEq, Prod.mk.injEq] at e
        obtain ⟨rfl, rfl⟩ := e
        obtain ⟨_, _, _, _, _, _, _, _, _, _, _, _, _, rfl⟩ := deflateReserve_eq_ok.1 g
        refine ⟨rfl, ?_⟩
        simp only [hd, if_true, lookup_eq, part_eq]
        exact ⟨rfl, trivial, rfl, r, target, unit, rfl, k1, k2, k3, readNum_toString _⟩
      · simp only [hd, if_false, deflateR, bind_eq_ok, KV.load_eq_ok, simSwapExactOut_eq_ok] at h2
        obtain ⟨_, g, t, k1, simIn, ⟨_, k2⟩, e⟩ := h2
        simp only [Except.ok.injEq, Prod.mk.injEq] at e
        obtain ⟨rfl, rfl⟩ := e
        obtain ⟨t', _, _, _, simIn', _, _, k3, _, _, _, _, _, _, _, _, k4, _, _, _, _, _, _, _, _, rfl⟩ :=
          deflate_eq_ok.1 g
        rw [k1] at k3; cases k3
        rw [k2] at k4; cases k4
        refine ⟨rfl, ?_⟩
        rw [if_neg (fun e => hd e.symm)]
        have e1 : saidNum "amount_out" (tradeAttrs "deflate" info.sender d simIn a "false") = a := readNum_toString _
        have e2 : saidNum "amount_in" (tradeAttrs "deflate" info.sender d simIn a "false") = simIn :=
          readNum_toString _
        rw [e1, e2]
        exact ⟨rfl, rfl, _, rfl⟩
    | inflate d a b =>
      by_cases hd : s1.config.reserveDenom = d
      · simp only [hd, if_true, inflateReserveR, bind_eq_ok, Units.getKey!_eq_ok, loadReserve_eq_ok, mulInt_eq_ok] at h2
        obtain ⟨_, g, res, k1, unit, k2, _, ⟨k4, rfl⟩, e⟩ := h2
        simp only [Except.ok.injEq, Prod.mk.injEq] at e
        obtain ⟨rfl, rfl⟩ := e
        obtain ⟨_, _, _, _, _, _, _, _, _, _, rfl⟩ := inflateReserve_eq_ok.1 g
        refine ⟨rfl, ?_⟩
        simp only [hd, if_true, lookup_eq, part_eq]
        exact ⟨rfl, trivial, rfl, res, unit, k1, k2, readNum_toString _⟩
      · simp only [hd, if_false, inflateR, bind_eq_ok, KV.load_eq_ok, simSwapExactIn_eq_ok] at h2
        obtain ⟨_, g, t, k1, simOut, ⟨_, k2⟩, e⟩ := h2
        simp only [Except.ok.injEq, Prod.mk.injEq] at e
        obtain ⟨rfl, rfl⟩ := e
        obtain ⟨t', _, _, simOut', _, _, k3, _, _, _, _, _, _, _, k4, _, _, _, _, _, _, _, rfl⟩ :=
          inflate_eq_ok.1 g
        rw [k1] at k3; cases k3
        rw [k2] at k4; cases k4
        refine ⟨rfl, ?_⟩
        rw [if_neg (fun e => hd e.symm)]
        have e1 : saidNum "amount_out" (tradeAttrs "inflate" info.sender d a simOut "false") = simOut :=
          readNum_toString _
        have e2 : saidNum "amount_in" (tradeAttrs "inflate" info.sender d a simOut "false") = a := readNum_toString _
        rw [e1, e2]
        exact ⟨rfl, rfl, _, rfl⟩

/-- The events of a plan that moves uosmo into the reserve and buys uion with it. -/
example : ((eventLog Demo.s1 (swapPlan ++ [sellOsmo 2000, buyIons 2030])).drop 2) =
    [[("method", "deflate"), ("executor", "bob"), ("denom", "uosmo"), ("amount_in", "5000"),
      ("amount_out", "5000"), ("is_reserve", "true")],
     [("method", "inflate"), ("executor", "bob"), ("denom", "uion"), ("amount_in", "500"),
      ("amount_out", "499"), ("is_reserve", "false")]] := by
  decide +kernel

/-- **C81 (6).** The event of `UpdateTradeInfo` names the pair of denoms under which the routes are stored, with
the cooldown and the limit that are stored; the event of `RevokeGov` names the account whose nomination is
withdrawn; the event of `Finalize` gives the block height. -/
theorem C81_other_events {s s' : State} {env : Env} {info : Info} {msg : ExecMsg} {ms : List Msg} {event : List Attr}
    (h : executeR s env info msg = .ok ((s', ms), event)) :
    (∀ d routes cd mx, msg = .gov (.updateTradeInfo d routes cd mx) →
      ∃ a b, said "denom_in" event = some a ∧ said "denom_out" event = some b ∧
        s'.tradeInfos.get (a, b) = some ⟨routes, saidNum "cooldown" event, saidNum "max_trade_amount" event, none⟩) ∧
    (msg = .gov .revokeGov → said "pending_gov" event = s.pendingGov) ∧
    (msg = .rebalance .finalize → saidNum "finalized_at" event = env.height) := by
  replace h := executeR_eq_ok.1 h
  obtain ⟨s1, hs, h⟩ := h
  refine ⟨?_, ?_, ?_⟩
  · rintro d routes cd mx rfl
    simp only [dispatchR, govR, bind_eq_ok] at h
    obtain ⟨o', g, b, hb, e⟩ := h
    simp only [Except.ok.injEq, Prod.mk.injEq] at e
    obtain ⟨rfl, rfl⟩ := e
    obtain ⟨_, ⟨r, rs, rfl, rfl⟩, _⟩ := updateTradeInfo_eq_ok.1 g
    simp only [denomLast, Except.ok.injEq] at hb
    subst hb
    refine ⟨d, r.tokenDenom, rfl, rfl, ?_⟩
    have e1 : saidNum "cooldown" [("method", "gov::update_trade_info"), ("executor", info.sender), ("denom_in", d),
      ("denom_out", r.tokenDenom), ("routes", debugRoutes (r :: rs)), ("cooldown", toString cd),
      ("max_trade_amount", toString mx)] = cd := readNum_toString _
    have e2 : saidNum "max_trade_amount" [("method", "gov::update_trade_info"), ("executor", info.sender),
      ("denom_in", d), ("denom_out", r.tokenDenom), ("routes", debugRoutes (r :: rs)), ("cooldown", toString cd),
      ("max_trade_amount", toString mx)] = mx := readNum_toString _
    rw [e1, e2]
    simp
  · rintro rfl
    have hs : s1 = s := hs
    subst hs
    simp only [dispatchR, govR, bind_eq_ok] at h
    obtain ⟨o', g, e⟩ := h
    cases hp : s1.pendingGov with
    | none => simp [hp] at e
    | some x => rw [hp] at e; cases e; rfl
  · rintro rfl
    simp only [dispatchR, finalizeR, bind_eq_ok] at h
    obtain ⟨_, g, e⟩ := h
    cases e
    exact readNum_toString _

example : (eventLog Demo.s1 swapPlan).head? =
    some [("method", "gov::update_trade_info"), ("executor", "gov"), ("denom_in", "uosmo"), ("denom_out", "uion"),
      ("routes", "SwapRoutes([SwapRoute { pool_id: 2, token_denom: \"uion\" }])"), ("cooldown", "60"),
      ("max_trade_amount", "1000")] := by
  decide +kernel

/-- The text of two routes. -/
example : debugRoutes [⟨2, "uion"⟩, ⟨17, "ibc/AB"⟩] =
    "SwapRoutes([SwapRoute { pool_id: 2, token_denom: \"uion\" }, SwapRoute { pool_id: 17, token_denom: \"ibc/AB\" }])" := by
  decide +kernel

/-! ### The observer -/

theorem watchOf_collect {s s1 : State} {now : Nat} (h : collectStreamingFee s now = .ok s1) :
    watchOf s1 = watchOf s := by
  obtain ⟨f1, f2, f3, f4, _⟩ := collectStreamingFee_frame h
  simp only [watchOf, f1, f2, f3, f4]

theorem note_dispatchR {s s' : State} {env : Env} {info : Info} {msg : ExecMsg} {ms : List Msg} {event : List Attr}
    (h : dispatchR s env info msg = .ok ((s', ms), event)) : note (watchOf s) event = watchOf s' := by
  cases msg with
  | mint a r f =>
    simp only [dispatchR, mintR, bind_eq_ok] at h
    obtain ⟨_, g, _, _, _, _, e⟩ := h
    simp only [Except.ok.injEq, Prod.mk.injEq] at e
    obtain ⟨rfl, rfl⟩ := e
    obtain ⟨_, _, _, _, _, _, _, rfl, _⟩ := mint_eq_ok.1 g
    have hn : ∀ x y, saidNum "amount" (mintEvent info.sender x y a) = a := fun _ _ => readNum_toString _
    have hm : ∀ x y, said "method" (mintEvent info.sender x y a) = some "mint" := fun _ _ => rfl
    simp [note, hn, hm, watchOf]
  | burn r =>
    simp only [dispatchR, burnR, bind_eq_ok, unwrapAddr_eq_ok, mustPay_eq_ok, feeAmount_eq_ok, sub_eq_ok] at h
    obtain ⟨_, g, _, ⟨_, rfl⟩, x, ⟨hx, _⟩, _, ⟨_, rfl⟩, _, ⟨_, rfl⟩, e⟩ := h
    simp only [Except.ok.injEq, Prod.mk.injEq] at e
    obtain ⟨rfl, rfl⟩ := e
    obtain ⟨_, _, _, x', fee, burned, hx', _, rfl, _, rfl, _, _, hle, rfl, rfl⟩ := burn_eq_ok.1 g
    rw [hx] at hx'
    simp only [List.cons.injEq, Coin.mk.injEq, true_and, and_true] at hx'
    subst hx'
    have hn : ∀ x y, saidNum "amount" (burnEvent info.sender x y) = y := fun _ _ => readNum_toString _
    have hm : ∀ x y, said "method" (burnEvent info.sender x y) = some "burn" := fun _ _ => rfl
    simp [note, hn, hm, watchOf]
  | realize =>
    simp only [dispatchR, realizeR, bind_eq_ok] at h
    obtain ⟨_, g, e⟩ := h
    simp only [Except.ok.injEq, Prod.mk.injEq] at e
    obtain ⟨rfl, rfl⟩ := e
    obtain ⟨_, h⟩ := realize_eq_ok.1 g
    rcases h with ⟨_, rfl, _⟩ | ⟨sf, hsf, rfl, _⟩ <;> rfl
  | gov m =>
    simp only [dispatchR, govR, bind_eq_ok] at h
    obtain ⟨o', g, e⟩ := h
    cases m with
    | pause x =>
      cases e
      obtain ⟨_, _, _, rfl, _⟩ := pause_eq_ok.1 g
      cases x <;> simp [note, said, watchOf, expiryText, List.lookup]
    | release =>
      cases e
      obtain ⟨_, _, rfl, _⟩ := release_eq_ok.1 g
      simp [note, said, watchOf, List.lookup]
    | updateGov x =>
      cases e
      obtain ⟨_, _, _, rfl, _⟩ := updateGov_eq_ok.1 g
      simp [note, said, watchOf, List.lookup]
    | acceptGov =>
      cases e
      obtain ⟨_, rfl, _⟩ := acceptGov_eq_ok.1 g
      simp [note, said, watchOf, List.lookup]
    | revokeGov =>
      cases hp : s.pendingGov with
      | none => simp [hp] at e
      | some x =>
        rw [hp] at e
        cases e
        obtain ⟨_, _, rfl, _⟩ := revokeGov_eq_ok.1 g
        simp [note, said, watchOf, List.lookup]
    | updateFeeStrategy p =>
      cases e
      obtain ⟨_, _, _, _, _, _, rfl, _⟩ := updateFee_eq_ok.1 g
      simp [note, said, watchOf, List.lookup]
    | updateRebalanceManager m =>
      cases e
      obtain ⟨_, _, ⟨r, hr, rfl⟩, _⟩ := updateRebalanceManager_eq_ok.1 g
      simp [note, said, watchOf, List.lookup]
    | updateReserveDenom d =>
      cases e
      obtain ⟨_, _, rfl, _⟩ := updateReserveDenom_eq_ok.1 g
      simp [note, said, watchOf, List.lookup]
    | updateTradeInfo d rs c mx =>
      simp only [bind_eq_ok] at e
      obtain ⟨_, _, e⟩ := e
      cases e
      obtain ⟨_, ⟨r, rs', hrs, rfl⟩, _⟩ := updateTradeInfo_eq_ok.1 g
      simp [note, said, watchOf, List.lookup]
  | rebalance m =>
    cases m with
    | init m d i =>
      simp only [dispatchR, initR, bind_eq_ok] at h
      obtain ⟨_, g, e⟩ := h
      cases e
      obtain ⟨_, _, _, _, _, _, _, rfl, _⟩ := init_eq_ok.1 g
      simp [note, said, watchOf, List.lookup]
    | finalize =>
      simp only [dispatchR, finalizeR, bind_eq_ok] at h
      obtain ⟨_, g, e⟩ := h
      cases e
      obtain ⟨_, _, _, _, _, _, _, rfl, _⟩ := finalize_eq_ok.1 g
      simp [note, said, watchOf, List.lookup]
    | trade m =>
      have hm := (C81_event_names_message_and_sender ((executeR_eq_ok (s := s) (msg := .rebalance (.trade m))).2 ⟨s, (rfl : s = s), h⟩)).1
      have ht := tradeR_trade h
      have hw : watchOf s' = watchOf s := by
        obtain ⟨r, _, _, hh⟩ := trade_eq_ok.1 ht
        rcases hh with ⟨d, a, b, rfl, hd, k⟩ | ⟨d, a, b, rfl, hd, k⟩ | ⟨d, a, b, rfl, hd, k⟩ | ⟨d, a, b, rfl, hd, k⟩
        · obtain ⟨_, _, _, _, _, _, _, _, _, _, _, _, rfl, _⟩ := deflateReserve_eq_ok.1 k; rfl
        · obtain ⟨_, _, _, _, _, _, _, _, _, _, _, _, _, _, _, _, _, _, _, _, _, _, _, _, rfl, _⟩ :=
            deflate_eq_ok.1 k
          rfl
        · obtain ⟨_, _, _, _, _, _, _, _, _, rfl, _⟩ := inflateReserve_eq_ok.1 k; rfl
        · obtain ⟨_, _, _, _, _, _, _, _, _, _, _, _, _, _, _, _, _, _, _, _, _, rfl, _⟩ := inflate_eq_ok.1 k
          rfl
      rw [hw]
      unfold note
      rw [hm]
      cases m <;> simp [methodOf]

theorem note_executeR {s s' : State} {env : Env} {info : Info} {msg : ExecMsg} {ms : List Msg} {event : List Attr}
    (h : executeR s env info msg = .ok ((s', ms), event)) : note (watchOf s) event = watchOf s' := by
  obtain ⟨s1, h1, h2⟩ := executeR_eq_ok.1 h
  split at h1
  · rw [← watchOf_collect h1]; exact note_dispatchR h2
  · subst h1; exact note_dispatchR h2

/-- **C81 (7).** An observer who knows the state at some point and then reads nothing but the events knows, after any
history, the supply, the governance account, the nominated account, the pause and its expiry, the reserve denom, and
whether a rebalance is active and under which manager. -/
theorem C81_events_rebuild_supply_and_settings (s : State) (history : List Call) :
    (eventLog s history).foldl note (watchOf s) = watchOf (run s history).1 := by
  induction history generalizing s with
  | nil => rfl
  | cons c cs ih =>
    rw [run_cons]
    unfold eventLog step
    cases hx : executeR s c.env c.info c.msg with
    | ok r =>
      obtain ⟨⟨s', ms⟩, event⟩ := r
      rw [executeR_execute hx]
      simp only [List.foldl_cons]
      rw [note_executeR hx, ih s']
    | error e =>
      have : ∀ o, execute s c.env c.info c.msg ≠ .ok o := by
        intro o ho
        obtain ⟨as, h⟩ := C81_every_accepted_message_has_an_event.1 ho
        rw [hx] at h; cases h
      cases hy : execute s c.env c.info c.msg with
      | ok o => exact absurd hy (this o)
      | error e' => exact ih s

/-- A mint and a handed over government, rebuilt from the events. -/
example : (eventLog Demo.s1 [⟨Demo.env 1000, ⟨"bob", [⟨"uatom", 250⟩, ⟨"uosmo", 1600⟩]⟩, .mint 1000 none none⟩,
      ⟨Demo.env 1000, ⟨"gov", []⟩, .gov (.updateGov "dao")⟩, ⟨Demo.env 1000, ⟨"dao", []⟩, .gov .acceptGov⟩]).foldl
        note (watchOf Demo.s1) = ⟨11000, "dao", none, none, "uosmo", none⟩ := by
  decide +kernel

theorem supply_step {s s' : State} {env : Env} {info : Info} {msg : ExecMsg} {ms : List Msg} {event : List Attr}
    (h : executeR s env info msg = .ok ((s', ms), event)) :
    s.totalSupply + (if said "method" event = some "mint" then saidNum "amount" event else 0) =
      s'.totalSupply + (if said "method" event = some "burn" then saidNum "amount" event else 0) := by
  have hm := (C81_event_names_message_and_sender h).1
  have hw := note_executeR h
  cases msg with
  | mint a r f =>
    obtain ⟨h1, h2, _⟩ := C81_mint_event h
    rw [hm, h1, h2]; simp [methodOf]
  | burn r =>
    obtain ⟨h1, _⟩ := C81_burn_event h
    rw [hm, ← h1]; simp [methodOf]
  | realize =>
    rw [hm, if_neg (by simp [methodOf]), if_neg (by simp [methodOf])]
    have := congrArg Watch.supply hw
    simpa [note, hm, methodOf, watchOf] using this
  | gov m =>
    rw [hm, if_neg (by cases m <;> simp [methodOf]), if_neg (by cases m <;> simp [methodOf])]
    have := congrArg Watch.supply hw
    cases m <;> simpa [note, hm, methodOf, watchOf] using this
  | rebalance m =>
    cases m with
    | trade t =>
      rw [hm, if_neg (by cases t <;> simp [methodOf]), if_neg (by cases t <;> simp [methodOf])]
      have := congrArg Watch.supply hw
      cases t <;> simpa [note, hm, methodOf, watchOf] using this
    | init a b c =>
      rw [hm, if_neg (by simp [methodOf]), if_neg (by simp [methodOf])]
      have := congrArg Watch.supply hw
      simpa [note, hm, methodOf, watchOf] using this
    | finalize =>
      rw [hm, if_neg (by simp [methodOf]), if_neg (by simp [methodOf])]
      have := congrArg Watch.supply hw
      simpa [note, hm, methodOf, watchOf] using this

theorem reported_cons (name : String) (e : List Attr) (es : List (List Attr)) :
    reported name (e :: es) = (if said "method" e = some name then saidNum "amount" e else 0) + reported name es := by
  unfold reported
  by_cases h : said "method" e = some name <;> simp [h]

theorem reported_run (s : State) (history : List Call) :
    s.totalSupply + reported "mint" (eventLog s history) =
      (run s history).1.totalSupply + reported "burn" (eventLog s history) := by
  induction history generalizing s with
  | nil => rfl
  | cons c cs ih =>
    rw [run_cons]
    unfold eventLog step
    cases hx : executeR s c.env c.info c.msg with
    | ok r =>
      obtain ⟨⟨s', ms⟩, event⟩ := r
      rw [executeR_execute hx]
      simp only [reported_cons]
      have h1 := supply_step hx
      have h2 := ih s'
      omega
    | error e =>
      cases hy : execute s c.env c.info c.msg with
      | ok o =>
        obtain ⟨as, h⟩ := C81_every_accepted_message_has_an_event.1 hy
        rw [hx] at h; cases h
      | error e' => exact ih s

/-- **C81 (8).** So the total of the reported mints since the creation of a contract is its supply and the total of
the reported burns. -/
theorem C81_supply_is_mints_less_burns {s : State} (hf : Fresh s) (history : List Call) :
    reported "mint" (eventLog s history) =
      (run s history).1.totalSupply + reported "burn" (eventLog s history) := by
  have := reported_run s history
  have h0 : s.totalSupply = 0 := by
    obtain ⟨env, msg, s0, ms, d, ms', h1, h2⟩ := hf
    have h0 : s0.totalSupply = 0 := by
      simp only [instantiate, bind_eq_ok] at h1
      obtain ⟨_, _, _, _, _, _, _, _, e⟩ := h1
      simp only [Except.ok.injEq, Prod.mk.injEq] at e
      rw [← e.1]
    simp only [reply, if_true, Except.ok.injEq, Prod.mk.injEq] at h2
    rw [← h2.1]
    exact h0
  omega

/-- A mint of 10000 and a burn of 1000 (of which 20 are the fee), reported as 10000 and 980. -/
example : reported "mint" (eventLog Demo.s0 [⟨Demo.env 1000, Demo.mintInfo, .mint 10000 none none⟩,
      ⟨Demo.env 1000, ⟨"alice", [⟨"factory/core/ibcx", 1000⟩]⟩, .burn none⟩]) = 10000 ∧
    reported "burn" (eventLog Demo.s0 [⟨Demo.env 1000, Demo.mintInfo, .mint 10000 none none⟩,
      ⟨Demo.env 1000, ⟨"alice", [⟨"factory/core/ibcx", 1000⟩]⟩, .burn none⟩]) = 980 := by decide +kernel

/-- A history seen through its events: after a mint, a pause, a change of hands and a started rebalance. -/
def seenHistory : List Call :=
  [⟨Demo.env 1000, ⟨"bob", [⟨"uatom", 250⟩, ⟨"uosmo", 1600⟩]⟩, .mint 1000 none none⟩,
   ⟨Demo.env 1000, ⟨"eve", []⟩, .gov (.pause none)⟩,
   ⟨Demo.env 1000, ⟨"gov", []⟩, .gov (.updateGov "dao")⟩,
   ⟨Demo.env 1000, ⟨"gov", []⟩, .gov (.pause (some 5000))⟩,
   ⟨Demo.env 1000, ⟨"dao", []⟩, .gov .acceptGov⟩,
   ⟨Demo.env 1000, ⟨"dao", []⟩, .rebalance (.init (some "bob") [("uosmo", 1000000000000000000)] [("uion", 1)])⟩]

example : (eventLog Demo.s1 seenHistory).foldl note (watchOf Demo.s1) =
    ⟨Demo.s1.totalSupply + 1000, "dao", none, some "5000", "uosmo", some "bob"⟩ ∧
    (eventLog Demo.s1 seenHistory).length = 5 := by
  decide +kernel

/-- **C81 (9).** The events do not tell everything: two fee changes with different rates have the same event. -/
theorem C81_fees_are_not_reported : ∃ s env info p q, Reachable s ∧
    (executeR s env info (.gov (.updateFeeStrategy p))).map (·.2) =
      (executeR s env info (.gov (.updateFeeStrategy q))).map (·.2) ∧
    (executeR s env info (.gov (.updateFeeStrategy p))).map (·.1.1.fee.mintFee) = .ok (some 1) ∧
    (executeR s env info (.gov (.updateFeeStrategy q))).map (·.1.1.fee.mintFee) = .ok (some 500000000000000000) :=
  ⟨Demo.s1, Demo.env 1000, ⟨"gov", []⟩, ⟨"bob", some 1, none, none⟩, ⟨"bob", some 500000000000000000, none, none⟩,
    Demo.s1_reachable, by decide +kernel⟩

/-- The report of one of the two updates. -/
example : (executeR Demo.s1 (Demo.env 1000) ⟨"gov", []⟩ (.gov (.updateFeeStrategy ⟨"bob", some 1, none, none⟩))).map
    (·.2) = .ok [("method", "gov::update_fee"), ("executor", "gov")] := by
  decide +kernel

/-- **C81 (10).** The event of the creation transaction's reply gives the denom that is recorded as index denom. -/
theorem C81_creation_event {s s' : State} {id : Nat} {denom : Option Denom} {ms : List Msg} {event : List Attr}
    (h : replyR s id denom = .ok ((s', ms), event)) :
    said "new_denom" event = some s'.config.indexDenom ∧ denom = some s'.config.indexDenom ∧
    said "method" event = some "reply_instantiate" := by
  simp only [replyR, bind_eq_ok] at h
  obtain ⟨o, g, e⟩ := h
  simp only [Except.ok.injEq, Prod.mk.injEq] at e
  obtain ⟨rfl, rfl⟩ := e
  refine ⟨rfl, ?_, rfl⟩
  unfold reply at g
  split at g
  · cases denom with
    | none => cases g
    | some d => cases g; rfl
  · cases g

example : (replyR Demo.s1 0 (some "factory/core/uibcx")).map (·.2) =
    .ok [("method", "reply_instantiate"), ("new_denom", "factory/core/uibcx")] := by
  decide +kernel

example : (instantiateR (Demo.env 1000) Demo.inst).map (·.2) = .ok [("method", "instantiate")] := by
  decide +kernel

end Ibcx.Props
