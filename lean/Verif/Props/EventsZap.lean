import Verif.Events.Periphery
import Verif.Spec.EventsZap
import Verif.Props.Events
import Verif.Props.Periphery
import Verif.Props.Route
import Verif.Props.ZapAnyRoute
/-!
# C83: what the events of the periphery contract tell
-/

namespace Ibcx.Props
open Ibcx Ibcx.Core Ibcx.Chain Ibcx.Periphery Ibcx.Spec Ibcx.Pool

theorem zapR_execute {p : PEnv} {info : Info} {msg : PExecMsg} {ms : List PMsg} {as : List Periphery.Attr}
    (h : Periphery.executeR p info msg = .ok (ms, as)) : Periphery.execute p info msg = .ok ms := by
  cases msg with
  | mintExactIn a d m si =>
    simp only [Periphery.executeR, mintExactInR, bind_eq_ok] at h
    obtain ⟨infos, hi, _, g, _, _, _, _, _, _, _, _, _, _, _, _, ⟨_, est⟩, _, e⟩ := h
    cases est with
    | none => cases e
    | some est =>
      simp only [bind_eq_ok] at e
      obtain ⟨_, _, _, _, e⟩ := e
      cases e
      simp only [Periphery.execute, bind_eq_ok]; exact ⟨infos, hi, g⟩
  | mintExactOut a n d si =>
    simp only [Periphery.executeR, mintExactOutR, bind_eq_ok] at h
    obtain ⟨infos, hi, _, g, _, _, _, _, _, _, _, _, _, _, _, _, _, _, _, _, _, _, _, _, e⟩ := h
    cases e
    simp only [Periphery.execute, bind_eq_ok]; exact ⟨infos, hi, g⟩
  | burnExactIn a d m si =>
    simp only [Periphery.executeR, burnExactInR, bind_eq_ok] at h
    obtain ⟨infos, hi, _, g, _, _, _, _, _, _, e⟩ := h
    cases e
    simp only [Periphery.execute, bind_eq_ok]; exact ⟨infos, hi, g⟩
  | burnExactOut a d si =>
    simp only [Periphery.executeR, burnExactOutR, bind_eq_ok] at h
    obtain ⟨infos, hi, _, g, _, _, _, _, _, _, e⟩ := h
    cases e
    simp only [Periphery.execute, bind_eq_ok]; exact ⟨infos, hi, g⟩
  | finishOperation r d =>
    simp only [Periphery.executeR, finishOperationR, bind_eq_ok] at h
    obtain ⟨_, g, e⟩ := h
    cases e
    exact g

/-- **C83 (1).** An operation is accepted exactly when it yields an event, and the event changes nothing about what
the operation does. -/
theorem C83_every_accepted_operation_has_an_event {p : PEnv} {info : Info} {msg : PExecMsg} {ms : List PMsg} :
    (∃ event, Periphery.executeR p info msg = .ok (ms, event)) ↔ Periphery.execute p info msg = .ok ms := by
  constructor
  · rintro ⟨_, h⟩; exact zapR_execute h
  · intro h
    cases msg with
    | mintExactIn a d m si =>
      simp only [Periphery.execute, bind_eq_ok] at h
      obtain ⟨infos, hi, h⟩ := h
      have g := h
      simp only [mintExactIn, bind_eq_ok] at h
      obtain ⟨core, h1, fee, h2, cfg, h3, port, h4, paid, h5, sim, h6, ⟨res, est⟩, h7, h⟩ := h
      cases est with
      | none => cases h
      | some est =>
        simp only [bind_eq_ok] at h
        obtain ⟨_, _, _, _, _, _, rate, h8, act, h9, _⟩ := h
        suffices ∃ e, mintExactInR p info a d m infos = .ok (ms, e) by
          obtain ⟨e, he⟩ := this
          refine ⟨e, ?_⟩
          unfold Periphery.executeR
          simp only [bind_eq_ok]
          exact ⟨infos, hi, he⟩
        unfold mintExactInR
        rw [g, ok_bind, h1, ok_bind, h2, ok_bind, h3, ok_bind, h4, ok_bind, h5, ok_bind, h6, ok_bind, h7, ok_bind]
        simp only
        rw [h8, ok_bind, h9, ok_bind]
        exact ⟨_, rfl⟩
    | mintExactOut a n d si =>
      simp only [Periphery.execute, bind_eq_ok] at h
      obtain ⟨infos, hi, h⟩ := h
      have g := h
      simp only [mintExactOut, bind_eq_ok] at h
      obtain ⟨core, h1, fee, h2, cfg, h3, port, h4, paid, h5, sim, h6, ⟨total, routes⟩, h7, ref, h8, _, _, _, _, rate,
        h9, act, h10, _⟩ := h
      suffices ∃ e, mintExactOutR p info a n d infos = .ok (ms, e) by
        obtain ⟨e, he⟩ := this
        refine ⟨e, ?_⟩
        unfold Periphery.executeR
        simp only [bind_eq_ok]
        exact ⟨infos, hi, he⟩
      unfold mintExactOutR
      rw [g, ok_bind, h1, ok_bind, h2, ok_bind, h3, ok_bind, h4, ok_bind, h5, ok_bind, h6, ok_bind, h7, ok_bind]
      simp only
      rw [h8, ok_bind, h9, ok_bind, h10, ok_bind]
      exact ⟨_, rfl⟩
    | burnExactIn a d m si =>
      simp only [Periphery.execute, bind_eq_ok] at h
      obtain ⟨infos, hi, h⟩ := h
      have g := h
      simp only [burnExactIn, bind_eq_ok] at h
      obtain ⟨core, h1, fee, h2, cfg, h3, port, h4, paid, h5, _⟩ := h
      suffices ∃ e, burnExactInR p info a d m infos = .ok (ms, e) by
        obtain ⟨e, he⟩ := this
        refine ⟨e, ?_⟩
        unfold Periphery.executeR
        simp only [bind_eq_ok]
        exact ⟨infos, hi, he⟩
      unfold burnExactInR
      rw [g, ok_bind, h1, ok_bind, h3, ok_bind, h5, ok_bind]
      exact ⟨_, rfl⟩
    | burnExactOut a d si =>
      simp only [Periphery.execute, bind_eq_ok] at h
      obtain ⟨infos, hi, h⟩ := h
      have g := h
      simp only [burnExactOut, bind_eq_ok] at h
      obtain ⟨core, h1, fee, h2, cfg, h3, port, h4, paid, h5, _⟩ := h
      suffices ∃ e, burnExactOutR p info a d infos = .ok (ms, e) by
        obtain ⟨e, he⟩ := this
        refine ⟨e, ?_⟩
        unfold Periphery.executeR
        simp only [bind_eq_ok]
        exact ⟨infos, hi, he⟩
      unfold burnExactOutR
      rw [g, ok_bind, h1, ok_bind, h3, ok_bind, h5, ok_bind]
      exact ⟨_, rfl⟩
    | finishOperation r d =>
      have g : finishOperation p info r d = .ok ms := h
      simp only [Periphery.executeR, finishOperationR, g, ok_bind]
      exact ⟨_, rfl⟩

/-- Bob's mint is accepted with an event of four attributes; with an unknown contract it is refused. -/
example : (Periphery.executeR (zapWorld.penv zapEnv zapPools) ⟨"bob", [⟨"uosmo", 70000⟩]⟩
      (.mintExactIn "core" "uosmo" 40000 zapRoutes)).toOption.map (fun r => (r.1.length, r.2.length)) = some (3, 4) ∧
    (Periphery.executeR (zapWorld.penv zapEnv zapPools) ⟨"bob", [⟨"uosmo", 70000⟩]⟩
      (.mintExactIn "other" "uosmo" 40000 zapRoutes)).toOption.map (·.1.length) = none := by
  decide +kernel

/-- **C83 (2).** The event of `MintExactAmountIn` gives the caller, the attached coin, and the amount `n` that will
be minted less the mint fee, rounded down, where `n` is the amount of the `Mint` message that is sent. -/
theorem C83_mint_exact_in_event {p : PEnv} {info : Info} {a : Addr} {denom : Denom} {min : Nat} {si : List Compact}
    {ms : List PMsg} {event : List (String × String)}
    (h : Periphery.executeR p info (.mintExactIn a denom min si) = .ok (ms, event)) :
    ∃ core paid n funds swaps, p.core a = some core ∧ info.funds = [⟨denom, paid⟩] ∧
      ms = swaps ++ [.core a (.mint n (some info.sender) (some info.sender)) funds, .finish info.sender denom] ∧
      event = [("method", "mint_exact_amount_in"), ("executor", info.sender), ("input", coinText paid denom),
        ("min_output", coinText (part (10 ^ 18 - core.fee.mintFee.getD 0) n) core.config.indexDenom)] := by
  simp only [Periphery.executeR, mintExactInR, bind_eq_ok] at h
  obtain ⟨infos, hi, _, g, core, h1, fee, h2, cfg, h3, port, h4, paid, h5, sim, h6, ⟨res, est⟩, h7, e⟩ := h
  cases est with
  | none => cases e
  | some est =>
    simp only [bind_eq_ok, deductFee_eq_ok, mulInt_eq_ok] at e
    obtain ⟨_, ⟨_, rfl⟩, _, ⟨_, rfl⟩, e⟩ := e
    simp only [Except.ok.injEq, Prod.mk.injEq] at e
    obtain ⟨rfl, rfl⟩ := e
    have g' := g
    simp only [mintExactIn, h1, h2, h3, h4, h5, h6, h7, ok_bind, bind_eq_ok, Except.ok.injEq] at g'
    obtain ⟨_, _, swaps, _, funds, _, _, _, _, _, rfl⟩ := g'
    refine ⟨core, paid, est.index, funds, swaps.map PMsg.chain, (findCore_eq_ok.1 h1).2, (mustPay_eq_ok.1 h5).1, rfl, ?_⟩
    rw [(getFee_frame h2).1, getConfig_frame h3]
    rfl

/-- Bob pays 70000 uosmo. -/
example : (Periphery.executeR (zapWorld.penv zapEnv zapPools) ⟨"bob", [⟨"uosmo", 70000⟩]⟩
      (.mintExactIn "core" "uosmo" 40000 zapRoutes)).toOption.map (·.2) =
      some [("method", "mint_exact_amount_in"), ("executor", "bob"), ("input", "70000uosmo"),
        ("min_output", "39600factory/core/ibcx")] := by
  decide +kernel

/-- **C83 (3).** The event of `MintExactAmountOut` gives the caller, the attached coin, the requested amount less
the mint fee rounded down, and what is left of the attached amount after the simulated purchase of the basket. -/
theorem C83_mint_exact_out_event {p : PEnv} {info : Info} {a : Addr} {n : Nat} {denom : Denom} {si : List Compact}
    {ms : List PMsg} {event : List (String × String)}
    (h : Periphery.executeR p info (.mintExactOut a n denom si) = .ok (ms, event)) :
    ∃ core s1 paid infos sim total routes, p.core a = some core ∧ info.funds = [⟨denom, paid⟩] ∧
      parseInfos si = .ok infos ∧ collectStreamingFee core p.env.now = .ok s1 ∧
      makeSim p infos s1.indexUnits = .ok sim ∧ tokenGivenIndexOut sim n denom = .ok (total, routes) ∧
      total ≤ paid ∧
      event = [("method", "mint_exact_amount_out"), ("executor", info.sender), ("max_input", coinText paid denom),
        ("output", coinText (part (10 ^ 18 - core.fee.mintFee.getD 0) n) core.config.indexDenom),
        ("refund", toString (paid - total))] := by
  simp only [Periphery.executeR, mintExactOutR, bind_eq_ok] at h
  obtain ⟨infos, hi, _, g, core, h1, fee, h2, cfg, h3, port, h4, paid, h5, sim, h6, ⟨total, routes⟩, h7, e⟩ := h
  simp only [deductFee_eq_ok, mulInt_eq_ok, sub_eq_ok] at e
  obtain ⟨_, ⟨hle, rfl⟩, _, ⟨_, rfl⟩, _, ⟨_, rfl⟩, e⟩ := e
  simp only [Except.ok.injEq, Prod.mk.injEq] at e
  obtain ⟨rfl, rfl⟩ := e
  obtain ⟨s1, hs1, hu⟩ := getPortfolio_units h4
  refine ⟨core, s1, paid, infos, sim, total, routes, (findCore_eq_ok.1 h1).2, (mustPay_eq_ok.1 h5).1, hi,
    hs1, hu ▸ h6, h7, hle, ?_⟩
  rw [(getFee_frame h2).1, getConfig_frame h3]
  rfl

/-- Bob asks for 40000 index tokens. -/
example : (Periphery.executeR (zapWorld.penv zapEnv zapPools) ⟨"bob", [⟨"uosmo", 80000⟩]⟩
      (.mintExactOut "core" 40000 "uosmo" zapRoutes)).toOption.map (·.2) =
      some [("method", "mint_exact_amount_out"), ("executor", "bob"), ("max_input", "80000uosmo"),
        ("output", "39600factory/core/ibcx"), ("refund", "10000")] := by
  decide +kernel

/-- **C83 (4).** The event of `BurnExactAmountIn` gives the caller, the coin that is sent to be burned, which is the
attached one, and the least output asked for. -/
theorem C83_burn_exact_in_event {p : PEnv} {info : Info} {a : Addr} {output : Denom} {min : Nat} {si : List Compact}
    {ms : List PMsg} {event : List (String × String)}
    (h : Periphery.executeR p info (.burnExactIn a output min si) = .ok (ms, event)) :
    ∃ core paid rest, p.core a = some core ∧ info.funds = [⟨core.config.indexDenom, paid⟩] ∧
      ms = .core a (.burn none) [⟨core.config.indexDenom, paid⟩] :: rest ∧
      event = [("method", "burn_exact_amount_in"), ("executor", info.sender),
        ("input_amount", coinText paid core.config.indexDenom), ("min_output_amount", coinText min output)] := by
  simp only [Periphery.executeR, burnExactInR, bind_eq_ok] at h
  obtain ⟨infos, hi, _, g, core, h1, cfg, h3, paid, h5, e⟩ := h
  simp only [Except.ok.injEq, Prod.mk.injEq] at e
  obtain ⟨rfl, rfl⟩ := e
  obtain ⟨core', _, paid', _, _, _, _, _, hc', _, hf', _, _, _, _, _, rfl⟩ := burnExactIn_spec g
  obtain rfl : core = core' := Option.some.inj ((findCore_eq_ok.1 h1).2.symm.trans hc')
  have hf := (mustPay_eq_ok.1 h5).1
  rw [getConfig_frame h3] at hf
  rw [hf] at hf'
  simp only [List.cons.injEq, Coin.mk.injEq, true_and, and_true] at hf'
  subst hf'
  refine ⟨core, paid, _, hc', hf, rfl, ?_⟩
  rw [getConfig_frame h3]
  rfl

/-- Bob burns 1012 index tokens. -/
example : (Periphery.executeR (zapWorld2.penv zapEnv zapPools) ⟨"bob", [⟨"factory/core/ibcx", 1012⟩]⟩
      (.burnExactIn "core" "uosmo" 1700 zapSaleRoutes)).toOption.map (·.2) =
      some [("method", "burn_exact_amount_in"), ("executor", "bob"), ("input_amount", "1012factory/core/ibcx"),
        ("min_output_amount", "1700uosmo")] := by
  decide +kernel

/-- **C83 (5).** The event of `BurnExactAmountOut` gives the caller, the attached coin, of which no more is sent to be
burned, and the output asked for. -/
theorem C83_burn_exact_out_event {p : PEnv} {info : Info} {a : Addr} {desired : Coin} {si : List Compact}
    {ms : List PMsg} {event : List (String × String)}
    (h : Periphery.executeR p info (.burnExactOut a desired si) = .ok (ms, event)) :
    ∃ core paid burnt rest, p.core a = some core ∧ info.funds = [⟨core.config.indexDenom, paid⟩] ∧ burnt ≤ paid ∧
      ms = .core a (.burn none) [⟨core.config.indexDenom, burnt⟩] :: rest ∧
      event = [("method", "burn_exact_amount_out"), ("executor", info.sender),
        ("max_input", coinText paid core.config.indexDenom), ("output", coinText desired.amount desired.denom)] := by
  simp only [Periphery.executeR, burnExactOutR, bind_eq_ok] at h
  obtain ⟨infos, hi, _, g, core, h1, cfg, h3, paid, h5, e⟩ := h
  simp only [Except.ok.injEq, Prod.mk.injEq] at e
  obtain ⟨rfl, rfl⟩ := e
  obtain ⟨core', _, paid', _, _, _, _, burn, _, _, _, _, hc', _, hf', _, _, _, _, _, hle, _, _, _, rfl⟩ :=
    burnExactOut_spec g
  obtain rfl : core = core' := Option.some.inj ((findCore_eq_ok.1 h1).2.symm.trans hc')
  have hf := (mustPay_eq_ok.1 h5).1
  rw [getConfig_frame h3] at hf
  rw [hf] at hf'
  simp only [List.cons.injEq, Coin.mk.injEq, true_and, and_true] at hf'
  subst hf'
  refine ⟨core, paid, burn, _, hc', hf, hle, rfl, ?_⟩
  rw [getConfig_frame h3]
  rfl

/-- Bob asks for 1717 uosmo. -/
example : (Periphery.executeR (zapWorld2.penv zapEnv zapPools) ⟨"bob", [⟨"factory/core/ibcx", 5000⟩]⟩
      (.burnExactOut "core" ⟨"uosmo", 1717⟩ zapSaleRoutes)).toOption.map (·.2) =
      some [("method", "burn_exact_amount_out"), ("executor", "bob"), ("max_input", "5000factory/core/ibcx"),
        ("output", "1717uosmo")] := by
  decide +kernel

/-- **C83 (6).** The event of `FinishOperation` gives the account that is paid, the denom and the amount. -/
theorem C83_finish_event {p : PEnv} {info : Info} {who : Addr} {d : Denom} {ms : List PMsg}
    {event : List (String × String)}
    (h : Periphery.executeR p info (.finishOperation who d) = .ok (ms, event)) :
    ∃ amount, ms = [.chain (.send who [⟨d, amount⟩])] ∧
      event = [("method", "finish_operation"), ("refund_to", who), ("refund_asset", d),
        ("amount", toString amount)] := by
  simp only [Periphery.executeR, finishOperationR, bind_eq_ok] at h
  obtain ⟨_, g, e⟩ := h
  simp only [Except.ok.injEq, Prod.mk.injEq] at e
  obtain ⟨rfl, rfl⟩ := e
  exact ⟨_, (finishOperation_eq_ok.1 g).2.2, rfl⟩

/-- The events of the examples. -/
example :
    (Periphery.executeR (zapWorld.penv zapEnv zapPools) ⟨"bob", [⟨"uosmo", 70000⟩]⟩
      (.mintExactIn "core" "uosmo" 40000 zapRoutes)).toOption.map (·.2) =
      some [("method", "mint_exact_amount_in"), ("executor", "bob"), ("input", "70000uosmo"),
        ("min_output", "39600factory/core/ibcx")] ∧
    (Periphery.executeR (zapWorld.penv zapEnv zapPools) ⟨"bob", [⟨"uosmo", 80000⟩]⟩
      (.mintExactOut "core" 40000 "uosmo" zapRoutes)).toOption.map (·.2) =
      some [("method", "mint_exact_amount_out"), ("executor", "bob"), ("max_input", "80000uosmo"),
        ("output", "39600factory/core/ibcx"), ("refund", "10000")] ∧
    (Periphery.executeR (zapWorld2.penv zapEnv zapPools) ⟨"bob", [⟨"factory/core/ibcx", 1012⟩]⟩
      (.burnExactIn "core" "uosmo" 1700 zapSaleRoutes)).toOption.map (·.2) =
      some [("method", "burn_exact_amount_in"), ("executor", "bob"), ("input_amount", "1012factory/core/ibcx"),
        ("min_output_amount", "1700uosmo")] ∧
    (Periphery.executeR (zapWorld2.penv zapEnv zapPools) ⟨"bob", [⟨"factory/core/ibcx", 5000⟩]⟩
      (.burnExactOut "core" ⟨"uosmo", 1717⟩ zapSaleRoutes)).toOption.map (·.2) =
      some [("method", "burn_exact_amount_out"), ("executor", "bob"), ("max_input", "5000factory/core/ibcx"),
        ("output", "1717uosmo")] ∧
    (Periphery.executeR (zapWorld3.penv zapEnv zapPools) ⟨"zap", []⟩ (.finishOperation "bob" "ujuno")).toOption.map
      (·.2) =
      some [("method", "finish_operation"), ("refund_to", "bob"), ("refund_asset", "ujuno"), ("amount", "20000")] := by
  decide +kernel

/-! ### The coin texts can be read -/

theorem digits_split {xs ys us vs : List Char} (hx : ∀ c ∈ xs, c.isDigit = true) (hy : ∀ c ∈ ys, c.isDigit = true)
    (hu : ∀ c, us.head? = some c → ¬ c.isDigit = true) (hv : ∀ c, vs.head? = some c → ¬ c.isDigit = true)
    (h : xs ++ us = ys ++ vs) : xs = ys ∧ us = vs := by
  induction xs generalizing ys with
  | nil =>
    cases ys with
    | nil => exact ⟨rfl, h⟩
    | cons y ys =>
      exfalso
      simp only [List.nil_append] at h
      exact hu y (by rw [h]; rfl) (hy y (by simp))
  | cons x xs ih =>
    cases ys with
    | nil =>
      exfalso
      simp only [List.nil_append] at h
      exact hv x (by rw [← h]; rfl) (hx x (by simp))
    | cons y ys =>
      simp only [List.cons_append, List.cons.injEq] at h
      obtain ⟨rfl, h⟩ := h
      obtain ⟨rfl, rfl⟩ := ih (fun c hc => hx c (by simp [hc])) (fun c hc => hy c (by simp [hc])) h
      exact ⟨rfl, rfl⟩

/-- **C83 (7).** The text of a coin determines it if denoms do not begin with a digit (no denom on the chain does). -/
theorem C83_coin_text_determines_coin {a b : Nat} {d e : Denom} (hd : plainDenom d) (he : plainDenom e)
    (h : coinText a d = coinText b e) : a = b ∧ d = e := by
  have h' := congrArg String.toList h
  unfold coinText at h'
  rw [String.toList_append, String.toList_append] at h'
  have dig : ∀ n : Nat, ∀ c ∈ (toString n).toList, c.isDigit = true := by
    intro n c hc
    have e : (toString n).toList = Nat.toDigits 10 n := Nat.toList_repr
    rw [e] at hc
    exact Nat.isDigit_of_mem_toDigits (by decide) (by decide) hc
  obtain ⟨h1, h2⟩ := digits_split (dig a) (dig b) hd he h'
  refine ⟨?_, String.toList_inj.1 h2⟩
  have := congrArg readNum (String.toList_inj.1 h1)
  rwa [readNum_toString, readNum_toString] at this

/-- Without the condition it does not: 1 of `5x` and 15 of `x`. -/
example : coinText 1 "5x" = coinText 15 "x" ∧ plainDenom "uosmo" := by
  refine ⟨by decide +kernel, ?_⟩
  intro c hc
  have : c = 'u' := by
    have e : ("uosmo" : String).toList.head? = some 'u' := by decide
    rw [e] at hc; cases hc; rfl
  subst this
  decide

/-! ### Reported and paid out -/

theorem report_bounds {D r n : Nat} (h0 : 0 < r) (h1 : r < D) (h2 : max 1 (r * n / D) ≤ n) :
    (D - r) * n / D ≤ n - max 1 (r * n / D) ∧ n - max 1 (r * n / D) ≤ (D - r) * n / D + 1 ∧
    (r * n < D → n - max 1 (r * n / D) = (D - r) * n / D) := by
  have hDp : 0 < D := by omega
  have hn : 0 < n := by omega
  have hsum : (D - r) * n + r * n = D * n := by rw [← Nat.add_mul]; congr 1; omega
  have hpos : 0 < r * n := Nat.mul_pos h0 hn
  generalize (D - r) * n = A at *
  generalize r * n = B at *
  have e1 := Nat.div_add_mod A D
  have e2 := Nat.div_add_mod B D
  have l1 := Nat.mod_lt A hDp
  have l2 := Nat.mod_lt B hDp
  generalize A / D = x at *
  generalize B / D = y at *
  generalize A % D = u at *
  generalize B % D = v at *
  have key : D * (x + y) + (u + v) = D * n := by rw [Nat.mul_add]; omega
  have k1 : x + y ≤ n := by
    by_contra hc
    have : D * (n + 1) ≤ D * (x + y) := Nat.mul_le_mul_left _ (by omega)
    rw [Nat.mul_add] at this
    omega
  have k2 : n ≤ x + y + 1 := by
    by_contra hc
    have : D * (x + y + 2) ≤ D * n := Nat.mul_le_mul_left _ (by omega)
    rw [Nat.mul_add] at this
    omega
  by_cases hy0 : y = 0
  · subst hy0
    have hx : x ≠ n := by
      rintro rfl
      simp only [Nat.add_zero, Nat.mul_zero] at *
      omega
    refine ⟨by omega, by omega, by omega⟩
  · refine ⟨by omega, by omega, ?_⟩
    intro hB
    have : D * 1 ≤ D * y := Nat.mul_le_mul_left _ (by omega)
    omega

/-- The full claim: the output reported by `MintExactAmountOut` is what the caller receives. -/
def C83_full : Prop :=
  ∀ (w w' : ZWorld) (env : Env) (pool : Nat → Res (Option Pool)) (market : List Nat) (info : Info) (addr : Addr)
    (n : Nat) (input : Denom) (si : List Compact) (infos : List SwapInfo) (ms : List PMsg)
    (event : List (String × String)) (reported : Nat),
    Reachable w.core → input ≠ w.core.config.indexDenom → parseInfos si = .ok infos → payWith input infos →
    info.sender ≠ w.core.fee.collector →
    zapTx w env pool market info (.mintExactOut addr n input si) = .ok w' →
    Periphery.executeR (w.penv env pool) info (.mintExactOut addr n input si) = .ok (ms, event) →
    said "output" event = some (coinText reported w.core.config.indexDenom) →
    w'.bank.bal info.sender w.core.config.indexDenom = w.bank.bal info.sender w.core.config.indexDenom + reported

theorem same_core {w : ZWorld} {env : Env} {pool : Nat → Res (Option Pool)} {a : Addr} {core : Core.State}
    (h : (w.penv env pool).core a = some core) : core = w.core := by
  simp only [ZWorld.penv] at h
  split at h
  · exact (Option.some.inj h).symm
  · cases h

theorem fee_bounds {s : Core.State} {n : Nat} (hr : Reachable s) (h : mintFeeOf s n ≤ n) :
    part (10 ^ 18 - s.fee.mintFee.getD 0) n ≤ n - mintFeeOf s n ∧
      n - mintFeeOf s n ≤ part (10 ^ 18 - s.fee.mintFee.getD 0) n + 1 ∧
      (s.fee.mintFee.getD 0 * n < 10 ^ 18 → n - mintFeeOf s n = part (10 ^ 18 - s.fee.mintFee.getD 0) n) := by
  cases hf : s.fee.mintFee with
  | none =>
    have e : mintFeeOf s n = 0 := by simp [mintFeeOf, hf]
    have e2 : part (10 ^ 18 - 0) n = n := by
      unfold part
      exact Nat.mul_div_cancel_left n (by decide)
    rw [e]
    simp only [Option.getD_none, e2]
    refine ⟨by omega, by omega, fun _ => by omega⟩
  | some r =>
    have e : mintFeeOf s n = max 1 (part r n) := by simp [mintFeeOf, hf]
    rw [e] at h ⊢
    obtain ⟨h0, h1⟩ := hr.inv.mintRate r hf
    have hl : (1000000000000000000 : Nat) = 10 ^ 18 := by norm_num
    have hO : ONE = 10 ^ 18 := by rw [ONE_eq]; norm_num
    rw [hO] at h1
    unfold part at h ⊢
    rw [hl] at h ⊢
    simp only [Option.getD_some]
    generalize (10 : Nat) ^ 18 = D at h h1 ⊢
    exact report_bounds h0 h1 h

/-- **C83 (8).** What holds for both kinds of purchase: the reported output is at most what the caller receives,
and at most one token less; without a fee, or when the fee comes to less than one token, they are equal.  The routes
are arbitrary. -/
theorem C83_reported_output_partial {w w' : ZWorld} {env : Env} {pool : Nat → Res (Option Pool)} {market : List Nat}
    {info : Info} {msg : PExecMsg} {addr : Addr} {n : Nat} {input : Denom} {si : List Compact}
    {ms : List PMsg} {event : List (String × String)}
    (hr : Reachable w.core) (hin : input ≠ w.core.config.indexDenom) (hc : info.sender ≠ w.core.fee.collector)
    (hmsg : msg = .mintExactOut addr n input si ∨ msg = .mintExactIn addr input n si)
    (h : zapTx w env pool market info msg = .ok w')
    (he : Periphery.executeR (w.penv env pool) info msg = .ok (ms, event)) :
    ∃ reported minted, (said "output" event = some (coinText reported w.core.config.indexDenom) ∨
        said "min_output" event = some (coinText reported w.core.config.indexDenom)) ∧
      w'.core.totalSupply = w.core.totalSupply + minted ∧
      w.bank.bal info.sender w.core.config.indexDenom + reported ≤ w'.bank.bal info.sender w.core.config.indexDenom ∧
      w'.bank.bal info.sender w.core.config.indexDenom ≤
        w.bank.bal info.sender w.core.config.indexDenom + reported + 1 ∧
      (w.core.fee.mintFee.getD 0 * minted < 10 ^ 18 →
        w'.bank.bal info.sender w.core.config.indexDenom = w.bank.bal info.sender w.core.config.indexDenom + reported) := by
  have hz : info.sender ≠ w.zap ∧ info.sender ≠ w.coreAddr := by
    simp only [zapTx, bind_eq_ok, require_eq_ok] at h
    obtain ⟨_, ⟨_, _, h1, h2, _⟩, _⟩ := h
    exact ⟨h1, h2⟩
  obtain ⟨infos, hsi⟩ : ∃ infos, parseInfos si = .ok infos := by
    rcases hmsg with rfl | rfl <;> simp only [zapTx, bind_eq_ok, Periphery.execute] at h <;>
      obtain ⟨_, _, _, _, _, ⟨infos, hi, _⟩, _⟩ := h <;> exact ⟨infos, hi⟩
  rcases hmsg with rfl | rfl
  · obtain ⟨s1, paid, taken, _, _, _, _, hfee, hs⟩ := C62_mint_exact_out_any_routes hr hin hsi h
    obtain ⟨core, _, paid', _, _, _, _, hcore, _, _, _, _, _, _, rfl⟩ := C83_mint_exact_out_event he
    obtain rfl := same_core hcore
    have hb := hs.index info.sender hz.1 hz.2
    rw [if_pos rfl, if_neg hc] at hb
    obtain ⟨b1, b2, b3⟩ := fee_bounds hr hfee
    refine ⟨_, n, .inl rfl, hs.supply, by omega, by omega, fun hx => by have := b3 hx; omega⟩
  · have h' := h
    simp only [zapTx, bind_eq_ok, require_eq_ok, Periphery.execute, hsi, Except.ok.injEq] at h'
    obtain ⟨_, ⟨heq, hzc, huz, huc, _⟩, b0, hsend, ms', ⟨_, rfl, hm⟩, hrun⟩ := h'
    obtain ⟨core, paid', n', funds, swaps, hcore, hf', rfl, rfl⟩ := C83_mint_exact_in_event he
    obtain rfl := same_core hcore
    have hx := zapR_execute he
    simp only [Periphery.execute, hsi, ok_bind] at hx
    have hm' : mintExactIn (w.penv env pool) info addr input n infos = .ok ms' := hm
    rw [hx] at hm'
    have hm' := Except.ok.inj hm'
    obtain ⟨core, s1, paid, sim, res, est, swaps', hv, hcore', hs1, hf, hpaid, hsim, hest, hsw, hlt, hport, hms⟩ :=
      mintExactIn_spec hm
    rw [← hm'] at hms
    have hn : n' = est.index := by
      have := congrArg (fun l => l.reverse[1]?) hms
      simp at this
      exact this.1
    have hcw : core = w.core := same_core (w := { w with bank := b0 }) hcore'
    subst hcw
    have ha : addr = w.coreAddr := by
      simp only [ZWorld.penv] at hcore
      split at hcore
      · assumption
      · cases hcore
    subst ha
    obtain ⟨_, hsi', hu⟩ := makeSim_units hsim
    rw [hf] at hsend
    have hsw' : inMsgs est.routes w.zap (est.spent + 10000) = .ok swaps' := heq ▸ hsw
    obtain ⟨hmin, hest'⟩ := estIndexForInput_some hest
    have hrun' := hrun
    rw [← hm', hms] at hrun'
    obtain ⟨hfee, taken, _, hs⟩ := purchase_settles_any hr hin hzc huz huc hsend hs1 hport hu hest' hsw' hlt hrun'
    have hb := hs.index info.sender hz.1 hz.2
    rw [if_pos rfl, if_neg hc] at hb
    obtain ⟨b1, b2, b3⟩ := fee_bounds hr hfee
    rw [← hn] at b1 b2 b3 hb
    refine ⟨_, n', .inr rfl, hn ▸ hs.supply, by omega, by omega, fun hx => by have := b3 hx; omega⟩

/-- Bob buys 150 index tokens at a fee of 1%: the event reports 148, Bob receives 149. -/
example : Reachable zapWorld.core ∧ "uosmo" ≠ zapWorld.core.config.indexDenom ∧ "bob" ≠ zapWorld.core.fee.collector ∧
    (zapTx zapWorld zapEnv zapPools [38] ⟨"bob", [⟨"uosmo", 300⟩]⟩ (.mintExactOut "core" 150 "uosmo" zapRoutes)).map
      (fun w => w.bank.bal "bob" "factory/core/ibcx") = .ok 149 ∧
    (Periphery.executeR (zapWorld.penv zapEnv zapPools) ⟨"bob", [⟨"uosmo", 300⟩]⟩
      (.mintExactOut "core" 150 "uosmo" zapRoutes)).toOption.map (fun r => said "output" r.2) =
      some (some "148factory/core/ibcx") :=
  ⟨Demo.s0_reachable, by decide, by decide, by decide +kernel, by decide +kernel⟩

/-- Bob buys 150 index tokens at a fee of 1%: the event reports 148, he receives 149. -/
theorem zapReport_ok :
    (zapTx zapWorld zapEnv zapPools [38] ⟨"bob", [⟨"uosmo", 300⟩]⟩ (.mintExactOut "core" 150 "uosmo" zapRoutes)).map
      (fun w => w.bank.bal "bob" "factory/core/ibcx") = .ok 149 ∧
    (Periphery.executeR (zapWorld.penv zapEnv zapPools) ⟨"bob", [⟨"uosmo", 300⟩]⟩
      (.mintExactOut "core" 150 "uosmo" zapRoutes)).toOption.map (fun r => said "output" r.2) =
      some (some "148factory/core/ibcx") := by decide +kernel

/-- **C83 (9).** The full claim is false. -/
theorem C83_full_false : ¬ C83_full := by
  intro hall
  obtain ⟨h1, h2⟩ := zapReport_ok
  cases hz : zapTx zapWorld zapEnv zapPools [38] ⟨"bob", [⟨"uosmo", 300⟩]⟩
      (.mintExactOut "core" 150 "uosmo" zapRoutes) with
  | error e => rw [hz] at h1; cases h1
  | ok w' =>
    cases hx : Periphery.executeR (zapWorld.penv zapEnv zapPools) ⟨"bob", [⟨"uosmo", 300⟩]⟩
      (.mintExactOut "core" 150 "uosmo" zapRoutes) with
    | error e => rw [hx] at h2; simp [Except.toOption] at h2
    | ok r =>
      rw [hz] at h1
      rw [hx] at h2
      simp only [Except.toOption, Option.map_some, Option.some.injEq] at h2
      have e := hall _ _ _ _ _ _ _ _ _ _ _ r.1 r.2 148 Demo.s0_reachable (by decide) zapRoutes_ok zapRoutes_pay
        (by decide) hz hx (by rw [h2]; decide +kernel)
      have e0 : zapWorld.bank.bal "bob" zapWorld.core.config.indexDenom = 0 := by decide
      rw [e0] at e
      have e1 : w'.bank.bal "bob" "factory/core/ibcx" = 149 := Except.ok.inj h1
      have e2 : w'.bank.bal "bob" "factory/core/ibcx" = 0 + 148 := e
      omega

end Ibcx.Props
