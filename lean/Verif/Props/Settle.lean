import Verif.Props.Collateral
import Verif.Props.Ledger
/-!
# C91: accepted mints, burns and fee payments are settled on the chain
-/

namespace Ibcx.Props
open Ibcx Ibcx.Core Ibcx.Spec Ibcx.Chain

/-- Only bank transfers. -/
private def Sends (ms : List Msg) : Prop := ∀ m ∈ ms, ∃ a cs, m = .send a cs

/-- A list of transfers goes through exactly when the contract has the coins. -/
private theorem run_sends {self : Addr} {ms : List Msg} (hs : Sends ms) : ∀ {b : Bank} {mk : List Nat},
    (∀ d, sent d ms ≤ b.bal self d) →
    ∃ b', runMsgs self b mk ms = .ok b' ∧ ∀ a d, a ≠ self → b'.bal a d = b.bal a d + sentTo a d ms := by
  induction ms with
  | nil => intro b mk _; exact ⟨b, rfl, fun a d _ => by simp [sentTo]⟩
  | cons m ms ih =>
    obtain ⟨x, cs, rfl⟩ := hs m (by simp)
    intro b mk hle
    have h1 : ∀ d, total d cs ≤ b.bal self d := fun d => by
      have := hle d
      simp only [sent] at this
      omega
    obtain ⟨b', h2, h3⟩ := ih (fun m hm => hs m (by simp [hm]))
      (b := { b with bal := fun a d =>
        (if a = self then b.bal a d - total d cs else b.bal a d) + (if a = x then total d cs else 0) }) (mk := mk)
      (fun d => by
        have := hle d
        simp only [sent] at this
        simp only [if_true]
        omega)
    refine ⟨b', ?_, ?_⟩
    · simp only [runMsgs, runMsg, bind_eq_ok]
      exact ⟨_, ⟨_, send_eq_ok.2 ⟨h1, rfl⟩, rfl⟩, h2⟩
    · intro a d ha
      rw [h3 a d ha]
      simp only [if_neg ha, sentTo, eq_comm (a := a) (b := x)]
      omega

private theorem total_one (d i : Denom) (n : Nat) : total d [⟨i, n⟩] = if i = d then n else 0 := by
  by_cases h : i = d <;> simp [total, h]

private theorem sends_fee (r : Option Nat) (c : Addr) (d : Denom) (n : Nat) : Sends (feeTransfer r c d n) := by
  unfold feeTransfer
  cases r
  · intro m hm; cases hm
  · intro m hm
    simp only [List.mem_singleton] at hm
    exact ⟨_, _, hm⟩

private theorem sent_fee {r : Option Nat} {c : Addr} {i : Denom} {n : Nat} (h0 : r = none → n = 0) :
    sent i (feeTransfer r c i n) = n ∧ ∀ a, sentTo a i (feeTransfer r c i n) = if c = a then n else 0 := by
  cases r with
  | none => simp [feeTransfer, sent, sentTo, h0 rfl]
  | some x => simp [feeTransfer, sent, sentTo, total]

private theorem sentTo_le_sent (a : Addr) (d : Denom) (ms : List Msg) : sentTo a d ms ≤ sent d ms := by
  induction ms with
  | nil => simp [sentTo, sent]
  | cons m ms ih =>
    cases m <;> simp only [sentTo, sent] <;> first | exact ih | (split <;> omega)

private theorem last_send {self x : Addr} {cs : List Coin} {d : Denom} {fs : List Msg} (hs : Sends fs) (h0 : sent d fs = 0) :
    ∀ {b b' : Bank} {mk : List Nat}, runMsgs self b mk (fs ++ [.send x cs]) = .ok b' → total d cs ≤ b.bal self d := by
  induction fs with
  | nil =>
    intro b b' mk h
    simp only [List.nil_append, runMsgs, runMsg, bind_eq_ok, send_eq_ok] at h
    obtain ⟨_, ⟨_, ⟨h, _⟩, _⟩, _⟩ := h
    exact h d
  | cons m fs ih =>
    obtain ⟨y, cs', rfl⟩ := hs m (by simp)
    intro b b' mk h
    simp only [sent] at h0
    simp only [List.cons_append, runMsgs, runMsg, bind_eq_ok, send_eq_ok, Except.ok.injEq] at h
    obtain ⟨_, ⟨_, ⟨_, rfl⟩, rfl⟩, h⟩ := h
    have := ih (fun m hm => hs m (by simp [hm])) (by omega) h
    have hz : total d cs' = 0 := by omega
    simp only [if_true, hz] at this
    split at this <;> omega

private theorem sends_credit {self : Addr} {ms : List Msg} (hs : Sends ms) : ∀ {b b' : Bank} {mk : List Nat},
    runMsgs self b mk ms = .ok b' → ∀ a d, a ≠ self → b'.bal a d = b.bal a d + sentTo a d ms := by
  induction ms with
  | nil => intro b b' mk h a d _; simp [runMsgs] at h; subst h; simp [sentTo]
  | cons m ms ih =>
    obtain ⟨x, cs, rfl⟩ := hs m (by simp)
    intro b b' mk h a d ha
    simp only [runMsgs, runMsg, bind_eq_ok, send_eq_ok, Except.ok.injEq] at h
    obtain ⟨_, ⟨_, ⟨_, rfl⟩, rfl⟩, h⟩ := h
    rw [ih (fun m hm => hs m (by simp [hm])) h a d ha]
    simp only [if_neg ha, sentTo, eq_comm (a := a) (b := x)]
    omega

theorem winv_run {w : World} (hw : WInv w) (txs : List Tx) : WInv (runTxs w txs) ∧
    (runTxs w txs).self = w.self ∧ (runTxs w txs).core.config.indexDenom = w.core.config.indexDenom := by
  induction txs generalizing w with
  | nil => exact ⟨hw, rfl, rfl⟩
  | cons tx txs ih =>
    rcases deliver_cases w tx with h | h
    · simp only [runTxs, h]
      exact ih hw
    · obtain ⟨i1, i2, i3⟩ := hw.apply h
      obtain ⟨j1, j2, j3⟩ := ih i1
      exact ⟨j1, j2.trans i2, j3.trans i3⟩

/-- **C91 (mint).** Whenever the contract accepts a mint whose attached coins the sender owns, the transaction goes
through: the contract is never short of coins for its payments.  Every other account ends with what it had, less what it
attached, plus what the contract sent it. -/
theorem C91_mint_settles {w : World} (hr : Reachable w.core) {env : Env} {info : Info} {amount : Nat}
    {receiver refundTo : Option Addr} {s' : State} {ms : List Msg} (market : List Nat) (hc : env.contract = w.self)
    (hs : info.sender ≠ w.self) (hd : distinct info.funds) (hown : ∀ d, total d info.funds ≤ w.bank.bal info.sender d)
    (hx : execute w.core env info (.mint amount receiver refundTo) = .ok (s', ms)) :
    ∃ w', apply w (.call env info (.mint amount receiver refundTo) market) = .ok w' ∧ w'.core = s' ∧
      ∀ a d, a ≠ w.self → w'.bank.bal a d + (if a = info.sender then total d info.funds else 0) =
        w.bank.bal a d + sentTo a d ms := by
  obtain ⟨fee, toR, refund, hms, h1, h2, h3, h4, h5⟩ := C02_mint_takes_exact_basket hr hd hx
  have hb := (send_eq_ok (dst := w.self)).2 ⟨hown, rfl⟩
  have hsends : Sends (feeTransfer w.core.fee.mintFee w.core.fee.collector w.core.config.indexDenom fee ++
      [.send (receiver.getD info.sender) [⟨w.core.config.indexDenom, toR⟩], .send (refundTo.getD info.sender) refund]) := by
    intro m hm
    rcases List.mem_append.1 hm with hm | hm
    · exact sends_fee _ _ _ _ m hm
    · simp only [List.mem_cons, List.not_mem_nil, or_false] at hm
      rcases hm with rfl | rfl <;> exact ⟨_, _, rfl⟩
  have hrefund : ∀ d, total d refund ≤ total d info.funds := by
    intro d
    cases hl : s'.indexUnits.lookup d with
    | none => rw [(h5 d hl).1]; omega
    | some u => have := h4 d u hl; omega
  have hsent : ∀ d, sent d (feeTransfer w.core.fee.mintFee w.core.fee.collector w.core.config.indexDenom fee ++
      [.send (receiver.getD info.sender) [⟨w.core.config.indexDenom, toR⟩], .send (refundTo.getD info.sender) refund]) =
      (if w.core.config.indexDenom = d then amount else 0) + total d refund := by
    intro d
    rw [sent_append]
    simp only [sent, total_one]
    by_cases e : w.core.config.indexDenom = d
    · subst e
      rw [(sent_fee h3).1]
      simp
      omega
    · rw [sent_feeTransfer (fun h => e h.symm)]
      simp [e]
  obtain ⟨b', hb1, hb2⟩ := run_sends (self := w.self) hsends
    (b := Bank.create { w.bank with bal := fun a d =>
        (if a = info.sender then w.bank.bal a d - total d info.funds else w.bank.bal a d)
          + (if a = w.self then total d info.funds else 0) } env.contract ⟨w.core.config.indexDenom, amount⟩)
    (mk := market) (by
      intro d
      rw [hsent d]
      simp only [Bank.create, if_neg (Ne.symm hs), hc, if_true, true_and, eq_comm (a := d)]
      have := hrefund d
      omega)
  have hrun : runMsgs w.self { w.bank with bal := fun a d =>
        (if a = info.sender then w.bank.bal a d - total d info.funds else w.bank.bal a d)
          + (if a = w.self then total d info.funds else 0) } market ms = .ok b' := by
    rw [hms, List.append_assoc]
    simp only [List.singleton_append, runMsgs, runMsg, bind_eq_ok]
    exact ⟨_, rfl, hb1⟩
  refine ⟨{ w with core := s', bank := b' }, apply_call.2 ⟨_, s', ms, b', hc, hs, hd, hb, hx, hrun, rfl⟩, rfl, ?_⟩
  intro a d ha
  have hst : sentTo a d ms = sentTo a d (feeTransfer w.core.fee.mintFee w.core.fee.collector w.core.config.indexDenom fee ++
      [.send (receiver.getD info.sender) [⟨w.core.config.indexDenom, toR⟩], .send (refundTo.getD info.sender) refund]) := by
    rw [hms, List.append_assoc]
    simp only [List.singleton_append, sentTo]
  rw [hst]
  simp only [hb2 a d ha, Bank.create, if_neg ha, hc, ha, false_and, if_false]
  by_cases e : a = info.sender
  · subst e
    have := hown d
    simp only [if_true]
    omega
  · simp only [if_neg e]
    omega

/-- Alice, who owns 20000 uosmo and 4000 uatom, mints 10000. -/
example : Reachable demoWorld.core ∧ "alice" ≠ demoWorld.self ∧
    total "uosmo" Demo.mintInfo.funds ≤ demoWorld.bank.bal "alice" "uosmo" ∧
    (apply demoWorld (.call (Demo.env 1000) Demo.mintInfo (.mint 10000 none none) [])).map
      (fun w => (w.bank.bal "alice" "uosmo", w.bank.bal "alice" "uatom", w.bank.bal "alice" "factory/core/ibcx",
        w.bank.bal "collector" "factory/core/ibcx")) = .ok (5000, 1500, 9900, 100) :=
  ⟨Demo.s0_reachable, by decide, by decide +kernel, by decide +kernel⟩

/-- **C91 (mint, default receivers).** A minter who is not the collector pays exactly `max(1, ⌊unit·amount⌋)` of each
asset of the basket and nothing else, and receives the index tokens less the fee, which the collector receives. -/
theorem C91_mint_exchange {w w' : World} (hr : Reachable w.core) {env : Env} {info : Info} {amount : Nat}
    {market : List Nat} (hcol : info.sender ≠ w.core.fee.collector) (hcs : w.core.fee.collector ≠ w.self)
    (h : apply w (.call env info (.mint amount none none) market) = .ok w')
    (hi : w'.core.indexUnits.lookup w.core.config.indexDenom = none) :
    (∀ d u, w'.core.indexUnits.lookup d = some u →
      w'.bank.bal info.sender d + max 1 (part u amount) = w.bank.bal info.sender d) ∧
    (∀ d, w'.core.indexUnits.lookup d = none → d ≠ w.core.config.indexDenom →
      w'.bank.bal info.sender d = w.bank.bal info.sender d) ∧
    ∃ fee, (∀ r, w.core.fee.mintFee = some r → fee = max 1 (part r amount)) ∧ (w.core.fee.mintFee = none → fee = 0) ∧
      w'.bank.bal info.sender w.core.config.indexDenom + fee =
        w.bank.bal info.sender w.core.config.indexDenom + amount ∧
      w'.bank.bal w.core.fee.collector w.core.config.indexDenom =
        w.bank.bal w.core.fee.collector w.core.config.indexDenom + fee := by
  obtain ⟨b, core, ms, b', g1, g2, g3, g4, g5, g6, rfl⟩ := apply_call.1 h
  obtain ⟨hown, _⟩ := send_eq_ok.1 g4
  obtain ⟨w2, hw2, _, hbal⟩ := C91_mint_settles hr market g1 g2 g3 hown g5
  rw [h] at hw2
  cases hw2
  obtain ⟨fee, toR, refund, hms, h1, h2, h3, h4, h5⟩ := C02_mint_takes_exact_basket hr g3 g5
  have hsend : ∀ d, d ≠ w.core.config.indexDenom → sentTo info.sender d ms = total d refund := by
    intro d hd
    have h0 : sentTo info.sender d (feeTransfer w.core.fee.mintFee w.core.fee.collector w.core.config.indexDenom fee) = 0 := by
      have := sentTo_le_sent info.sender d (feeTransfer w.core.fee.mintFee w.core.fee.collector w.core.config.indexDenom fee)
      rw [sent_feeTransfer hd] at this
      omega
    rw [hms, List.append_assoc, sentTo_append, sentTo_append, h0]
    simp [sentTo, total_one, Ne.symm hd]
  dsimp only at hi hbal ⊢
  refine ⟨fun d u hu => ?_, fun d hu hd => ?_, fee, h2, h3, ?_, ?_⟩
  · have hd : d ≠ w.core.config.indexDenom := fun e => by rw [e, hi] at hu; cases hu
    have e1 := hbal info.sender d g2
    rw [hsend d hd, if_pos rfl] at e1
    have := h4 d u hu
    omega
  · have e1 := hbal info.sender d g2
    rw [hsend d hd, if_pos rfl] at e1
    obtain ⟨e2, e3⟩ := h5 d hu
    omega
  · have e1 := hbal info.sender w.core.config.indexDenom g2
    obtain ⟨e2, e3⟩ := h5 _ hi
    rw [if_pos rfl, e3, hms, List.append_assoc, sentTo_append, sentTo_append, (sent_fee h3).2] at e1
    simp [sentTo, total_one, Ne.symm hcol, e2] at e1
    omega
  · have e1 := hbal w.core.fee.collector w.core.config.indexDenom hcs
    rw [if_neg (Ne.symm hcol), hms, List.append_assoc, sentTo_append, sentTo_append, (sent_fee h3).2] at e1
    simp [sentTo, hcol] at e1
    exact e1

/-- The price of 10000 tokens is 15000 uosmo and 2500 uatom, the fee 100 tokens. -/
example : "alice" ≠ demoWorld.core.fee.collector ∧ demoWorld.core.fee.collector ≠ demoWorld.self ∧
    (apply demoWorld (.call (Demo.env 1000) Demo.mintInfo (.mint 10000 none none) [])).map
      (fun w => (w.core.indexUnits, w.core.indexUnits.lookup "factory/core/ibcx", w.bank.bal "alice" "uosmo")) =
      .ok ([("uosmo", 1500000000000000000), ("uatom", 250000000000000000)], none, 5000) :=
  ⟨by decide, by decide, by decide +kernel⟩

/-- **C91 (burn).** When the contract accepts a burn whose tokens the sender owns, the transaction goes through exactly
when the contract holds `⌊unit·burned⌋` of each asset of the basket; `burned` is by how much the supply falls. -/
theorem C91_burn_settles_iff {w : World} (hw : WInv w) {env : Env} {info : Info} {redeemTo : Option Addr} {s' : State}
    {ms : List Msg} (market : List Nat) (hc : env.contract = w.self) (hs : info.sender ≠ w.self)
    (hown : ∀ d, total d info.funds ≤ w.bank.bal info.sender d)
    (hx : execute w.core env info (.burn redeemTo) = .ok (s', ms))
    (hi : s'.indexUnits.lookup w.core.config.indexDenom = none) :
    (∃ w', apply w (.call env info (.burn redeemTo) market) = .ok w') ↔
      ∀ d u, s'.indexUnits.lookup d = some u → part u (w.core.totalSupply - s'.totalSupply) ≤ w.bank.bal w.self d := by
  obtain ⟨received, fee, burnt, redeem, h1, h2, h3, h4, h5, h6, hms, _, _, h7, h8⟩ := C04_burn_pays_exact_basket hw.reach hx
  have hb := (send_eq_ok (dst := w.self)).2 ⟨hown, rfl⟩
  have hburnt : w.core.totalSupply - s'.totalSupply = burnt := by omega
  rw [hburnt]
  have hd : distinct info.funds := by rw [h1]; simp [distinct]
  have hfund : ∀ d, total d info.funds = if w.core.config.indexDenom = d then received else 0 := by
    intro d; rw [h1, total_one]
  have hsent : ∀ d, sent d (feeTransfer w.core.fee.burnFee w.core.fee.collector w.core.config.indexDenom fee ++
      [.send (redeemTo.getD info.sender) redeem]) =
      (if w.core.config.indexDenom = d then fee else 0) + total d redeem := by
    intro d
    rw [sent_append]
    simp only [sent]
    by_cases e : w.core.config.indexDenom = d
    · subst e
      rw [(sent_fee h5).1]
      simp
    · rw [sent_feeTransfer (fun h => e h.symm)]
      simp [e]
  have hsends : Sends (feeTransfer w.core.fee.burnFee w.core.fee.collector w.core.config.indexDenom fee ++
      [.send (redeemTo.getD info.sender) redeem]) := by
    intro m hm
    rcases List.mem_append.1 hm with hm | hm
    · exact sends_fee _ _ _ _ m hm
    · simp only [List.mem_singleton] at hm
      exact ⟨_, _, hm⟩
  constructor
  · rintro ⟨w', h⟩ d u hu
    have hdi : d ≠ w.core.config.indexDenom := fun e => by rw [e, hi] at hu; cases hu
    obtain ⟨b, core, ms', b', _, _, _, g4, g5, g6, rfl⟩ := apply_call.1 h
    rw [hx] at g5
    cases g5
    rw [hb] at g4
    cases g4
    rw [hms, List.append_assoc] at g6
    simp only [List.singleton_append, runMsgs, runMsg, bind_eq_ok, Bank.destroy, require_eq_ok, debit_eq_ok,
      Except.ok.injEq] at g6
    obtain ⟨_, ⟨b1, ⟨_, _, b2, ⟨_, rfl⟩, rfl⟩, rfl⟩, g7⟩ := g6
    have hle := last_send (sends_fee _ _ _ _) (sent_feeTransfer hdi) g7
    rw [h7 d u hu] at hle
    simp only [hdi, and_false, if_false, if_neg (Ne.symm hs), if_true, hfund d, if_neg (Ne.symm hdi)] at hle
    omega
  · intro hle
    have hsup : burnt ≤ w.bank.supply w.core.config.indexDenom := by rw [hw.supply]; omega
    obtain ⟨b', hb1, _⟩ := run_sends (self := w.self) hsends
      (b := { bal := fun a d => ((if a = info.sender then w.bank.bal a d - total d info.funds else w.bank.bal a d)
            + (if a = w.self then total d info.funds else 0)) -
              (if a = env.contract ∧ d = w.core.config.indexDenom then burnt else 0)
              supply := fun d => w.bank.supply d - (if d = w.core.config.indexDenom then burnt else 0) })
      (mk := market) (by
        intro d
        rw [hsent d]
        simp only [if_neg (Ne.symm hs), hc, if_true, true_and]
        by_cases e : w.core.config.indexDenom = d
        · subst e
          rw [h8 _ hi, hfund]
          simp only [if_true]
          omega
        · rw [hfund, if_neg e, if_neg e, if_neg (Ne.symm e)]
          cases hl : s'.indexUnits.lookup d with
          | none => rw [h8 d hl]; omega
          | some u => have := hle d u hl; rw [h7 d u hl]; omega)
    have hrun : runMsgs w.self { w.bank with bal := fun a d =>
        (if a = info.sender then w.bank.bal a d - total d info.funds else w.bank.bal a d)
          + (if a = w.self then total d info.funds else 0) } market ms = .ok b' := by
      rw [hms, List.append_assoc]
      simp only [List.singleton_append, runMsgs, runMsg, bind_eq_ok, Bank.destroy, require_eq_ok, debit_eq_ok,
        Except.ok.injEq]
      refine ⟨_, ⟨_, ⟨(), hsup, _, ⟨?_, rfl⟩, rfl⟩, rfl⟩, hb1⟩
      simp only [hc, if_neg (Ne.symm hs), if_true, hfund]
      omega
    exact ⟨_, apply_call.2 ⟨_, s', ms, b', hc, hs, hd, hb, hx, hrun, rfl⟩⟩

/-- Burning 5000 tokens settles after the mint; with the coins of the contract gone it does not. -/
example : txAccepted (runTxs demoWorld [.call (Demo.env 1000) Demo.mintInfo (.mint 10000 none none) []])
      (.call (Demo.env 1000) ⟨"alice", [⟨"factory/core/ibcx", 5000⟩]⟩ (.burn none) []) = true ∧
    txAccepted { core := Demo.s1, self := "core"
                 bank := { bal := fun a d => if a = "alice" ∧ d = "factory/core/ibcx" then 10000 else 0
                           supply := fun d => if d = "factory/core/ibcx" then 10000 else 0 } }
      (.call (Demo.env 1000) ⟨"alice", [⟨"factory/core/ibcx", 5000⟩]⟩ (.burn none) []) = false ∧
    accepted Demo.s1 ⟨Demo.env 1000, ⟨"alice", [⟨"factory/core/ibcx", 5000⟩]⟩, .burn none⟩ :=
  ⟨by decide +kernel, by decide +kernel, by decide +kernel⟩

/-- **C91 (burn, payment).** A burn that went through gave the redeemer exactly `⌊unit·burned⌋` of each asset of the
basket, for the tokens attached. -/
theorem C91_burn_exchange {w w' : World} (hw : WInv w) {env : Env} {info : Info} {redeemTo : Option Addr}
    {market : List Nat} (hdst : redeemTo.getD info.sender ≠ w.self)
    (h : apply w (.call env info (.burn redeemTo) market) = .ok w')
    (hi : w'.core.indexUnits.lookup w.core.config.indexDenom = none) :
    ∃ received, info.funds = [⟨w.core.config.indexDenom, received⟩] ∧ received ≤ w.bank.bal info.sender w.core.config.indexDenom ∧
      w'.core.totalSupply ≤ w.core.totalSupply ∧
      (∀ d u, w'.core.indexUnits.lookup d = some u → w'.bank.bal (redeemTo.getD info.sender) d =
        w.bank.bal (redeemTo.getD info.sender) d + part u (w.core.totalSupply - w'.core.totalSupply)) ∧
      (info.sender ≠ w.core.fee.collector → w'.bank.bal info.sender w.core.config.indexDenom + received =
        w.bank.bal info.sender w.core.config.indexDenom) := by
  obtain ⟨b, core, ms, b', hc, hs, _, g4, g5, g6, rfl⟩ := apply_call.1 h
  obtain ⟨hown, rfl⟩ := send_eq_ok.1 g4
  obtain ⟨received, fee, burnt, redeem, h1, h2, h3, h4, h5, h6, hms, _, _, h7, h8⟩ := C04_burn_pays_exact_basket hw.reach g5
  dsimp only at hi ⊢
  have hfund : ∀ d, total d info.funds = if w.core.config.indexDenom = d then received else 0 := by
    intro d; rw [h1, total_one]
  refine ⟨received, h1, by have := hown w.core.config.indexDenom; rwa [hfund, if_pos rfl] at this, by omega, ?_⟩
  rw [show w.core.totalSupply - core.totalSupply = burnt by omega]
  rw [hms, List.append_assoc] at g6
  simp only [List.singleton_append, runMsgs, runMsg, bind_eq_ok, Bank.destroy, require_eq_ok, debit_eq_ok,
    Except.ok.injEq] at g6
  obtain ⟨_, ⟨b1, ⟨_, _, b2, ⟨_, rfl⟩, rfl⟩, rfl⟩, g7⟩ := g6
  have hbal := sends_credit (by
    intro m hm
    rcases List.mem_append.1 hm with hm | hm
    · exact sends_fee _ _ _ _ m hm
    · simp only [List.mem_singleton] at hm
      exact ⟨_, _, hm⟩) g7
  constructor
  · intro d u hu
    have hdi : d ≠ w.core.config.indexDenom := fun e => by rw [e, hi] at hu; cases hu
    have h0 : sentTo (redeemTo.getD info.sender) d
        (feeTransfer w.core.fee.burnFee w.core.fee.collector w.core.config.indexDenom fee) = 0 := by
      have := sentTo_le_sent (redeemTo.getD info.sender) d
        (feeTransfer w.core.fee.burnFee w.core.fee.collector w.core.config.indexDenom fee)
      rw [sent_feeTransfer hdi] at this
      omega
    have e1 := hbal _ d hdst
    rw [sentTo_append, h0] at e1
    rw [e1]
    simp [sentTo, h7 d u hu, hdi, hfund, Ne.symm hdi, hdst]
  · intro hcol
    have e1 := hbal _ w.core.config.indexDenom hs
    rw [sentTo_append, (sent_fee h5).2, if_neg (Ne.symm hcol)] at e1
    have := hown w.core.config.indexDenom
    rw [hfund, if_pos rfl] at this
    simp [sentTo, h8 _ hi, hfund, hs, hc] at e1
    omega

/-- Alice burns 5000 of the tokens: 4900 are redeemed after the fee. -/
example : (apply (runTxs demoWorld [.call (Demo.env 1000) Demo.mintInfo (.mint 10000 none none) []])
      (.call (Demo.env 1000) ⟨"alice", [⟨"factory/core/ibcx", 5000⟩]⟩ (.burn none) [])).map
      (fun w => (w.core.totalSupply, w.bank.bal "alice" "uosmo", w.bank.bal "alice" "uatom",
        w.bank.bal "alice" "factory/core/ibcx")) = .ok (5100, 12350, 2725, 4900) := by
  decide +kernel

/-- **C91 (burns are paid).** Let all stored routes have one hop.  After any history, a burn that the contract accepts
and whose tokens the sender owns goes through, provided that for each asset of the basket the remaining index tokens
and the uncollected fee stand for at least the rounding losses so far: less than one base unit for each mint, plus, for
the reserve denom, the rounding of purchases during rebalances. -/
theorem C91_burn_always_paid {w0 : World} {txs : List Tx} (h0 : Start w0) (ho : OneHop txs) {env : Env} {info : Info}
    {redeemTo : Option Addr} {s' : State} {ms : List Msg} (market : List Nat) (hc : env.contract = w0.self)
    (hs : info.sender ≠ w0.self) (hown : ∀ d, total d info.funds ≤ (runTxs w0 txs).bank.bal info.sender d)
    (hx : execute (runTxs w0 txs).core env info (.burn redeemTo) = .ok (s', ms))
    (hi : s'.indexUnits.lookup w0.core.config.indexDenom = none)
    (hleft : ∀ d u, s'.indexUnits.lookup d = some u →
      999999999999999999 * mintCount w0 txs + swapDust d w0 txs ≤
        u * s'.totalSupply + 1000000000000000000 * uncollected s' d) :
    ∃ w', apply (runTxs w0 txs) (.call env info (.burn redeemTo) market) = .ok w' := by
  obtain ⟨hw, hself, hden⟩ := winv_run (start_inv h0) txs
  refine (C91_burn_settles_iff hw market (by rw [hself]; exact hc) (by rw [hself]; exact hs) hown hx
    (by rw [hden]; exact hi)).2 ?_
  intro d u hu
  have hdi : d ≠ w0.core.config.indexDenom := fun e => by rw [e, hi] at hu; cases hu
  have hcov := C06_collateral_partial w0 txs h0 ho d hdi
  have hq' : owed s' d + 1000000000000000000 * sent d ms ≤ owed (runTxs w0 txs).core d :=
    owed_burn hw.reach hx (by rw [hden]; exact hdi)
  obtain ⟨received, fee, burnt, redeem, h1, h2, h3, h4, h5, h6, hms, _, _, h7, h8⟩ := C04_burn_pays_exact_basket hw.reach hx
  have hsent : sent d ms = part u burnt := by
    rw [hms]
    simp [sent_append, sent, sent_feeTransfer (d := d) (i := (runTxs w0 txs).core.config.indexDenom) (by rw [hden]; exact hdi),
      h7 d u hu]
  rw [show (runTxs w0 txs).core.totalSupply - s'.totalSupply = burnt by omega, ← hsent, hself]
  have hl := hleft d u hu
  have howed : u * s'.totalSupply + 1000000000000000000 * uncollected s' d ≤ owed s' d := by
    unfold owed
    have : unitIn s' d = u := by simp [unitIn, hu]
    rw [this]
    exact Nat.add_le_add_right (Nat.mul_le_mul_right _ (Nat.le_add_right _ _)) _
  omega

/-- After one mint of 10000 tokens a redemption of 4900 leaves enough: 5100 tokens are outstanding. -/
example : Start demoWorld ∧ mintCount demoWorld [.call (Demo.env 1000) Demo.mintInfo (.mint 10000 none none) []] = 1 ∧
    999999999999999999 * 1 + 0 ≤ 250000000000000000 * 5100 :=
  ⟨demoWorld_start, by decide +kernel, by decide⟩

/-- **C91 (fee payment).** When the contract accepts the collector's request for the streaming fee, the transaction goes
through exactly when the contract holds the fee accrued up to then, and the collector receives it. -/
theorem C91_realize_settles_iff {w : World} {env : Env} {info : Info} {s' s1 : State} {ms : List Msg} (market : List Nat)
    (hc : env.contract = w.self) (hs : info.sender ≠ w.self) (hf : info.funds = [])
    (hx : execute w.core env info .realize = .ok (s', ms)) (h1 : collectStreamingFee w.core env.now = .ok s1) :
    ((∃ w', apply w (.call env info .realize market) = .ok w') ↔ ∀ d, uncollected s1 d ≤ w.bank.bal w.self d) ∧
    ∀ w', apply w (.call env info .realize market) = .ok w' →
      ∀ d, w'.bank.bal info.sender d = w.bank.bal info.sender d + uncollected s1 d := by
  obtain ⟨hsend, s1', h1', hsent, _, _⟩ := C14_realize_pays_recorded hx
  rw [h1] at h1'
  cases h1'
  have hshape : ms = [] ∨ ∃ cs, ms = [.send w.core.fee.collector cs] := by
    obtain ⟨s2, g1, g2⟩ := execute_eq_ok.1 hx
    have f := collectStreamingFee_frame g1
    obtain ⟨_, ⟨_, _, rfl⟩ | ⟨sf, _, _, rfl⟩⟩ := realize_eq_ok.1 g2
    · exact .inl rfl
    · exact .inr ⟨_, by rw [f.2.2.2.2.2.2.1]⟩
  have hown : ∀ d, total d info.funds ≤ w.bank.bal info.sender d := by rw [hf]; intro d; simp
  have hb := (send_eq_ok (dst := w.self)).2 ⟨hown, rfl⟩
  have hsends : Sends ms := by
    rcases hshape with rfl | ⟨cs, rfl⟩
    · intro m hm; cases hm
    · intro m hm
      simp only [List.mem_singleton] at hm
      exact ⟨_, _, hm⟩
  refine ⟨⟨?_, ?_⟩, ?_⟩
  · rintro ⟨w', h⟩ d
    obtain ⟨b, core, ms', b', _, _, _, g4, g5, g6, rfl⟩ := apply_call.1 h
    rw [hx] at g5
    cases g5
    rw [hb] at g4
    cases g4
    rw [← (hsent d).1]
    rcases hshape with rfl | ⟨cs, rfl⟩
    · simp [sent]
    · have := last_send (fs := []) (by intro m hm; cases hm) (d := d) rfl g6
      simp only [if_neg (Ne.symm hs), if_true, hf, total_nil] at this
      simpa [sent] using this
  · intro hle
    obtain ⟨b', hb1, _⟩ := run_sends (self := w.self) hsends
      (b := { w.bank with bal := fun a d =>
        (if a = info.sender then w.bank.bal a d - total d info.funds else w.bank.bal a d)
          + (if a = w.self then total d info.funds else 0) }) (mk := market) (by
        intro d
        rw [(hsent d).1]
        have := hle d
        simp only [if_neg (Ne.symm hs), if_true, hf, total_nil]
        omega)
    exact ⟨_, apply_call.2 ⟨_, s', ms, b', hc, hs, by rw [hf]; simp [distinct], hb, hx, hb1, rfl⟩⟩
  · intro w' h d
    obtain ⟨b, core, ms', b', _, _, _, g4, g5, g6, rfl⟩ := apply_call.1 h
    rw [hx] at g5
    cases g5
    rw [hb] at g4
    cases g4
    have := sends_credit hsends g6 info.sender d hs
    rw [this, hsend, (hsent d).2.1]
    simp [hf]

/-- Alice's mint of the demo. -/
def settleTxs : List Tx := [.call (Demo.env 1000) Demo.mintInfo (.mint 10000 none none) []]

/-- The mint goes through: alice pays 15000 uosmo and 2500 uatom and gets 9900 tokens, the collector 100. -/
example : txAccepted demoWorld (.call (Demo.env 1000) Demo.mintInfo (.mint 10000 none none) []) = true ∧
    ((runTxs demoWorld settleTxs).bank.bal "alice" "uosmo", (runTxs demoWorld settleTxs).bank.bal "alice" "uatom",
      (runTxs demoWorld settleTxs).bank.bal "alice" "factory/core/ibcx",
      (runTxs demoWorld settleTxs).bank.bal "collector" "factory/core/ibcx") = (5000, 1500, 9900, 100) :=
  ⟨by decide +kernel, by decide +kernel⟩

/-- The burn of 5000 tokens afterwards meets the hypotheses of `C91_burn_always_paid`: the 5100 remaining tokens stand
for more than the rounding loss of one mint. -/
example : ∃ w', apply (runTxs demoWorld settleTxs)
    (.call (Demo.env 1000) ⟨"alice", [⟨"factory/core/ibcx", 5000⟩]⟩ (.burn none) []) = .ok w' := by
  have hx : ∃ s' ms, execute (runTxs demoWorld settleTxs).core (Demo.env 1000)
      ⟨"alice", [⟨"factory/core/ibcx", 5000⟩]⟩ (.burn none) = .ok (s', ms) ∧
      s'.indexUnits = [("uosmo", 1500000000000000000), ("uatom", 250000000000000000)] ∧ s'.totalSupply = 5100 := by
    refine ⟨{ Demo.s1 with totalSupply := 5100 },
      [.tfBurn "core" "core" ⟨"factory/core/ibcx", 4900⟩, .send "collector" [⟨"factory/core/ibcx", 100⟩],
       .send "alice" [⟨"uatom", 1225⟩, ⟨"uosmo", 7350⟩]], by decide +kernel, rfl, rfl⟩
  obtain ⟨s', ms, hx, hu, ht⟩ := hx
  refine C91_burn_always_paid demoWorld_start ?_ [] rfl (by decide) ?_ hx (by rw [hu]; decide) ?_
  · intro env info d rs c m market h
    simp [settleTxs] at h
  · have hb : (runTxs demoWorld settleTxs).bank.bal "alice" "factory/core/ibcx" = 9900 := by decide +kernel
    intro d
    by_cases hd : "factory/core/ibcx" = d
    · subst hd
      rw [hb]
      simp [total_one]
    · simp [total_one, hd]
  · have hm : mintCount demoWorld settleTxs = 1 := by decide +kernel
    intro d u h
    have hd : swapDust d demoWorld settleTxs = 0 := by simp [swapDust, settleTxs]
    rw [hu] at h
    rw [hm, hd, ht]
    simp only [List.lookup] at h
    split at h
    · cases h; omega
    · split at h
      · cases h; omega
      · cases h

/-- At time 1000000 the collector is paid the streaming fee that accrued since the mint. -/
example : txAccepted (runTxs demoWorld settleTxs) (.call (Demo.env 1000000) ⟨"collector", []⟩ .realize []) = true ∧
    ((deliver (runTxs demoWorld settleTxs) (.call (Demo.env 1000000) ⟨"collector", []⟩ .realize [])).bank.bal
      "collector" "uosmo" > 0) :=
  ⟨by decide +kernel, by decide +kernel⟩

end Ibcx.Props
