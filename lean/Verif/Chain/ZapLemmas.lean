import Verif.Chain.ZapWorld
import Verif.Chain.Lemmas
import Verif.Props.ZapBasket
/-!
# Lemmas about calls of the periphery

Not part of the model.
-/

namespace Ibcx.Chain
open Ibcx Ibcx.Core Ibcx.Spec Ibcx.Props Ibcx.Periphery

/-- The message buys an exact amount for `self` with `input`. -/
def BuysWith (self : Addr) (input : Denom) (m : Msg) : Prop :=
  ∃ r rs out limit, m = .swapExactOut self (r :: rs) out limit ∧ r.tokenDenom = input ∧ out.denom ≠ input

/-- The message sells an exact amount of `self` for `output`. -/
def SellsFor (self : Addr) (output : Denom) (m : Msg) : Prop :=
  ∃ routes last inp least, m = .swapExactIn self routes inp least ∧ routes.getLast? = some last ∧
    last.tokenDenom = output ∧ inp.denom ≠ output

/-- The coin bought by a message. -/
def boughtCoin : Msg → Coin
  | .swapExactOut _ _ c _ => c
  | _ => ⟨"", 0⟩

/-- The coin sold by a message. -/
def soldCoin : Msg → Coin
  | .swapExactIn _ _ c _ => c
  | _ => ⟨"", 0⟩

theorem total_cons (d : Denom) (c : Coin) (cs : List Coin) :
    total d (c :: cs) = (if c.denom = d then c.amount else 0) + total d cs := by
  rw [total_eq, total_eq]; rfl

/-- Swaps of the periphery only change its own balances. -/
theorem runPMsgs_swaps {pool : Nat → Res (Option Pool.Pool)} {env : Env} :
    ∀ {ms : List Msg} {rest : List PMsg} {w w' : ZWorld} {market : List Nat},
    (∀ m ∈ ms, (∃ r o l, m = .swapExactOut w.zap r o l) ∨ ∃ r i l, m = .swapExactIn w.zap r i l) →
    runPMsgs pool env w market (ms.map PMsg.chain ++ rest) = .ok w' →
    ∃ b mk, b.supply = w.bank.supply ∧ (∀ a d, a ≠ w.zap → b.bal a d = w.bank.bal a d) ∧
      runPMsgs pool env { w with bank := b } mk rest = .ok w' := by
  intro ms
  induction ms with
  | nil => intro rest w w' market _ h; exact ⟨w.bank, market, rfl, fun _ _ _ => rfl, h⟩
  | cons m ms ih =>
    intro rest w w' market hm h
    simp only [List.map_cons, List.cons_append, runPMsgs, bind_eq_ok, runPMsg, Except.ok.injEq] at h
    obtain ⟨⟨w1, mk1⟩, ⟨⟨b1, mk2⟩, h1, h2⟩, h3⟩ := h
    cases h2
    obtain ⟨b, mk, i1, i2, i3⟩ := ih (w := { w with bank := b1 }) (fun m hm' => hm m (List.mem_cons_of_mem _ hm')) h3
    have hstep : b1.supply = w.bank.supply ∧ ∀ a d, a ≠ w.zap → b1.bal a d = w.bank.bal a d := by
      rcases hm m List.mem_cons_self with ⟨r, o, l, rfl⟩ | ⟨r, i, l, rfl⟩
      · simp only [runMsg] at h1
        split at h1
        · simp only [bind_eq_ok, require_eq_ok, debit_eq_ok, Except.ok.injEq] at h1
          obtain ⟨_, _, _, _, _, ⟨_, rfl⟩, h1⟩ := h1
          cases h1
          exact ⟨rfl, fun a d ha => by simp [Bank.credit, ha]⟩
        · cases h1
      · simp only [runMsg] at h1
        split at h1
        · simp only [bind_eq_ok, require_eq_ok, debit_eq_ok, Except.ok.injEq] at h1
          obtain ⟨_, _, _, _, _, ⟨_, rfl⟩, h1⟩ := h1
          cases h1
          exact ⟨rfl, fun a d ha => by simp [Bank.credit, ha]⟩
        · cases h1
    exact ⟨b, mk, i1.trans hstep.1, fun a d ha => (i2 a d ha).trans (hstep.2 a d ha), i3⟩

/-- Purchases with one denom: others' balances are unchanged, the periphery loses at most the limits of that denom and
gains the bought coins. -/
theorem runPMsgs_buys {pool : Nat → Res (Option Pool.Pool)} {env : Env} {input : Denom} :
    ∀ {ms : List Msg} {rest : List PMsg} {w w' : ZWorld} {market : List Nat},
    (∀ m ∈ ms, BuysWith w.zap input m) →
    runPMsgs pool env w market (ms.map PMsg.chain ++ rest) = .ok w' →
    ∃ b mk spent, b.supply = w.bank.supply ∧ (∀ a d, a ≠ w.zap → b.bal a d = w.bank.bal a d) ∧
      spent ≤ (ms.map spendLimit).sum ∧ b.bal w.zap input + spent = w.bank.bal w.zap input ∧
      (∀ d, d ≠ input → b.bal w.zap d = w.bank.bal w.zap d + total d (ms.map boughtCoin)) ∧
      runPMsgs pool env { w with bank := b } mk rest = .ok w' := by
  intro ms
  induction ms with
  | nil =>
    intro rest w w' market _ h
    exact ⟨w.bank, market, 0, rfl, fun _ _ _ => rfl, by simp, by simp, fun d _ => by simp, h⟩
  | cons m ms ih =>
    intro rest w w' market hm h
    simp only [List.map_cons, List.cons_append, runPMsgs, bind_eq_ok, runPMsg, Except.ok.injEq] at h
    obtain ⟨⟨w1, mk1⟩, ⟨⟨b1, mk2⟩, h1, h2⟩, h3⟩ := h
    cases h2
    obtain ⟨b, mk, spent, i1, i2, i3, i4, i5, i6⟩ :=
      ih (w := { w with bank := b1 }) (fun m hm' => hm m (List.mem_cons_of_mem _ hm')) h3
    obtain ⟨r, rs, out, limit, rfl, rfl, hne⟩ := hm m List.mem_cons_self
    simp only [runMsg] at h1
    split at h1
    · rename_i x1 x2 sp market' first rs' hr
      cases hr
      simp only [bind_eq_ok, require_eq_ok, debit_eq_ok, Except.ok.injEq] at h1
      obtain ⟨_, _, _, hle, _, ⟨hb, rfl⟩, h1⟩ := h1
      cases h1
      refine ⟨b, mk, sp + spent, i1, fun a d ha => ?_, ?_, ?_, ?_, i6⟩
      · rw [i2 a d ha]; simp [Bank.credit, ha]
      · simp only [List.map_cons, List.sum_cons, spendLimit]; omega
      · simp only [Bank.credit] at i4 hb
        have : ¬ (r.tokenDenom = out.denom) := fun e => hne e.symm
        simp only [this, and_false, if_false, and_self, if_true] at i4
        omega
      · intro d hd
        have := i5 d hd
        simp only [Bank.credit] at this
        simp only [hd, and_false, if_false, true_and] at this
        rw [this, List.map_cons, boughtCoin, total_cons]
        by_cases e : d = out.denom
        · simp [e]; omega
        · have e' : ¬ out.denom = d := fun h => e h.symm
          simp [e, e']
    · cases h1

/-- Sales for one denom: others' balances are unchanged, the periphery loses the sold coins and gains at least the
guaranteed proceeds. -/
theorem runPMsgs_sells {pool : Nat → Res (Option Pool.Pool)} {env : Env} {output : Denom} :
    ∀ {ms : List Msg} {rest : List PMsg} {w w' : ZWorld} {market : List Nat},
    (∀ m ∈ ms, SellsFor w.zap output m) →
    runPMsgs pool env w market (ms.map PMsg.chain ++ rest) = .ok w' →
    ∃ b mk got, b.supply = w.bank.supply ∧ (∀ a d, a ≠ w.zap → b.bal a d = w.bank.bal a d) ∧
      (ms.map leastProceeds).sum ≤ got ∧ b.bal w.zap output = w.bank.bal w.zap output + got ∧
      (∀ d, d ≠ output → b.bal w.zap d + total d (ms.map soldCoin) = w.bank.bal w.zap d) ∧
      runPMsgs pool env { w with bank := b } mk rest = .ok w' := by
  intro ms
  induction ms with
  | nil =>
    intro rest w w' market _ h
    exact ⟨w.bank, market, 0, rfl, fun _ _ _ => rfl, by simp, by simp, fun d _ => by simp, h⟩
  | cons m ms ih =>
    intro rest w w' market hm h
    simp only [List.map_cons, List.cons_append, runPMsgs, bind_eq_ok, runPMsg, Except.ok.injEq] at h
    obtain ⟨⟨w1, mk1⟩, ⟨⟨b1, mk2⟩, h1, h2⟩, h3⟩ := h
    cases h2
    obtain ⟨b, mk, got, i1, i2, i3, i4, i5, i6⟩ :=
      ih (w := { w with bank := b1 }) (fun m hm' => hm m (List.mem_cons_of_mem _ hm')) h3
    obtain ⟨routes, last, inp, least, rfl, hl, rfl, hne⟩ := hm m List.mem_cons_self
    simp only [runMsg] at h1
    split at h1
    · rename_i x1 x2 out market' last' hr
      rw [hl] at hr
      cases hr
      simp only [bind_eq_ok, require_eq_ok, debit_eq_ok, Except.ok.injEq] at h1
      obtain ⟨_, _, _, hle, _, ⟨hb, rfl⟩, h1⟩ := h1
      cases h1
      refine ⟨b, mk, out + got, i1, fun a d ha => ?_, ?_, ?_, ?_, i6⟩
      · rw [i2 a d ha]; simp [Bank.credit, ha]
      · simp only [List.map_cons, List.sum_cons, leastProceeds]; omega
      · simp only [Bank.credit] at i4
        have : ¬ (last.tokenDenom = inp.denom) := fun e => hne e.symm
        simp only [this, and_false, if_false, and_self, if_true] at i4
        omega
      · intro d hd
        have := i5 d hd
        simp only [Bank.credit] at this
        simp only [hd, and_false, if_false, true_and] at this
        rw [List.map_cons, soldCoin, total_cons]
        by_cases e : d = inp.denom
        · subst e
          simp only [if_true] at this ⊢
          omega
        · have e' : ¬ inp.denom = d := fun h => e h.symm
          simp only [e, e', if_false] at this ⊢
          omega
    · cases h1

/-- The last step of an operation: the periphery's whole balance of the asset goes to the recipient. -/
theorem runPMsg_finish {pool : Nat → Res (Option Pool.Pool)} {env : Env} {w w' : ZWorld} {market mk : List Nat}
    {to' : Addr} {asset : Denom} (hne : to' ≠ w.zap)
    (h : runPMsg pool env w market (.finish to' asset) = .ok (w', mk)) :
    env.contract = w.zap ∧ mk = market ∧ ∃ b, w' = { w with bank := b } ∧ b.supply = w.bank.supply ∧
      b.bal w.zap asset = 0 ∧ b.bal to' asset = w.bank.bal to' asset + w.bank.bal w.zap asset ∧
      (∀ a d, d ≠ asset → b.bal a d = w.bank.bal a d) ∧
      (∀ a d, a ≠ w.zap → a ≠ to' → b.bal a d = w.bank.bal a d) := by
  simp only [runPMsg, Periphery.execute, bind_eq_ok, finishOperation_eq_ok] at h
  obtain ⟨ms, ⟨h1, h2, rfl⟩, h3⟩ := h
  simp only [bind_eq_ok, runMsg, Except.ok.injEq, Prod.mk.injEq, send_eq_ok] at h3
  obtain ⟨⟨b, mk'⟩, ⟨b', ⟨_, rfl⟩, rfl, rfl⟩, rfl, rfl⟩ := h3
  have hne' : ¬ (w.zap = to') := fun e => hne e.symm
  refine ⟨h1.symm, rfl, _, rfl, rfl, ?_, ?_, ?_, ?_⟩
  · simp [ZWorld.penv, total_cons, hne']
  · simp [ZWorld.penv, total_cons, hne]
  · intro a d hd
    have : ¬ asset = d := fun e => hd e.symm
    simp [total_cons, this]
  · intro a d ha hb
    simp [ha, hb]

/-- A transfer, denom by denom. -/
theorem send_move {b b' : Bank} {src dst : Addr} {cs : List Coin} (h : b.send src dst cs = .ok b') (a : Addr)
    (d : Denom) : b'.bal a d + (if a = src then total d cs else 0) = b.bal a d + (if a = dst then total d cs else 0) := by
  obtain ⟨h1, rfl⟩ := send_eq_ok.1 h
  have := h1 d
  simp only
  by_cases ha : a = src
  · subst ha; simp only [if_true]; omega
  · simp only [ha, if_false]; omega

/-- A transfer of one coin. -/
theorem send_move_one {b b' : Bank} {src dst : Addr} {x : Denom} {n : Nat} (h : b.send src dst [⟨x, n⟩] = .ok b')
    (a : Addr) (d : Denom) : b'.bal a d + (if a = src ∧ d = x then n else 0) =
      b.bal a d + (if a = dst ∧ d = x then n else 0) := by
  have := send_move h a d
  simp only [total_cons, total_nil, Nat.add_zero] at this
  by_cases e : d = x
  · subst e; simpa using this
  · have e' : ¬ x = d := fun h => e h.symm
    simp only [e', if_false, ite_self] at this
    simpa [e] using this

/-- A mint by the periphery with the exact basket, with all bank movements. -/
theorem callCore_mint {w w' : ZWorld} {env : Env} {s1 : Core.State} {n : Nat} {user : Addr} (hr : Reachable w.core)
    (hz : w.zap ≠ w.coreAddr) (hc : collectStreamingFee w.core env.now = .ok s1)
    (hp : ∃ port, getPortfolio w.core env none = .ok port)
    (hlt : ∀ e ∈ s1.indexUnits, part e.2 n < 2 ^ 128)
    (h : callCore w env w.coreAddr (.mint n (some user) (some user)) (sortCoins (basket s1.indexUnits n)) = .ok w') :
    (∀ e ∈ s1.indexUnits, 1 ≤ part e.2 n) ∧ mintFeeOf w.core n ≤ n ∧
    (∀ d, total d (basket s1.indexUnits n) ≤ w.bank.bal w.zap d) ∧
    ∃ b, w' = { w with core := { s1 with totalSupply := w.core.totalSupply + n }, bank := b } ∧
      ∀ a d, b.bal a d + (if a = w.zap then total d (basket s1.indexUnits n) else 0) =
        w.bank.bal a d + (if a = w.coreAddr then total d (basket s1.indexUnits n) else 0) +
          (if d = w.core.config.indexDenom then
            (if a = user then n - mintFeeOf w.core n else 0) +
            (if a = w.core.fee.collector then mintFeeOf w.core n else 0) else 0) := by
  obtain ⟨port, hport⟩ := hp
  have hpu : port.units = s1.indexUnits := by
    obtain ⟨s1', h1, h2⟩ := getPortfolio_units hport
    rw [hc] at h1; cases h1; exact h2
  simp only [callCore, bind_eq_ok, require_eq_ok, Except.ok.injEq, true_and] at h
  obtain ⟨_, b1, hsend, ⟨core', ms⟩, hex, b2, hrun, rfl⟩ := h
  have hport' : getPortfolio w.core { env with contract := w.coreAddr } none = .ok port := hport
  obtain ⟨h1, _, _, _, hfee, _, ⟨s1', hc', rfl⟩, rfl⟩ := (C46_basket_accepted_iff hr hport'
    (by rw [hpu]; exact basketCoins_eq_ok.2 ⟨hlt, rfl⟩)).1 hex
  rw [hpu] at h1
  have : s1' = s1 := by
    have : collectStreamingFee w.core env.now = .ok s1' := hc'
    rw [hc] at this; cases this; rfl
  subst this
  have hle : ∀ d, total d (basket s1'.indexUnits n) ≤ w.bank.bal w.zap d := by
    intro d
    have := (send_eq_ok.1 hsend).1 d
    change total d (attached (sortCoins (basket s1'.indexUnits n))) ≤ _ at this
    rwa [total_attached, total_sortCoins] at this
  refine ⟨h1, hfee, hle, b2, rfl, ?_⟩
  intro a d
  have e1 := send_move hsend a d
  change b1.bal a d + (if a = w.zap then total d (attached (sortCoins (basket s1'.indexUnits n))) else 0) =
    w.bank.bal a d + (if a = w.coreAddr then total d (attached (sortCoins (basket s1'.indexUnits n))) else 0) at e1
  rw [total_attached, total_sortCoins] at e1
  generalize total d (basket s1'.indexUnits n) = k at *
  generalize hf : mintFeeOf w.core n = fee at *
  replace hrun : runMsgs w.coreAddr b1 [] (.tfMint w.coreAddr w.coreAddr ⟨w.core.config.indexDenom, n⟩ ::
      (feeTransfer w.core.fee.mintFee w.core.fee.collector w.core.config.indexDenom fee ++
        [.send user [⟨w.core.config.indexDenom, n - fee⟩], .send user []])) = .ok b2 := hrun
  rw [runMsgs] at hrun
  simp only [runMsg, ok_bind] at hrun
  obtain ⟨b3, hrun, e3⟩ : ∃ b3, runMsgs w.coreAddr b3 [] [.send user [⟨w.core.config.indexDenom, n - fee⟩], .send user []]
      = .ok b2 ∧ b3.bal a d + (if a = w.coreAddr ∧ d = w.core.config.indexDenom then fee else 0) =
        (b1.create w.coreAddr ⟨w.core.config.indexDenom, n⟩).bal a d +
          (if a = w.core.fee.collector ∧ d = w.core.config.indexDenom then fee else 0) := by
    cases hmf : w.core.fee.mintFee with
    | none =>
      have hf0 : fee = 0 := by rw [← hf]; simp [mintFeeOf, hmf]
      rw [hmf] at hrun
      exact ⟨_, hrun, by simp [hf0]⟩
    | some v =>
      rw [hmf] at hrun
      rw [feeTransfer, List.singleton_append, runMsgs] at hrun
      simp only [runMsg, bind_eq_ok, Except.ok.injEq] at hrun
      obtain ⟨_, ⟨b3, hb3, rfl⟩, hrun⟩ := hrun
      refine ⟨b3, ?_, ?_⟩
      · exact hrun
      · exact send_move_one hb3 a d
  simp only [runMsgs, runMsg, bind_eq_ok, ok_bind, Except.ok.injEq] at hrun
  obtain ⟨_, ⟨b4, hb4, rfl⟩, _, ⟨b5, hb5, rfl⟩, rfl⟩ := hrun
  have e4 := send_move_one hb4 a d
  have e5 := send_move hb5 a d
  simp only [total_nil, ite_self, Nat.add_zero] at e5
  simp only [Bank.create] at e3
  rw [e5]
  by_cases hd : d = w.core.config.indexDenom
  · simp only [hd, and_true, if_true] at e1 e3 e4 ⊢
    split_ifs at e1 e3 e4 ⊢ <;> omega
  · simp only [hd, and_false, if_false] at e1 e3 e4 ⊢
    split_ifs at e1 e3 e4 ⊢ <;> omega

/-- A burn by the periphery, with all bank movements. -/
theorem callCore_burn {w w' : ZWorld} {env : Env} {s1 : Core.State} {x : Nat} (hr : Reachable w.core)
    (hc : collectStreamingFee w.core env.now = .ok s1)
    (h : callCore w env w.coreAddr (.burn none) [⟨w.core.config.indexDenom, x⟩] = .ok w') :
    x ≠ 0 ∧ burnFeeOf w.core x ≤ x ∧ x - burnFeeOf w.core x ≤ w.core.totalSupply ∧
    ∃ b, w' = { w with core := { s1 with totalSupply := w.core.totalSupply - (x - burnFeeOf w.core x) }, bank := b } ∧
      ∀ a d, b.bal a d + (if a = w.zap ∧ d = w.core.config.indexDenom then x else 0) +
          (if a = w.coreAddr then total d (basket s1.indexUnits (x - burnFeeOf w.core x)) else 0) =
        w.bank.bal a d + (if a = w.zap then total d (basket s1.indexUnits (x - burnFeeOf w.core x)) else 0) +
          (if a = w.core.fee.collector ∧ d = w.core.config.indexDenom then burnFeeOf w.core x else 0) := by
  simp only [callCore, bind_eq_ok, require_eq_ok, Except.ok.injEq, true_and] at h
  obtain ⟨_, b1, hsend, ⟨core', ms⟩, hex, b2, hrun, rfl⟩ := h
  obtain ⟨s1', received, hc', _, _, _, hf, h0, _, _, hsup, rfl, rfl⟩ := (burn_accepted_iff hr).1 hex
  have : s1' = s1 := by
    have : collectStreamingFee w.core env.now = .ok s1' := hc'
    rw [hc] at this; cases this; rfl
  subst this
  by_cases hx : x = 0
  · subst hx
    have hf' : ([] : List Coin) = [⟨w.core.config.indexDenom, received⟩] := hf
    cases hf'
  have hfilt : ([⟨w.core.config.indexDenom, x⟩] : List Coin).filter (fun c => c.amount ≠ 0) =
      [⟨w.core.config.indexDenom, x⟩] := by simp [hx]
  rw [hfilt] at hsend
  have hrx : received = x := by
    have hf' : ([⟨w.core.config.indexDenom, x⟩] : List Coin).filter (fun c => c.amount ≠ 0) =
      [⟨w.core.config.indexDenom, received⟩] := hf
    rw [hfilt] at hf'
    simp at hf'
    exact hf'.symm
  subst hrx
  have hfee := burnFeeOf_le hr.inv received
  refine ⟨hx, hfee, hsup, b2, rfl, ?_⟩
  intro a d
  have e1 := send_move_one hsend a d
  replace hrun : runMsgs w.coreAddr b1 [] (.tfBurn w.coreAddr w.coreAddr
        ⟨w.core.config.indexDenom, received - burnFeeOf w.core received⟩ ::
      (feeTransfer w.core.fee.burnFee w.core.fee.collector w.core.config.indexDenom (burnFeeOf w.core received) ++
        [.send w.zap (sortCoins (basket s1'.indexUnits (received - burnFeeOf w.core received)))])) = .ok b2 := hrun
  generalize hf : burnFeeOf w.core received = fee at *
  rw [runMsgs] at hrun
  simp only [runMsg, bind_eq_ok, Bank.destroy, require_eq_ok, debit_eq_ok, Except.ok.injEq] at hrun
  obtain ⟨⟨b2', mk⟩, ⟨b3, ⟨_, _, b4, ⟨hdeb, rfl⟩, rfl⟩, h2⟩, hrun⟩ := hrun
  cases h2
  simp only at hrun
  obtain ⟨b3, hrun, e3⟩ : ∃ b3, runMsgs w.coreAddr b3 []
        [.send w.zap (sortCoins (basket s1'.indexUnits (received - fee)))]
      = .ok b2 ∧ b3.bal a d + (if a = w.coreAddr ∧ d = w.core.config.indexDenom then fee else 0) =
        (b1.bal a d - (if a = w.coreAddr ∧ d = w.core.config.indexDenom then received - fee else 0)) +
          (if a = w.core.fee.collector ∧ d = w.core.config.indexDenom then fee else 0) := by
    cases hmf : w.core.fee.burnFee with
    | none =>
      have hf0 : fee = 0 := by rw [← hf]; simp [burnFeeOf, hmf]
      rw [hmf] at hrun
      exact ⟨_, hrun, by simp [hf0]⟩
    | some v =>
      rw [hmf] at hrun
      rw [feeTransfer, List.singleton_append, runMsgs] at hrun
      simp only [runMsg, bind_eq_ok, Except.ok.injEq] at hrun
      obtain ⟨_, ⟨b3, hb3, rfl⟩, hrun⟩ := hrun
      exact ⟨b3, hrun, send_move_one hb3 a d⟩
  rw [runMsgs] at hrun
  simp only [runMsgs, runMsg, bind_eq_ok, Except.ok.injEq] at hrun
  obtain ⟨_, ⟨b5, hb5, rfl⟩, rfl⟩ := hrun
  have e5 := send_move hb5 a d
  rw [total_sortCoins] at e5
  generalize total d (basket s1'.indexUnits (received - fee)) = k at *
  have hdeb' : a = w.coreAddr → d = w.core.config.indexDenom → received - fee ≤ b1.bal a d := by
    rintro rfl rfl; exact hdeb
  split_ifs at e1 e3 e5 ⊢ <;> simp_all <;> omega

end Ibcx.Chain
