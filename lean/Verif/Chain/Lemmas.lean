import Verif.Chain.World
import Verif.Props.Swaps
/-!
# Lemmas about the chain model

Not part of the model.
-/

namespace Ibcx.Chain
open Ibcx Ibcx.Core Ibcx.Spec Ibcx.Props

theorem amountOf_pos_mem {d : Denom} {cs : List Coin} (h : 0 < amountOf d cs) : ∃ c ∈ cs, c.denom = d := by
  by_contra hc
  push Not at hc
  have : amountOf d cs = 0 := Units.amountOf_eq_zero (by
    intro hm
    obtain ⟨c, h1, h2⟩ := List.mem_map.1 hm
    exact hc c h1 h2)
  omega

theorem send_eq_ok {b b' : Bank} {src dst : Addr} {cs : List Coin} :
    b.send src dst cs = .ok b' ↔
      (∀ d, total d cs ≤ b.bal src d) ∧
      b' = { b with bal := fun a d =>
        (if a = src then b.bal a d - total d cs else b.bal a d) + (if a = dst then total d cs else 0) } := by
  unfold Bank.send
  simp only [total_eq]
  constructor
  · intro h
    split at h
    · rename_i hc
      simp only [Except.ok.injEq] at h
      refine ⟨fun d => ?_, h.symm⟩
      by_cases hd : amountOf d cs = 0
      · omega
      · obtain ⟨c, h1, rfl⟩ := amountOf_pos_mem (Nat.pos_of_ne_zero hd)
        have := List.all_eq_true.1 hc c h1
        simpa using this
    · cases h
  · rintro ⟨h, rfl⟩
    rw [if_pos]
    simp only [List.all_eq_true, decide_eq_true_eq]
    intro c _
    exact h c.denom

theorem debit_eq_ok {b b' : Bank} {src : Addr} {c : Coin} :
    b.debit src c = .ok b' ↔ c.amount ≤ b.bal src c.denom ∧
      b' = { b with bal := fun a d => b.bal a d - (if a = src ∧ d = c.denom then c.amount else 0) } := by
  unfold Bank.debit
  split <;> simp_all [eq_comm]

/-- The message is a swap. -/
def isSwap : Msg → Bool
  | .swapExactIn .. => true
  | .swapExactOut .. => true
  | _ => false

/-- What the contract loses of a denom by messages that are not swaps, at most. -/
theorem runMsgs_bal {self : Addr} {b b' : Bank} {market : List Nat} {ms : List Msg}
    (hs : ∀ m ∈ ms, isSwap m = false) (h : runMsgs self b market ms = .ok b') (d : Denom) (hb : burned d ms = 0) :
    b.bal self d ≤ b'.bal self d + sent d ms := by
  induction ms generalizing b market with
  | nil => simp [runMsgs] at h; subst h; simp [sent]
  | cons m ms ih =>
    simp only [runMsgs, bind_eq_ok] at h
    obtain ⟨⟨b1, mk⟩, h1, h2⟩ := h
    have hm := hs m (by simp)
    have ih' := ih (fun m hm => hs m (by simp [hm])) h2
    cases m with
    | createDenom a s =>
      simp [runMsg] at h1; obtain ⟨rfl, rfl⟩ := h1
      exact ih' hb
    | tfMint a t c =>
      simp [runMsg] at h1; obtain ⟨rfl, rfl⟩ := h1
      have := ih' hb
      simp only [sent, Bank.create] at this ⊢
      omega
    | tfBurn a t c =>
      simp only [runMsg, bind_eq_ok, Bank.destroy, require_eq_ok, Except.ok.injEq, Prod.mk.injEq, debit_eq_ok] at h1
      obtain ⟨b2, ⟨_, hsup, b3, ⟨_, rfl⟩, rfl⟩, rfl, rfl⟩ := h1
      simp only [burned] at hb
      have := ih' (by omega)
      simp only [sent] at this ⊢
      have hz : (if self = t ∧ d = c.denom then c.amount else 0) = 0 := by
        split
        · rename_i hc
          have : (if c.denom = d then c.amount else 0) = 0 := by omega
          rwa [if_pos hc.2.symm] at this
        · rfl
      omega
    | send t cs =>
      simp only [runMsg, bind_eq_ok, Except.ok.injEq, Prod.mk.injEq, send_eq_ok] at h1
      obtain ⟨b2, ⟨hle, rfl⟩, rfl, rfl⟩ := h1
      have := ih' (by simpa [burned] using hb)
      simp only [sent] at this ⊢
      simp only [if_true] at this
      have := hle d
      omega
    | swapExactIn a r c x => simp [isSwap] at hm
    | swapExactOut a r c x => simp [isSwap] at hm

/-- The bank's supply follows the token-factory messages. -/
theorem runMsgs_supply {self : Addr} {b b' : Bank} {market : List Nat} {ms : List Msg}
    (h : runMsgs self b market ms = .ok b') (d : Denom) :
    b'.supply d + burned d ms = b.supply d + minted d ms := by
  induction ms generalizing b market with
  | nil => simp [runMsgs] at h; subst h; simp [burned, minted]
  | cons m ms ih =>
    simp only [runMsgs, bind_eq_ok] at h
    obtain ⟨⟨b1, mk⟩, h1, h2⟩ := h
    have ih' := ih h2
    cases m with
    | createDenom a s =>
      simp [runMsg] at h1; obtain ⟨rfl, rfl⟩ := h1
      exact ih'
    | tfMint a t c =>
      simp [runMsg] at h1; obtain ⟨rfl, rfl⟩ := h1
      simp only [burned, minted, Bank.create] at *
      simp only [eq_comm (a := d)] at ih'
      omega
    | tfBurn a t c =>
      simp only [runMsg, bind_eq_ok, Bank.destroy, require_eq_ok, Except.ok.injEq, Prod.mk.injEq, debit_eq_ok] at h1
      obtain ⟨b2, ⟨_, hsup, b3, ⟨_, rfl⟩, rfl⟩, rfl, rfl⟩ := h1
      simp only [burned, minted, eq_comm (a := d)] at *
      have : (if c.denom = d then c.amount else 0) ≤ b.supply d := by
        split
        · rename_i hc; rw [← hc]; exact hsup
        · omega
      omega
    | send t cs =>
      simp only [runMsg, bind_eq_ok, Except.ok.injEq, Prod.mk.injEq, send_eq_ok] at h1
      obtain ⟨b2, ⟨hle, rfl⟩, rfl, rfl⟩ := h1
      exact ih'
    | swapExactIn a r c x =>
      simp only [runMsg] at h1
      split at h1
      · simp only [bind_eq_ok, require_eq_ok, debit_eq_ok, Except.ok.injEq, Prod.mk.injEq] at h1
        obtain ⟨_, _, _, _, b2, ⟨_, rfl⟩, rfl, rfl⟩ := h1
        exact ih'
      · cases h1
    | swapExactOut a r c x =>
      simp only [runMsg] at h1
      split at h1
      · simp only [bind_eq_ok, require_eq_ok, debit_eq_ok, Except.ok.injEq, Prod.mk.injEq] at h1
        obtain ⟨_, _, _, _, b2, ⟨_, rfl⟩, rfl, rfl⟩ := h1
        exact ih'
      · cases h1

theorem apply_call {w w' : World} {env : Env} {info : Info} {msg : ExecMsg} {market : List Nat} :
    apply w (.call env info msg market) = .ok w' ↔
      ∃ b core ms b', env.contract = w.self ∧ info.sender ≠ w.self ∧ distinct info.funds ∧
        w.bank.send info.sender w.self info.funds = .ok b ∧
        execute w.core env info msg = .ok (core, ms) ∧
        runMsgs w.self b market ms = .ok b' ∧ w' = { w with core := core, bank := b' } := by
  simp only [apply, bind_eq_ok, require_eq_ok, Except.ok.injEq, distinct]
  constructor
  · rintro ⟨_, ⟨h1, h2, h3⟩, b, h4, ⟨core, ms⟩, h5, b', h6, rfl⟩
    exact ⟨b, core, ms, b', h1, h2, h3, h4, h5, h6, rfl⟩
  · rintro ⟨b, core, ms, b', h1, h2, h3, h4, h5, h6, rfl⟩
    exact ⟨(), ⟨h1, h2, h3⟩, b, h4, (core, ms), h5, b', h6, rfl⟩

theorem deliver_cases (w : World) (tx : Tx) : deliver w tx = w ∨ apply w tx = .ok (deliver w tx) := by
  unfold deliver
  cases h : apply w tx <;> simp

theorem runTxs_append (w : World) (a b : List Tx) : runTxs w (a ++ b) = runTxs (runTxs w a) b := by
  induction a generalizing w with
  | nil => rfl
  | cons t a ih => simp [runTxs, ih]

/-- Facts kept by every transaction. -/
structure WInv (w : World) : Prop where
  reach : Reachable w.core
  supply : w.bank.supply w.core.config.indexDenom = w.core.totalSupply

theorem WInv.apply {w w' : World} {tx : Tx} (hi : WInv w) (h : apply w tx = .ok w') :
    WInv w' ∧ w'.self = w.self ∧ w'.core.config.indexDenom = w.core.config.indexDenom := by
  cases tx with
  | call env info msg market =>
    obtain ⟨b, core, ms, b', _, _, _, h4, h5, h6, rfl⟩ := apply_call.1 h
    obtain ⟨x1, x2, _⟩ := execute_supply h5
    refine ⟨⟨hi.reach.execute h5, ?_⟩, rfl, x1⟩
    simp only [x1]
    obtain ⟨_, rfl⟩ := send_eq_ok.1 h4
    have hs : ({ w.bank with bal := fun a d =>
        (if a = info.sender then w.bank.bal a d - total d info.funds else w.bank.bal a d)
          + (if a = w.self then total d info.funds else 0) } : Bank).supply w.core.config.indexDenom
        = w.core.totalSupply := hi.supply
    have := runMsgs_supply h6 w.core.config.indexDenom
    rw [hs] at this
    omega
  | transfer src dst cs =>
    simp only [Chain.apply, bind_eq_ok, require_eq_ok, Except.ok.injEq, send_eq_ok] at h
    obtain ⟨_, _, b, ⟨_, rfl⟩, rfl⟩ := h
    exact ⟨⟨hi.reach, hi.supply⟩, rfl, rfl⟩
  | inflow dst c =>
    simp only [Chain.apply, bind_eq_ok, require_eq_ok, Except.ok.injEq] at h
    obtain ⟨_, hc, rfl⟩ := h
    refine ⟨⟨hi.reach, ?_⟩, rfl, rfl⟩
    have := hi.supply
    simp [Bank.create, Ne.symm hc, this]

end Ibcx.Chain
