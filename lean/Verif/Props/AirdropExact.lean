import Verif.KVLemmas
import Verif.Props.AirdropChain
/-!
# The airdrop contract holds exactly what is left in its airdrops
-/

namespace Ibcx.Props
open Ibcx Ibcx.Airdrop Ibcx.Spec Ibcx.Chain

/-- Coins of denom `d` attached to a message that puts nothing into an airdrop. -/
def attachedAside (d : Denom) (info : Info) : ExecMsg → Nat
  | .register _ => 0
  | .fund _ => 0
  | .claim _ => total d info.funds
  | .close _ => total d info.funds

/-- Coins of denom `d` that a transaction, if it goes through, makes over to the airdrop contract without putting them into an
airdrop: transfers and inflows to its account, coins attached to a claim or a closing, and payments that are directed to the
contract itself. -/
def strayBy (c : Crypto) (d : Denom) (w : Chain.Airdrop.World) (tx : Chain.Airdrop.Tx) : Nat :=
  match Chain.Airdrop.apply c w tx with
  | .error _ => 0
  | .ok _ =>
    match tx with
    | .transfer _ dst cs => if dst = w.self then total d cs else 0
    | .inflow dst x => if dst = w.self ∧ x.denom = d then x.amount else 0
    | .call call =>
      attachedAside d call.info call.msg +
      (match execute c w.drop call.env call.info call.msg with
        | .ok (_, ms) => sentTo w.self d ms
        | .error _ => 0)

/-- The same over a history. -/
def stray (c : Crypto) (d : Denom) (w : Chain.Airdrop.World) : List Chain.Airdrop.Tx → Nat
  | [] => 0
  | tx :: txs => strayBy c d w tx + stray c d (Chain.Airdrop.deliver c w tx) txs

private def leftOf (d : Denom) (e : Nat × Drop) : Nat := if e.2.denom = d then left e.2 else 0

private theorem leftIn_set {d : Denom} {s : State} {n : Nat} {a a' : Drop} {cl : KV (Nat × String) Nat}
    (h : s.drops.get n = some a) :
    leftIn d { s with drops := s.drops.set n a', claims := cl } + leftOf d (n, a) = leftIn d s + leftOf d (n, a') :=
  KV.sum_set_some (leftOf d) h

private theorem total_one (d : Denom) (x : Coin) : total d [x] = if x.denom = d then x.amount else 0 := by
  by_cases h : x.denom = d <;> simp [total, h]

/-- One accepted message: what is left plus what is sent is exactly what was left plus what is put in. -/
private theorem left_exact {c : Crypto} {s s' : State} {env : Env} {info : Info} {msg : ExecMsg} {ms : List Msg}
    (hi : Airdrop.Inv s) (h : Change c s env info msg s' ms) (d : Denom) :
    leftIn d s' + sent d ms + attachedAside d info msg = leftIn d s + total d info.funds := by
  cases h with
  | register p a new free max =>
    have hnone : s.drops.get s.latest = none := (hi.ids _).2 (le_refl _)
    have e : ∀ (lb : KV String Nat) (k : Nat), leftIn d { s with labels := lb, drops := s.drops.set s.latest a, latest := k }
        = leftIn d s + leftOf d (s.latest, a) := fun _ _ => KV.sum_set_none (leftOf d) hnone
    rw [e, new.paid.1, total_one]
    simp [sent, leftOf, left, new.notClosed, new.claimed, attachedAside]
  | fund id n a extra ht ha hc ho hf hx max =>
    have e := leftIn_set (d := d) (a' := { a with totalAmount := a.totalAmount + extra }) (cl := s.claims) ha
    have hle := hi.claimedLe n a ha
    rw [hf, total_one]
    simp only [leftOf, left, ho, if_true, sent, attachedAside] at e ⊢
    split at e <;> simp_all <;> omega
  | claim p n a hv ht ha ho hk hp max hle =>
    have e := leftIn_set (d := d) (a' := { a with totalClaimed := a.totalClaimed + claimAmount p })
      (cl := s.claims.set (n, claimKey info p) (claimAmount p)) ha
    simp only [leftOf, left, ho, if_true, sent, total_one, attachedAside] at e ⊢
    split at e <;> simp_all <;> omega
  | close id n a ht ha hc ho hle =>
    have e := leftIn_set (d := d) (a' := { a with closedAt := some env.height }) (cl := s.claims) ha
    simp only [leftOf, left, ho, if_true, sent, total_one, attachedAside] at e ⊢
    split at e <;> simp_all <;> omega

private theorem one_send {c : Crypto} {s s' : State} {env : Env} {info : Info} {msg : ExecMsg} {ms : List Msg}
    (h : Change c s env info msg s' ms) : ms = [] ∨ ∃ a cs, ms = [.send a cs] := by
  cases h <;> simp

private theorem exact_step {c : Crypto} {w w' : Chain.Airdrop.World} {tx : Chain.Airdrop.Tx} (hi : Airdrop.Inv w.drop)
    (h : Chain.Airdrop.apply c w tx = .ok w') (d : Denom) :
    Airdrop.Inv w'.drop ∧ w'.self = w.self ∧
    w'.bank.bal w.self d + leftIn d w.drop = w.bank.bal w.self d + strayBy c d w tx + leftIn d w'.drop := by
  unfold strayBy
  rw [h]
  cases tx with
  | call call =>
    simp only [Chain.Airdrop.apply, bind_eq_ok, require_eq_ok, Except.ok.injEq] at h
    obtain ⟨_, h1, b, h2, ⟨s', ms⟩, h3, b', h4, rfl⟩ := h
    have hc := execute_change.1 h3
    refine ⟨hi.change hc, rfl, ?_⟩
    obtain ⟨hown, rfl⟩ := send_eq_ok.1 h2
    have hl := left_exact hi hc d
    simp only [h3]
    rcases one_send hc with rfl | ⟨a, cs, rfl⟩
    · simp only [runMsgs, Except.ok.injEq] at h4
      subst h4
      simp only [sent, sentTo, if_neg (Ne.symm h1), if_true] at hl ⊢
      omega
    · simp only [runMsgs, runMsg, bind_eq_ok] at h4
      obtain ⟨⟨b1, _⟩, ⟨b2, hb2, hb3⟩, h4⟩ := h4
      cases hb3
      cases h4
      obtain ⟨hle, rfl⟩ := send_eq_ok.1 hb2
      have := hle d
      simp only [sent, sentTo, if_neg (Ne.symm h1), if_true, Nat.add_zero] at hl this ⊢
      rw [show (if a = w.self then total d cs else 0) = if w.self = a then total d cs else 0 by
        by_cases e : a = w.self
        · rw [if_pos e, if_pos e.symm]
        · rw [if_neg e, if_neg (Ne.symm e)]]
      omega
  | transfer src dst cs =>
    simp only [Chain.Airdrop.apply, bind_eq_ok, require_eq_ok, Except.ok.injEq, send_eq_ok] at h
    obtain ⟨_, h1, b, ⟨_, rfl⟩, rfl⟩ := h
    refine ⟨hi, rfl, ?_⟩
    simp only [if_neg (Ne.symm h1)]
    by_cases e : dst = w.self
    · subst e; simp
    · simp [e, Ne.symm e]
  | inflow dst x =>
    simp only [Chain.Airdrop.apply, Except.ok.injEq] at h
    subst h
    refine ⟨hi, rfl, ?_⟩
    simp only [Bank.create, eq_comm (a := w.self), eq_comm (a := d)]

private theorem exact_run {c : Crypto} (d : Denom) : ∀ (txs : List Chain.Airdrop.Tx) (w : Chain.Airdrop.World),
    Airdrop.Inv w.drop → (Chain.Airdrop.runTxs c w txs).bank.bal w.self d + leftIn d w.drop =
      w.bank.bal w.self d + stray c d w txs + leftIn d (Chain.Airdrop.runTxs c w txs).drop
  | [], w, _ => by simp [Chain.Airdrop.runTxs, stray]
  | tx :: txs, w, hi => by
    simp only [Chain.Airdrop.runTxs, stray]
    cases h : Chain.Airdrop.apply c w tx with
    | error e =>
      have e1 : Chain.Airdrop.deliver c w tx = w := by simp [Chain.Airdrop.deliver, h]
      have e2 : strayBy c d w tx = 0 := by simp [strayBy, h]
      rw [e1, e2, exact_run d txs w hi]
      omega
    | ok w' =>
      have e1 : Chain.Airdrop.deliver c w tx = w' := by simp [Chain.Airdrop.deliver, h]
      obtain ⟨i1, i2, i3⟩ := exact_step hi h d
      have := exact_run (c := c) d txs w' i1
      rw [i2] at this
      rw [e1]
      omega

/-- **C119.** From the creation of the airdrop contract on, whatever happens on the chain, the contract holds of every denom
exactly what it held at first, what strayed to it, and what is left in its open airdrops. -/
theorem C119_holds_exactly_what_is_left (c : Crypto) (w : Chain.Airdrop.World) (h0 : w.drop = initial)
    (txs : List Chain.Airdrop.Tx) (d : Denom) :
    (Chain.Airdrop.runTxs c w txs).bank.bal w.self d =
      w.bank.bal w.self d + stray c d w txs + leftIn d (Chain.Airdrop.runTxs c w txs).drop := by
  have := exact_run (c := c) d txs w (by rw [h0]; exact inv_initial)
  have h1 : leftIn d w.drop = 0 := by rw [h0]; rfl
  omega

/-- Two airdrops, one closed after a claim of 60 of 80, one with a claim of 7 of 70; 5 uosmo were sent to the contract and 3
were attached to a claim. -/
def strayTxs : List Chain.Airdrop.Tx :=
  [.call Demo.reg, .call Demo.fund, .call Demo.regBearer, .transfer "carol" "airdrop" [⟨"uosmo", 5⟩],
   .transfer "carol" "dave" [⟨"uosmo", 3⟩],
   .call { Demo.claimAlice with info := ⟨"dave", [⟨"uosmo", 3⟩]⟩ }, .call Demo.claimSalt, .call Demo.close]

/-- The contract then holds 71 uosmo: 63 are left in the second airdrop, 8 are strays. -/
example : dropWorld.drop = initial ∧ stray Demo.crypto "uosmo" dropWorld strayTxs = 8 ∧
    leftIn "uosmo" (Chain.Airdrop.runTxs Demo.crypto dropWorld strayTxs).drop = 63 ∧
    (Chain.Airdrop.runTxs Demo.crypto dropWorld strayTxs).bank.bal "airdrop" "uosmo" = 71 :=
  ⟨rfl, by decide +kernel, by decide +kernel, by decide +kernel⟩

private theorem nodup_change {c : Crypto} {s s' : State} {env : Env} {info : Info} {msg : ExecMsg} {ms : List Msg}
    (h : Change c s env info msg s' ms) (hn : (s.drops.map (·.1)).Nodup) : (s'.drops.map (·.1)).Nodup := by
  cases h <;> exact KV.nodup_set hn

private theorem nodup_run {c : Crypto} : ∀ (txs : List Chain.Airdrop.Tx) (w : Chain.Airdrop.World),
    (w.drop.drops.map (·.1)).Nodup → ((Chain.Airdrop.runTxs c w txs).drop.drops.map (·.1)).Nodup
  | [], _, hn => hn
  | tx :: txs, w, hn => by
    refine nodup_run txs _ ?_
    unfold Chain.Airdrop.deliver
    cases h : Chain.Airdrop.apply c w tx with
    | error e => exact hn
    | ok w' =>
      cases tx with
      | call call =>
        simp only [Chain.Airdrop.apply, bind_eq_ok, require_eq_ok, Except.ok.injEq] at h
        obtain ⟨_, h1, b, h2, ⟨s', ms⟩, h3, b', h4, rfl⟩ := h
        exact nodup_change (execute_change.1 h3) hn
      | transfer src dst cs =>
        simp only [Chain.Airdrop.apply, bind_eq_ok, require_eq_ok, Except.ok.injEq, send_eq_ok] at h
        obtain ⟨_, h1, b, ⟨_, rfl⟩, rfl⟩ := h
        exact hn
      | inflow dst x =>
        simp only [Chain.Airdrop.apply, Except.ok.injEq] at h
        subst h
        exact hn

/-- **C119 (the end).** When every airdrop of a denom is closed or fully claimed, everything that was put into them has been
paid out: of that denom the contract holds what it held at first and what strayed to it, and nothing else. -/
theorem C119_all_paid_out (c : Crypto) (w : Chain.Airdrop.World) (h0 : w.drop = initial) (txs : List Chain.Airdrop.Tx) (d : Denom)
    (h : ∀ n a, (Chain.Airdrop.runTxs c w txs).drop.drops.get n = some a → a.denom = d →
      a.closedAt ≠ none ∨ a.totalClaimed = a.totalAmount) :
    (Chain.Airdrop.runTxs c w txs).bank.bal w.self d = w.bank.bal w.self d + stray c d w txs := by
  rw [C119_holds_exactly_what_is_left c w h0]
  have hn := nodup_run (c := c) txs w (by rw [h0]; exact List.nodup_nil)
  have hz : leftIn d (Chain.Airdrop.runTxs c w txs).drop = 0 := by
    unfold leftIn
    refine List.sum_eq_zero fun x hx => ?_
    obtain ⟨⟨n, a⟩, he, rfl⟩ := List.mem_map.1 hx
    by_cases e : a.denom = d
    · rcases h n a (KV.get_of_mem hn he) e with h | h
      · simp [e, left, h]
      · simp [e, left, h]
    · simp [e]
  omega

/-- The hypothesis holds after both airdrops are closed: 8 uosmo are left. -/
example : (Chain.Airdrop.runTxs Demo.crypto dropWorld
      (strayTxs ++ [.call { Demo.close with msg := .close (.id 1) }])).drop.drops.map (fun e => (e.2.closedAt, e.2.denom)) =
        [(some 13, "uosmo"), (some 13, "uosmo")] ∧
    (Chain.Airdrop.runTxs Demo.crypto dropWorld
      (strayTxs ++ [.call { Demo.close with msg := .close (.id 1) }])).bank.bal "airdrop" "uosmo" = 8 :=
  ⟨by decide +kernel, by decide +kernel⟩

end Ibcx.Props
