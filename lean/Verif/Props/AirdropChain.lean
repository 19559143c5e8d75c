import Verif.Chain.AirdropWorld
import Verif.Chain.Lemmas
import Verif.Props.Airdrop
/-!
# The airdrop contract can always pay (C33)
-/

namespace Ibcx.Props
open Ibcx Ibcx.Airdrop Ibcx.Spec Ibcx.Chain

/-- What is left of denom `d` in one airdrop entry. -/
private def leftOf (d : Denom) (e : Nat × Drop) : Nat := if e.2.denom = d then left e.2 else 0

private theorem leftIn_set {d : Denom} {s : State} {n : Nat} {a a' : Drop} {cl : KV (Nat × String) Nat}
    (h : s.drops.get n = some a) :
    leftIn d { s with drops := s.drops.set n a', claims := cl } + leftOf d (n, a) = leftIn d s + leftOf d (n, a') :=
  KV.sum_set_some (leftOf d) h

private theorem total_one (d : Denom) (x : Coin) : total d [x] = if x.denom = d then x.amount else 0 := by
  by_cases h : x.denom = d <;> simp [total, h]

/-- One accepted message: what is left plus what is sent is at most what was left plus what is attached; at most
one transfer is sent. -/
private theorem left_change {c : Crypto} {s s' : State} {env : Env} {info : Info} {msg : ExecMsg} {ms : List Msg}
    (hi : Airdrop.Inv s) (h : Change c s env info msg s' ms) (d : Denom) :
    leftIn d s' + sent d ms ≤ leftIn d s + total d info.funds := by
  cases h with
  | register p a new free max =>
    have hnone : s.drops.get s.latest = none := (hi.ids _).2 (le_refl _)
    have e : ∀ (lb : KV String Nat) (k : Nat), leftIn d { s with labels := lb, drops := s.drops.set s.latest a, latest := k }
        = leftIn d s + leftOf d (s.latest, a) := fun _ _ => KV.sum_set_none (leftOf d) hnone
    rw [e, new.paid.1, total_one]
    simp [sent, leftOf, left, new.notClosed, new.claimed]
  | fund id n a extra ht ha hc ho hf hx max =>
    have e := leftIn_set (d := d) (a' := { a with totalAmount := a.totalAmount + extra }) (cl := s.claims) ha
    have hle := hi.claimedLe n a ha
    rw [hf, total_one]
    simp only [leftOf, left, ho, if_true, sent] at e ⊢
    split at e <;> simp_all <;> omega
  | claim p n a hv ht ha ho hk hp max hle =>
    have e := leftIn_set (d := d) (a' := { a with totalClaimed := a.totalClaimed + claimAmount p })
      (cl := s.claims.set (n, claimKey info p) (claimAmount p)) ha
    simp only [leftOf, left, ho, if_true, sent, total_one] at e ⊢
    split at e <;> simp_all <;> omega
  | close id n a ht ha hc ho hle =>
    have e := leftIn_set (d := d) (a' := { a with closedAt := some env.height }) (cl := s.claims) ha
    simp only [leftOf, left, ho, if_true, sent, total_one] at e ⊢
    split at e <;> simp_all <;> omega

private theorem at_most_one_send {c : Crypto} {s s' : State} {env : Env} {info : Info} {msg : ExecMsg} {ms : List Msg}
    (h : Change c s env info msg s' ms) : ms = [] ∨ ∃ a cs, ms = [.send a cs] := by
  cases h <;> simp

/-- The contract's records are consistent and its balances cover what is left in its airdrops. -/
private structure Solvent (w : Chain.Airdrop.World) : Prop where
  inv : Airdrop.Inv w.drop
  cover : ∀ d, leftIn d w.drop ≤ w.bank.bal w.self d

private theorem solvent_call {c : Crypto} {w : Chain.Airdrop.World} {call : Call} {b : Bank} {s' : State}
    {ms : List Msg} (hs : Solvent w) (hne : call.info.sender ≠ w.self)
    (hb : w.bank.send call.info.sender w.self call.info.funds = .ok b)
    (hx : execute c w.drop call.env call.info call.msg = .ok (s', ms)) :
    ∃ b', runMsgs w.self b [] ms = .ok b' ∧ Solvent ⟨s', b', w.self⟩ := by
  have hc := execute_change.1 hx
  have hch := fun d => left_change hs.inv hc d
  obtain ⟨hle, rfl⟩ := send_eq_ok.1 hb
  have hbal : ∀ d, leftIn d s' + sent d ms ≤ w.bank.bal w.self d + total d call.info.funds := by
    intro d
    have := hch d
    have := hs.cover d
    omega
  rcases at_most_one_send hc with rfl | ⟨a, cs, rfl⟩
  · refine ⟨_, rfl, hs.inv.change hc, ?_⟩
    intro d
    have := hbal d
    simp only [sent] at this
    simp only [if_neg (Ne.symm hne), if_true]
    omega
  · have hsend : ∃ b', Bank.send { w.bank with bal := fun a d =>
          (if a = call.info.sender then w.bank.bal a d - total d call.info.funds else w.bank.bal a d)
            + (if a = w.self then total d call.info.funds else 0) } w.self a cs = .ok b' := by
      refine ⟨_, send_eq_ok.2 ⟨?_, rfl⟩⟩
      intro d
      have := hbal d
      simp only [sent] at this
      simp only [if_neg (Ne.symm hne), if_true]
      omega
    obtain ⟨b', hb'⟩ := hsend
    refine ⟨b', ?_, hs.inv.change hc, ?_⟩
    · simp only [runMsgs, runMsg, bind_eq_ok]
      exact ⟨(b', []), ⟨b', hb', rfl⟩, rfl⟩
    · intro d
      obtain ⟨_, rfl⟩ := send_eq_ok.1 hb'
      have := hbal d
      simp only [sent] at this
      simp only [if_neg (Ne.symm hne), if_true]
      omega

private theorem Solvent.deliver {c : Crypto} {w : Chain.Airdrop.World} (hs : Solvent w) (tx : Chain.Airdrop.Tx) :
    Solvent (Chain.Airdrop.deliver c w tx) ∧ (Chain.Airdrop.deliver c w tx).self = w.self := by
  unfold Chain.Airdrop.deliver
  cases h : Chain.Airdrop.apply c w tx with
  | error e => exact ⟨hs, rfl⟩
  | ok w' =>
    cases tx with
    | call call =>
      simp only [Chain.Airdrop.apply, bind_eq_ok, require_eq_ok, Except.ok.injEq] at h
      obtain ⟨_, h1, b, h2, ⟨s', ms⟩, h3, b', h4, rfl⟩ := h
      obtain ⟨b'', h5, h6⟩ := solvent_call hs h1 h2 h3
      rw [h5] at h4; cases h4
      exact ⟨h6, rfl⟩
    | transfer src dst cs =>
      simp only [Chain.Airdrop.apply, bind_eq_ok, require_eq_ok, Except.ok.injEq, send_eq_ok] at h
      obtain ⟨_, h1, b, ⟨_, rfl⟩, rfl⟩ := h
      refine ⟨⟨hs.inv, fun d => ?_⟩, rfl⟩
      have := hs.cover d
      simp only [if_neg (Ne.symm h1)]
      omega
    | inflow dst x =>
      simp only [Chain.Airdrop.apply, Except.ok.injEq] at h
      subst h
      refine ⟨⟨hs.inv, fun d => ?_⟩, rfl⟩
      have := hs.cover d
      simp only [Bank.create]
      omega

private theorem Solvent.run {c : Crypto} {w : Chain.Airdrop.World} (hs : Solvent w) (txs : List Chain.Airdrop.Tx) :
    Solvent (Chain.Airdrop.runTxs c w txs) := by
  induction txs generalizing w with
  | nil => exact hs
  | cons tx txs ih => exact ih (hs.deliver tx).1

/-- **C33 (cover).** From the creation of the contract on, whatever happens on the chain, for every denom the
contract's balance is at least the sum over its open airdrops of funded minus claimed. -/
theorem C33_balance_covers_airdrops (c : Crypto) (w : Chain.Airdrop.World) (h0 : w.drop = initial)
    (txs : List Chain.Airdrop.Tx) (d : Denom) :
    leftIn d (Chain.Airdrop.runTxs c w txs).drop ≤
      (Chain.Airdrop.runTxs c w txs).bank.bal (Chain.Airdrop.runTxs c w txs).self d := by
  have hs : Solvent w := ⟨by rw [h0]; exact inv_initial, fun d => by rw [h0]; exact Nat.zero_le _⟩
  exact (hs.run txs).cover d

/-- Carol, who owns 200 uosmo, registers and funds an airdrop: 80 uosmo are left in it, and the contract owns 80. -/
example :
    let w := Chain.Airdrop.runTxs Demo.crypto
      { drop := initial, self := "airdrop"
        bank := { bal := fun a d => if a = "carol" ∧ d = "uosmo" then 200 else 0, supply := fun _ => 200 } }
      [.call Demo.reg, .call Demo.fund]
    leftIn "uosmo" w.drop = 80 ∧ w.bank.bal "airdrop" "uosmo" = 80 := by
  decide +kernel

/-- **C33 (payments never fail).** After any history on the chain, a message that the contract accepts and whose
attached funds the sender owns goes through: the transfers it sends are never refused for lack of funds. -/
theorem C33_accepted_messages_are_paid (c : Crypto) (w : Chain.Airdrop.World) (h0 : w.drop = initial)
    (txs : List Chain.Airdrop.Tx) (call : Call) (s' : State) (ms : List Msg)
    (hne : call.info.sender ≠ (Chain.Airdrop.runTxs c w txs).self)
    (hfunds : ∀ d, total d call.info.funds ≤ (Chain.Airdrop.runTxs c w txs).bank.bal call.info.sender d)
    (hx : execute c (Chain.Airdrop.runTxs c w txs).drop call.env call.info call.msg = .ok (s', ms)) :
    ∃ w', Chain.Airdrop.apply c (Chain.Airdrop.runTxs c w txs) (.call call) = .ok w' ∧ w'.drop = s' := by
  have hs : Solvent w := ⟨by rw [h0]; exact inv_initial, fun d => by rw [h0]; exact Nat.zero_le _⟩
  have hb := (send_eq_ok (dst := (Chain.Airdrop.runTxs c w txs).self)).2 ⟨hfunds, rfl⟩
  obtain ⟨b', h1, _⟩ := solvent_call (hs.run txs) hne hb hx
  refine ⟨⟨s', b', (Chain.Airdrop.runTxs c w txs).self⟩, ?_, rfl⟩
  simp only [Chain.Airdrop.apply, bind_eq_ok, require_eq_ok]
  exact ⟨(), hne, _, hb, (s', ms), hx, b', h1, rfl⟩

/-- The chain of the examples: carol has 200 uosmo. -/
def dropWorld : Chain.Airdrop.World :=
  { drop := initial, self := "airdrop"
    bank := { bal := fun a d => if a = "carol" ∧ d = "uosmo" then 200 else 0, supply := fun _ => 200 } }

/-- Two airdrops sharing a denom; the balance is exactly what is left in both. -/
example :
    let w := Chain.Airdrop.runTxs Demo.crypto dropWorld
      [.call Demo.reg, .call Demo.fund, .call Demo.regBearer, .call Demo.claimAlice, .call Demo.claimSalt]
    leftIn "uosmo" w.drop = 83 ∧ w.bank.bal "airdrop" "uosmo" = 83 ∧ w.bank.bal "alice" "uosmo" = 60 ∧
      w.bank.bal "bob" "uosmo" = 7 := by
  decide +kernel

end Ibcx.Props
