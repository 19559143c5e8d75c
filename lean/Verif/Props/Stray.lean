import Verif.Props.Token
import Verif.Props.AirdropDemo
import Verif.Props.Collateral
/-!
# C69: coins attached to messages that take no payment
-/

namespace Ibcx.Props
open Ibcx Ibcx.Core Ibcx.Spec

/-- The full claim: the core contract accepts coins only with the two messages that take payment. -/
def C69_full : Prop :=
  ∀ (s : State) (env : Env) (info : Info) (msg : ExecMsg) (o : Out), Reachable s →
    execute s env info msg = .ok o → info.funds ≠ [] → (∃ a r f, msg = .mint a r f) ∨ (∃ r, msg = .burn r)

/-- The full claim is false: a pause with a coin attached is accepted. -/
theorem C69_full_false : ¬ C69_full := by
  intro h
  have e : (execute Demo.s1 (Demo.env 2000) ⟨"gov", [⟨"uosmo", 7⟩]⟩ (.gov (.pause none))).toOption.isSome = true := by
    decide +kernel
  cases h1 : execute Demo.s1 (Demo.env 2000) ⟨"gov", [⟨"uosmo", 7⟩]⟩ (.gov (.pause none)) with
  | error e' => rw [h1] at e; cases e
  | ok o =>
    rcases h _ _ _ _ _ Demo.s1_reachable h1 (by simp) with ⟨_, _, _, h⟩ | ⟨_, h⟩ <;> cases h

/-- **C69, partial (core).** Every other message is handled as if no coins were attached: same acceptance, same new
state, same messages, so the coins stay in the contract without being recorded or returned.  An accepted burn carries a
single coin of the index denom, and every coin of an accepted mint is of a denom of the basket.
Missing: a rejection of stray coins, which the code does not have. -/
theorem C69_core_ignores_stray_coins_partial {s : State} (hr : Reachable s) (env : Env) (who : Addr)
    (funds : List Coin) (msg : ExecMsg) (hd : distinct funds) :
    ((∃ a r f, msg = .mint a r f) ∨ (∃ r, msg = .burn r) ∨
      execute s env ⟨who, funds⟩ msg = execute s env ⟨who, []⟩ msg) ∧
    (∀ r o, msg = .burn r → execute s env ⟨who, funds⟩ msg = .ok o →
      ∃ n, 0 < n ∧ funds = [⟨s.config.indexDenom, n⟩]) ∧
    (∀ a r f o, msg = .mint a r f → execute s env ⟨who, funds⟩ msg = .ok o →
      ∀ c ∈ funds, c.denom ∈ s.indexUnits.map (·.1)) := by
  refine ⟨?_, ?_, ?_⟩
  · cases msg with
    | mint a r f => exact .inl ⟨a, r, f, rfl⟩
    | burn r => exact .inr (.inl ⟨r, rfl⟩)
    | realize => exact .inr (.inr rfl)
    | gov m => cases m <;> exact .inr (.inr rfl)
    | rebalance m =>
      cases m with
      | init => exact .inr (.inr rfl)
      | trade t => cases t <;> exact .inr (.inr rfl)
      | finalize => exact .inr (.inr rfl)
  · rintro r ⟨s', ms⟩ rfl h
    obtain ⟨s1, h1, h2⟩ := execute_eq_ok.1 h
    simp only [collectsFirst, if_true] at h1
    have f := collectStreamingFee_frame h1
    rw [← f.1]
    simp only [dispatch, burn, bind_eq_ok, mustPay_eq_ok] at h2
    obtain ⟨_, _, _, _, _, _, n, hm, _⟩ := h2
    grind
  · rintro a r fo ⟨s', ms⟩ rfl h c hc
    obtain ⟨s1, h1, _, _, _, _, _, h2, _⟩ := (C03_mint_accepted_iff hr hd).1 h
    have f := collectStreamingFee_frame h1
    have := h2 c hc
    rwa [show s1.indexUnits.map (·.1) = s.indexUnits.map (·.1) from f.2.2.2.2.2.2.2.2.2.2] at this

/-- A pause with a coin attached, a burn and a mint, all accepted. -/
example : Reachable Demo.s1 ∧ distinct [⟨"uosmo", 7⟩] ∧
    (execute Demo.s1 (Demo.env 2000) ⟨"gov", [⟨"uosmo", 7⟩]⟩ (.gov (.pause none))).toOption.isSome = true ∧
    (execute Demo.s1 (Demo.env 2000) ⟨"alice", [⟨"factory/core/ibcx", 7⟩]⟩ (.burn none)).toOption.isSome = true ∧
    (execute Demo.s1 (Demo.env 2000) Demo.mintInfo (.mint 100 none none)).toOption.isSome = true :=
  ⟨Demo.s1_reachable, by simp [distinct], by decide +kernel, by decide +kernel, by decide +kernel⟩

/-- **C69, partial (airdrop).** Coins attached to a claim or to the closing of an airdrop are kept without trace in the
same way. -/
theorem C69_airdrop_ignores_stray_coins_partial (c : Airdrop.Crypto) (s : Airdrop.State) (env : Env) (who : Addr)
    (funds : List Coin) :
    (∀ p, Airdrop.execute c s env ⟨who, funds⟩ (.claim p) = Airdrop.execute c s env ⟨who, []⟩ (.claim p)) ∧
    (∀ id, Airdrop.execute c s env ⟨who, funds⟩ (.close id) = Airdrop.execute c s env ⟨who, []⟩ (.close id)) :=
  ⟨fun p => by cases p <;> rfl, fun _ => rfl⟩

/-- Carol closes the airdrop and adds 9 coins: 50 are returned, as without them. -/
example : (Airdrop.execute Airdrop.Demo.crypto (Airdrop.run Airdrop.Demo.crypto Airdrop.initial [Airdrop.Demo.reg]).1
      (Airdrop.Demo.env 13) ⟨"carol", [⟨"uatom", 9⟩]⟩ (.close (.id 0))).map (·.2) =
    .ok [.send "carol" [⟨"uosmo", 50⟩]] := by
  decide +kernel

/-- A governance message sends nothing. -/
theorem handleGov_quiet {s s' : State} {env : Env} {info : Info} {m : GovMsg} {ms : List Msg}
    (h : handleGov s env info m = .ok (s', ms)) : ms = [] := by
  cases m <;> simp only [handleGov, pause, release, updateGov, acceptGov, revokeGov, updateFee, updateRebalanceManager,
    updateReserveDenom, updateTradeInfo] at h <;> (try split at h) <;>
    simp only [bind_eq_ok, Except.ok.injEq, Prod.mk.injEq, reduceCtorEq] at h <;> grind

/-- **C69, partial (balances).** A governance message with coins attached, once accepted, leaves all of them in the
contract: its balance of every denom grows by exactly what was attached, while the recorded supply does not change. -/
theorem C69_gov_coins_stay_partial {w w' : Chain.World} {env : Env} {info : Info} {m : GovMsg} {market : List Nat}
    (h : Chain.apply w (.call env info (.gov m) market) = .ok w') (d : Denom) :
    w'.bank.bal w.self d = w.bank.bal w.self d + total d info.funds ∧ w'.core.totalSupply = w.core.totalSupply := by
  obtain ⟨b, core, ms, b', _, hs, _, hb, he, hm, rfl⟩ := Chain.apply_call.1 h
  obtain ⟨s1, h1, h2⟩ := execute_eq_ok.1 he
  have hq : ms = [] := handleGov_quiet h2
  subst hq
  have hsup := (execute_supply he).2.1
  simp only [Chain.runMsgs, Except.ok.injEq] at hm
  subst hm
  obtain ⟨_, rfl⟩ := Chain.send_eq_ok.1 hb
  refine ⟨?_, ?_⟩
  · simp [hs.symm]
  · simpa [burned, minted] using hsup

/-- Governance pauses the demo contract with 7 uosmo attached: the contract now holds them. -/
def richWorld : Chain.World :=
  { demoWorld with bank := { bal := fun a d => if a = "gov" ∧ d = "uosmo" then 10 else 0, supply := fun _ => 10 } }

example : ((Chain.apply richWorld (.call (Demo.env 2000) ⟨"gov", [⟨"uosmo", 7⟩]⟩ (.gov (.pause none)) [])).map
    fun w => (w.bank.bal "core" "uosmo", w.bank.bal "gov" "uosmo")) = .ok (7, 3) := by
  decide +kernel

end Ibcx.Props
