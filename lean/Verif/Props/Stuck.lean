import Verif.Props.Collateral
import Verif.Props.WorstFee
/-!
# Nothing that is paid in gets stuck
-/

namespace Ibcx.Props
open Ibcx Ibcx.Core Ibcx.Spec Ibcx.Chain

/-- The messages with which the contract answers an accepted call. -/
def repliesOf (w : World) : Tx → List Msg
  | .call env info msg _ =>
    match execute w.core env info msg with
    | .ok (_, ms) => ms
    | .error _ => []
  | _ => []

/-- Coins of denom `d` that an accepted transaction makes over to the contract without asking for anything: transfers and
inflows to its account, coins attached to anything but a mint, and payments of the contract that a caller directs to the
contract itself. -/
def givenBy (d : Denom) (w : World) (tx : Tx) : Nat :=
  if txAccepted w tx then
    (match tx with
      | .call _ _ (.mint ..) _ => 0
      | .call _ info _ _ => total d info.funds
      | .transfer _ dst cs => if dst = w.self then total d cs else 0
      | .inflow dst c => if dst = w.self ∧ c.denom = d then c.amount else 0) + sentTo w.self d (repliesOf w tx)
  else 0

/-- The same over a history. -/
def given (d : Denom) (w : World) : List Tx → Nat
  | [] => 0
  | tx :: txs => givenBy d w tx + given d (deliver w tx) txs

/-- Fees of denom `d` that accepted fee changes throw away: what was recorded before and what is charged with the change. -/
def thrownBy (d : Denom) (w : World) (tx : Tx) : Nat :=
  match tx with
  | .call _ _ (.gov (.updateFeeStrategy _)) _ =>
    if txAccepted w tx then
      uncollected w.core d + part (unitIn w.core d - unitIn (deliver w tx).core d) w.core.totalSupply
    else 0
  | _ => 0

/-- The same over a history. -/
def thrown (d : Denom) (w : World) : List Tx → Nat
  | [] => 0
  | tx :: txs => thrownBy d w tx + thrown d (deliver w tx) txs

/-- Number of roundings in an accepted transaction: a mint or a burn rounds the charged fee and the basket, collecting or
changing fees rounds the charged fee. -/
def roundingsBy (w : World) (tx : Tx) : Nat :=
  if txAccepted w tx then
    match tx with
    | .call _ _ (.mint ..) _ => 2
    | .call _ _ (.burn ..) _ => 2
    | .call _ _ .realize _ => 1
    | .call _ _ (.gov (.updateFeeStrategy _)) _ => 1
    | _ => 0
  else 0

/-- The same over a history. -/
def roundings (w : World) : List Tx → Nat
  | [] => 0
  | tx :: txs => roundingsBy w tx + roundings (deliver w tx) txs

/-- No start of a rebalance is accepted in the history. -/
def NoStart (w : World) : List Tx → Prop
  | [] => True
  | tx :: txs => (∀ env info m de inf mk, tx = .call env info (.rebalance (.init m de inf)) mk → txAccepted w tx = false) ∧
      NoStart (deliver w tx) txs

/-! ### One step of the contract -/

private theorem up_collect {P Q u u' p S K x q : Nat} (hu : u = u' + x) (hq : x * S ≤ Q + P * q) :
    (u + p) * S + P * K ≤ Q + ((u' + p) * S + P * (K + q)) := by
  subst hu
  have : (u' + x + p) * S = (u' + p) * S + x * S := by ring
  rw [this, Nat.mul_add]
  omega

/-- Charging the streaming fee reduces what is owed by less than one base unit. -/
theorem owed_collect_up {s s1 : State} {now : Nat} (hr : Reachable s) (h : collectStreamingFee s now = .ok s1)
    (d : Denom) : owed s d ≤ 999999999999999999 + owed s1 d := by
  have hc := charge_step hr h d
  obtain ⟨f1, _, f3, _, f5, _⟩ := collectStreamingFee_frame h
  have hle : unitIn s1 d ≤ unitIn s d := by
    obtain ⟨_, _, _, _, _, _, _, _, _, _, ⟨k, k1, k2, _⟩, _⟩ := C10_accrual_conserves hr h
    unfold unitIn
    cases hl : s.indexUnits.lookup d with
    | none => rw [(k2 d hl).1]
    | some u =>
      obtain ⟨u', a, b, _⟩ := k1 d u hl
      rw [a]; simp only [Option.getD_some]; omega
  unfold owed
  rw [hc, f1, f3]
  have hp : parked s1 = parked s := by simp [parked, f5]
  rw [hp]
  obtain ⟨x, hx⟩ := Nat.exists_eq_add_of_le hle
  have hp := le_part_mul (unitIn s d - unitIn s1 d) s.totalSupply
  rw [show unitIn s d - unitIn s1 d = x by omega] at hp ⊢
  exact up_collect hx hp

private theorem up_mint {P Q u S a q K O refund funds : Nat} (h : O ≤ Q + (u * S + P * K))
    (hf : refund + max 1 q = funds) (hq : P * q ≤ u * a) :
    O + P * funds ≤ Q + P + (u * (S + a) + P * K + P * refund) := by
  have h3 : P * max 1 q ≤ P + u * a := by
    rcases Nat.le_total 1 q with h | h
    · rw [Nat.max_eq_right h]; omega
    · rw [Nat.max_eq_left h]; omega
  rw [← hf, Nat.mul_add, Nat.mul_add]
  omega

private theorem owed_mint_up {s s' : State} {env : Env} {info : Info} {a : Nat} {r f : Option Addr} {ms : List Msg}
    (hr : Reachable s) (hf : distinct info.funds) (h : execute s env info (.mint a r f) = .ok (s', ms))
    {d : Denom} (hd : d ≠ s.config.indexDenom) :
    owed s d + 1000000000000000000 * total d info.funds ≤
      999999999999999999 + 1000000000000000000 + (owed s' d + 1000000000000000000 * sent d ms) := by
  obtain ⟨fee, toR, refund, hms, _, _, _, h4, h5⟩ := C02_mint_takes_exact_basket hr hf h
  have hr' := hr.execute h
  obtain ⟨s1, hc, hx⟩ := execute_eq_ok.1 h
  have hle := owed_collect_up hr hc d
  obtain ⟨_, _, _, f4, f5, _⟩ := collectStreamingFee_frame hc
  obtain ⟨_, hreb, _, _, _, _, _, hs', _⟩ := mint_eq_ok.1 hx
  have hq' : owed s' d = unitIn s' d * s'.totalSupply + 1000000000000000000 * uncollected s' d :=
    owed_quiet (by rw [hs']; exact hreb) hr' d
  have hq1 : owed s1 d = unitIn s1 d * s1.totalSupply + 1000000000000000000 * uncollected s1 d := by
    simp [owed, parked_none (s := s1) (by rw [f5]; exact hr.inv.resNone (by rw [← f4]; exact hreb))]
  have e1 : unitIn s' d = unitIn s1 d := by rw [hs']; rfl
  have e2 : uncollected s' d = uncollected s1 d := by rw [hs']; rfl
  have e3 : s'.totalSupply = s1.totalSupply + a := by rw [hs']
  have hsent : sent d ms = total d refund := by
    rw [hms]
    simp [sent_append, sent, sent_feeTransfer hd]
    simp [total, Ne.symm hd]
  rw [hq', e1, e2, e3, hsent]
  rw [hq1] at hle
  rw [← e1] at hle ⊢
  cases hl : s'.indexUnits.lookup d with
  | none =>
    obtain ⟨g1, g2⟩ := h5 d hl
    have hu : unitIn s' d = 0 := by simp [unitIn, hl]
    rw [hu] at hle ⊢
    rw [g1, g2]
    simp only [Nat.zero_mul] at hle ⊢
    omega
  | some u =>
    have hu : unitIn s' d = u := by simp [unitIn, hl]
    rw [hu] at hle ⊢
    exact up_mint hle (h4 d u hl) (part_mul_le u a)

private theorem up_burn {P Q u S S' b q K O : Nat} (h : O ≤ Q + (u * S + P * K)) (hs : S' + b = S) (hq : u * b ≤ Q + P * q) :
    O ≤ Q + Q + (u * S' + P * K + P * q) := by
  rw [← hs, Nat.mul_add] at h
  omega

private theorem owed_burn_up {s s' : State} {env : Env} {info : Info} {r : Option Addr} {ms : List Msg}
    (hr : Reachable s) (h : execute s env info (.burn r) = .ok (s', ms))
    {d : Denom} (hd : d ≠ s.config.indexDenom) :
    owed s d ≤ 999999999999999999 + 999999999999999999 + (owed s' d + 1000000000000000000 * sent d ms) := by
  obtain ⟨received, fee, burnt, redeem, _, _, _, _, _, h6, hms, _, _, h7, h8⟩ := C04_burn_pays_exact_basket hr h
  have hr' := hr.execute h
  obtain ⟨s1, hc, hx⟩ := execute_eq_ok.1 h
  have hle := owed_collect_up hr hc d
  obtain ⟨_, _, f3, f4, f5, _⟩ := collectStreamingFee_frame hc
  obtain ⟨_, hreb, _, _, _, _, _, _, _, _, _, _, _, _, hs', _⟩ := burn_eq_ok.1 hx
  have hq' : owed s' d = unitIn s' d * s'.totalSupply + 1000000000000000000 * uncollected s' d :=
    owed_quiet (by rw [hs']; exact hreb) hr' d
  have hq1 : owed s1 d = unitIn s1 d * s1.totalSupply + 1000000000000000000 * uncollected s1 d := by
    simp [owed, parked_none (s := s1) (by rw [f5]; exact hr.inv.resNone (by rw [← f4]; exact hreb))]
  have e1 : unitIn s' d = unitIn s1 d := by rw [hs']; rfl
  have e2 : uncollected s' d = uncollected s1 d := by rw [hs']; rfl
  have hsent : sent d ms = total d redeem := by
    rw [hms]
    simp [sent_append, sent, sent_feeTransfer hd]
  rw [hq', e1, e2, hsent]
  rw [hq1, f3] at hle
  rw [← e1] at hle ⊢
  cases hl : s'.indexUnits.lookup d with
  | none =>
    have hu : unitIn s' d = 0 := by simp [unitIn, hl]
    rw [hu] at hle ⊢
    rw [h8 d hl]
    simp only [Nat.zero_mul] at hle ⊢
    omega
  | some u =>
    have hu : unitIn s' d = u := by simp [unitIn, hl]
    rw [hu] at hle ⊢
    rw [h7 d u hl]
    exact up_burn hle h6 (le_part_mul u burnt)

/-- Collecting the fee. -/
private theorem owed_realize_up {s s' : State} {env : Env} {info : Info} {ms : List Msg} (hr : Reachable s)
    (h : execute s env info .realize = .ok (s', ms)) (d : Denom) :
    owed s d ≤ 999999999999999999 + (owed s' d + 1000000000000000000 * sent d ms) := by
  obtain ⟨s1, hc, hx⟩ := execute_eq_ok.1 h
  have hle := owed_collect_up hr hc d
  obtain ⟨_, hz⟩ := realize_eq_ok.1 hx
  rcases hz with ⟨_, rfl, rfl⟩ | ⟨sf, hsf, rfl, rfl⟩
  · simpa [sent] using hle
  · refine le_trans hle (Nat.add_le_add_left (le_of_eq ?_) _)
    simp [owed, unitIn, parked, uncollected, hsf, sent, total]

/-- Changing the fees. -/
private theorem owed_update_up {s s' : State} {env : Env} {info : Info} {p : FeePayload} {ms : List Msg} (hr : Reachable s)
    (h : execute s env info (.gov (.updateFeeStrategy p)) = .ok (s', ms)) (d : Denom) :
    owed s d ≤ 999999999999999999 + (owed s' d + 1000000000000000000 * sent d ms) +
      1000000000000000000 * (uncollected s d + part (unitIn s d - unitIn s' d) s.totalSupply) := by
  obtain ⟨s1, hc, hx⟩ := execute_eq_ok.1 h
  have hle := owed_collect_up hr hc d
  have hch := charge_step hr hc d
  obtain ⟨_, _, _, _, _, _, rfl, rfl⟩ := updateFee_eq_ok.1 hx
  have hu : ∀ f, unitIn { s1 with fee := f } d = unitIn s1 d := fun _ => rfl
  rw [hu, ← hch]
  refine le_trans hle ?_
  unfold owed
  simp only [unitIn, parked, sent]
  omega

/-- All other messages outside a rebalance. -/
private theorem owed_same {s s' : State} {env : Env} {info : Info} {m : GovMsg} {ms : List Msg} (hr : Reachable s)
    (h : execute s env info (.gov m) = .ok (s', ms)) (hm : ∀ p, m ≠ .updateFeeStrategy p) (d : Denom) :
    owed s d ≤ owed s' d ∧ ms = [] := by
  obtain ⟨s1, hc, hx⟩ := execute_eq_ok.1 h
  cases m with
  | updateFeeStrategy p => exact absurd rfl (hm p)
  | pause e =>
    simp [collectsFirst] at hc; subst hc
    obtain ⟨a, b, c, rfl, rfl⟩ := pause_eq_ok.1 hx; simp [owed, unitIn, parked, uncollected]
  | release =>
    simp [collectsFirst] at hc; subst hc
    obtain ⟨a, b, rfl, rfl⟩ := release_eq_ok.1 hx; simp [owed, unitIn, parked, uncollected]
  | updateGov g =>
    simp [collectsFirst] at hc; subst hc
    obtain ⟨a, b, _, rfl, rfl⟩ := updateGov_eq_ok.1 hx; simp [owed, unitIn, parked, uncollected]
  | acceptGov =>
    simp [collectsFirst] at hc; subst hc
    obtain ⟨a, rfl, rfl⟩ := acceptGov_eq_ok.1 hx; simp [owed, unitIn, parked, uncollected]
  | revokeGov =>
    simp [collectsFirst] at hc; subst hc
    obtain ⟨_, a, rfl, rfl⟩ := revokeGov_eq_ok.1 hx; simp [owed, unitIn, parked, uncollected]
  | updateRebalanceManager m =>
    simp [collectsFirst] at hc; subst hc
    obtain ⟨_, _, ⟨r, hr, rfl⟩, rfl⟩ := updateRebalanceManager_eq_ok.1 hx
    simp [owed, unitIn, parked, uncollected]
  | updateReserveDenom d' =>
    simp [collectsFirst] at hc; subst hc
    obtain ⟨a, b, rfl, rfl⟩ := updateReserveDenom_eq_ok.1 hx
    have := hr.inv.resNone b
    simp [owed, unitIn, parked, uncollected, this]
  | updateTradeInfo d rs c m =>
    simp [collectsFirst] at hc; subst hc
    obtain ⟨_, ⟨r, rs', hrs, rfl⟩, rfl⟩ := updateTradeInfo_eq_ok.1 hx
    simp [owed, unitIn, parked, uncollected]

/-! ### One step of the chain -/

/-- What the contract keeps of a denom after messages that are not swaps, at most. -/
theorem runMsgs_bal_up {self : Addr} {b b' : Bank} {market : List Nat} {ms : List Msg}
    (hs : ∀ m ∈ ms, isSwap m = false) (h : runMsgs self b market ms = .ok b') (d : Denom) (hb : minted d ms = 0) :
    b'.bal self d + sent d ms ≤ b.bal self d + sentTo self d ms := by
  induction ms generalizing b market with
  | nil => simp [runMsgs] at h; subst h; simp [sent]
  | cons m ms ih =>
    simp only [runMsgs, bind_eq_ok] at h
    obtain ⟨⟨b1, mk⟩, h1, h2⟩ := h
    have hm := hs m (by simp)
    have ih' := ih (fun m hm => hs m (by simp [hm])) h2
    cases m with
    | createDenom a s =>
      simp [runMsg] at h1; obtain ⟨rfl, rfl⟩ := h1
      exact ih' hb
    | tfMint a t c =>
      simp [runMsg] at h1; obtain ⟨rfl, rfl⟩ := h1
      simp only [minted] at hb
      have := ih' (by omega)
      simp only [sent, sentTo, Bank.create] at this ⊢
      have hz : (if self = t ∧ d = c.denom then c.amount else 0) = 0 := by
        split
        · rename_i hc
          have : (if c.denom = d then c.amount else 0) = 0 := by omega
          rwa [if_pos hc.2.symm] at this
        · rfl
      omega
    | tfBurn a t c =>
      simp only [runMsg, bind_eq_ok, Bank.destroy, require_eq_ok, Except.ok.injEq, Prod.mk.injEq, debit_eq_ok] at h1
      obtain ⟨b2, ⟨_, hsup, b3, ⟨_, rfl⟩, rfl⟩, rfl, rfl⟩ := h1
      have := ih' hb
      simp only [sent, sentTo] at this ⊢
      omega
    | send t cs =>
      simp only [runMsg, bind_eq_ok, Except.ok.injEq, Prod.mk.injEq, send_eq_ok] at h1
      obtain ⟨b2, ⟨hle, rfl⟩, rfl, rfl⟩ := h1
      have := ih' (by simpa [minted] using hb)
      simp only [sent, sentTo, if_true, eq_comm (a := t)] at this ⊢
      have := hle d
      omega
    | swapExactIn a r c x => simp [isSwap] at hm
    | swapExactOut a r c x => simp [isSwap] at hm

private theorem put {o o' f sn b b1 b' Q P g st : Nat} (h1 : o + P * f ≤ Q + (o' + P * sn)) (h2 : b1 = b + f)
    (h3 : b' + sn ≤ b1 + st) (hg : Q ≤ P * g) : o + P * b' ≤ P * (b + (st + g)) + o' := by
  have : P * (b' + sn) ≤ P * (b + f + st) := Nat.mul_le_mul_left _ (h2 ▸ h3)
  rw [Nat.mul_add, Nat.mul_add, Nat.mul_add] at this
  rw [Nat.mul_add, Nat.mul_add]
  omega

private theorem put' {o o' f sn b b1 b' Q P g st t : Nat} (h1 : o ≤ Q + (o' + P * sn) + P * t) (h2 : b1 = b + f)
    (h3 : b' + sn ≤ b1 + st) (hg : Q ≤ P * g) : o + P * b' ≤ P * (b + (f + st + (t + g))) + o' := by
  have : P * (b' + sn) ≤ P * (b + f + st) := Nat.mul_le_mul_left _ (h2 ▸ h3)
  rw [Nat.mul_add, Nat.mul_add, Nat.mul_add] at this
  rw [Nat.mul_add, Nat.mul_add, Nat.mul_add, Nat.mul_add]
  omega

/-- One accepted transaction other than a rebalance message. -/
theorem stuck_plain {w w' : World} {tx : Tx} {d : Denom} (hi : WInv w)
    (hd : d ≠ w.core.config.indexDenom) (hq : ∀ env info m mk, tx ≠ .call env info (.rebalance m) mk)
    (h : apply w tx = .ok w') :
    owed w.core d + 1000000000000000000 * w'.bank.bal w.self d ≤
      1000000000000000000 * (w.bank.bal w.self d + (givenBy d w tx + (thrownBy d w tx + roundingsBy w tx))) + owed w'.core d := by
  have hacc : txAccepted w tx = true := by simp [txAccepted, h]
  have hdel : deliver w tx = w' := by simp [deliver, h]
  cases tx with
  | transfer src dst cs =>
    simp only [Chain.apply, bind_eq_ok, require_eq_ok, Except.ok.injEq, send_eq_ok] at h
    obtain ⟨_, hs, b, ⟨_, rfl⟩, rfl⟩ := h
    simp only [if_neg hs, givenBy, hacc, if_true, thrownBy, roundingsBy, repliesOf, sentTo, Nat.add_zero,
      eq_comm (a := w.self)]
    omega
  | inflow dst c =>
    simp only [Chain.apply, bind_eq_ok, require_eq_ok, Except.ok.injEq] at h
    obtain ⟨_, hc, rfl⟩ := h
    simp only [givenBy, hacc, if_true, thrownBy, roundingsBy, repliesOf, sentTo, Nat.add_zero, Bank.create,
      eq_comm (a := w.self), eq_comm (a := d)]
    omega
  | call env info msg market =>
    obtain ⟨b, core, ms, b', henv, hsnd, hdis, hb, hx, hrun, rfl⟩ := apply_call.1 h
    obtain ⟨_, rfl⟩ := send_eq_ok.1 hb
    have hbal : (if w.self = info.sender then w.bank.bal w.self d - total d info.funds else w.bank.bal w.self d)
        + (if True then total d info.funds else 0) = w.bank.bal w.self d + total d info.funds := by
      rw [if_neg (Ne.symm hsnd), if_pos trivial]
    have hrep : repliesOf w (.call env info msg market) = ms := by simp [repliesOf, hx]
    have hs : ∀ m ∈ ms, isSwap m = false := by
      rcases swap_messages hx with hs | ⟨k, o, x, rfl, hk⟩ | ⟨k, o, x, rfl, hk⟩
      · exact hs
      all_goals exact absurd rfl (hq _ _ _ _)
    have hrb := runMsgs_bal_up hs hrun d ((execute_supply hx).2.2 d hd).1
    simp only [hbal] at hrb
    cases msg with
    | mint a r f =>
      simp only [givenBy, hacc, if_true, hrep, thrownBy, roundingsBy, Nat.zero_add]
      exact put (owed_mint_up hi.reach hdis hx hd) rfl hrb (by norm_num)
    | burn r =>
      simp only [givenBy, hacc, if_true, hrep, thrownBy, roundingsBy]
      exact put' (t := 0) (by rw [Nat.mul_zero, Nat.add_zero]; exact owed_burn_up hi.reach hx hd) rfl hrb (by norm_num)
    | realize =>
      simp only [givenBy, hacc, if_true, hrep, thrownBy, roundingsBy]
      exact put' (t := 0) (by rw [Nat.mul_zero, Nat.add_zero]; exact owed_realize_up hi.reach hx d) rfl hrb (by norm_num)
    | gov m =>
      by_cases hm : ∃ p, m = .updateFeeStrategy p
      · obtain ⟨p, rfl⟩ := hm
        simp only [givenBy, hacc, if_true, hrep, thrownBy, roundingsBy, hdel]
        exact put' (owed_update_up hi.reach hx d) rfl hrb (by norm_num)
      · have hm' : ∀ p, m ≠ .updateFeeStrategy p := fun p e => hm ⟨p, e⟩
        obtain ⟨h1, h2⟩ := owed_same hi.reach hx hm' d
        subst h2
        have ht : thrownBy d w (.call env info (.gov m) market) = 0 := by
          cases m <;> first | rfl | exact absurd rfl (hm' _)
        have hr : roundingsBy w (.call env info (.gov m) market) = 0 := by
          cases m <;> first | exact absurd rfl (hm' _) | (unfold roundingsBy; rw [if_pos hacc])
        rw [ht, hr]
        simp only [givenBy, hacc, if_true, hrep]
        exact put' (Q := 0) (t := 0) (g := 0) (by rw [Nat.mul_zero]; simpa [sent] using h1) rfl hrb (Nat.zero_le _)
    | rebalance m => exact absurd rfl (hq _ _ _ _)

/-- One accepted transaction outside a rebalance. -/
private theorem stuck_step {w w' : World} {tx : Tx} {d : Denom} (hi : WInv w) (hnr : w.core.rebalance = none)
    (hd : d ≠ w.core.config.indexDenom) (hq : ∀ env info m de inf mk, tx ≠ .call env info (.rebalance (.init m de inf)) mk)
    (h : apply w tx = .ok w') :
    w'.core.rebalance = none ∧
    owed w.core d + 1000000000000000000 * w'.bank.bal w.self d ≤
      1000000000000000000 * (w.bank.bal w.self d + (givenBy d w tx + (thrownBy d w tx + roundingsBy w tx))) + owed w'.core d := by
  have hreb : ∀ env info m mk, tx ≠ .call env info (.rebalance m) mk := by
    rintro env info m mk rfl
    obtain ⟨b, core, ms, b', _, _, _, _, hx, _, _⟩ := apply_call.1 h
    cases m with
    | init m de inf => exact hq _ _ _ _ _ _ rfl
    | trade m =>
      obtain ⟨r, hr, _⟩ := trade_eq_ok.1 (execute_trade.1 hx)
      rw [hnr] at hr
      cases hr
    | finalize =>
      obtain ⟨s1, hc, hx⟩ := execute_eq_ok.1 hx
      simp [collectsFirst] at hc; subst hc
      obtain ⟨r, res, hr, _⟩ := finalize_eq_ok.1 hx
      rw [hnr] at hr
      cases hr
  refine ⟨?_, stuck_plain hi hd hreb h⟩
  cases tx with
  | transfer src dst cs =>
    simp only [Chain.apply, bind_eq_ok, require_eq_ok, Except.ok.injEq] at h
    obtain ⟨_, _, b, _, rfl⟩ := h
    exact hnr
  | inflow dst c =>
    simp only [Chain.apply, bind_eq_ok, require_eq_ok, Except.ok.injEq] at h
    obtain ⟨_, _, rfl⟩ := h
    exact hnr
  | call env info msg market =>
    obtain ⟨b, core, ms, b', _, _, _, _, hx, _, rfl⟩ := apply_call.1 h
    have hns : ¬ startsRebalance msg := by
      intro hst
      unfold startsRebalance at hst
      split at hst
      · exact hq _ _ _ _ _ _ rfl
      · exact hst
    obtain ⟨_, _, _, hn, _⟩ := fee_step hns hnr hx
    exact hn

theorem stuck_rejected {d : Denom} {w : World} {tx : Tx} (h : txAccepted w tx = false) :
    givenBy d w tx = 0 ∧ thrownBy d w tx = 0 ∧ roundingsBy w tx = 0 := by
  refine ⟨by simp [givenBy, h], ?_, by simp [roundingsBy, h]⟩
  unfold thrownBy
  split <;> simp [h]

private theorem coins {P Q u S K q b B : Nat} (hQ : Q + 1 = P) (h : P * b ≤ P * B + (u * S + P * K)) (hq : u * S ≤ Q + P * q) :
    b ≤ B + q + K := by
  by_contra hlt
  have h2 : P * (B + q + K + 1) ≤ P * b := Nat.mul_le_mul_left _ (by omega)
  rw [Nat.mul_add, Nat.mul_add, Nat.mul_add, Nat.mul_one] at h2
  omega

private theorem stuck_history {d : Denom} : ∀ (txs : List Tx) (w : World), WInv w → w.core.rebalance = none →
    d ≠ w.core.config.indexDenom → NoStart w txs →
    (runTxs w txs).core.rebalance = none ∧ Reachable (runTxs w txs).core ∧
    owed w.core d + 1000000000000000000 * (runTxs w txs).bank.bal w.self d ≤
      1000000000000000000 * (w.bank.bal w.self d + (given d w txs + (thrown d w txs + roundings w txs))) +
        owed (runTxs w txs).core d
  | [], w, hi, hnr, _, _ => by
    refine ⟨hnr, hi.reach, ?_⟩
    simp only [runTxs, given, thrown, roundings, Nat.add_zero]
    omega
  | tx :: txs, w, hi, hnr, hd, hq => by
    simp only [runTxs, given, thrown, roundings]
    rcases deliver_cases w tx with e | e
    · by_cases hacc : txAccepted w tx = true
      · unfold txAccepted at hacc
        cases ha : apply w tx with
        | error x => rw [ha] at hacc; cases hacc
        | ok w' =>
          have : deliver w tx = w' := by simp [deliver, ha]
          rw [e] at this
          subst this
          have hq' : ∀ env info m de inf mk, tx ≠ .call env info (.rebalance (.init m de inf)) mk := by
            intro env info m de inf mk ht
            have := hq.1 env info m de inf mk ht
            simp [txAccepted, ha] at this
          obtain ⟨_, h2⟩ := stuck_step hi hnr hd hq' ha
          have hq2 := hq.2
          rw [e] at hq2 ⊢
          obtain ⟨i1, i2, i3⟩ := stuck_history txs w hi hnr hd hq2
          refine ⟨i1, i2, ?_⟩
          omega
      · have hz := stuck_rejected (d := d) (Bool.eq_false_iff.2 hacc)
        have hq2 := hq.2
        rw [e] at hq2 ⊢
        rw [hz.1, hz.2.1, hz.2.2]
        obtain ⟨i1, i2, i3⟩ := stuck_history txs w hi hnr hd hq2
        refine ⟨i1, i2, ?_⟩
        omega
    · have hq' : ∀ env info m de inf mk, tx ≠ .call env info (.rebalance (.init m de inf)) mk := by
        intro env info m de inf mk ht
        have := hq.1 env info m de inf mk ht
        simp [txAccepted, e] at this
      obtain ⟨h1, h2⟩ := stuck_step hi hnr hd hq' e
      obtain ⟨a1, a2, a3⟩ := hi.apply e
      obtain ⟨i1, i2, i3⟩ := stuck_history txs (deliver w tx) a1 h1 (by rw [a3]; exact hd) hq.2
      rw [a2] at i3
      refine ⟨i1, i2, ?_⟩
      omega

/-- A contract that charges only the streaming fee, on a chain where alice has uosmo and uatom. -/
def drainWorld : World :=
  { core := { Demo.s0 with fee := { collector := "collector", mintFee := none, burnFee := none
                                    streamingFee := some { rate := 20000000000, collected := [], freeze := false, lastCollectedAt := 1000 } } }
    bank := demoWorld.bank
    self := "core" }

theorem drainWorld_start : Start drainWorld := by
  refine ⟨⟨Demo.env 1000, { Demo.inst with fee := { collector := "collector", mintFee := none, burnFee := none
                                                    streamingFee := some { rate := 20000000000, freeze := false } } },
    _, _, "factory/core/ibcx", [], rfl, rfl⟩, by decide, fun a => ?_⟩
  simp [drainWorld, demoWorld, Demo.s0]

/-- Alice mints 10000 index tokens, someone sends the contract 7 uosmo, alice burns 4000 index tokens, the fees are
collected, alice burns the rest, and the fees are collected again. -/
def drainTxs : List Tx :=
  [.call (Demo.env 1000) Demo.mintInfo (.mint 10000 none none) [],
   .transfer "alice" "core" [⟨"uosmo", 7⟩],
   .call (Demo.env 2000000) ⟨"alice", [⟨"factory/core/ibcx", 4000⟩]⟩ (.burn none) [],
   .call (Demo.env 3000000) ⟨"collector", []⟩ .realize [],
   .call (Demo.env 4000000) ⟨"alice", [⟨"factory/core/ibcx", 6000⟩]⟩ (.burn none) [],
   .call (Demo.env 5000000) ⟨"collector", []⟩ .realize []]

theorem drainTxs_noStart : NoStart drainWorld drainTxs := by
  simp [NoStart, drainTxs]

/-- The same, but a fee change comes between the first burn and the collection: it throws the recorded fees away. -/
def thrownTxs : List Tx :=
  [.call (Demo.env 1000) Demo.mintInfo (.mint 10000 none none) [],
   .call (Demo.env 2000000) ⟨"alice", [⟨"factory/core/ibcx", 4000⟩]⟩ (.burn none) [],
   .call (Demo.env 2000000) ⟨"gov", []⟩ (.gov (.updateFeeStrategy { collector := "collector", mintFee := none, burnFee := none
                                                                    streamingFee := none })) [],
   .call (Demo.env 3000000) ⟨"collector", []⟩ .realize [],
   .call (Demo.env 4000000) ⟨"alice", [⟨"factory/core/ibcx", 6000⟩]⟩ (.burn none) []]

theorem thrownTxs_noStart : NoStart drainWorld thrownTxs := by
  simp [NoStart, thrownTxs]

/-- **C118.** Take the chain right after the creation of the contract and any transactions in which no rebalance is started.
Of every denom other than the index denom, the contract then holds at most: what it held at first, what was given to it, the
fees that fee changes threw away, one coin for each rounding, the basket of all index tokens, and the fees not yet collected. -/
theorem C118_nothing_gets_stuck {w : World} {txs : List Tx} (hw : Start w) (hq : NoStart w txs) {d : Denom}
    (hd : d ≠ w.core.config.indexDenom) :
    (runTxs w txs).bank.bal w.self d ≤
      w.bank.bal w.self d + (given d w txs + (thrown d w txs + roundings w txs)) +
        part (unitIn (runTxs w txs).core d) (runTxs w txs).core.totalSupply + uncollected (runTxs w txs).core d := by
  have hnr : w.core.rebalance = none := by
    obtain ⟨env, msg, s0, ms, d, ms', h1, h2⟩ := hw.1
    obtain ⟨_, _, _, _, _, _, e, _⟩ := instantiate_eq_ok.1 h1
    obtain ⟨_, d', _, e', _⟩ := reply_eq_ok.1 h2
    rw [e', e]
  obtain ⟨h1, h2, h3⟩ := stuck_history (d := d) txs w (start_inv hw) hnr hd hq
  rw [owed_quiet h1 h2] at h3
  exact coins (Q := 999999999999999999) (by norm_num) (le_trans (Nat.le_add_left _ _) h3) (le_part_mul _ _)

/-- The hypotheses of C118 hold for the first three transactions: 9252 uosmo are on the contract, 8632 are the basket of the
6000 index tokens, 611 the fees not yet collected, 7 a gift, and 2 remain from rounding. -/
example : Start drainWorld ∧ NoStart drainWorld (drainTxs.take 3) ∧ "uosmo" ≠ drainWorld.core.config.indexDenom ∧
    (runTxs drainWorld (drainTxs.take 3)).bank.bal "core" "uosmo" = 9252 ∧
    part (unitIn (runTxs drainWorld (drainTxs.take 3)).core "uosmo") (runTxs drainWorld (drainTxs.take 3)).core.totalSupply
      = 8632 ∧
    uncollected (runTxs drainWorld (drainTxs.take 3)).core "uosmo" = 611 ∧ given "uosmo" drainWorld (drainTxs.take 3) = 7 ∧
    roundings drainWorld (drainTxs.take 3) = 4 :=
  ⟨drainWorld_start, by simp [NoStart, drainTxs], by decide, by decide +kernel, by decide +kernel, by decide +kernel,
    by decide +kernel, by decide +kernel⟩

/-- **C118 (the end).** When all index tokens are burnt and the fees are collected, all that was paid in has been paid out,
but for one coin of each denom for each rounding. -/
theorem C118_all_paid_out {w : World} {txs : List Tx} (hw : Start w) (hq : NoStart w txs) {d : Denom}
    (hd : d ≠ w.core.config.indexDenom) (hz : (runTxs w txs).core.totalSupply = 0) (hu : uncollected (runTxs w txs).core d = 0) :
    (runTxs w txs).bank.bal w.self d ≤ w.bank.bal w.self d + (given d w txs + (thrown d w txs + roundings w txs)) := by
  have h := C118_nothing_gets_stuck hw hq hd
  rw [hz, hu] at h
  simpa [part] using h

/-- The hypotheses hold for the whole history: 15000 uosmo were paid for the index tokens, 7 were a gift, and 10 remain. -/
example : Start drainWorld ∧ NoStart drainWorld drainTxs ∧ "uosmo" ≠ drainWorld.core.config.indexDenom ∧
    (runTxs drainWorld drainTxs).core.totalSupply = 0 ∧ uncollected (runTxs drainWorld drainTxs).core "uosmo" = 0 ∧
    (runTxs drainWorld drainTxs).bank.bal "core" "uosmo" = 10 ∧ (runTxs drainWorld drainTxs).bank.bal "core" "uatom" = 2 ∧
    (runTxs drainWorld drainTxs).bank.bal "collector" "uosmo" = 955 ∧
    given "uosmo" drainWorld drainTxs = 7 ∧ thrown "uosmo" drainWorld drainTxs = 0 ∧ roundings drainWorld drainTxs = 8 :=
  ⟨drainWorld_start, drainTxs_noStart, by decide, by decide +kernel, by decide +kernel, by decide +kernel,
    by decide +kernel, by decide +kernel, by decide +kernel, by decide +kernel, by decide +kernel⟩

/-- **C118 (what does get stuck).** The fees that a fee change throws away cannot be left out of the bound: they stay on the
contract though no index token is left and no fee is recorded. -/
theorem C118_thrown_fees_are_stuck :
    ¬ ∀ (w : World) (txs : List Tx) (d : Denom), Start w → NoStart w txs → d ≠ w.core.config.indexDenom →
      (runTxs w txs).core.totalSupply = 0 → uncollected (runTxs w txs).core d = 0 →
      (runTxs w txs).bank.bal w.self d ≤ w.bank.bal w.self d + (given d w txs + roundings w txs) := by
  intro h
  exact absurd (h drainWorld thrownTxs "uosmo" drainWorld_start thrownTxs_noStart (by decide) (by decide +kernel)
    (by decide +kernel)) (by decide +kernel)

/-- In that history 611 uosmo are thrown away, and they remain, with 2 from rounding. -/
example : (runTxs drainWorld thrownTxs).core.totalSupply = 0 ∧ thrown "uosmo" drainWorld thrownTxs = 611 ∧
    (runTxs drainWorld thrownTxs).bank.bal "core" "uosmo" = 613 :=
  ⟨by decide +kernel, by decide +kernel, by decide +kernel⟩

end Ibcx.Props
