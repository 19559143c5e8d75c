import Verif.Props.CollateralAll
import Verif.Props.Settle
/-!
# C126: everyone can leave
-/

namespace Ibcx.Props
open Ibcx Ibcx.Core Ibcx.Spec Ibcx.Chain

/-- The contract holds, of every denom but its own, at least what the index tokens in existence and the fees not yet
collected stand for (in multiples of `10^-18` base units). -/
def Backed (w : World) : Prop :=
  ∀ d, d ≠ w.core.config.indexDenom → owed w.core d ≤ 1000000000000000000 * w.bank.bal w.self d

/-- The sender burns an amount of index tokens and takes the basket. -/
def leave (env : Env) (index : Denom) (x : Addr × Nat) : Tx := .call env ⟨x.1, [⟨index, x.2⟩]⟩ (.burn none) []

/-- All transactions of the list go through, one after the other. -/
def AllAccepted (w : World) : List Tx → Prop
  | [] => True
  | tx :: txs => txAccepted w tx = true ∧ AllAccepted (deliver w tx) txs

/-- Neither a mint nor a trade of a rebalance. -/
def Harmless : Tx → Prop
  | .call _ _ (.mint ..) _ => False
  | .call _ _ (.rebalance (.trade _)) _ => False
  | _ => True

private theorem harmless_loss {w : World} {tx : Tx} (h : Harmless tx) (d : Denom) :
    lossOf d w tx = 0 ∧ astrayBy d w tx = 0 := by
  unfold lossOf mintCount swapDust astrayBy mintCount swapDust
  cases tx with
  | transfer => exact ⟨rfl, rfl⟩
  | inflow => exact ⟨rfl, rfl⟩
  | call env info msg market =>
    cases msg with
    | mint => exact h.elim
    | burn => exact ⟨rfl, rfl⟩
    | realize => exact ⟨rfl, rfl⟩
    | gov => exact ⟨rfl, rfl⟩
    | rebalance m =>
      cases m with
      | trade => exact h.elim
      | init => exact ⟨rfl, rfl⟩
      | finalize => exact ⟨rfl, rfl⟩

private theorem backed_apply {w w' : World} {tx : Tx} (hw : WInv w) (hb : Backed w) (h : Harmless tx)
    (hx : apply w tx = .ok w') : Backed w' := by
  obtain ⟨_, i2, i3⟩ := hw.apply hx
  intro d hd
  rw [i3] at hd
  have := cover_step_all hw hd hx
  obtain ⟨e1, e2⟩ := harmless_loss (w := w) h d
  rw [e1, e2] at this
  have hb' := hb d hd
  rw [i2]
  omega

/-- **C126 (backed for good).** Once the contract holds all that it owes, this stays so, whatever anyone sends, until the next
mint or trade of a rebalance. -/
theorem C126_stays_backed {w : World} (hw : WInv w) (hb : Backed w) {txs : List Tx} (h : ∀ tx ∈ txs, Harmless tx) :
    Backed (runTxs w txs) := by
  induction txs generalizing w with
  | nil => exact hb
  | cons tx txs ih =>
    simp only [runTxs]
    rcases deliver_cases w tx with e | e
    · rw [e]
      exact ih hw hb fun t ht => h t (List.mem_cons_of_mem _ ht)
    · exact ih (hw.apply e).1 (backed_apply hw hb (h tx List.mem_cons_self) e) fun t ht => h t (List.mem_cons_of_mem _ ht)

/-- Everything but mints and trades of rebalances: transfers, burns, fees, settings, the start and end of a rebalance. -/
example : Harmless (.transfer "alice" "bob" [⟨"factory/core/ibcx", 2⟩]) ∧
    Harmless (leave (Demo.env 1002) "factory/core/ibcx" ("bob", 2)) ∧
    ¬ Harmless (.call (Demo.env 1000) ⟨"alice", [⟨"uosmo", 1⟩]⟩ (.mint 3 none none) []) :=
  ⟨trivial, trivial, id⟩

/-- **C126 (one coin for each mint).** If in the history nothing was lost by trades of rebalances, the contract holds all
that it owes as soon as it is given one coin of each denom for each mint so far. -/
theorem C126_one_coin_per_mint {w w' : World} {txs : List Tx} (hw : Start w)
    (hs : ∀ d, swapDust d w txs = 0 ∧ astray d w txs = 0) (hc : w'.core = (runTxs w txs).core) (hself : w'.self = w.self)
    (hg : ∀ d, owed w'.core d ≠ 0 → (runTxs w txs).bank.bal w.self d + mintCount w txs ≤ w'.bank.bal w'.self d) :
    Backed w' := by
  intro d hd
  by_cases h0 : owed w'.core d = 0
  · rw [h0]
    exact Nat.zero_le _
  · have hi := (winv_run (start_inv hw) txs).2.2
    rw [hc, hi] at hd
    have h := C06_collateral_all_routes_partial w txs hw d hd
    rw [(hs d).1, (hs d).2, ← hc] at h
    have := hg d h0
    omega

/-- The two mints after which 3 uosmo are owed and 2 are held, and a gift of two uosmo, one for each mint. -/
def leaveTxs : List Tx := twoMints ++ [.inflow "core" ⟨"uosmo", 2⟩]

theorem leave_backed : Backed (runTxs halfWorld leaveTxs) := by
  refine C126_one_coin_per_mint (txs := twoMints) halfWorld_start (fun d => ⟨rfl, rfl⟩) (by decide +kernel) rfl
    fun d h => ?_
  have hc : (runTxs halfWorld leaveTxs).core = { halfWorld.core with totalSupply := 6 } := by decide +kernel
  by_cases e : d = "uosmo"
  · subst e
    decide +kernel
  · rw [hc] at h
    have hl : unitIn { halfWorld.core with totalSupply := 6 } d = 0 := by
      simp [unitIn, halfWorld, List.lookup_cons, beq_false_of_ne e]
    refine absurd ?_ h
    have hp : parked { halfWorld.core with totalSupply := 6 } = 0 := rfl
    have hu : uncollected { halfWorld.core with totalSupply := 6 } d = 0 := rfl
    rw [owed, hl, hp, hu]
    simp

/-- Before the gift the contract owes three halves more than it holds. -/
example : ¬ Backed (runTxs halfWorld twoMints) := by
  intro h
  exact absurd (h "uosmo" (by decide)) (by decide +kernel)

/-- **C126 (every burn is paid).** While the contract holds all that it owes, every burn that it accepts and whose tokens the
sender owns goes through. -/
theorem C126_burn_paid {w : World} (hw : WInv w) (hb : Backed w) {env : Env} {info : Info} {redeemTo : Option Addr}
    {s' : State} {ms : List Msg} (market : List Nat) (hc : env.contract = w.self) (hs : info.sender ≠ w.self)
    (hown : ∀ d, total d info.funds ≤ w.bank.bal info.sender d)
    (hx : execute w.core env info (.burn redeemTo) = .ok (s', ms))
    (hi : s'.indexUnits.lookup w.core.config.indexDenom = none) :
    ∃ w', apply w (.call env info (.burn redeemTo) market) = .ok w' := by
  refine (C91_burn_settles_iff hw market hc hs hown hx hi).2 ?_
  intro d u hu
  have hdi : d ≠ w.core.config.indexDenom := fun e => by rw [e, hi] at hu; cases hu
  have hq : owed s' d + 1000000000000000000 * sent d ms ≤ owed w.core d := owed_burn hw.reach hx hdi
  obtain ⟨received, fee, burnt, redeem, h1, h2, h3, h4, h5, h6, hms, _, _, h7, h8⟩ := C04_burn_pays_exact_basket hw.reach hx
  have hsent : sent d ms = part u burnt := by
    rw [hms]
    simp [sent_append, sent, sent_feeTransfer (d := d) (i := w.core.config.indexDenom) hdi, h7 d u hu]
  rw [show w.core.totalSupply - s'.totalSupply = burnt by omega, ← hsent]
  have := hb d hdi
  omega

/-- After the gift Alice's burn of all six tokens goes through; without it it did not. -/
example : txAccepted (runTxs halfWorld leaveTxs) (leave (Demo.env 1002) "factory/core/ibcx" ("alice", 6)) = true ∧
    txAccepted (runTxs halfWorld twoMints) (leave (Demo.env 1002) "factory/core/ibcx" ("alice", 6)) = false ∧
    Backed (runTxs halfWorld leaveTxs) :=
  ⟨by decide +kernel, by decide +kernel, leave_backed⟩

private theorem leave_total (d i : Denom) (n : Nat) : total d [⟨i, n⟩] = if i = d then n else 0 := by
  by_cases h : i = d <;> simp [total, h]

private theorem lookup_absent : ∀ {us : Units} {d : Denom}, d ∉ us.denoms → us.lookup d = none
  | [], _, _ => rfl
  | (k, v) :: us, d, h => by
    have h1 : d ≠ k := fun e => h (by rw [e]; exact List.mem_cons_self)
    have h2 : d ∉ Units.denoms us := fun e => h (List.mem_cons_of_mem _ e)
    rw [List.lookup_cons, beq_false_of_ne h1]
    exact lookup_absent h2

private theorem others_keep {self : Addr} {ms : List Msg}
    (hs : ∀ m ∈ ms, (∃ a cs, m = .send a cs) ∨ ∃ a c, m = .tfBurn a self c) : ∀ {b b' : Bank} {mk : List Nat},
    runMsgs self b mk ms = .ok b' → ∀ a d, a ≠ self → b.bal a d ≤ b'.bal a d := by
  induction ms with
  | nil => intro b b' mk h a d _; simp [runMsgs] at h; subst h; exact Nat.le_refl _
  | cons m ms ih =>
    intro b b' mk h a d ha
    simp only [runMsgs, bind_eq_ok] at h
    obtain ⟨⟨b1, mk1⟩, h1, h⟩ := h
    have hrest := ih (fun m hm => hs m (List.mem_cons_of_mem _ hm)) h a d ha
    refine le_trans ?_ hrest
    rcases hs m List.mem_cons_self with ⟨x, cs, rfl⟩ | ⟨x, c, rfl⟩
    · simp only [runMsg, bind_eq_ok, Except.ok.injEq, Prod.mk.injEq] at h1
      obtain ⟨_, h2, rfl, _⟩ := h1
      obtain ⟨_, rfl⟩ := send_eq_ok.1 h2
      simp only [if_neg ha]
      exact Nat.le_add_right _ _
    · simp only [runMsg, bind_eq_ok, Except.ok.injEq, Prod.mk.injEq, Bank.destroy, require_eq_ok, debit_eq_ok] at h1
      obtain ⟨_, ⟨_, _, _, ⟨_, rfl⟩, rfl⟩, rfl, _⟩ := h1
      simp [ha]

/-- **C126 (a run on the contract).** Let the contract hold all that it owes, outside a rebalance and not paused.  Then in one
block any number of holders can burn any of their index tokens, up to all of them, in any order: every one of the burns goes
through. -/
theorem C126_everyone_can_leave {w : World} {env : Env} {s1 : State} {burns : List (Addr × Nat)} (hw : WInv w)
    (hb : Backed w) (hc : env.contract = w.self) (hcol : collectStreamingFee w.core env.now = .ok s1)
    (hp : ¬ pausedAt w.core env.now) (hreb : w.core.rebalance = none)
    (hi : w.core.config.indexDenom ∉ w.core.indexUnits.denoms)
    (hfit : w.core.totalSupply < 2 ^ 128) (hfit' : ∀ e ∈ s1.indexUnits, part e.2 w.core.totalSupply < 2 ^ 128)
    (hx : ∀ b ∈ burns, b.1 ≠ w.self ∧ b.2 ≠ 0)
    (hown : ∀ a, ((burns.filter fun b => decide (b.1 = a)).map (·.2)).sum ≤ w.bank.bal a w.core.config.indexDenom)
    (hsum : (burns.map (·.2)).sum ≤ w.core.totalSupply) :
    AllAccepted w (burns.map (leave env w.core.config.indexDenom)) := by
  induction burns generalizing w s1 with
  | nil => trivial
  | cons b burns ih =>
    obtain ⟨a, x⟩ := b
    obtain ⟨ha, hx0⟩ := hx (a, x) List.mem_cons_self
    dsimp only at ha hx0
    simp only [List.map_cons, List.sum_cons] at hsum
    have hownA := hown a
    rw [List.filter_cons_of_pos (by simp)] at hownA
    simp only [List.map_cons, List.sum_cons] at hownA
    obtain ⟨f1, f2, f3, f4, f5, f6, f7, f8, f9, f10, f11⟩ := collectStreamingFee_frame hcol
    have hfee : part ((w.core.fee.burnFee).getD 0) x ≤ x := by
      cases hbf : w.core.fee.burnFee with
      | none => simp [part]
      | some r =>
        have := (hw.reach.inv.burnRate r hbf).2
        rw [Option.getD_some]
        unfold part
        refine Nat.div_le_of_le_mul ?_
        exact Nat.mul_le_mul_right _ this.le
    have hmono : ∀ u n m, n ≤ m → part u n ≤ part u m := fun u n m h => Nat.div_le_div_right (Nat.mul_le_mul_left _ h)
    have hacc := (burn_accepted_iff (redeemTo := none) (info := ⟨a, [⟨w.core.config.indexDenom, x⟩]⟩) hw.reach).2
      ⟨s1, x, hcol, hp, hreb, (by intro y hy; cases hy), rfl, hx0, by omega,
        fun e he => lt_of_le_of_lt (hmono _ _ _ (by omega)) (hfit' e he), by omega, rfl, rfl⟩
    have hdenoms : w.core.config.indexDenom ∉ s1.indexUnits.denoms := by rw [f11]; exact hi
    have hlook : s1.indexUnits.lookup w.core.config.indexDenom = none := lookup_absent hdenoms
    obtain ⟨w', hw'⟩ := C126_burn_paid hw hb (info := ⟨a, [⟨w.core.config.indexDenom, x⟩]⟩) [] hc ha
      (by
        intro d
        rw [leave_total]
        split
        · rename_i e
          rw [← e]
          dsimp only
          omega
        · exact Nat.zero_le _) hacc hlook
    have hd : deliver w (leave env w.core.config.indexDenom (a, x)) = w' := by
      unfold deliver leave
      rw [hw']
    refine ⟨by simp [txAccepted, leave, hw'], ?_⟩
    show AllAccepted (deliver w (leave env w.core.config.indexDenom (a, x))) _
    rw [hd]
    obtain ⟨i1, i2, i3⟩ := hw.apply hw'
    have hB := backed_apply hw hb (tx := leave env w.core.config.indexDenom (a, x)) trivial hw'
    obtain ⟨bk, core, ms, b', _, _, _, g4, g5, g6, rfl⟩ := apply_call.1 hw'
    rw [hacc] at g5
    cases g5
    obtain ⟨hown', rfl⟩ := send_eq_ok.1 g4
    have hkeep := others_keep (by
      intro m hm
      simp only [List.mem_append, List.mem_singleton] at hm
      rcases hm with (rfl | hm) | rfl
      · exact .inr ⟨_, _, by rw [hc]⟩
      · left
        unfold feeTransfer at hm
        cases hbf : w.core.fee.burnFee with
        | none => rw [hbf] at hm; cases hm
        | some r =>
          rw [hbf] at hm
          simp only [List.mem_singleton] at hm
          exact ⟨_, _, hm⟩
      · exact .inl ⟨_, _, rfl⟩) g6
    dsimp only at i3 ⊢
    rw [← i3]
    refine ih (s1 := { s1 with totalSupply := w.core.totalSupply - (x - burnFeeOf w.core x) }) i1 hB hc
      (collect_again hcol) ?_ (f4.trans hreb) ?_ ?_ ?_ (fun b hb' => hx b (List.mem_cons_of_mem _ hb')) ?_ ?_
    · show ¬ pausedAt _ _
      unfold pausedAt
      dsimp only
      rw [f1]
      exact hp
    · dsimp only at i3 ⊢
      rw [i3]
      exact hdenoms
    · dsimp only
      omega
    · intro e he
      exact lt_of_le_of_lt (hmono _ _ _ (Nat.sub_le _ _)) (hfit' e he)
    · intro c
      dsimp only at i3 ⊢
      rw [i3]
      by_cases hcs : c = w.self
      · rw [List.filter_eq_nil_iff.2]
        · exact Nat.zero_le _
        · intro b hb' e
          exact (hx b (List.mem_cons_of_mem _ hb')).1 ((of_decide_eq_true e).trans hcs)
      · refine le_trans ?_ (hkeep c _ hcs)
        by_cases hca : c = a
        · subst hca
          simp only [if_true, if_neg hcs, leave_total]
          omega
        · have := hown c
          rw [List.filter_cons_of_neg (by simpa using Ne.symm hca)] at this
          simp only [if_neg hca, if_neg hcs]
          exact this
    · dsimp only
      omega

/-- Bob has two of Alice's tokens; both leave, Alice in two steps. -/
example : let w := runTxs halfWorld (leaveTxs ++ [.transfer "alice" "bob" [⟨"factory/core/ibcx", 2⟩]])
    WInv w ∧ Backed w ∧ w.core.totalSupply = 6 ∧ w.core.rebalance = none ∧
    AllAccepted w ([("alice", 1), ("bob", 2), ("alice", 3)].map (leave (Demo.env 1002) w.core.config.indexDenom)) ∧
    (runTxs w ([("alice", 1), ("bob", 2), ("alice", 3)].map (leave (Demo.env 1002) w.core.config.indexDenom))).core.totalSupply
      = 0 := by
  have hw := (winv_run (start_inv halfWorld_start) leaveTxs).1
  refine ⟨?_, ?_, by decide +kernel, by decide +kernel, ⟨by decide +kernel, by decide +kernel, by decide +kernel, trivial⟩,
    by decide +kernel⟩
  · exact (winv_run (start_inv halfWorld_start) _).1
  · rw [runTxs_append]
    exact C126_stays_backed hw leave_backed (by simp [Harmless])

end Ibcx.Props
