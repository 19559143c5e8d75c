import Verif.Props.Collateral
/-!
# Collateral with routes of any length

`C06_collateral_partial` assumes routes with one hop.  Here the assumption is dropped: each trade over a longer route
may in addition leave uncovered what it pays or buys in the wrong denom.
-/

namespace Ibcx.Props
open Ibcx Ibcx.Core Ibcx.Spec Ibcx.Chain

private theorem arith_parked {u p p' q S K z : Nat} (h1 : p' ≤ p + q) (h2 : q * S ≤ z) :
    (u + p') * S + K ≤ (u + p) * S + K + z := by
  have h3 : (u + p') * S ≤ (u + p + q) * S := Nat.mul_le_mul_right _ (by omega)
  rw [Nat.add_mul (u + p) q] at h3
  omega

/-- An accepted sale with a swap: the reserve denom's obligations grow by at most what is received, the others do not
grow. -/
theorem owed_deflate {s s' : State} {env : Env} {info : Info} {k : Denom} {out maxIn : Nat} {ms : List Msg}
    (hk : k ≠ s.config.reserveDenom)
    (h : execute s env info (.rebalance (.trade (.deflate k out maxIn))) = .ok (s', ms)) :
    owed s' s.config.reserveDenom ≤ owed s s.config.reserveDenom + ONE * out ∧
      ∀ d, d ≠ s.config.reserveDenom → owed s' d ≤ owed s d := by
  obtain ⟨r, hreb, _, h⟩ := trade_eq_ok.1 (execute_trade.1 h)
  rcases h with ⟨d', _, _, e, hd', _⟩ | ⟨d', _, _, e, _, h⟩ | ⟨d', _, _, e, _⟩ | ⟨d', _, _, e, _⟩ <;> cases e
  · exact absurd hd'.symm hk
  · obtain ⟨t, res, target, current, est, us', res', h1, h2, h3, h4, _, _, _, _, _, _, _, _, hS, _, _, h6, h7, rfl, rfl⟩ :=
      deflate_eq_ok.1 h
    obtain ⟨u, k1, k2, k3, _⟩ := Units.subKey_eq_ok h6
    obtain ⟨_, _, _, _, _, i6⟩ := inflateReserveUnit_spec h7
    have i6' : (res'.map (·.2)).sum ≤ (res.map (·.2)).sum + out * ONE / s.totalSupply := i6
    constructor
    · rw [owed_eq, owed_eq]
      simp only [if_true, uncollected, unitIn, lookup_eq, k3, if_neg (Ne.symm hk), parked, h2, Option.getD_some]
      refine arith_parked i6' ?_
      rw [Nat.mul_comm ONE out]
      exact Nat.div_mul_le_self _ _
    · intro d hd
      rw [owed_eq, owed_eq]
      simp only [if_neg hd, uncollected, unitIn, lookup_eq, k3]
      apply Nat.add_le_add_right
      apply Nat.mul_le_mul_right
      by_cases e : d = k
      · subst e
        rw [if_pos rfl, k1, Option.getD_some, Option.getD_some]
        exact Nat.add_le_add_right (Nat.sub_le _ _) _
      · rw [if_neg e]

/-- The route stored for buying `k` with the reserve denom. -/
def buyingRoute (s : State) (k : Denom) : List SwapRoute :=
  ((s.tradeInfos.get (s.config.reserveDenom, k)).map (·.routes)).getD []

/-- What one transaction moves in the wrong denom, seen from denom `d`, in base units.  A sale of another denom pays
the reserve denom: the amount the pools take.  A purchase over a route that does not end in the denom to be bought:
the estimated amount of that denom, which never arrives. -/
def astrayBy (d : Denom) (w : World) (tx : Tx) : Nat :=
  match tx with
  | .call _ _ (.rebalance (.trade (.deflate k _ _))) market =>
    if txAccepted w tx ∧ k ≠ w.core.config.reserveDenom ∧ d = w.core.config.reserveDenom then market.headD 0 else 0
  | .call env _ (.rebalance (.trade (.inflate k amount _))) _ =>
    if txAccepted w tx ∧ k ≠ w.core.config.reserveDenom ∧ d = k ∧
        (buyingRoute w.core k).getLast?.map (·.tokenDenom) ≠ some k then
      (env.estOut (buyingRoute w.core k) ⟨w.core.config.reserveDenom, amount⟩).toOption.getD 0
    else 0
  | _ => 0

/-- The same over a history. -/
def astray (d : Denom) (w : World) : List Tx → Nat
  | [] => 0
  | tx :: txs => astrayBy d w tx + astray d (deliver w tx) txs

private theorem arith_cover' {o o' f sn b b1 b' Q P : Nat} (h1 : o' + P * sn ≤ Q + (o + P * f))
    (h2 : b1 = b + f) (h3 : b1 ≤ b' + sn) : o' + P * b ≤ Q + (o + P * b') := by
  have : P * (b + f) ≤ P * (b' + sn) := Nat.mul_le_mul_left _ (h2 ▸ h3)
  rw [Nat.mul_add, Nat.mul_add] at this
  omega

private theorem arith_sale {o o' out spent b f b' P : Nat} (h1 : o' ≤ o + P * out) (h2 : spent ≤ b + f)
    (h3 : b' = b + f - spent + out) : o' + P * b ≤ P * spent + (o + P * b') := by
  have h4 : b + out ≤ b' + spent := by omega
  have := Nat.mul_le_mul_left P h4
  rw [Nat.mul_add, Nat.mul_add] at this
  omega

private theorem arith_up {o o' z b b' P : Nat} (h1 : o' ≤ o + z) (h2 : b ≤ b') : o' + P * b ≤ z + (o + P * b') := by
  have := Nat.mul_le_mul_left P h2
  omega

private theorem arith_ge {o o' L b b' P : Nat} (h1 : o' ≤ o) (h2 : b ≤ b') : o' + P * b ≤ L + (o + P * b') := by
  have := Nat.mul_le_mul_left P h2
  omega

private theorem arith_swap_out {o o' est out b f b' P : Nat} (h1 : o' ≤ o + P * est) (h2 : est ≤ out)
    (h3 : b + f + out ≤ b') : o' + P * b ≤ o + P * b' := by
  have h4 : b + est ≤ b' := by omega
  have := Nat.mul_le_mul_left P h4
  rw [Nat.mul_add] at this
  omega

private theorem arith_swap_paid {o o' a b f b' P D : Nat} (h1 : o' + P * a ≤ D + o) (h2 : a ≤ b + f)
    (h3 : b + f - a ≤ b') : o' + P * b ≤ D + (o + P * b') := by
  have h4 : b ≤ b' + a := by omega
  have := Nat.mul_le_mul_left P h4
  rw [Nat.mul_add] at this
  omega

/-- One accepted transaction, with routes of any length. -/
theorem cover_step_all {w w' : World} {tx : Tx} {d : Denom} (hi : WInv w)
    (hd : d ≠ w.core.config.indexDenom) (h : apply w tx = .ok w') :
    owed w'.core d + 1000000000000000000 * w.bank.bal w.self d
      ≤ lossOf d w tx + 1000000000000000000 * astrayBy d w tx
        + (owed w.core d + 1000000000000000000 * w'.bank.bal w.self d) := by
  have hacc : txAccepted w tx = true := by simp [txAccepted, h]
  cases tx with
  | transfer src dst cs =>
    simp only [Chain.apply, bind_eq_ok, require_eq_ok, Except.ok.injEq, send_eq_ok] at h
    obtain ⟨_, hs, b, ⟨_, rfl⟩, rfl⟩ := h
    simp only [if_neg (Ne.symm hs)]
    exact arith_ge le_rfl (Nat.le_add_right _ _)
  | inflow dst c =>
    simp only [Chain.apply, bind_eq_ok, require_eq_ok, Except.ok.injEq] at h
    obtain ⟨_, hc, rfl⟩ := h
    exact arith_ge le_rfl (Nat.le_add_right _ _)
  | call env info msg market =>
    obtain ⟨b, core, ms, b', henv, hsnd, hdis, hb, hx, hrun, rfl⟩ := apply_call.1 h
    obtain ⟨_, rfl⟩ := send_eq_ok.1 hb
    have hbal : ∀ d, (if w.self = info.sender then w.bank.bal w.self d - total d info.funds else w.bank.bal w.self d)
        + (if True then total d info.funds else 0) = w.bank.bal w.self d + total d info.funds := by
      intro d
      rw [if_neg (Ne.symm hsnd), if_pos trivial]
    rcases swap_messages hx with hs | ⟨k, o, x, rfl, hk⟩ | ⟨k, o, x, rfl, hk⟩
    · have hrb := runMsgs_bal hs hrun d (burned_other hx hd)
      simp only [hbal] at hrb
      rw [Nat.add_assoc]
      by_cases hm : ∃ a r f, msg = .mint a r f
      · obtain ⟨a, r, f, rfl⟩ := hm
        have hl : lossOf d w (.call env info (.mint a r f) market) = 999999999999999999 := by
          simp [lossOf, mintCount, swapDust, hacc]
        rw [hl]
        have := arith_cover' (owed_mint hi.reach hdis hx hd) rfl hrb
        dsimp only
        omega
      · have ho : owed core d + 1000000000000000000 * sent d ms ≤ owed w.core d := by
          by_cases hbn : ∃ r, msg = .burn r
          · obtain ⟨r, rfl⟩ := hbn
            exact owed_burn hi.reach hx hd
          · exact owed_other hi.reach hx hs (fun a r f e => hm ⟨a, r, f, e⟩) (fun r e => hbn ⟨r, e⟩) d
        have := arith_cover' (Q := 0) (f := total d info.funds) (b := w.bank.bal w.self d)
          (le_trans ho (by rw [Nat.zero_add]; exact Nat.le_add_right _ _)) rfl hrb
        dsimp only
        omega
    · obtain ⟨e1, e2⟩ := owed_deflate hk hx
      obtain ⟨t, r, target, cur, cost, g1, _, _, _, _, _, _, _, _, rfl⟩ := C24_deflate_limits hk hx
      obtain ⟨r, rs, g2, g3⟩ := hi.reach.inv.routes _ _ _ g1
      rw [ONE_eq] at e1
      simp only [runMsgs, bind_eq_ok] at hrun
      obtain ⟨⟨b2, mk⟩, h7, h8⟩ := hrun
      simp only [Except.ok.injEq] at h8
      subst h8
      simp only [runMsg, g2] at h7
      split at h7
      · rename_i spent mk' first rs' heq
        simp only [List.cons.injEq] at heq
        obtain ⟨rfl, rfl⟩ := heq
        simp only [bind_eq_ok, require_eq_ok, debit_eq_ok, Except.ok.injEq, Prod.mk.injEq] at h7
        obtain ⟨_, _, _, hmax, b3, ⟨hle, rfl⟩, rfl, rfl⟩ := h7
        simp only [g3, henv, Bank.credit, true_and, hbal] at hle ⊢
        by_cases e3 : d = w.core.config.reserveDenom
        · subst e3
          have hl : astrayBy w.core.config.reserveDenom w
              (.call env info (.rebalance (.trade (.deflate k o x))) (spent :: mk')) = spent := by
            simp [astrayBy, hacc, hk]
          rw [hl, if_pos rfl, if_pos rfl]
          have := arith_sale (f := total w.core.config.reserveDenom info.funds) e1 hle rfl
          omega
        · rw [if_neg e3, if_neg e3]
          exact arith_ge (e2 d e3) (by omega)
      · cases h7
    · obtain ⟨t, est, g1, hms, g2, g3, g4⟩ := owed_inflate hk hx
      obtain ⟨t', _, _, est', f1, _, _, _, _, _, f2, f3⟩ := C24_inflate_limits hk hx
      rw [g1] at f1
      cases f1
      rw [hms] at f3
      simp only [List.cons.injEq, Msg.swapExactIn.injEq, and_true, true_and] at f3
      subst f3
      subst hms
      obtain ⟨r, rs, g5, g6⟩ := hi.reach.inv.routes _ _ _ g1
      rw [ONE_eq] at g2 g3
      simp only [runMsgs, bind_eq_ok] at hrun
      obtain ⟨⟨b2, mk⟩, h7, h8⟩ := hrun
      simp only [Except.ok.injEq] at h8
      subst h8
      simp only [runMsg] at h7
      split at h7
      · rename_i out mk' last hlast
        simp only [bind_eq_ok, require_eq_ok, debit_eq_ok, Except.ok.injEq, Prod.mk.injEq] at h7
        obtain ⟨_, _, _, hmin, b3, ⟨hle, rfl⟩, rfl, rfl⟩ := h7
        simp only [henv, Bank.credit, true_and, hbal] at hle ⊢
        have hroute : buyingRoute w.core k = t.routes := by simp [buyingRoute, g1]
        by_cases e1 : d = k
        · subst e1
          rw [if_neg hk, Nat.sub_zero]
          by_cases e3 : last.tokenDenom = d
          · rw [if_pos e3.symm]
            have := arith_swap_out (b := w.bank.bal w.self d) (f := total d info.funds) g2 hmin (le_refl _)
            omega
          · have hl : astrayBy d w (.call env info (.rebalance (.trade (.inflate d o x))) (out :: mk')) = est := by
              simp [astrayBy, hacc, hk, hroute, hlast, e3, f2, Except.toOption]
            rw [hl]
            have := arith_up (P := 1000000000000000000) (b := w.bank.bal w.self d)
              (b' := w.bank.bal w.self d + total d info.funds + if d = last.tokenDenom then out else 0) g2 (by omega)
            omega
        · by_cases e2 : d = w.core.config.reserveDenom
          · subst e2
            have hl : lossOf w.core.config.reserveDenom w
                (.call env info (.rebalance (.trade (.inflate k o x))) (out :: mk')) = w.core.totalSupply - 1 := by
              simp [lossOf, mintCount, swapDust, hacc, hk]
            rw [hl, if_pos rfl]
            have := arith_swap_paid g3 hle (Nat.le_add_right _
              (if w.core.config.reserveDenom = last.tokenDenom then out else 0))
            omega
          · rw [g4 d e1 e2, if_neg e2]
            exact arith_ge le_rfl (by omega)
      · cases h7

theorem astrayBy_rejected {d : Denom} {w : World} {tx : Tx} (h : txAccepted w tx = false) : astrayBy d w tx = 0 := by
  unfold astrayBy
  split <;> simp [h]

/-- **C06 (routes of any length).** After every history of transactions, whatever routes governance stores, the
contract's balance of each denom other than the index denom covers what it owes in it, up to less than one base unit
for each accepted mint, the rounding of each purchase with a swap, and what trades moved in the wrong denom. -/
theorem C06_collateral_all_routes_partial (w : World) (txs : List Tx) (hw : Start w)
    (d : Denom) (hd : d ≠ w.core.config.indexDenom) :
    owed (runTxs w txs).core d ≤ 999999999999999999 * mintCount w txs + swapDust d w txs
      + 1000000000000000000 * astray d w txs + 1000000000000000000 * (runTxs w txs).bank.bal w.self d := by
  have key : ∀ (txs : List Tx) (w : World) (X : Nat), WInv w →
      d ≠ w.core.config.indexDenom → owed w.core d ≤ X + 1000000000000000000 * w.bank.bal w.self d →
      owed (runTxs w txs).core d ≤ X + (999999999999999999 * mintCount w txs + swapDust d w txs
        + 1000000000000000000 * astray d w txs) + 1000000000000000000 * (runTxs w txs).bank.bal w.self d := by
    intro txs
    induction txs with
    | nil => intro w X _ _ h; simpa [runTxs, mintCount, swapDust, astray] using h
    | cons tx txs ih =>
      intro w X hw hd h
      have hsplit : 999999999999999999 * mintCount w (tx :: txs) + swapDust d w (tx :: txs)
          = lossOf d w tx + (999999999999999999 * mintCount (deliver w tx) txs + swapDust d (deliver w tx) txs) := by
        unfold lossOf
        simp only [mintCount, swapDust, Nat.add_zero, Nat.mul_add]
        omega
      rw [hsplit]
      simp only [astray]
      rcases hc : apply w tx with e | w'
      · have hd' : deliver w tx = w := by simp [deliver, hc]
        rw [hd', loss_rejected (by simp [txAccepted, hc]), astrayBy_rejected (by simp [txAccepted, hc]), Nat.zero_add,
          Nat.zero_add]
        simp only [runTxs, hd']
        exact ih w X hw hd h
      · have hd' : deliver w tx = w' := by simp [deliver, hc]
        obtain ⟨i1, i2, i3⟩ := hw.apply hc
        have hstep := cover_step_all hw hd hc
        simp only [runTxs, hd']
        have := ih w' (X + (lossOf d w tx + 1000000000000000000 * astrayBy d w tx)) i1 (by rw [i3]; exact hd)
          (by rw [i2]; omega)
        rw [i2] at this
        omega
  have := key txs w 0 (start_inv hw) hd (by rw [fresh_owes_nothing hw.1]; exact Nat.zero_le _)
  rwa [Nat.zero_add] at this

/-- A mint, two-hop routes under (uatom, uosmo) and (uosmo, uion), a rebalance from uatom and uosmo to uion, a sale of
uatom that pays 901 uosmo for 900 uosmo, and a purchase of uion for 500 uosmo that brings 510 ujuno. -/
def longTxs : List Tx :=
  [.call (Demo.env 1000) Demo.mintInfo (.mint 10000 none none) [],
   .call (Demo.env 1000) ⟨"gov", []⟩ (.gov (.updateTradeInfo "uosmo" [⟨2, "uion"⟩, ⟨3, "ujuno"⟩] 60 1000)) [],
   .call (Demo.env 1000) ⟨"gov", []⟩ (.gov (.updateTradeInfo "uatom" [⟨1, "uosmo"⟩, ⟨4, "uion"⟩] 60 1000)) [],
   .call (Demo.env 1000) ⟨"gov", []⟩ (.rebalance (.init none
      [("uatom", 50000000000000000), ("uosmo", 1000000000000000000)] [("uion", 1000000000000000000)])) [],
   .call (Demo.env 2000) ⟨"bob", []⟩ (.rebalance (.trade (.deflate "uatom" 900 1000))) [901],
   .call (Demo.env 2000) ⟨"bob", []⟩ (.rebalance (.trade (.inflate "uion" 500 400))) [510]]

/-- Both trades are accepted; 901 uosmo and 499 uion go astray, and the bound is met. -/
example : Start demoWorld ∧ mintCount demoWorld longTxs = 1 ∧
    astray "uosmo" demoWorld longTxs = 901 ∧ astray "uion" demoWorld longTxs = 499 ∧
    astray "uatom" demoWorld longTxs = 0 ∧
    (runTxs demoWorld longTxs).bank.bal "core" "uion" = 0 ∧
    (runTxs demoWorld longTxs).bank.bal "core" "ujuno" = 510 ∧
    owed (runTxs demoWorld longTxs).core "uion" = 499000000000000000000 :=
  ⟨demoWorld_start, by decide +kernel, by decide +kernel, by decide +kernel, by decide +kernel, by decide +kernel,
    by decide +kernel, by decide +kernel⟩

/-- **C06 (one hop is needed).** With longer routes the bound of `C06_collateral_partial` fails: after the history
above 499 uion are owed and none is held. -/
theorem C06_longer_routes_lose : ¬ ∀ (w : World) (txs : List Tx), Start w → ∀ d, d ≠ w.core.config.indexDenom →
    owed (runTxs w txs).core d ≤ 999999999999999999 * mintCount w txs + swapDust d w txs
      + 1000000000000000000 * (runTxs w txs).bank.bal w.self d := by
  intro h
  have := h demoWorld longTxs demoWorld_start "uion" (by decide)
  revert this
  decide +kernel

/-- The witness: the contract owes 499 uion and holds none. -/
example : Start demoWorld ∧ "uion" ≠ demoWorld.core.config.indexDenom ∧
    owed (runTxs demoWorld longTxs).core "uion" = 499000000000000000000 ∧
    (runTxs demoWorld longTxs).bank.bal "core" "uion" = 0 :=
  ⟨demoWorld_start, by decide +kernel, by decide +kernel, by decide +kernel⟩

end Ibcx.Props
