import Verif.Props.Completion
import Verif.Props.Collateral
/-!
# C129: with one-hop routes a rebalance that sells an asset never ends
-/

namespace Ibcx.Props
open Ibcx Ibcx.Core Ibcx.Spec Ibcx.Chain

private theorem stuck_step {w w' : World} {tx : Tx} {s0 : State} {r : Rebalance} {d : Denom} {target cur : Nat}
    (hi : WInv w) (h1 : StoredOneHop w.core) (hp : Phase r s0 w.core) (hd : d ≠ s0.config.reserveDenom)
    (ht : r.deflation.getKey d = some target) (hlt : target < cur) (hc : w.core.indexUnits.getKey d = some cur)
    (h : apply w tx = .ok w') :
    Phase r s0 w'.core ∧ w'.core.indexUnits.getKey d = some cur ∧
      ∀ env info msg market, tx = .call env info msg market → ¬ (TokenMsg msg ∨ msg = .rebalance .finalize) := by
  obtain ⟨m', hm'⟩ := hp.rebalance
  cases tx with
  | call env info msg market =>
    have happ := h
    obtain ⟨b, core, ms, b', _, _, _, _, hx, _, rfl⟩ := apply_call.1 h
    have hf : msg ≠ .rebalance .finalize := by
      rintro rfl
      obtain ⟨_, g1, g2⟩ := execute_eq_ok.1 hx
      simp [collectsFirst] at g1; subst g1
      obtain ⟨r', res, f1, f2, _, f4, f5, _, _⟩ := finalize_eq_ok.1 g2
      rw [hm'] at f1; cases f1
      obtain ⟨c, l1, l2⟩ := f4 (d, target) (Units.getKey_mem ht)
      simp only at l1 l2
      rw [hc] at l1; cases l1
      omega
    refine ⟨hp.step hi.reach hf hx, ?_, ?_⟩
    · by_cases htr : ∃ m, msg = .rebalance (.trade m)
      · obtain ⟨m, rfl⟩ := htr
        rcases trade_deflation hi.reach.inv hm' ht hc (execute_trade.1 hx) with h | ⟨_, _, _, _, rfl, _⟩
        · exact h
        · exact absurd happ (one_hop_deflation_fails hi.reach h1 (by rw [hp.reserveDenom]; exact hd) _)
      · push Not at htr
        show core.indexUnits.getKey d = some cur
        rw [units_kept hi.reach hm' hx htr hf]
        exact hc
    · intro env' info' msg' market' e
      cases e
      rintro (ht | ht)
      · exact token_rejected_of_rebalance hm' (c := ⟨env, info, msg⟩) ht ⟨_, _, hx⟩
      · exact hf ht
  | transfer src dst cs =>
    have e : w'.core = w.core := by
      simp only [apply, bind_eq_ok, Except.ok.injEq] at h
      obtain ⟨_, _, _, _, rfl⟩ := h
      rfl
    rw [e]
    exact ⟨hp, hc, fun _ _ _ _ e => by cases e⟩
  | inflow dst c =>
    have e : w'.core = w.core := by
      simp only [apply, bind_eq_ok, Except.ok.injEq] at h
      obtain ⟨_, _, rfl⟩ := h
      rfl
    rw [e]
    exact ⟨hp, hc, fun _ _ _ _ e => by cases e⟩

private theorem stuck_run {s0 : State} {r : Rebalance} {d : Denom} {target cur : Nat} (hd : d ≠ s0.config.reserveDenom)
    (ht : r.deflation.getKey d = some target) (hlt : target < cur) : ∀ (txs : List Tx) (w : World), WInv w →
      StoredOneHop w.core → OneHop txs → Phase r s0 w.core → w.core.indexUnits.getKey d = some cur →
      Phase r s0 (runTxs w txs).core ∧ (runTxs w txs).core.indexUnits.getKey d = some cur
  | [], _, _, _, _, hp, hc => ⟨hp, hc⟩
  | tx :: txs, w, hi, h1, ho, hp, hc => by
    have ho' : OneHop txs := fun env info d rs c m mk hm => ho env info d rs c m mk (List.mem_cons_of_mem _ hm)
    rcases deliver_cases w tx with e | e
    · simp only [runTxs, e]
      exact stuck_run hd ht hlt txs w hi h1 ho' hp hc
    · obtain ⟨g1, g2, _⟩ := stuck_step hi h1 hp hd ht hlt hc e
      exact stuck_run hd ht hlt txs _ (hi.apply e).1 (storedOneHop_apply h1 ho e) ho' g1 g2

/-- **C129.** As long as governance stores only routes with one hop, a rebalance that wants anything taken out of the basket
of a denom other than the reserve denom never ends on the chain.  At every later point the rebalance is still there, an
index token stands for as much of the denom as before, and every `Mint`, `Burn` and `Finalize` leaves the world
unchanged, whoever sends them and whatever the market. -/
theorem C129_never_ends (w : World) (txs : List Tx) (hw : Start w) (ho : OneHop txs) {r : Rebalance} {d : Denom}
    {target cur : Nat} (hreb : (runTxs w txs).core.rebalance = some r)
    (hd : d ≠ (runTxs w txs).core.config.reserveDenom) (ht : r.deflation.lookup d = some target)
    (hc : (runTxs w txs).core.indexUnits.lookup d = some cur) (hlt : target < cur)
    (more : List Tx) (hm : OneHop more) :
    (∃ r', (runTxs (runTxs w txs) more).core.rebalance = some r' ∧ r'.deflation = r.deflation ∧
      r'.inflation = r.inflation) ∧
    (runTxs (runTxs w txs) more).core.indexUnits.lookup d = some cur ∧
    ∀ env info msg market, (TokenMsg msg ∨ msg = .rebalance .finalize) →
      deliver (runTxs (runTxs w txs) more) (.call env info msg market) = runTxs (runTxs w txs) more := by
  rw [lookup_eq] at ht hc
  obtain ⟨h1, h2⟩ := runTxs_oneHop txs w (start_inv hw) (start_oneHop hw) ho
  obtain ⟨g1, g2⟩ := stuck_run hd ht hlt more _ h1 h2 hm (Phase.refl h1.reach.inv hreb) hc
  obtain ⟨i1, i2⟩ := runTxs_oneHop more _ h1 h2 hm
  obtain ⟨m', hm'⟩ := g1.rebalance
  refine ⟨⟨_, hm', rfl, rfl⟩, by rw [lookup_eq]; exact g2, fun env info msg market hmsg => ?_⟩
  rcases deliver_cases (runTxs (runTxs w txs) more) (.call env info msg market) with e | e
  · exact e
  · exact absurd hmsg ((stuck_step i1 i2 g1 hd ht hlt g2 e).2.2 _ _ _ _ rfl)

/-- The history of the example ends in the middle of a rebalance that wants uatom down from 0.25 to 0.05 units: it can be
bought, but not sold. -/
example : Start demoWorld ∧ OneHop demoTxs ∧
    (runTxs demoWorld demoTxs).core.rebalance.map (fun r => r.deflation.lookup "uatom") = some (some 50000000000000000) ∧
    (runTxs demoWorld demoTxs).core.indexUnits.lookup "uatom" = some 250000000000000000 ∧
    (runTxs demoWorld demoTxs).core.config.reserveDenom = "uosmo" :=
  ⟨demoWorld_start, demoTxs_oneHop, by decide +kernel, by decide +kernel, by decide +kernel⟩

/-- **C129 (what can end).** With one-hop routes, a rebalance that is over on the chain had nothing to take out of the
basket, at any time, of any denom but the reserve denom. -/
theorem C129_ended_sold_nothing (w : World) (txs more : List Tx) (hw : Start w) (ho : OneHop txs) (hm : OneHop more)
    {r : Rebalance} (hreb : (runTxs w txs).core.rebalance = some r)
    (hend : (runTxs (runTxs w txs) more).core.rebalance = none) {d : Denom} {target cur : Nat}
    (hd : d ≠ (runTxs w txs).core.config.reserveDenom) (ht : r.deflation.lookup d = some target)
    (hc : (runTxs w txs).core.indexUnits.lookup d = some cur) : cur ≤ target := by
  by_contra hlt
  obtain ⟨⟨r', h, _⟩, _⟩ := C129_never_ends w txs hw ho hreb hd ht hc (Nat.not_le.1 hlt) more hm
  rw [hend] at h
  cases h

/-- A rebalance of the reserve denom alone: 0.5 uosmo are given for uion, and it ends. -/
def reserveTxs : List Tx :=
  [.call (Demo.env 1000) Demo.mintInfo (.mint 10000 none none) [],
   .call (Demo.env 1000) ⟨"gov", []⟩ (.gov (.updateTradeInfo "uosmo" [⟨2, "uion"⟩] 60 10000)) [],
   .call (Demo.env 1000) ⟨"gov", []⟩ (.rebalance (.init none [("uosmo", 1000000000000000000)]
      [("uion", 1000000000000000000)])) [],
   .call (Demo.env 2000) ⟨"bob", []⟩ (.rebalance (.trade (.deflate "uosmo" 500000000000000000 0))) []]

example : (runTxs demoWorld reserveTxs).core.rebalance.isSome = true ∧
    (runTxs (runTxs demoWorld reserveTxs)
      [.call (Demo.env 3000) ⟨"bob", []⟩ (.rebalance (.trade (.inflate "uion" 5000 0))) [5000],
       .call (Demo.env 4000) ⟨"bob", []⟩ (.rebalance .finalize) []]).core.rebalance = none := by
  decide +kernel

end Ibcx.Props
