import Verif.Spec.Closing
import Verif.Props.Trades
/-!
# C98: when a rebalance can be completed
-/

namespace Ibcx.Props
open Ibcx Ibcx.Core Ibcx.Spec

/-! ### Which amounts can be moved by whole base units -/

theorem closable_add {T a b : Nat} (ha : Closable T a) (hb : Closable T b) : Closable T (a + b) := by
  induction hb with
  | done => simpa using ha
  | @swap g n hs hn hf _ ih =>
    have h1 : n * 1000000000000000000 / T ≤ g :=
      Nat.div_le_of_le_mul (by rw [Nat.mul_comm T g]; exact hf)
    refine .swap n hs hn (hf.trans (Nat.mul_le_mul_right _ (Nat.le_add_left _ _))) ?_
    have : a + g - n * 1000000000000000000 / T = a + (g - n * 1000000000000000000 / T) := by omega
    rw [this]
    exact ih

/-- A gap worth a whole number of base units takes one swap. -/
theorem closable_exact {T g k : Nat} (hT : 0 < T) (h : g * T = k * 1000000000000000000) : Closable T g := by
  rcases Nat.eq_zero_or_pos k with rfl | hk
  · have : g = 0 := by
      rcases Nat.mul_eq_zero.1 (h.trans (Nat.zero_mul _)) with h | h
      · exact h
      · omega
    subst this
    exact .done
  · refine .swap k hT hk (le_of_eq h.symm) ?_
    rw [← h, Nat.mul_div_cancel _ hT, Nat.sub_self]
    exact .done

/-- **C98 (arithmetic).** The amounts that can be closed are zero and those that are a sum of what swaps of whole base
units take off and of one positive amount worth a whole number of base units over the supply. -/
theorem C98_closable_iff {T g : Nat} (hT : 0 < T) :
    Closable T g ↔ g = 0 ∨ ∃ (e k : Nat) (ns : List Nat), 0 < e ∧ e * T = k * 1000000000000000000 ∧
      g = e + (ns.map fun n => n * 1000000000000000000 / T).sum := by
  constructor
  · intro h
    induction h with
    | done => exact .inl rfl
    | @swap g n hs hn hf _ ih =>
      have h1 : n * 1000000000000000000 / T ≤ g :=
        Nat.div_le_of_le_mul (by rw [Nat.mul_comm T g]; exact hf)
      right
      rcases ih with h0 | ⟨e, k, ns, he, hk, hg⟩
      · have h2 : g = n * 1000000000000000000 / T := by omega
        refine ⟨g, n, [], ?_, ?_, by simp⟩
        · rcases Nat.eq_zero_or_pos g with h0 | h0
          · rw [h0, Nat.zero_mul] at hf
            exact absurd (Nat.eq_zero_of_le_zero hf) (by omega)
          · exact h0
        · apply le_antisymm
          · rw [h2]; exact Nat.div_mul_le_self _ _
          · exact hf
      · exact ⟨e, k, n :: ns, he, hk, by simp only [List.map_cons, List.sum_cons]; omega⟩
  · rintro (rfl | ⟨e, k, ns, he, hk, rfl⟩)
    · exact .done
    · induction ns with
      | nil => simpa using closable_exact hT hk
      | cons n ns ih =>
        simp only [List.map_cons, List.sum_cons]
        generalize (ns.map fun n => n * 1000000000000000000 / T).sum = x at ih ⊢
        rcases Nat.eq_zero_or_pos n with rfl | hn
        · simpa using ih
        · have h1 : n * 1000000000000000000 < (n * 1000000000000000000 / T + 1) * T := by
            rw [Nat.mul_comm (_ + 1) T]
            exact Nat.lt_mul_div_succ _ hT
          refine .swap n hT hn ?_ ?_
          · exact le_of_lt (lt_of_lt_of_le h1 (Nat.mul_le_mul_right _ (by omega)))
          · have : e + (n * 1000000000000000000 / T + x) - n * 1000000000000000000 / T = e + x := by omega
            rw [this]
            exact ih

/-- With a supply of 3 sales move a third or two thirds of a unit, rounded down, and the whole must be met exactly:
1/3 + 1 is closed, 2/3 is not. -/
example : Closable 3 1333333333333333333 := by
  rw [C98_closable_iff (by decide)]
  exact Or.inr ⟨1000000000000000000, 3, [1], by decide, by decide, by decide⟩

/-- If the supply divides `10^18`, only multiples of `10^18 / supply` can be closed. -/
theorem C98_closable_of_divisor {T k g : Nat} (hk : T * k = 1000000000000000000) : Closable T g ↔ k ∣ g := by
  have hT : 0 < T := by
    rcases Nat.eq_zero_or_pos T with h | h
    · rw [h, Nat.zero_mul] at hk; cases hk
    · exact h
  have hn : ∀ n, n * 1000000000000000000 / T = n * k := by
    intro n
    rw [← hk, Nat.mul_left_comm, Nat.mul_div_cancel_left _ hT]
  constructor
  · intro h
    induction h with
    | done => exact Nat.dvd_zero _
    | @swap g n hs _ hf _ ih =>
      rw [hn] at ih
      have h1 : n * k ≤ g := by
        rw [← hn]
        exact Nat.div_le_of_le_mul (by rw [Nat.mul_comm T g]; exact hf)
      have := Nat.dvd_add ih (Nat.dvd_mul_left k n)
      rwa [Nat.sub_add_cancel h1] at this
  · rintro ⟨c, rfl⟩
    exact closable_exact (k := c) hT (by rw [← hk]; ring)

/-- With a supply of 10000 a ten-thousandth of a unit can be closed, half of it cannot. -/
example : Closable 10000 100000000000000 ∧ ¬ Closable 10000 50000000000000 := by
  constructor
  · rw [C98_closable_of_divisor (k := 100000000000000) (by decide)]
  · rw [C98_closable_of_divisor (k := 100000000000000) (by decide)]
    decide

/-- An amount worth less than one base unit cannot be closed. -/
theorem not_closable_dust {T g : Nat} (hg : 0 < g) (h : g * T < 1000000000000000000) : ¬ Closable T g := by
  intro hc
  cases hc with
  | done => omega
  | swap n _ hn hf _ =>
    have : 1 * 1000000000000000000 ≤ n * 1000000000000000000 := Nat.mul_le_mul_right _ hn
    omega

/-! ### Never ending rebalances -/

/-- Messages other than trades and `Finalize` keep the reserve units while a rebalance is active. -/
theorem reserve_kept {s s' : State} {env : Env} {info : Info} {msg : ExecMsg} {ms : List Msg} {r : Rebalance}
    (hr : Reachable s) (hreb : s.rebalance = some r) (h : execute s env info msg = .ok (s', ms))
    (h1 : ∀ m, msg ≠ .rebalance (.trade m)) (h2 : msg ≠ .rebalance .finalize) : s'.reserveUnits = s.reserveUnits := by
  obtain ⟨s1, hc, hd⟩ := execute_eq_ok.1 h
  have : s1 = s := by
    split at hc
    · exact accrual_noop hc (fun sf hsf => .inl (hr.inv.frozen _ sf hreb hsf))
    · exact hc
  subst this
  cases msg with
  | mint a r' f => obtain ⟨_, hn, _⟩ := mint_eq_ok.1 hd; rw [hreb] at hn; cases hn
  | burn r' => obtain ⟨_, hn, _⟩ := burn_eq_ok.1 hd; rw [hreb] at hn; cases hn
  | realize =>
    obtain ⟨_, h⟩ := realize_eq_ok.1 hd
    rcases h with ⟨hn, rfl, rfl⟩ | ⟨sf, hsf, rfl, rfl⟩ <;> rfl
  | gov m =>
    cases m with
    | updateFeeStrategy p => obtain ⟨_, hn, _⟩ := updateFee_eq_ok.1 hd; rw [hreb] at hn; cases hn
    | pause e => obtain ⟨_, _, _, rfl, rfl⟩ := pause_eq_ok.1 hd; rfl
    | release => obtain ⟨_, _, rfl, rfl⟩ := release_eq_ok.1 hd; rfl
    | updateGov g => obtain ⟨_, _, _, rfl, rfl⟩ := updateGov_eq_ok.1 hd; rfl
    | acceptGov => obtain ⟨_, rfl, rfl⟩ := acceptGov_eq_ok.1 hd; rfl
    | revokeGov => obtain ⟨_, _, rfl, rfl⟩ := revokeGov_eq_ok.1 hd; rfl
    | updateRebalanceManager m => obtain ⟨_, _, ⟨r', hr', rfl⟩, rfl⟩ := updateRebalanceManager_eq_ok.1 hd; rfl
    | updateReserveDenom d => obtain ⟨_, hn, _⟩ := updateReserveDenom_eq_ok.1 hd; rw [hreb] at hn; cases hn
    | updateTradeInfo d rs c m => obtain ⟨_, ⟨r', rs', hrs, rfl⟩, rfl⟩ := updateTradeInfo_eq_ok.1 hd; rfl
  | rebalance m =>
    cases m with
    | init m de inf => obtain ⟨_, hn, _⟩ := init_eq_ok.1 hd; rw [hreb] at hn; cases hn
    | finalize => exact absurd rfl h2
    | trade m => exact absurd rfl (h1 m)

/-- If an invariant of the rebalance phase rules out `Finalize`, the rebalance never ends. -/
theorem blocked {s : State} {r : Rebalance} (hr : Reachable s) (hreb : s.rebalance = some r) (P : Env → Prop)
    (J : State → Prop) (h0 : J s)
    (hfin : ∀ s1 s2 env info ms, Reachable s1 → Phase r s s1 → J s1 →
      execute s1 env info (.rebalance .finalize) ≠ .ok (s2, ms))
    (htrade : ∀ s1 s2 env info m ms, Reachable s1 → Phase r s s1 → J s1 → P env →
      trade s1 env info m = .ok (s2, ms) → J s2)
    (hkeep : ∀ s1 s2, J s1 → s2.indexUnits = s1.indexUnits → s2.reserveUnits = s1.reserveUnits → J s2)
    (cs : List Call) (hP : ∀ c ∈ cs, P c.env) :
    Phase r s (run s cs).1 ∧ J (run s cs).1 ∧
    ∀ c : Call, (TokenMsg c.msg ∨ c.msg = .rebalance .finalize) → ¬ accepted (run s cs).1 c := by
  have main := run_induct (I := fun s1 => Phase r s s1 ∧ J s1) (T := fun c => P c.env)
    (Q := fun _ => False) (cs := cs)
    (by
      rintro s1 s2 ⟨env, info, msg⟩ ms hr1 ⟨p, hk⟩ hp - hx
      simp only at hx hp
      obtain ⟨m', hm'⟩ := p.rebalance
      by_cases hf : msg = .rebalance .finalize
      · subst hf; exact absurd hx (hfin _ _ _ _ _ hr1 p hk)
      refine ⟨p.step hr1 hf hx, ?_⟩
      by_cases htr : ∃ m, msg = .rebalance (.trade m)
      · obtain ⟨m, rfl⟩ := htr
        exact htrade _ _ _ _ _ _ hr1 p hk hp (execute_trade.1 hx)
      · push Not at htr
        exact hkeep _ _ hk (units_kept hr1 hm' hx htr hf) (reserve_kept hr1 hm' hx htr hf))
    hr ⟨Phase.refl hr.inv hreb, h0⟩ hP
    (noneAccepted_of_forall (fun _ _ h => h))
  refine ⟨main.1, main.2, ?_⟩
  rintro c (hm | hm)
  · obtain ⟨m', hm'⟩ := main.1.rebalance
    exact token_rejected_of_rebalance hm' hm
  · rintro ⟨s2, ms, hx⟩
    rw [hm] at hx
    exact hfin _ _ _ _ _ (hr.run cs) main.1 main.2 hx

/-- **C98 (open gaps).** If the gap of a deflation denom other than the reserve denom cannot be closed by swaps of whole
base units, then in every continuation, with any senders, times and market answers, the rebalance stays active and
`Mint`, `Burn` and `Finalize` are rejected. -/
theorem C98_open_gap_blocks {s : State} {r : Rebalance} {d : Denom} {target cur : Nat}
    (hr : Reachable s) (hreb : s.rebalance = some r) (hd : d ≠ s.config.reserveDenom)
    (ht : r.deflation.lookup d = some target) (hc : s.indexUnits.lookup d = some cur)
    (hno : ¬ Closable s.totalSupply (cur - target)) (cs : List Call) :
    (∃ r', (run s cs).1.rebalance = some r' ∧ r'.deflation = r.deflation ∧ r'.inflation = r.inflation) ∧
    ∀ c : Call, (TokenMsg c.msg ∨ c.msg = .rebalance .finalize) → ¬ accepted (run s cs).1 c := by
  rw [lookup_eq] at ht hc
  obtain ⟨p, _, h2⟩ := blocked hr hreb (fun _ => True)
    (fun s1 => ∃ cur1, s1.indexUnits.getKey d = some cur1 ∧ ¬ Closable s.totalSupply (cur1 - target))
    ⟨cur, hc, hno⟩
    (by
      rintro s1 s2 env info ms hr1 p ⟨c1, hk, hn⟩ hx
      obtain ⟨m', hm'⟩ := p.rebalance
      obtain ⟨_, h1, h2⟩ := execute_eq_ok.1 hx
      simp [collectsFirst] at h1; subst h1
      obtain ⟨r', res, f1, f2, _, f4, f5, rfl, rfl⟩ := finalize_eq_ok.1 h2
      rw [hm'] at f1; cases f1
      obtain ⟨c, l1, l2⟩ := f4 (d, target) (Units.getKey_mem ht)
      simp only at l1 l2
      rw [hk] at l1; cases l1
      rw [Nat.sub_eq_zero_of_le l2] at hn
      exact hn .done)
    (by
      rintro s1 s2 env info m ms hr1 p ⟨c1, hk, hn⟩ - hx
      obtain ⟨m', hm'⟩ := p.rebalance
      rcases trade_deflation hr1.inv hm' ht hk hx with h | ⟨_, _, _, _, _, _, _, hle, h⟩
      · exact ⟨c1, h, hn⟩
      · rcases h with ⟨h, _⟩ | ⟨_, simIn, h1, h2, h3, h4, _⟩
        · exact absurd (h.trans p.reserveDenom) hd
        · rw [p.supply] at h1 h2 h3 h4
          refine ⟨_, h2, ?_⟩
          rcases Nat.eq_zero_or_pos simIn with rfl | hpos
          · simpa using hn
          · intro hcl
            refine hn (.swap simIn (Nat.pos_of_ne_zero h3) hpos h1 ?_)
            have : c1 - target - simIn * 1000000000000000000 / s.totalSupply =
                c1 - simIn * 1000000000000000000 / s.totalSupply - target := by omega
            rw [this]
            exact hcl)
    (by
      rintro s1 s2 ⟨c1, hk, hn⟩ he -
      exact ⟨c1, by rw [he]; exact hk, hn⟩) cs (fun _ _ => trivial)
  obtain ⟨m', hm'⟩ := p.rebalance
  exact ⟨⟨_, hm', rfl, rfl⟩, h2⟩

/-- `Init` of a rebalance that takes one and a half base units over the whole supply off the unit of uatom. -/
def halfInit : Call :=
  ⟨Demo.env 1000, ⟨"gov", []⟩, .rebalance (.init none [("uatom", 249850000000000000)] [("uion", 1000000000000000000)])⟩

example : Reachable (run Demo.s1 [halfInit]).1 ∧
    (run Demo.s1 [halfInit]).1.rebalance =
      some ⟨none, [("uatom", 249850000000000000)], [("uion", 1000000000000000000)]⟩ ∧
    "uatom" ≠ (run Demo.s1 [halfInit]).1.config.reserveDenom ∧
    (run Demo.s1 [halfInit]).1.indexUnits.lookup "uatom" = some 250000000000000000 ∧
    ¬ Closable (run Demo.s1 [halfInit]).1.totalSupply (250000000000000000 - 249850000000000000) := by
  refine ⟨Demo.s1_reachable.run _, by decide +kernel, by decide +kernel, by decide +kernel, ?_⟩
  have : (run Demo.s1 [halfInit]).1.totalSupply = 10000 := by decide +kernel
  rw [this, C98_closable_of_divisor (k := 100000000000000) (by decide)]
  decide

/-- What is left after a swap tells whether all could be closed. -/
theorem closable_before {T n u : Nat} (hT : T ≠ 0) (hle : n ≤ u * T / ONE) (h : Closable T (u - n * ONE / T)) :
    Closable T u := by
  rw [ONE_eq] at hle h
  rcases Nat.eq_zero_or_pos n with rfl | hpos
  · rwa [Nat.zero_mul, Nat.zero_div, Nat.sub_zero] at h
  · refine .swap n (Nat.pos_of_ne_zero hT) hpos ?_ h
    calc n * 1000000000000000000
        ≤ u * T / 1000000000000000000 * 1000000000000000000 := Nat.mul_le_mul_right _ hle
      _ ≤ _ := Nat.div_mul_le_self _ _

theorem not_closable_after {T n u x : Nat} (hT : T ≠ 0) (hle : n ≤ u * T / ONE) (hx : n * ONE / T = x)
    (hn : ¬ Closable T u) : ¬ Closable T (u - x) := by
  subst hx
  exact fun hcl => hn (closable_before hT hle hcl)

theorem spent {x u : Nat} {res res' : Units} {d d' : Denom} (h2 : res.getKey d' = some u)
    (h5 : res.subKey d' x = .ok res') :
    (res'.getKey d).getD 0 = if d = d' then u - x else (res.getKey d).getD 0 := by
  obtain ⟨u1, k1, k2, k3, _⟩ := Units.subKey_eq_ok h5
  rw [h2] at k1
  cases k1
  by_cases e : d = d'
  · subst e
    rw [k3, if_pos rfl, if_pos rfl]
    rfl
  · rw [k3, if_neg e, if_neg e]

theorem not_closable_spent {T n u x : Nat} {res res' : Units} {d d' : Denom} (hT : T ≠ 0) (hle : n ≤ u * T / ONE)
    (hx : n * ONE / T = x) (h2 : res.getKey d' = some u) (h5 : res.subKey d' x = .ok res')
    (hn : ¬ Closable T ((res.getKey d).getD 0)) : ¬ Closable T ((res'.getKey d).getD 0) := by
  rw [spent h2 h5]
  by_cases e : d = d'
  · rw [if_pos e]
    subst e
    rw [h2] at hn
    exact not_closable_after hT hle hx hn
  · rw [if_neg e]
    exact hn

/-- Distributing nothing changes no entry. -/
theorem inflateLoop_zero {ws res res' : Units} {T : Nat} (h : inflateLoop res 0 T ws = .ok res') (d : Denom) :
    (res'.getKey d).getD 0 = (res.getKey d).getD 0 := by
  induction ws generalizing res T with
  | nil => simp only [inflateLoop, Except.ok.injEq] at h; rw [h]
  | cons e ws ih =>
    obtain ⟨d0, w⟩ := e
    simp only [inflateLoop, bind_eq_ok, decMul_eq_ok, ratio_eq_ok, sub_eq_ok, Nat.zero_mul, Nat.zero_div] at h
    obtain ⟨m, ⟨_, rfl⟩, x, ⟨_, _, hx⟩, res1, h1, y, ⟨_, rfl⟩, z, _, h2⟩ := h
    simp only [Nat.zero_mul, Nat.zero_div] at hx
    subst hx
    rw [ih h2, (Units.addKey_eq_ok h1).1]
    split
    · rename_i e; subst e; simp
    · rfl

theorem inflateReserveUnit_zero {ws res res' : Units} (h : inflateReserveUnit res 0 ws = .ok res') (d : Denom) :
    (res'.getKey d).getD 0 = (res.getKey d).getD 0 := by
  simp only [inflateReserveUnit, bind_eq_ok] at h
  obtain ⟨_, _, h⟩ := h
  exact inflateLoop_zero h d

/-- **C98 (leftover in the reserve).** If all targets are met and what the reserve holds for a denom other than the
reserve denom cannot be spent by swaps of whole base units, then in every continuation in which the market gives nothing
for nothing the rebalance stays active and `Mint`, `Burn` and `Finalize` are rejected. -/
theorem C98_leftover_blocks {s : State} {r : Rebalance} {d : Denom} {u : Nat} {res : Units}
    (hr : Reachable s) (hreb : s.rebalance = some r) (hd : d ≠ s.config.reserveDenom)
    (hmet : ∀ d target, (d, target) ∈ r.deflation → s.indexUnits.lookup d = some target)
    (hres : s.reserveUnits = some res) (hu : res.lookup d = some u)
    (hno : ¬ Closable s.totalSupply u) (cs : List Call) (hcs : ∀ c ∈ cs, NoGifts c.env) :
    (∃ r', (run s cs).1.rebalance = some r' ∧ r'.deflation = r.deflation ∧ r'.inflation = r.inflation) ∧
    ∀ c : Call, (TokenMsg c.msg ∨ c.msg = .rebalance .finalize) → ¬ accepted (run s cs).1 c := by
  rw [lookup_eq] at hu
  have met : ∀ s1, Phase r s s1 → ∀ e ∈ r.deflation, s1.indexUnits.getKey e.1 = some e.2 := by
    intro s1 p e he
    obtain ⟨c, c', h1, h2, h3, h4⟩ := p.deflated e he
    have := hmet e.1 e.2 he
    rw [lookup_eq, h1] at this
    cases this
    rw [h2]; congr 1; omega
  obtain ⟨p, _, h2⟩ := blocked hr hreb NoGifts
    (fun s1 => ∃ res1, s1.reserveUnits = some res1 ∧ ¬ Closable s.totalSupply ((res1.getKey d).getD 0))
    ⟨res, hres, by rw [hu]; exact hno⟩
    (by
      rintro s1 s2 env info ms hr1 p ⟨res1, hk, hn⟩ hx
      obtain ⟨m', hm'⟩ := p.rebalance
      obtain ⟨_, h1, h2⟩ := execute_eq_ok.1 hx
      simp [collectsFirst] at h1; subst h1
      obtain ⟨r', res', f1, f2, _, f4, f5, rfl, rfl⟩ := finalize_eq_ok.1 h2
      rw [hk] at f2; cases f2
      apply hn
      cases h : res1.getKey d with
      | none => exact .done
      | some x =>
        have := f5 _ (Units.getKey_mem h)
        simp only at this
        subst this
        exact .done)
    (by
      rintro s1 s2 env info m ms hr1 p ⟨res1, hk, hn⟩ hg hx
      obtain ⟨m', hm'⟩ := p.rebalance
      obtain ⟨r', hr', _, h⟩ := trade_eq_ok.1 hx
      rw [hm'] at hr'; cases hr'
      rcases h with ⟨d', o, mi, rfl, hd', h⟩ | ⟨d', o, mi, rfl, hd', h⟩ | ⟨d', _, _, rfl, hd', h⟩ | ⟨d', n, _, rfl, hd', h⟩
      · obtain ⟨res0, target', current, us', res', h1, h2, h3, h4, _, h6, h7, rfl, _⟩ := deflateReserve_eq_ok.1 h
        rw [hk] at h1; cases h1
        have := met s1 p _ (Units.getKey_mem h2)
        simp only at this
        rw [h3] at this; cases this
        rw [Nat.sub_self] at h7
        exact ⟨res', rfl, by rw [inflateReserveUnit_zero h7]; exact hn⟩
      · obtain ⟨t, res0, target', current, simIn, us', res', g1, h1, h2, h3, _, _, h4, _, _, g2, h9, _, h11, _, _,
          h6, h7, rfl, _⟩ := deflate_eq_ok.1 h
        rw [hk] at h1; cases h1
        have := met s1 p _ (Units.getKey_mem h2)
        simp only at this
        rw [h3] at this; cases this
        rw [Nat.sub_self, Nat.zero_mul, Nat.zero_div] at h9
        have ho : o = 0 := by
          rcases Nat.eq_zero_or_pos o with h | h
          · exact h
          · have := hg _ _ _ g2 h
            rw [Nat.le_zero.1 h9] at this
            exact absurd this (Nat.lt_irrefl 0)
        subst ho
        rw [Nat.zero_mul, Nat.zero_div] at h7
        exact ⟨res', rfl, by rw [inflateReserveUnit_zero h7]; exact hn⟩
      · obtain ⟨res0, unit, us', res', h1, h2, _, h4, h5, rfl, _⟩ := inflateReserve_eq_ok.1 h
        rw [hk] at h1; cases h1
        obtain ⟨_, k1, k2, k3, _⟩ := Units.subKey_eq_ok h5
        have hne : d ≠ d' := by
          rintro rfl
          exact hd (hd'.symm.trans p.reserveDenom)
        refine ⟨res', rfl, ?_⟩
        rw [k3, if_neg hne]
        exact hn
      · obtain ⟨t, res0, unit, simOut, us', res', g1, h1, h2, _, _, _, hle, _, _, _, hT, _, _, h4, h5, rfl, _⟩ :=
          inflate_eq_ok.1 h
        rw [hk] at h1; cases h1
        refine ⟨res', rfl, ?_⟩
        rw [p.supply] at hT hle h5
        exact not_closable_spent hT hle rfl h2 h5 hn)
    (by
      rintro s1 s2 ⟨c1, hk, hn⟩ - he
      exact ⟨c1, by rw [he]; exact hk, hn⟩) cs hcs
  obtain ⟨m', hm'⟩ := p.rebalance
  exact ⟨⟨_, hm', rfl, rfl⟩, h2⟩

/-! ### Completing a rebalance -/

/-- A market that pays one for one, at time `t`. -/
def parEnv (t : Nat) : Env :=
  { now := t, height := 1, contract := "core", validAddr := fun _ => true
    estOut := fun _ c => .ok c.amount, estIn := fun _ c => .ok c.amount }

theorem parEnv_noGifts (t : Nat) : NoGifts (parEnv t) := by
  intro routes out n h hp
  cases h
  exact hp

/-- `s'` is reached from `s` by calls at time `t` on a market that pays one for one. -/
def Leads (t : Nat) (s s' : State) : Prop := ∃ cs : List Call, (∀ c ∈ cs, c.env = parEnv t) ∧ (run s cs).1 = s'

theorem Leads.refl (t : Nat) (s : State) : Leads t s s := ⟨[], by simp, rfl⟩

theorem run_append_fst (s : State) (as bs : List Call) : (run s (as ++ bs)).1 = (run (run s as).1 bs).1 := by
  induction as generalizing s with
  | nil => rfl
  | cons a as ih =>
    rw [List.cons_append, run_cons, run_cons]
    exact ih _

theorem Leads.trans {t : Nat} {s s' s'' : State} (h1 : Leads t s s') (h2 : Leads t s' s'') : Leads t s s'' := by
  obtain ⟨as, ha, rfl⟩ := h1
  obtain ⟨bs, hb, rfl⟩ := h2
  refine ⟨as ++ bs, ?_, run_append_fst s as bs⟩
  intro c hc
  rcases List.mem_append.1 hc with h | h
  · exact ha c h
  · exact hb c h

theorem Leads.one {t : Nat} {s s' : State} {info : Info} {msg : ExecMsg} {ms : List Msg}
    (h : execute s (parEnv t) info msg = .ok (s', ms)) : Leads t s s' := by
  refine ⟨[⟨parEnv t, info, msg⟩], by simp, ?_⟩
  rw [run_cons, step_of_ok h]
  rfl

theorem Leads.reachable {t : Nat} {s s' : State} (h : Leads t s s') (hr : Reachable s) : Reachable s' := by
  obtain ⟨cs, _, rfl⟩ := h
  exact hr.run cs

/-- Rebalance, settings and supply are the same. -/
structure Alike (s s' : State) : Prop where
  rebalance : s'.rebalance = s.rebalance
  config : s'.config = s.config
  supply : s'.totalSupply = s.totalSupply

theorem Alike.refl (s : State) : Alike s s := ⟨rfl, rfl, rfl⟩

theorem Alike.trans {s s' s'' : State} (h1 : Alike s s') (h2 : Alike s' s'') : Alike s s'' :=
  ⟨h2.rebalance.trans h1.rebalance, h2.config.trans h1.config, h2.supply.trans h1.supply⟩

/-- The sender who may trade and finalize. -/
def trader (r : Rebalance) : Info := ⟨r.manager.getD "anyone", []⟩

theorem trader_ok (r : Rebalance) : ∀ a, r.manager = some a → a = (trader r).sender := by
  intro a ha
  simp [trader, ha]

/-- The largest `Uint128`. -/
def maxAmount : Nat := U128 - 1

theorem regroup {a x g : Nat} (h : x ≤ g) : a + x + (g - x) = a + g := by omega

/-- Governance stores a route without limits from `a` to `b`. -/
theorem open_route (t : Nat) (s : State) (a b : Denom) :
    ∃ s', Leads t s s' ∧ Alike s s' ∧ s'.indexUnits = s.indexUnits ∧ s'.reserveUnits = s.reserveUnits ∧
      s'.tradeInfos.get (a, b) = some ⟨[⟨1, b⟩], 0, maxAmount, none⟩ := by
  have hx : execute s (parEnv t) ⟨s.config.gov, []⟩ (.gov (.updateTradeInfo a [⟨1, b⟩] 0 maxAmount)) =
      .ok ({ s with tradeInfos := s.tradeInfos.set (a, b) (TradeInfo.mk [⟨1, b⟩] 0 maxAmount none) }, []) := by
    refine execute_eq_ok.2 ⟨s, by simp [collectsFirst], ?_⟩
    exact updateTradeInfo_eq_ok.2 ⟨rfl, ⟨_, _, rfl, rfl⟩, rfl⟩
  exact ⟨_, Leads.one hx, ⟨rfl, rfl, rfl⟩, rfl, rfl, KV.get_set_self _ _ _⟩

theorem units_le {T g n : Nat} (hs : 0 < T) (hf : n * 1000000000000000000 ≤ g * T) :
    n ≤ g * T / ONE ∧ n * ONE / T ≤ g := by
  rw [ONE_eq]
  refine ⟨(Nat.le_div_iff_mul_le (by decide)).2 hf, Nat.div_le_of_le_mul ?_⟩
  rw [Nat.mul_comm T g]
  exact hf

/-- All that the reserve holds for a denom is spent, at par. -/
theorem spend_all {t T : Nat} (ht : t < 2 ^ 64) {r : Rebalance} {d rd : Denom} {u : Nat} (hcl : Closable T u) :
    ∀ {s : State} {res : Units} {l : Option Nat}, s.rebalance = some r → s.config.reserveDenom = rd →
      s.totalSupply = T → d ≠ rd → s.reserveUnits = some res → res.getKey d = some u →
      s.tradeInfos.get (rd, d) = some ⟨[⟨1, d⟩], 0, maxAmount, l⟩ → (∀ x, l = some x → x = t) →
      (s.indexUnits.getKey d).getD 0 + u < U128 → u * T / ONE < U128 →
      ∃ s' res', Leads t s s' ∧ Alike s s' ∧ s'.reserveUnits = some res' ∧ res'.getKey d = some 0 ∧
        (∀ x, x ≠ d → res'.getKey x = res.getKey x) ∧
        (∀ x, x ≠ d → s'.indexUnits.getKey x = s.indexUnits.getKey x) ∧
        (s'.indexUnits.getKey d).getD 0 = (s.indexUnits.getKey d).getD 0 + u := by
  induction hcl with
  | done =>
    intro s res l _ _ _ _ hres hu _ _ _ _
    exact ⟨s, res, .refl t s, .refl s, hres, hu, fun _ _ => rfl, fun _ _ => rfl, rfl⟩
  | @swap g n hs hn hf hrest ih =>
    intro s res l hreb hrd hT hd hres hu hroute hl hov hamt
    obtain ⟨h1, h2⟩ := units_le hs hf
    obtain ⟨x, hx⟩ : ∃ x, n * ONE / T = x := ⟨_, rfl⟩
    have hlit : n * 1000000000000000000 / T = x := by rw [← hx, ONE_eq]
    rw [hlit] at hrest ih
    rw [hx] at h2
    have hxU : x < U128 := lt_of_le_of_lt (h2.trans (Nat.le_add_left _ _)) hov
    obtain ⟨us', hus⟩ := Units.addKey_ok (us := s.indexUnits) (k := d) (v := x)
      (fun _ => lt_of_le_of_lt (Nat.add_le_add_left h2 _) hov)
    obtain ⟨res', hres'⟩ := Units.subKey_ok hu h2
    have hgU : n < U128 := lt_of_le_of_lt h1 hamt
    have hx' : execute s (parEnv t) (trader r) (.rebalance (.trade (.inflate d n 0))) = .ok
        ({ s with
          indexUnits := us'
          reserveUnits := some res'
          tradeInfos := s.tradeInfos.set (rd, d) ⟨[⟨1, d⟩], 0, maxAmount, some t⟩ },
          [.swapExactIn "core" [⟨1, d⟩] ⟨rd, n⟩ n]) := by
      refine execute_trade.2 (trade_eq_ok.2 ⟨r, hreb, trader_ok r, .inr (.inr (.inr ⟨d, n, 0, rfl, ?_, ?_⟩))⟩)
      · rw [hrd]; exact fun e => hd e.symm
      · refine inflate_eq_ok.2 ⟨_, res, g, n, us', res', by rw [hrd]; exact hroute, hres, hu, ?_, Nat.le_sub_one_of_lt hgU, ?_, ?_,
          by simp, rfl, Nat.zero_le _, ?_, ?_, ?_, ?_, ?_, ?_, ?_⟩
        · intro y hy
          rw [hl y hy]
          exact ⟨ht, le_refl _⟩
        · rw [hT]; exact hamt
        · rw [hT]; exact h1
        · rw [hT]; exact Nat.pos_iff_ne_zero.1 hs
        · rw [hT, hx]; exact hxU
        · rw [hT, hx]; exact hxU
        · rw [hT, hx]; exact hus
        · rw [hT, hx]; exact hres'
        · rw [hrd]; rfl
        · rw [hrd]; rfl
    obtain ⟨a1, _, _⟩ := Units.addKey_eq_ok hus
    obtain ⟨u1, b1, _, b2, _⟩ := Units.subKey_eq_ok hres'
    rw [hu] at b1; cases b1
    have hidx : (us'.getKey d).getD 0 = (s.indexUnits.getKey d).getD 0 + x := by rw [a1, if_pos rfl]; rfl
    obtain ⟨s2, res2, g1, g2, g3, g4, g5, g6, g7⟩ := ih
      (s := { s with
          indexUnits := us'
          reserveUnits := some res'
          tradeInfos := s.tradeInfos.set (rd, d) ⟨[⟨1, d⟩], 0, maxAmount, some t⟩ })
      (res := res') (l := some t) hreb hrd hT hd rfl (by rw [b2, if_pos rfl]) (KV.get_set_self _ _ _)
      (by rintro y hy; cases hy; rfl)
      (by
        show (us'.getKey d).getD 0 + _ < _
        rw [hidx]
        rw [regroup h2]; exact hov)
      (lt_of_le_of_lt (Nat.div_le_div_right (Nat.mul_le_mul_right _ (Nat.sub_le _ _))) hamt)
    refine ⟨s2, res2, (Leads.one hx').trans g1, ⟨g2.rebalance, g2.config, g2.supply⟩, g3, g4, ?_, ?_, ?_⟩
    · intro y hy; rw [g5 y hy, b2, if_neg hy]
    · intro y hy; rw [g6 y hy]; show us'.getKey y = _; rw [a1, if_neg hy]
    · rw [g7]
      show (us'.getKey d).getD 0 + _ = _
      rw [hidx, regroup h2]

/-- What the reserve holds in the reserve denom itself is moved to the basket. -/
theorem move_reserve {t : Nat} {r : Rebalance} {d : Denom} {u : Nat} {s : State} {res : Units}
    (hreb : s.rebalance = some r) (hrd : s.config.reserveDenom = d) (hres : s.reserveUnits = some res)
    (hu : res.getKey d = some u) (hov : (s.indexUnits.getKey d).getD 0 + u < U128)
    (hamt : u * s.totalSupply / ONE < U128) :
    ∃ s' res', Leads t s s' ∧ Alike s s' ∧ s'.reserveUnits = some res' ∧ res'.getKey d = some 0 ∧
      (∀ x, x ≠ d → res'.getKey x = res.getKey x) ∧
      (∀ x, x ≠ d → s'.indexUnits.getKey x = s.indexUnits.getKey x) := by
  obtain ⟨us', hus⟩ := Units.addKey_ok (us := s.indexUnits) (k := d) (v := u) (fun _ => hov)
  obtain ⟨res', hres'⟩ := Units.subKey_ok hu (le_refl _)
  obtain ⟨a1, _, _⟩ := Units.addKey_eq_ok hus
  obtain ⟨u1, b1, _, b2, _⟩ := Units.subKey_eq_ok hres'
  rw [hu] at b1; cases b1
  have hx : execute s (parEnv t) (trader r) (.rebalance (.trade (.inflate d 0 0))) = .ok
      ({ s with indexUnits := us', reserveUnits := some res' }, []) := by
    refine execute_trade.2 (trade_eq_ok.2 ⟨r, hreb, trader_ok r, .inr (.inr (.inl ⟨d, 0, 0, rfl, hrd, ?_⟩))⟩)
    exact inflateReserve_eq_ok.2 ⟨res, u, us', res', hres, hu, hamt, hus, hres', rfl, rfl⟩
  refine ⟨_, res', Leads.one hx, ⟨rfl, rfl, rfl⟩, rfl, ?_, ?_, ?_⟩
  · rw [b2, if_pos rfl, Nat.sub_self]
  · intro y hy; rw [b2, if_neg hy]
  · intro y hy; show us'.getKey y = _; rw [a1, if_neg hy]

/-- All entries of the reserve are emptied one after the other. -/
theorem drain {t : Nat} (ht : t < 2 ^ 64) {r : Rebalance} (es : Units) (hn : es.denoms.Nodup) :
    ∀ {s : State} {res : Units}, s.rebalance = some r → s.reserveUnits = some res →
      (∀ e ∈ es, res.getKey e.1 = some e.2 ∧ (e.1 ≠ s.config.reserveDenom → Closable s.totalSupply e.2) ∧
        (s.indexUnits.getKey e.1).getD 0 + e.2 < U128 ∧ e.2 * s.totalSupply / ONE < U128) →
      ∃ s' res', Leads t s s' ∧ Alike s s' ∧ s'.reserveUnits = some res' ∧
        (∀ d ∈ es.denoms, res'.getKey d = some 0) ∧ (∀ d, d ∉ es.denoms → res'.getKey d = res.getKey d) ∧
        ∀ d, d ∉ es.denoms → s'.indexUnits.getKey d = s.indexUnits.getKey d := by
  induction es with
  | nil =>
    intro s res _ hres _
    exact ⟨s, res, .refl t s, .refl s, hres, by simp [Units.denoms], fun _ _ => rfl, fun _ _ => rfl⟩
  | cons e es ih =>
    intro s res hreb hres he
    obtain ⟨d, u⟩ := e
    have hn' : d ∉ Units.denoms es ∧ (Units.denoms es).Nodup := by simpa [Units.denoms] using hn
    obtain ⟨e1, e2, e3, e4⟩ := he (d, u) (by simp)
    dsimp only at e1 e2 e3 e4
    have first : ∃ s' res', Leads t s s' ∧ Alike s s' ∧ s'.reserveUnits = some res' ∧ res'.getKey d = some 0 ∧
        (∀ x, x ≠ d → res'.getKey x = res.getKey x) ∧
        (∀ x, x ≠ d → s'.indexUnits.getKey x = s.indexUnits.getKey x) := by
      by_cases hd : d = s.config.reserveDenom
      · exact move_reserve hreb hd.symm hres e1 e3 e4
      · obtain ⟨s1, l1, l2, l3, l4, l5⟩ := open_route t s s.config.reserveDenom d
        obtain ⟨s2, res2, m1, m2, m3, m4, m5, m6, _⟩ := spend_all (t := t) ht (r := r) (rd := s.config.reserveDenom)
          (e2 hd) (s := s1) (res := res) (l := none) (l2.rebalance.trans hreb) (by rw [l2.config]) l2.supply hd
          (l4.trans hres) e1 l5 (by simp) (by rw [l3]; exact e3) e4
        exact ⟨s2, res2, l1.trans m1, l2.trans m2, m3, m4, m5, fun x hx => by rw [m6 x hx, l3]⟩
    obtain ⟨s1, res1, f1, f2, f3, f4, f5, f6⟩ := first
    have ne : ∀ x ∈ es, x.1 ≠ d := by
      rintro x hx rfl
      exact hn'.1 (List.mem_map.2 ⟨x, hx, rfl⟩)
    obtain ⟨s2, res2, g1, g2, g3, g4, g5, g6⟩ := ih hn'.2 (f2.rebalance.trans hreb) f3 (by
      intro x hx
      obtain ⟨h1, h2, h3, h4⟩ := he x (by simp [hx])
      rw [f2.config, f2.supply, f5 _ (ne x hx), f6 _ (ne x hx)]
      exact ⟨h1, h2, h3, h4⟩)
    refine ⟨s2, res2, f1.trans g1, f2.trans g2, g3, ?_, ?_, ?_⟩
    · intro x hx
      by_cases hxe : x ∈ Units.denoms es
      · exact g4 x hxe
      · have : x = d := by
          rcases List.mem_cons.1 (show x ∈ d :: Units.denoms es from hx) with h | h
          · exact h
          · exact absurd h hxe
        subst this
        rw [g5 _ hxe, f4]
    · intro x hx
      have h1 : x ≠ d ∧ x ∉ Units.denoms es := by
        constructor
        · rintro rfl; exact hx (List.mem_cons_self ..)
        · exact fun h => hx (List.mem_cons_of_mem _ h)
      rw [g5 _ h1.2, f5 _ h1.1]
    · intro x hx
      have h1 : x ≠ d ∧ x ∉ Units.denoms es := by
        constructor
        · rintro rfl; exact hx (List.mem_cons_self ..)
        · exact fun h => hx (List.mem_cons_of_mem _ h)
      rw [g6 _ h1.2, f6 _ h1.1]

/-- A state whose targets are met and whose reserve can be emptied leads to the end of the rebalance. -/
theorem complete {t : Nat} (ht : t < 2 ^ 64) {s : State} {r : Rebalance} {res : Units} (hr : Reachable s)
    (hreb : s.rebalance = some r) (hres : s.reserveUnits = some res)
    (hmet : ∀ e ∈ r.deflation, s.indexUnits.getKey e.1 = some e.2)
    (hcl : ∀ e ∈ res, e.1 ≠ s.config.reserveDenom → Closable s.totalSupply e.2)
    (hov : ∀ e ∈ res, (s.indexUnits.getKey e.1).getD 0 + e.2 < U128)
    (hamt : ∀ e ∈ res, e.2 * s.totalSupply / ONE < U128) :
    ∃ s', Leads t s s' ∧ s'.rebalance = none := by
  have hn := hr.inv.resNodup res hres
  obtain ⟨s1, res1, f1, f2, f3, f4, f5, f6⟩ := drain ht (r := r) res hn hreb hres (fun e he =>
    ⟨Units.mem_getKey hn he, hcl e he, hov e he, hamt e he⟩)
  have hr1 := f1.reachable hr
  have hreb1 := f2.rebalance.trans hreb
  have h1 : ∀ e ∈ r.deflation, ∃ cur, s1.indexUnits.getKey e.1 = some cur ∧ cur ≤ e.2 := by
    intro e he
    refine ⟨e.2, ?_, le_refl _⟩
    rw [f6, hmet e he]
    intro hm
    exact disjoint_of_nodup (hr.inv.rebNodup r hreb) (List.mem_map.2 ⟨e, he, rfl⟩) (hr.inv.resSub r res hreb hres _ hm)
  have h2 : ∀ e ∈ res1, e.2 = 0 := by
    intro e he
    have h1 := Units.mem_getKey (hr1.inv.resNodup res1 f3) (show (e.1, e.2) ∈ res1 from he)
    by_cases hm : e.1 ∈ res.denoms
    · rw [f4 _ hm] at h1
      exact (Option.some.inj h1).symm
    · rw [f5 _ hm, Units.getKey_eq_none.2 hm] at h1
      cases h1
  have hf := (finalize_eq_ok (s := s1) (env := parEnv t) (info := trader r)).2
    ⟨r, res1, hreb1, f3, trader_ok r, h1, h2, rfl, rfl⟩
  have hx := (execute_eq_ok (s := s1) (env := parEnv t) (info := trader r) (msg := .rebalance .finalize)).2
    ⟨s1, by simp [collectsFirst], hf⟩
  exact ⟨_, f1.trans (Leads.one hx), rfl⟩

/-- After the sale of all uatom to be sold, the reserve holds amounts for uion and ujuno that are not worth whole base
units. -/
def leftHistory : List Call :=
  [⟨Demo.env 1000, ⟨"gov", []⟩, .gov (.updateTradeInfo "uatom" [⟨1, "uosmo"⟩] 60 5000)⟩,
   ⟨Demo.env 1000, ⟨"gov", []⟩,
    .rebalance (.init none [("uatom", 50000000000000000)] [("uion", 333333333333333333), ("ujuno", 666666666666666667)])⟩,
   closing]

example : Reachable (run Demo.s1 leftHistory).1 ∧
    (run Demo.s1 leftHistory).1.rebalance = some ⟨none, [("uatom", 50000000000000000)],
      [("uion", 333333333333333333), ("ujuno", 666666666666666667)]⟩ ∧
    "uion" ≠ (run Demo.s1 leftHistory).1.config.reserveDenom ∧
    (run Demo.s1 leftHistory).1.indexUnits.lookup "uatom" = some 50000000000000000 ∧
    (run Demo.s1 leftHistory).1.reserveUnits = some [("uion", 66633333333333333), ("ujuno", 133266666666666665)] ∧
    ¬ Closable (run Demo.s1 leftHistory).1.totalSupply 66633333333333333 ∧
    NoGifts (Demo.env 3000) := by
  refine ⟨Demo.s1_reachable.run _, by decide +kernel, by decide +kernel, by decide +kernel, by decide +kernel, ?_, ?_⟩
  · have : (run Demo.s1 leftHistory).1.totalSupply = 10000 := by decide +kernel
    rw [this, C98_closable_of_divisor (k := 100000000000000) (by decide)]
    decide
  · intro _ out n h _
    cases h
    exact Nat.succ_pos _

/-- **C98 (last phase).** A rebalance whose targets are all met can be brought to an end on a market that gives nothing
for nothing exactly when, for every denom other than the reserve denom, what the reserve holds for it can be spent by
swaps of whole base units; the calls can all be made at one time.  The numbers have to fit: what the basket would hold of
each denom, and what the reserve is worth over the supply, must be below `2^128`. -/
theorem C98_last_phase {s : State} {r : Rebalance} {res : Units} (hr : Reachable s) (hreb : s.rebalance = some r)
    (hres : s.reserveUnits = some res)
    (hmet : ∀ d target, (d, target) ∈ r.deflation → s.indexUnits.lookup d = some target)
    (hov : ∀ d u, (d, u) ∈ res → (s.indexUnits.lookup d).getD 0 + u < 2 ^ 128)
    (hamt : ∀ d u, (d, u) ∈ res → u * s.totalSupply / 1000000000000000000 < 2 ^ 128) {t : Nat} (ht : t < 2 ^ 64) :
    ((∃ cs, (∀ c ∈ cs, NoGifts c.env) ∧ (run s cs).1.rebalance = none) ↔
      ∀ d u, (d, u) ∈ res → d ≠ s.config.reserveDenom → Closable s.totalSupply u) ∧
    ((∃ cs, (∀ c ∈ cs, NoGifts c.env) ∧ (run s cs).1.rebalance = none) →
      ∃ cs, (∀ c ∈ cs, NoGifts c.env ∧ c.env.now = t) ∧ (run s cs).1.rebalance = none) := by
  have pos : (∀ d u, (d, u) ∈ res → d ≠ s.config.reserveDenom → Closable s.totalSupply u) →
      ∃ cs, (∀ c ∈ cs, NoGifts c.env ∧ c.env.now = t) ∧ (run s cs).1.rebalance = none := by
    intro h
    obtain ⟨s', ⟨cs, h1, rfl⟩, h2⟩ := complete ht hr hreb hres
      (fun e he => by rw [← lookup_eq]; exact hmet e.1 e.2 he)
      (fun e he => h e.1 e.2 he) (fun e he => by rw [← lookup_eq]; exact hov e.1 e.2 he)
      (fun e he => by rw [ONE_eq]; exact hamt e.1 e.2 he)
    exact ⟨cs, fun c hc => by rw [h1 c hc]; exact ⟨parEnv_noGifts t, rfl⟩, h2⟩
  have neg : (∃ cs, (∀ c ∈ cs, NoGifts c.env) ∧ (run s cs).1.rebalance = none) →
      ∀ d u, (d, u) ∈ res → d ≠ s.config.reserveDenom → Closable s.totalSupply u := by
    rintro ⟨cs, h1, h2⟩ d u hm hd
    by_contra hno
    obtain ⟨⟨r', h3, _⟩, _⟩ := C98_leftover_blocks hr hreb hd hmet hres
      (by rw [lookup_eq]; exact Units.mem_getKey (hr.inv.resNodup res hres) hm) hno cs h1
    rw [h2] at h3
    cases h3
  refine ⟨⟨neg, fun h => ?_⟩, fun h => pos (neg h)⟩
  obtain ⟨cs, h1, h2⟩ := pos h
  exact ⟨cs, fun c hc => (h1 c hc).1, h2⟩

/-- After the sale of `closeHistory` the target of uatom is met and the reserve holds for uion what 1999 base units are
worth, which can be spent. -/
example : Reachable (run Demo.s1 (closeHistory ++ [closing])).1 ∧
    (run Demo.s1 (closeHistory ++ [closing])).1.rebalance =
      some ⟨none, [("uatom", 50000000000000000)], [("uion", 1000000000000000000)]⟩ ∧
    (run Demo.s1 (closeHistory ++ [closing])).1.indexUnits.lookup "uatom" = some 50000000000000000 ∧
    (run Demo.s1 (closeHistory ++ [closing])).1.indexUnits.lookup "uion" = none ∧
    (run Demo.s1 (closeHistory ++ [closing])).1.reserveUnits = some [("uion", 199900000000000000)] ∧
    Closable (run Demo.s1 (closeHistory ++ [closing])).1.totalSupply 199900000000000000 := by
  refine ⟨Demo.s1_reachable.run _, by decide +kernel, by decide +kernel, by decide +kernel, by decide +kernel, ?_⟩
  have : (run Demo.s1 (closeHistory ++ [closing])).1.totalSupply = 10000 := by decide +kernel
  rw [this, C98_closable_of_divisor (k := 100000000000000) (by decide)]
  decide

/-! ### One denom to buy -/

/-- With one denom to buy, of weight one, all that is sold goes to its entry of the reserve. -/
theorem all_to_one {res : Units} {i : Denom} {x : Nat} (hx : (res.getKey i).getD 0 + x < U128) (h1 : ONE < U128) :
    ∃ res', inflateReserveUnit res x [(i, ONE)] = .ok res' ∧
      ∀ d, res'.getKey d = if d = i then some ((res.getKey i).getD 0 + x) else res.getKey d := by
  obtain ⟨res', hres⟩ := Units.addKey_ok (us := res) (k := i) (v := x) (fun _ => hx)
  refine ⟨res', ?_, (Units.addKey_eq_ok hres).1⟩
  have hxU : x < U128 := lt_of_le_of_lt (Nat.le_add_left _ _) hx
  have e1 : x * ONE / ONE = x := Nat.mul_div_cancel _ ONE_pos
  simp only [inflateReserveUnit, bind_eq_ok]
  refine ⟨ONE, ?_, ?_⟩
  · have : add 0 ONE = .ok ONE := add_eq_ok.2 ⟨by rw [Nat.zero_add]; exact h1, by rw [Nat.zero_add]⟩
    simp only [sumWeights, List.foldlM_cons, List.foldlM_nil, this]
    rfl
  · simp only [inflateLoop, bind_eq_ok, decMul_eq_ok, ratio_eq_ok, sub_eq_ok]
    exact ⟨x, ⟨by rw [e1]; exact hxU, e1.symm⟩, x, ⟨ONE_pos.ne', by rw [e1]; exact hxU, e1.symm⟩, res', hres,
      _, ⟨le_refl _, rfl⟩, _, ⟨le_refl _, rfl⟩, rfl⟩

theorem one_fits : ONE < U128 := by
  unfold ONE U128
  decide

/-- The gap of a denom is sold, at par. -/
theorem close_gap {t T : Nat} (ht : t < 2 ^ 64) {r : Rebalance} {d rd i : Denom} {g target : Nat} (hcl : Closable T g)
    (hinf : r.inflation = [(i, ONE)]) (htar : r.deflation.getKey d = some target) (hd : d ≠ rd) :
    ∀ {s : State} {res : Units} {l : Option Nat}, s.rebalance = some r → s.config.reserveDenom = rd →
      s.totalSupply = T → s.reserveUnits = some res → s.indexUnits.getKey d = some (target + g) →
      s.tradeInfos.get (d, rd) = some ⟨[⟨1, rd⟩], 0, maxAmount, l⟩ → (∀ x, l = some x → x = t) →
      (res.getKey i).getD 0 + g < U128 → g * T / ONE < U128 →
      ∃ s' res', Leads t s s' ∧ Alike s s' ∧ s'.reserveUnits = some res' ∧
        (res'.getKey i).getD 0 = (res.getKey i).getD 0 + g ∧
        s'.indexUnits.getKey d = some target ∧
        (∀ x, x ≠ d → s'.indexUnits.getKey x = s.indexUnits.getKey x) := by
  induction hcl with
  | done =>
    intro s res l _ _ _ hres hu _ _ _ _
    exact ⟨s, res, .refl t s, .refl s, hres, rfl, hu, fun _ _ => rfl⟩
  | @swap g n hs hn hf hrest ih =>
    intro s res l hreb hrd hT hres hu hroute hl hov hamt
    obtain ⟨h1, h2⟩ := units_le hs hf
    obtain ⟨x, hx⟩ : ∃ x, n * ONE / T = x := ⟨_, rfl⟩
    have hlit : n * 1000000000000000000 / T = x := by rw [← hx, ONE_eq]
    rw [hlit] at hrest ih
    rw [hx] at h2
    have hov' : (res.getKey i).getD 0 + x < U128 := lt_of_le_of_lt (Nat.add_le_add_left h2 _) hov
    have hxU : x < U128 := lt_of_le_of_lt (Nat.le_add_left _ _) hov'
    obtain ⟨us', hus⟩ := Units.subKey_ok (us := s.indexUnits) (k := d) (v := x) hu
      (h2.trans (Nat.le_add_left _ _))
    obtain ⟨res', hres', b2⟩ := all_to_one (i := i) hov' one_fits
    have hgU : n < U128 := lt_of_le_of_lt h1 hamt
    have hgap : target + g - target = g := Nat.add_sub_cancel_left _ _
    have hx' : execute s (parEnv t) (trader r) (.rebalance (.trade (.deflate d n n))) = .ok
        ({ s with
          indexUnits := us'
          reserveUnits := some res'
          tradeInfos := s.tradeInfos.set (d, rd) ⟨[⟨1, rd⟩], 0, maxAmount, some t⟩ },
          [.swapExactOut "core" [⟨1, rd⟩] ⟨rd, n⟩ n]) := by
      refine execute_trade.2 (trade_eq_ok.2 ⟨r, hreb, trader_ok r, .inr (.inl ⟨d, n, n, rfl, ?_, ?_⟩)⟩)
      · rw [hrd]; exact fun e => hd e.symm
      · refine deflate_eq_ok.2 ⟨_, res, target, target + g, n, us', res', by rw [hrd]; exact hroute, hres, htar, hu, ?_,
          Nat.le_sub_one_of_lt hgU, Nat.le_add_right _ _, ?_, by simp, rfl, ?_, le_refl _, ?_, ?_, ?_, ?_, ?_, ?_, ?_⟩
        · intro y hy
          rw [hl y hy]
          exact ⟨ht, le_refl _⟩
        · rw [hT, hgap]; exact hamt
        · rw [hT, hgap]; exact h1
        · rw [hT]; exact Nat.pos_iff_ne_zero.1 hs
        · rw [hT, hx]; exact hxU
        · rw [hT, hx]; exact hxU
        · rw [hT, hx]; exact hus
        · rw [hT, hx, hinf]; exact hres'
        · rw [hrd]; rfl
        · rw [hrd]; rfl
    obtain ⟨u1, b1, _, a1, _⟩ := Units.subKey_eq_ok hus
    rw [hu] at b1; cases b1
    have hri : (res'.getKey i).getD 0 = (res.getKey i).getD 0 + x := by rw [b2, if_pos rfl]; rfl
    obtain ⟨s2, res2, g1, g2, g3, g4, g5, g6⟩ := ih
      (s := { s with
          indexUnits := us'
          reserveUnits := some res'
          tradeInfos := s.tradeInfos.set (d, rd) ⟨[⟨1, rd⟩], 0, maxAmount, some t⟩ })
      (res := res') (l := some t) hreb hrd hT rfl
      (by
        show us'.getKey d = _
        rw [a1, if_pos rfl, Nat.add_sub_assoc h2])
      (KV.get_set_self _ _ _)
      (by rintro y hy; cases hy; rfl)
      (by rw [hri, regroup h2]; exact hov)
      (lt_of_le_of_lt (Nat.div_le_div_right (Nat.mul_le_mul_right _ (Nat.sub_le _ _))) hamt)
    refine ⟨s2, res2, (Leads.one hx').trans g1, ⟨g2.rebalance, g2.config, g2.supply⟩, g3, ?_, g5, ?_⟩
    · rw [g4, hri, regroup h2]
    · intro y hy; rw [g6 y hy]; show us'.getKey y = _; rw [a1, if_neg hy]

/-- The gaps of some denoms, added up. -/
def gaps (held : Units) (es : Units) : Nat := (es.map fun e => (held.getKey e.1).getD 0 - e.2).sum

/-- The gaps of several denoms are sold. -/
theorem close_all {t : Nat} (ht : t < 2 ^ 64) {r : Rebalance} {i : Denom} (hinf : r.inflation = [(i, ONE)])
    (es : Units) (hn : es.denoms.Nodup) (hsub : ∀ e ∈ es, r.deflation.getKey e.1 = some e.2) :
    ∀ {s : State} {res : Units}, s.rebalance = some r → s.reserveUnits = some res →
      (∀ e ∈ es, e.1 ≠ s.config.reserveDenom ∧ ∃ g, s.indexUnits.getKey e.1 = some (e.2 + g) ∧
        Closable s.totalSupply g ∧ g * s.totalSupply / ONE < U128) →
      (res.getKey i).getD 0 + gaps s.indexUnits es < U128 →
      ∃ s' res', Leads t s s' ∧ Alike s s' ∧ s'.reserveUnits = some res' ∧
        (res'.getKey i).getD 0 = (res.getKey i).getD 0 + gaps s.indexUnits es ∧
        (∀ e ∈ es, s'.indexUnits.getKey e.1 = some e.2) ∧
        (∀ x, x ∉ es.denoms → s'.indexUnits.getKey x = s.indexUnits.getKey x) := by
  induction es with
  | nil =>
    intro s res _ hres _ _
    exact ⟨s, res, .refl t s, .refl s, hres, rfl, by simp, fun _ _ => rfl⟩
  | cons e es ih =>
    intro s res hreb hres he hov
    obtain ⟨d, target⟩ := e
    have hn' : d ∉ Units.denoms es ∧ (Units.denoms es).Nodup := by simpa [Units.denoms] using hn
    obtain ⟨e1, g, e2, e3, e4⟩ := he (d, target) (by simp)
    dsimp only at e1 e2 e3 e4
    have hg : gaps s.indexUnits ((d, target) :: es) = g + gaps s.indexUnits es := by
      unfold gaps
      rw [List.map_cons, List.sum_cons, e2]
      congr 1
      exact Nat.add_sub_cancel_left _ _
    rw [hg] at hov ⊢
    obtain ⟨s1, l1, l2, l3, l4, l5⟩ := open_route t s d s.config.reserveDenom
    obtain ⟨s2, res2, m1, m2, m3, m4, m5, m6⟩ := close_gap ht e3 hinf (hsub (d, target) (by simp)) e1
      (s := s1) (res := res) (l := none) (l2.rebalance.trans hreb) (by rw [l2.config]) l2.supply
      (l4.trans hres) (by rw [l3]; exact e2) l5 (by simp)
      (lt_of_le_of_lt (Nat.add_le_add_left (Nat.le_add_right _ _) _) hov) e4
    have k2 := l2.trans m2
    have ne : ∀ x ∈ es, x.1 ≠ d := by
      rintro x hx rfl
      exact hn'.1 (List.mem_map.2 ⟨x, hx, rfl⟩)
    have hgs : gaps s2.indexUnits es = gaps s.indexUnits es := by
      unfold gaps
      congr 1
      apply List.map_congr_left
      intro x hx
      rw [m6 _ (ne x hx), l3]
    obtain ⟨s3, res3, g1, g2, g3, g4, g5, g6⟩ := ih hn'.2 (fun x hx => hsub x (by simp [hx]))
      (k2.rebalance.trans hreb) m3 (by
        intro x hx
        rw [k2.config, k2.supply, m6 _ (ne x hx), l3]
        exact he x (by simp [hx]))
      (by rw [hgs, m4, Nat.add_assoc]; exact hov)
    refine ⟨s3, res3, (l1.trans m1).trans g1, k2.trans g2, g3, ?_, ?_, ?_⟩
    · rw [g4, hgs, m4, Nat.add_assoc]
    · intro x hx
      rcases List.mem_cons.1 hx with rfl | hx
      · rw [g6 _ hn'.1]; exact m5
      · exact g5 x hx
    · intro x hx
      have h1 : x ≠ d ∧ x ∉ Units.denoms es := by
        constructor
        · rintro rfl; exact hx (List.mem_cons_self ..)
        · exact fun h => hx (List.mem_cons_of_mem _ h)
      rw [g6 _ h1.2, m6 _ h1.1, l3]

theorem closable_sum {T : Nat} {held es : Units}
    (h : ∀ e ∈ es, Closable T ((held.getKey e.1).getD 0 - e.2)) : Closable T (gaps held es) := by
  induction es with
  | nil => exact .done
  | cons e es ih =>
    have : gaps held (e :: es) = (held.getKey e.1).getD 0 - e.2 + gaps held es := by
      unfold gaps; rw [List.map_cons, List.sum_cons]
    rw [this]
    exact closable_add (h e (by simp)) (ih fun x hx => h x (by simp [hx]))

theorem gap_le {held es : Units} {e : Denom × Nat} (h : e ∈ es) : (held.getKey e.1).getD 0 - e.2 ≤ gaps held es := by
  unfold gaps
  exact List.single_le_sum (by simp) _ (List.mem_map.2 ⟨e, h, rfl⟩)

/-- **C98 (one denom to buy).** A rebalance that buys one denom (with weight one), sells no reserve denom and has not
begun to trade can be completed, by some continuation with some market answers, exactly when the gap of every denom to be
sold can be closed by swaps of whole base units; then a market at par and one point in time are enough.  The numbers have
to fit: all gaps together, over the supply and added to what the basket holds of the denom to be bought, must be below
`2^128`. -/
theorem C98_one_purchase {s : State} {r : Rebalance} {i : Denom} (hr : Reachable s) (hreb : s.rebalance = some r)
    (hres : s.reserveUnits = some []) (hinf : r.inflation = [(i, 1000000000000000000)])
    (hrd : s.config.reserveDenom ∉ r.deflation.map (·.1))
    (hov : (s.indexUnits.lookup i).getD 0 +
      (r.deflation.map fun e => (s.indexUnits.lookup e.1).getD 0 - e.2).sum < 2 ^ 128)
    (hamt : (r.deflation.map fun e => (s.indexUnits.lookup e.1).getD 0 - e.2).sum * s.totalSupply /
      1000000000000000000 < 2 ^ 128) {t : Nat} (ht : t < 2 ^ 64) :
    ((∃ cs, (run s cs).1.rebalance = none) ↔
      ∀ d target, (d, target) ∈ r.deflation →
        ∃ cur, s.indexUnits.lookup d = some cur ∧ Closable s.totalSupply (cur - target)) ∧
    ((∃ cs, (run s cs).1.rebalance = none) →
      ∃ cs, (∀ c ∈ cs, c.env = parEnv t) ∧ (run s cs).1.rebalance = none) := by
  have hinf' : r.inflation = [(i, ONE)] := by rw [ONE_eq]; exact hinf
  have hn := (List.nodup_append.1 (hr.inv.rebNodup r hreb)).1
  have hsum : (r.deflation.map fun e => (s.indexUnits.lookup e.1).getD 0 - e.2).sum = gaps s.indexUnits r.deflation := by
    unfold gaps
    congr 1
    apply List.map_congr_left
    intro e _
    rw [lookup_eq]
  rw [hsum] at hov hamt
  rw [lookup_eq] at hov
  rw [← ONE_eq] at hamt
  have pos : (∀ d target, (d, target) ∈ r.deflation →
        ∃ cur, s.indexUnits.lookup d = some cur ∧ Closable s.totalSupply (cur - target)) →
      ∃ cs, (∀ c ∈ cs, c.env = parEnv t) ∧ (run s cs).1.rebalance = none := by
    intro h
    have hcl : ∀ e ∈ r.deflation, Closable s.totalSupply ((s.indexUnits.getKey e.1).getD 0 - e.2) := by
      intro e he
      obtain ⟨cur, h1, h2⟩ := h e.1 e.2 he
      rw [lookup_eq] at h1
      rw [h1]
      exact h2
    have hU : (Units.getKey [] i).getD 0 + gaps s.indexUnits r.deflation < U128 :=
      lt_of_le_of_lt (Nat.add_le_add_right (show 0 ≤ _ from Nat.zero_le _) _) hov
    obtain ⟨s1, res1, f1, f2, f3, f4, f5, f6⟩ := close_all ht hinf' r.deflation hn
      (fun e he => Units.mem_getKey hn he) hreb hres
      (by
        intro e he
        refine ⟨fun e' => hrd (by rw [← e']; exact List.mem_map.2 ⟨e, he, rfl⟩), ?_⟩
        obtain ⟨cur, h1, h2⟩ := hr.inv.deflBound r hreb e he
        have h3 := hcl e he
        have h4 := gap_le (held := s.indexUnits) he
        rw [h1] at h3 h4
        refine ⟨cur - e.2, by rw [h1, Nat.add_sub_cancel' h2], h3, ?_⟩
        exact lt_of_le_of_lt (Nat.div_le_div_right (Nat.mul_le_mul_right _ h4)) hamt)
      hU
    have hr1 := f1.reachable hr
    have hreb1 := f2.rebalance.trans hreb
    have hone : ∀ e ∈ res1, e.1 = i ∧ e.2 = gaps s.indexUnits r.deflation := by
      intro e he
      have h1 := hr1.inv.resSub r res1 hreb1 f3 e.1 (List.mem_map.2 ⟨e, he, rfl⟩)
      rw [hinf'] at h1
      have h2 : e.1 = i := by simpa [Units.denoms] using h1
      have h3 := Units.mem_getKey (hr1.inv.resNodup res1 f3) (show (e.1, e.2) ∈ res1 from he)
      rw [h2] at h3
      rw [h3] at f4
      refine ⟨h2, f4.trans ?_⟩
      show 0 + _ = _
      rw [Nat.zero_add]
    have hi : i ∉ Units.denoms r.deflation := by
      intro hm
      have := disjoint_of_nodup (hr.inv.rebNodup r hreb) hm
      rw [hinf'] at this
      simp [Units.denoms] at this
    obtain ⟨s2, ⟨cs, g1, g2⟩, g3⟩ := complete ht hr1 hreb1 f3 f5
      (fun e he _ => by rw [(hone e he).2, f2.supply]; exact closable_sum hcl)
      (fun e he => by rw [(hone e he).1, (hone e he).2, f6 i hi]; exact hov)
      (fun e he => by rw [(hone e he).2, f2.supply]; exact hamt)
    obtain ⟨cs0, k1, k2⟩ := f1
    refine ⟨cs0 ++ cs, ?_, ?_⟩
    · intro c hc
      rcases List.mem_append.1 hc with hc | hc
      · exact k1 c hc
      · exact g1 c hc
    · rw [run_append_fst, k2, g2, g3]
  have neg : (∃ cs, (run s cs).1.rebalance = none) → ∀ d target, (d, target) ∈ r.deflation →
        ∃ cur, s.indexUnits.lookup d = some cur ∧ Closable s.totalSupply (cur - target) := by
    rintro ⟨cs, hcs⟩ d target hm
    obtain ⟨cur, h1, _⟩ := hr.inv.deflBound r hreb _ hm
    refine ⟨cur, by rw [lookup_eq]; exact h1, ?_⟩
    by_contra hno
    obtain ⟨⟨r', h3, _⟩, _⟩ := C98_open_gap_blocks hr hreb
      (fun e => hrd (by rw [← e]; exact List.mem_map.2 ⟨_, hm, rfl⟩))
      (by rw [lookup_eq]; exact Units.mem_getKey hn hm) (by rw [lookup_eq]; exact h1) hno cs
    rw [hcs] at h3
    cases h3
  refine ⟨⟨neg, fun h => ?_⟩, fun h => pos (neg h)⟩
  obtain ⟨cs, _, h2⟩ := pos h
  exact ⟨cs, h2⟩

/-- Right after the `Init` of `closeHistory` nothing has been traded, and the gap can be closed. -/
example : Reachable (run Demo.s1 closeHistory).1 ∧
    (run Demo.s1 closeHistory).1.rebalance =
      some ⟨none, [("uatom", 50000000000000000)], [("uion", 1000000000000000000)]⟩ ∧
    (run Demo.s1 closeHistory).1.reserveUnits = some [] ∧
    (run Demo.s1 closeHistory).1.config.reserveDenom = "uosmo" ∧
    (run Demo.s1 closeHistory).1.indexUnits.lookup "uatom" = some 250000000000000000 ∧
    Closable (run Demo.s1 closeHistory).1.totalSupply (250000000000000000 - 50000000000000000) := by
  refine ⟨Demo.s1_reachable.run _, by decide +kernel, by decide +kernel, by decide +kernel, by decide +kernel, ?_⟩
  have : (run Demo.s1 closeHistory).1.totalSupply = 10000 := by decide +kernel
  rw [this, C98_closable_of_divisor (k := 100000000000000) (by decide)]
  decide

end Ibcx.Props
