import Verif.Props.Sim
import Verif.Core.Accrual
/-!
# Properties C10–C13, C30: streaming fee accrual
-/

namespace Ibcx.Props
open Ibcx Ibcx.Core Ibcx.Spec

/-! ### C10 -/

/-- **C10.** An accrual at time `now` in a reachable state: nothing but the units and the fee record
change; there is one excess factor `k` such that every unit `u` becomes `u - floor(u·k)` and the recorded
fee of its denom grows by exactly `floor(floor(u·k)·supply)`; `k` lies between simple and exact compound
interest for the `n` elapsed seconds (modulo `2^32`, the code's `as u32`), and the factor `1 + k` falls short of
exact compounding by at most an `n·10^-18` part; denoms outside the basket record
nothing.  With a frozen fee or in the same second nothing changes, and a second accrual in the same second
changes nothing. -/
theorem C10_accrual_conserves {s s1 : State} {now : Nat} (hr : Reachable s)
    (h : collectStreamingFee s now = .ok s1) :
    s1.config = s.config ∧ s1.pendingGov = s.pendingGov ∧ s1.totalSupply = s.totalSupply ∧
    s1.rebalance = s.rebalance ∧ s1.reserveUnits = s.reserveUnits ∧ s1.tradeInfos = s.tradeInfos ∧
    s1.fee.collector = s.fee.collector ∧ s1.fee.mintFee = s.fee.mintFee ∧ s1.fee.burnFee = s.fee.burnFee ∧
    s1.indexUnits.map (·.1) = s.indexUnits.map (·.1) ∧
    (∃ k, (∀ d u, s.indexUnits.lookup d = some u → ∃ u', s1.indexUnits.lookup d = some u' ∧
          u' + part u k = u ∧ uncollected s1 d = uncollected s d + part (part u k) s.totalSupply) ∧
      (∀ d, s.indexUnits.lookup d = none → s1.indexUnits.lookup d = none ∧ uncollected s1 d = uncollected s d) ∧
      (∀ sf, s.fee.streamingFee = some sf → sf.freeze = false →
        ∀ n, n = (now - sf.lastCollectedAt) % 2 ^ 32 → n * sf.rate ≤ k ∧
        (10 ^ 18 + k) * (10 ^ 18) ^ n ≤ (10 ^ 18 + sf.rate) ^ n * 10 ^ 18 ∧
        (10 ^ 18 + sf.rate) ^ n * (10 ^ 18 - n) ≤ (10 ^ 18 + k) * (10 ^ 18) ^ n)) ∧
    ((∀ sf, s.fee.streamingFee = some sf → sf.freeze = true ∨ sf.lastCollectedAt = now) → s1 = s) ∧
    collectStreamingFee s1 now = .ok s1 := by
  obtain ⟨f1, f2, f3, f4, f5, f6, f7, f8, f9, f10, f11⟩ := collectStreamingFee_frame h
  refine ⟨f1, f2, f3, f4, f5, f6, f7, f8, f9, f11, ?_, accrual_noop h, ?_⟩
  · by_cases hz : ∀ sf, s.fee.streamingFee = some sf → sf.freeze = true ∨ sf.lastCollectedAt = now
    · have := accrual_noop h hz
      subst this
      refine ⟨0, ?_, ?_, ?_⟩
      · intro d u hu; exact ⟨u, hu, by simp [part], by simp [part]⟩
      · intro d hu; exact ⟨hu, rfl⟩
      · intro sf hsf hf n hn
        rcases hz sf hsf with h | h
        · simp [hf] at h
        · rw [h] at hn
          simp at hn
          subst hn
          simp
    · push Not at hz
      obtain ⟨sf, hsf, hf, hne⟩ := hz
      have hle := accrual_le h sf hsf
      obtain ⟨k, col, h1, h2, h2', h3, h4, h5⟩ := accrual_spec hr.inv.nodup h hsf (by simpa using hf) (by omega)
      have hlook : ∀ d, s1.indexUnits.lookup d = (s.indexUnits.lookup d).map fun u => u - part u k := by
        intro d
        rw [h4, lookup_eq, lookup_eq, getKey_map _ (fun u => u - part u k)]
      have hun : ∀ d, uncollected s1 d = total d col := by
        intro d; rw [h4]; rfl
      have hun0 : ∀ d, uncollected s d = total d sf.collected := by
        intro d; simp [uncollected, hsf]
      refine ⟨k, ?_, ?_, ?_⟩
      · intro d u hu
        refine ⟨u - part u k, by rw [hlook, hu]; rfl, ?_, ?_⟩
        · have := h3 (d, u) (Units.getKey_mem (lookup_eq s.indexUnits d ▸ hu))
          simp only at this
          omega
        · rw [hun, hun0, h5, hu]; rfl
      · intro d hu
        exact ⟨by rw [hlook, hu]; rfl, by rw [hun, hun0, h5, hu]; rfl⟩
      · intro sf' hsf' _ n hn
        rw [hsf] at hsf'
        cases hsf'
        subst hn
        refine ⟨h1, ?_⟩
        have e : ONE = 10 ^ 18 := rfl
        rw [← e]
        exact ⟨h2, h2'⟩
  · have := collect_again (n := s1.totalSupply) h
    exact this

example : Reachable Demo.s1 ∧ (collectStreamingFee Demo.s1 5000).map (fun s => (s.indexUnits, uncollected s "uosmo")) =
    .ok ([("uosmo", 1499879995201072158), ("uatom", 249979999200178693)], 1) :=
  ⟨Demo.s1_reachable, by decide +kernel⟩

/-! ### C11 -/

/-- **C11.** For every time `t`: `GetFee(t)` and `GetPortfolio(t)` answer the fee record and units any mint or
burn executed at block time `t` works with (and leaves behind), `GetPortfolio` adds the supply and the
redeemable amounts; the answer does not depend on when the query is asked, and omitting the time means the
block time. -/
theorem C11_queries_predict {s : State} {env : Env} {t : Nat} (hr : Reachable s) :
    (∀ (env' : Env) info msg s' ms, env'.now = t →
      ((∃ a r f, msg = .mint a r f) ∨ (∃ r, msg = .burn r)) →
      execute s env' info msg = .ok (s', ms) →
        getFee s env (some t) = .ok s'.fee ∧
        (∀ resp, getPortfolio s env (some t) = .ok resp → resp.units = s'.indexUnits)) ∧
    (∀ (env' : Env) info m de inf s' ms, env'.now = t →
      execute s env' info (.rebalance (.init m de inf)) = .ok (s', ms) →
        ∀ resp, getPortfolio s env (some t) = .ok resp → resp.units = s'.indexUnits) ∧
    (∀ resp, getPortfolio s env (some t) = .ok resp → resp.totalSupply = s.totalSupply ∧
      resp.assets = resp.units.map fun e => ⟨e.1, part e.2 s.totalSupply⟩) ∧
    (∀ f, getFee s env (some t) = .ok f → ∀ resp, getPortfolio s env (some t) = .ok resp →
      collectStreamingFee s t = .ok { s with fee := f, indexUnits := resp.units }) ∧
    getFee s env none = getFee s env (some env.now) ∧
    getPortfolio s env none = getPortfolio s env (some env.now) := by
  have hfee : ∀ s1, collectStreamingFee s t = .ok s1 → getFee s env (some t) = .ok s1.fee := by
    intro s1 h
    rcases collectStreamingFee_eq_ok.1 h with ⟨h0, rfl⟩ | ⟨sf', sf'', us', h1, h2, rfl⟩
    · simp [getFee, h0]
    · simp [getFee, h1, h2]
  have hport : ∀ resp, getPortfolio s env (some t) = .ok resp ↔
      ∃ s1, collectStreamingFee s t = .ok s1 ∧ (∀ e ∈ s1.indexUnits, e.2 * s.totalSupply / ONE < U128) ∧
        resp = ⟨s.totalSupply, s1.indexUnits.map fun e => ⟨e.1, e.2 * s.totalSupply / ONE⟩, s1.indexUnits⟩ := by
    intro resp
    unfold getPortfolio
    simp only [bind_eq_ok, unitsAt_eq_ok, Units.calcRequire_eq_ok, Option.getD_some, Except.ok.injEq]
    constructor
    · rintro ⟨_, ⟨s1, h, rfl⟩, _, ⟨ho, rfl⟩, rfl⟩; exact ⟨s1, h, ho, rfl⟩
    · rintro ⟨s1, h, ho, rfl⟩; exact ⟨_, ⟨s1, h, rfl⟩, _, ⟨ho, rfl⟩, rfl⟩
  refine ⟨?_, ?_, ?_, ?_, rfl, rfl⟩
  · intro env' info msg s' ms ht hm h
    obtain ⟨s1, n, hc, rfl⟩ := execute_accrued (by rcases hm with ⟨_, _, _, rfl⟩ | ⟨_, rfl⟩ <;> rfl) hm h
    rw [ht] at hc
    refine ⟨hfee s1 hc, ?_⟩
    intro resp hresp
    obtain ⟨s2, h2, _, rfl⟩ := (hport resp).1 hresp
    rw [hc] at h2
    cases h2
    rfl
  · intro env' info m de inf s' ms ht h resp hresp
    obtain ⟨s1, hc, hd⟩ := execute_eq_ok.1 h
    simp only [collectsFirst, if_true] at hc
    rw [ht] at hc
    obtain ⟨_, _, _, _, _, _, _, rfl, _⟩ := init_eq_ok.1 hd
    obtain ⟨s2, h2, _, rfl⟩ := (hport resp).1 hresp
    rw [hc] at h2
    cases h2
    rfl
  · intro resp hresp
    obtain ⟨s2, h2, _, rfl⟩ := (hport resp).1 hresp
    refine ⟨rfl, ?_⟩
    simp only [part_eq]
  · intro f hf resp hresp
    obtain ⟨s2, h2, _, rfl⟩ := (hport resp).1 hresp
    rw [hfee s2 h2] at hf
    cases hf
    rw [h2]
    rcases collectStreamingFee_eq_ok.1 h2 with ⟨h0, rfl⟩ | ⟨sf', sf'', us', h1, h2, rfl⟩ <;> rfl

example : Reachable Demo.s1 ∧ (getPortfolio Demo.s1 (Demo.env 1000) (some 5000)).map (·.assets) =
    .ok [⟨"uosmo", 14998⟩, ⟨"uatom", 2499⟩] :=
  ⟨Demo.s1_reachable, by decide +kernel⟩

/-! ### C12 -/

/-- The full claim C12: in no reachable state does the pending fee prevent the accrual. -/
def C12_full : Prop :=
  ∀ (s : State) (now : Nat), Reachable s →
    (∀ sf, s.fee.streamingFee = some sf → sf.lastCollectedAt ≤ now) →
    ∃ s1, collectStreamingFee s now = .ok s1

/-- **C12, partial (1).** The accrual succeeds whenever the exact compound factor for the elapsed time is at
most two and the amounts fit 128 bits. -/
theorem C12_accrual_succeeds_partial {s : State} {now : Nat} (hr : Reachable s)
    (hle : ∀ sf, s.fee.streamingFee = some sf → sf.lastCollectedAt ≤ now)
    (hgrow : ∀ sf, s.fee.streamingFee = some sf → ∀ n, n = (now - sf.lastCollectedAt) % 2 ^ 32 →
      (10 ^ 18 + sf.rate) ^ n ≤ 2 * (10 ^ 18) ^ n)
    (hunit : ∀ e ∈ s.indexUnits, e.2 < 2 ^ 128)
    (hcol : ∀ d u, s.indexUnits.lookup d = some u → uncollected s d + part u s.totalSupply < 2 ^ 128)
    (hcol' : ∀ d, uncollected s d < 2 ^ 128) :
    ∃ s1, collectStreamingFee s now = .ok s1 := by
  cases hsf : s.fee.streamingFee with
  | none => exact ⟨s, collectStreamingFee_eq_ok.2 (.inl ⟨hsf, rfl⟩)⟩
  | some sf =>
    have hle := hle sf hsf
    by_cases hz : sf.freeze = true ∨ now = sf.lastCollectedAt
    · exact ⟨_, collectStreamingFee_eq_ok.2 (.inr ⟨sf, sf, s.indexUnits, hsf,
        collect_eq_ok.2 ⟨hle, .inl ⟨hz, rfl, rfl⟩⟩, rfl⟩)⟩
    · simp only [not_or, Bool.not_eq_true] at hz
      have hg := hgrow sf hsf _ rfl
      have e : ONE = 10 ^ 18 := rfl
      have hU : U128 = 2 ^ 128 := rfl
      rw [← e] at hg
      obtain ⟨p, hp, hp1, hp2⟩ := checkedPow_ok (Nat.le_add_right ONE sf.rate) hg
      obtain ⟨k, rfl⟩ := Nat.exists_eq_add_of_le hp1
      have hk : k ≤ ONE := by omega
      have hfee : ∀ u, u * k / ONE ≤ u := by
        intro u
        apply Nat.div_le_of_le_mul
        rw [Nat.mul_comm]
        exact Nat.mul_le_mul_right _ hk
      have hrate := (hr.inv.streamRate sf hsf).2
      have hn := hr.inv.nodup
      have hamt : ∀ d, amountOf d sf.collected + amountOf d (feeAmounts s.indexUnits k s.totalSupply) < U128 := by
        intro d
        have h0 : uncollected s d = amountOf d sf.collected := by
          simp only [uncollected, hsf, total_eq]
        cases hg : s.indexUnits.getKey d with
        | none =>
          rw [Units.amountOf_eq_zero (cs := feeAmounts s.indexUnits k s.totalSupply), ← h0, hU]
          · simpa using hcol' d
          · unfold feeAmounts
            rw [List.map_map]; exact Units.getKey_eq_none.1 hg
        | some v =>
          have h1 := Units.amountOf_of_nodup (cs := feeAmounts s.indexUnits k s.totalSupply)
            (c := ⟨d, v * k / ONE * s.totalSupply / ONE⟩)
            (by unfold feeAmounts; rw [List.map_map]; exact hn)
            (List.mem_map.2 ⟨(d, v), Units.getKey_mem hg, rfl⟩)
          have h2 := hcol d v (by rw [lookup_eq]; exact hg)
          simp only at h1
          rw [h1, ← h0, hU]
          refine lt_of_le_of_lt (Nat.add_le_add_left ?_ _) h2
          rw [part_eq]
          exact Nat.div_le_div_right (Nat.mul_le_mul_right _ (hfee v))
      obtain ⟨col, hc⟩ := foldCollected_ok hamt
      refine ⟨_, collectStreamingFee_eq_ok.2 (.inr ⟨sf, _, _, hsf,
        collect_eq_ok.2 ⟨hle, .inr ⟨hz.1, by omega, ?_, k, hp, ?_, ?_, col, hc, rfl, rfl⟩⟩, rfl⟩)⟩
      · have : MAX_STREAMING_FEE_RATE + ONE < U128 := by norm_num [MAX_STREAMING_FEE_RATE, ONE, U128]
        omega
      · intro x hx
        exact ⟨lt_of_le_of_lt (hfee x.2) (by rw [hU]; exact hunit x hx), hfee x.2⟩
      · intro x hx
        have h1 := hcol x.1 x.2 (by rw [lookup_eq]; exact Units.mem_getKey hn hx)
        rw [part_eq] at h1
        rw [hU]
        refine lt_of_le_of_lt (Nat.div_le_div_right (Nat.mul_le_mul_right _ (hfee x.2))) ?_
        omega

example : Reachable Demo.s1 ∧ ∀ n, n ≤ 20 → (10 ^ 18 + 20000000000) ^ n ≤ 2 * (10 ^ 18) ^ n :=
  ⟨Demo.s1_reachable, by decide +kernel⟩

/-- An accrual that would charge more than twice the unit fails. -/
theorem collect_fails {s s1 : State} {now : Nat} {sf : StreamingFee} (hsf : s.fee.streamingFee = some sf)
    (hfz : sf.freeze = false) (hn : now - sf.lastCollectedAt < 2 ^ 32)
    (hgrow : 2 * ONE ≤ (now - sf.lastCollectedAt) * sf.rate)
    (hu : ∃ e ∈ s.indexUnits, 0 < e.2) : collectStreamingFee s now ≠ .ok s1 := by
  intro h
  obtain ⟨e, he, hpos⟩ := hu
  rcases collectStreamingFee_eq_ok.1 h with ⟨h0, _⟩ | ⟨sf', sf'', us', h1, h2, rfl⟩
  · rw [h0] at hsf; cases hsf
  · rw [hsf] at h1
    cases h1
    obtain ⟨_, h3⟩ := collect_eq_ok.1 h2
    have hO := ONE_pos
    rcases h3 with ⟨h4, _⟩ | ⟨_, _, _, k, hp, hle, _⟩
    · rcases h4 with h4 | h4
      · simp [h4] at hfz
      · rw [h4] at hgrow
        simp at hgrow
        omega
    · rw [Nat.mod_eq_of_lt hn] at hp
      have hl := checkedPow_lower hp
      have hk : 2 * ONE ≤ k := by omega
      have h5 := (hle e he).2
      have h6 : e.2 * 2 ≤ e.2 * k / ONE := by
        rw [Nat.le_div_iff_mul_le hO, Nat.mul_assoc]
        exact Nat.mul_le_mul_left _ hk
      omega

/-- A message that does not start with an accrual, in a state without rebalance, leaves units, fee and
rebalance alone. -/
theorem quiet_step {s s' : State} {env : Env} {info : Info} {msg : ExecMsg} {ms : List Msg}
    (hc : collectsFirst msg = false) (hnr : s.rebalance = none)
    (h : execute s env info msg = .ok (s', ms)) :
    s'.fee = s.fee ∧ s'.indexUnits = s.indexUnits ∧ s'.rebalance = none ∧ s'.totalSupply = s.totalSupply := by
  obtain ⟨s1, h1, h2⟩ := execute_eq_ok.1 h
  rw [hc] at h1
  simp at h1
  subst h1
  cases msg with
  | mint a r f => simp [collectsFirst] at hc
  | burn r => simp [collectsFirst] at hc
  | realize => simp [collectsFirst] at hc
  | gov m =>
    cases m with
    | pause e => obtain ⟨_, _, _, rfl, rfl⟩ := pause_eq_ok.1 h2; exact ⟨rfl, rfl, hnr, rfl⟩
    | release => obtain ⟨_, _, rfl, rfl⟩ := release_eq_ok.1 h2; exact ⟨rfl, rfl, hnr, rfl⟩
    | updateGov g => obtain ⟨_, _, _, rfl, rfl⟩ := updateGov_eq_ok.1 h2; exact ⟨rfl, rfl, hnr, rfl⟩
    | acceptGov => obtain ⟨_, rfl, rfl⟩ := acceptGov_eq_ok.1 h2; exact ⟨rfl, rfl, hnr, rfl⟩
    | revokeGov => obtain ⟨_, _, rfl, rfl⟩ := revokeGov_eq_ok.1 h2; exact ⟨rfl, rfl, hnr, rfl⟩
    | updateFeeStrategy p => simp [collectsFirst] at hc
    | updateRebalanceManager m =>
      obtain ⟨_, _, ⟨r, hr, rfl⟩, rfl⟩ := updateRebalanceManager_eq_ok.1 h2
      rw [hnr] at hr; cases hr
    | updateReserveDenom d => obtain ⟨_, _, rfl, rfl⟩ := updateReserveDenom_eq_ok.1 h2; exact ⟨rfl, rfl, hnr, rfl⟩
    | updateTradeInfo d rs c m =>
      obtain ⟨_, ⟨r, rs', hrs, rfl⟩, rfl⟩ := updateTradeInfo_eq_ok.1 h2; exact ⟨rfl, rfl, hnr, rfl⟩
  | rebalance m =>
    cases m with
    | init m de inf => simp [collectsFirst] at hc
    | trade m =>
      obtain ⟨r, hr, _⟩ := trade_eq_ok.1 h2
      rw [hnr] at hr; cases hr
    | finalize =>
      obtain ⟨r, res, hr, _⟩ := finalize_eq_ok.1 h2
      rw [hnr] at hr; cases hr

/-- While every accrual fails, nothing moves and every message that starts with an accrual fails. -/
private theorem blocked_forever {s : State} (P : Env → Prop)
    (hblock : ∀ (s' : State) (env : Env) s1, s'.fee = s.fee → s'.indexUnits = s.indexUnits → P env →
      collectStreamingFee s' env.now ≠ .ok s1)
    (hnr : s.rebalance = none) (cs : List Call) (ht : ∀ c ∈ cs, P c.env)
    (env : Env) (info : Info) (msg : ExecMsg) (hlast : P env)
    (hmsg : (∃ a r f, msg = .mint a r f) ∨ (∃ r, msg = .burn r) ∨ msg = .realize ∨
      (∃ m de inf, msg = .rebalance (.init m de inf)) ∨ (∃ p, msg = .gov (.updateFeeStrategy p))) :
    (run s cs).1.totalSupply = s.totalSupply ∧ (run s cs).1.indexUnits = s.indexUnits ∧
    ∀ o, execute (run s cs).1 env info msg ≠ .ok o := by
  have hfail : ∀ (s' : State) (env : Env) info msg o, s'.fee = s.fee → s'.indexUnits = s.indexUnits →
      collectsFirst msg = true → P env → execute s' env info msg ≠ .ok o := by
    intro s' env info msg o hf hi hc ht h
    obtain ⟨s1, h1, _⟩ := (execute_eq_ok (s' := o.1) (ms := o.2)).1 h
    rw [if_pos hc] at h1
    exact hblock s' env s1 hf hi ht h1
  have hkeep : ∀ (s' : State), s'.fee = s.fee → s'.indexUnits = s.indexUnits → s'.rebalance = none →
      s'.totalSupply = s.totalSupply →
      (run s' cs).1.fee = s.fee ∧ (run s' cs).1.indexUnits = s.indexUnits ∧
      (run s' cs).1.totalSupply = s.totalSupply := by
    clear hlast hmsg
    induction cs with
    | nil => intro s' h1 h2 _ h4; exact ⟨h1, h2, h4⟩
    | cons c cs ih =>
      intro s' h1 h2 h3 h4
      rw [run_cons]
      have hst : (step s' c).1.fee = s.fee ∧ (step s' c).1.indexUnits = s.indexUnits ∧
          (step s' c).1.rebalance = none ∧ (step s' c).1.totalSupply = s.totalSupply := by
        unfold step
        split
        · rename_i o ho
          cases hcf : collectsFirst c.msg with
          | true => exact absurd ho (hfail s' _ _ _ _ h1 h2 hcf (ht c (by simp)))
          | false =>
            have := quiet_step hcf h3 (s' := o.1) (ms := o.2) ho
            rw [this.1, this.2.1, this.2.2.1, this.2.2.2]
            exact ⟨h1, h2, rfl, h4⟩
        · exact ⟨h1, h2, h3, h4⟩
      exact ih (fun c hc => ht c (by simp [hc])) _ hst.1 hst.2.1 hst.2.2.1 hst.2.2.2
  obtain ⟨k1, k2, k3⟩ := hkeep s rfl rfl hnr rfl
  refine ⟨k3, k2, ?_⟩
  intro o
  apply hfail _ _ _ _ _ k1 k2 ?_ hlast
  rcases hmsg with ⟨_, _, _, rfl⟩ | ⟨_, rfl⟩ | rfl | ⟨_, _, _, rfl⟩ | ⟨_, rfl⟩ <;> rfl

/-- **C12, partial (2): the full claim is false, and the failure is permanent.**  In a state without rebalance
whose unfrozen streaming fee has been idle for `n` seconds with `n·rate ≥ 2`, every mint, burn, realize,
rebalance start and fee update fails after every further history, as long as block times stay below `2^32`
seconds after the last accrual. -/
theorem C12_idle_fee_blocks_forever_partial {s : State} {sf : StreamingFee}
    (hsf : s.fee.streamingFee = some sf) (hfz : sf.freeze = false) (hnr : s.rebalance = none)
    (hu : ∃ e ∈ s.indexUnits, 0 < e.2) (cs : List Call)
    (ht : ∀ c ∈ cs, 2 * 10 ^ 18 ≤ (c.env.now - sf.lastCollectedAt) * sf.rate ∧
      c.env.now - sf.lastCollectedAt < 2 ^ 32)
    (env : Env) (info : Info) (msg : ExecMsg)
    (hlast : 2 * 10 ^ 18 ≤ (env.now - sf.lastCollectedAt) * sf.rate ∧ env.now - sf.lastCollectedAt < 2 ^ 32)
    (hmsg : (∃ a r f, msg = .mint a r f) ∨ (∃ r, msg = .burn r) ∨ msg = .realize ∨
      (∃ m de inf, msg = .rebalance (.init m de inf)) ∨ (∃ p, msg = .gov (.updateFeeStrategy p))) :
    (run s cs).1.totalSupply = s.totalSupply ∧ (run s cs).1.indexUnits = s.indexUnits ∧
    ∀ o, execute (run s cs).1 env info msg ≠ .ok o :=
  blocked_forever (fun env => 2 * 10 ^ 18 ≤ (env.now - sf.lastCollectedAt) * sf.rate ∧
      env.now - sf.lastCollectedAt < 2 ^ 32)
    (fun s' env s1 hf hi ht => collect_fails (sf := sf) (by rw [hf]; exact hsf) hfz ht.2 ht.1
      (by rw [hi]; exact hu)) hnr cs ht env info msg hlast hmsg

/-- The state of the example after 100 million seconds (about three years) without a message. -/
example : Demo.s1.rebalance = none ∧ (∃ e ∈ Demo.s1.indexUnits, 0 < e.2) ∧
    2 * 10 ^ 18 ≤ ((1000 + 100000000) - 1000) * 20000000000 ∧ (1000 + 100000000) - 1000 < 2 ^ 32 :=
  ⟨rfl, ⟨("uosmo", 1500000000000000000), by simp [Demo.s1, Demo.s0], by decide⟩, by decide, by decide⟩

/-- An accrual whose compound factor, less the truncation, exceeds two by more than one atomic unit fails. -/
theorem collect_fails_past_doubling {s s1 : State} {now : Nat} {sf : StreamingFee}
    (hsf : s.fee.streamingFee = some sf) (hfz : sf.freeze = false) {n : Nat}
    (hn : n = (now - sf.lastCollectedAt) % 2 ^ 32) {e : Denom × Nat} (he : e ∈ s.indexUnits)
    (hgrow : (2 * e.2 + 1) * ONE * ONE ^ n ≤ e.2 * ((ONE + sf.rate) ^ n * (ONE - n))) :
    collectStreamingFee s now ≠ .ok s1 := by
  intro h
  have hO := ONE_pos
  rcases collectStreamingFee_eq_ok.1 h with ⟨h0, _⟩ | ⟨sf', sf'', us', h1, h2, rfl⟩
  · rw [h0] at hsf; cases hsf
  · rw [hsf] at h1
    cases h1
    obtain ⟨_, h3⟩ := collect_eq_ok.1 h2
    rcases h3 with ⟨h4, _⟩ | ⟨_, _, _, k, hp, hle, _⟩
    · rcases h4 with h4 | h4
      · simp [h4] at hfz
      · have hn0 : n = 0 := by rw [hn, h4]; simp
        rw [hn0, pow_zero, pow_zero, mul_one, Nat.one_mul, Nat.sub_zero] at hgrow
        have := Nat.le_of_mul_le_mul_right hgrow hO
        omega
    · rw [← hn] at hp
      have hl := checkedPow_accurate (Nat.le_add_right ONE sf.rate) hp
      have h5 := (hle e he).2
      have hpow : 0 < ONE ^ n := Nat.pow_pos hO
      have h6 : (2 * e.2 + 1) * ONE * ONE ^ n ≤ e.2 * (ONE + k) * ONE ^ n := by
        rw [Nat.mul_assoc e.2]
        exact le_trans hgrow (Nat.mul_le_mul_left _ hl)
      have h7 := Nat.le_of_mul_le_mul_right h6 hpow
      have h8 : e.2 + 1 ≤ e.2 * k / ONE := by
        rw [Nat.le_div_iff_mul_le hO]
        rw [Nat.mul_add] at h7
        have e9 : (2 * e.2 + 1) * ONE = (e.2 + 1) * ONE + e.2 * ONE := by
          rw [← Nat.add_mul]; congr 1; omega
        rw [e9] at h7
        omega
      omega

/-- **C12, partial (3): the limit is the doubling.**  As long as the compound factor for the elapsed time is at
most two the accrual succeeds (partial 1).  As soon as, less its truncation of one part in `10^18` per second, it
exceeds two by one atomic unit of the largest unit, every mint, burn, realize, rebalance start and fee update
fails, after every further history at such times. -/
theorem C12_blocked_past_doubling_partial {s : State} {sf : StreamingFee}
    (hsf : s.fee.streamingFee = some sf) (hfz : sf.freeze = false) (hnr : s.rebalance = none)
    {d : Denom} {u : Nat} (hu : (d, u) ∈ s.indexUnits) (past : Nat → Prop)
    (hpast : ∀ now, past now → ∀ n, n = (now - sf.lastCollectedAt) % 2 ^ 32 →
      (2 * u + 1) * 10 ^ 18 * (10 ^ 18) ^ n ≤ u * ((10 ^ 18 + sf.rate) ^ n * (10 ^ 18 - n)))
    (cs : List Call) (ht : ∀ c ∈ cs, past c.env.now)
    (env : Env) (info : Info) (msg : ExecMsg) (hlast : past env.now)
    (hmsg : (∃ a r f, msg = .mint a r f) ∨ (∃ r, msg = .burn r) ∨ msg = .realize ∨
      (∃ m de inf, msg = .rebalance (.init m de inf)) ∨ (∃ p, msg = .gov (.updateFeeStrategy p))) :
    (run s cs).1.totalSupply = s.totalSupply ∧ (run s cs).1.indexUnits = s.indexUnits ∧
    ∀ o, execute (run s cs).1 env info msg ≠ .ok o := by
  have e1 : (10 : Nat) ^ 18 = ONE := rfl
  simp only [e1] at hpast
  exact blocked_forever (fun env => past env.now)
    (fun s' env s1 hf hi ht => collect_fails_past_doubling (sf := sf) (by rw [hf]; exact hsf) hfz
      (n := (env.now - sf.lastCollectedAt) % 2 ^ 32) (by rfl) (e := (d, u)) (by rw [hi]; exact hu)
      (hpast env.now ht _ (by rfl))) hnr cs ht env info msg hlast hmsg

/-- The exact power is past the doubling when the truncated one is. -/
private theorem past_of_pow {r n p u : Nat} (h : checkedPow (ONE + r) n = .ok p)
    (h3 : (2 * u + 1) * ONE * ONE ≤ u * p * (ONE - n)) :
    (2 * u + 1) * ONE * ONE ^ n ≤ u * ((ONE + r) ^ n * (ONE - n)) := by
  have h2 := checkedPow_le h
  have hO := ONE_pos
  generalize (ONE + r) ^ n = x at h2 ⊢
  generalize ONE ^ n = y at h2 ⊢
  generalize ONE = o at h2 h3 hO ⊢
  apply Nat.le_of_mul_le_mul_right (c := o) _ hO
  calc (2 * u + 1) * o * y * o = (2 * u + 1) * o * o * y := by ring
    _ ≤ u * p * (o - n) * y := Nat.mul_le_mul_right _ h3
    _ = u * (o - n) * (p * y) := by ring
    _ ≤ u * (o - n) * (x * o) := Nat.mul_le_mul_left _ h2
    _ = u * (x * (o - n)) * o := by ring

/-- The contract of the example, idle for 34657361 seconds (401 days): the conditions hold, and two seconds
earlier the accrual succeeds. -/
example : Demo.s1.fee.streamingFee = some ⟨20000000000, [], false, 1000⟩ ∧ Demo.s1.rebalance = none ∧
    ("uosmo", 1500000000000000000) ∈ Demo.s1.indexUnits ∧
    (∀ now, now = 34658361 → ∀ n, n = (now - 1000) % 2 ^ 32 →
      (2 * 1500000000000000000 + 1) * 10 ^ 18 * (10 ^ 18) ^ n ≤
        1500000000000000000 * ((10 ^ 18 + 20000000000) ^ n * (10 ^ 18 - n))) ∧
    (collectStreamingFee Demo.s1 34658359).toOption.isSome = true := by
  refine ⟨rfl, rfl, by simp [Demo.s1, Demo.s0], ?_, by decide +kernel⟩
  intro now hnow n hn
  have hn' : n = 34657361 := by rw [hn, hnow]; norm_num
  rw [hn', show (10 : Nat) ^ 18 = ONE from rfl]
  exact past_of_pow (p := 2000000065016413233) (by decide +kernel) (by decide)

/-- The exact power is below the doubling when the truncated one is, by more than the truncation. -/
private theorem below_of_pow {r n p : Nat} (h : checkedPow (ONE + r) n = .ok p)
    (h3 : p ≤ 2 * (ONE - n)) (h4 : 0 < ONE - n) : (ONE + r) ^ n ≤ 2 * ONE ^ n := by
  have h2 := checkedPow_accurate (Nat.le_add_right ONE r) h
  generalize (ONE + r) ^ n = x at h2 ⊢
  generalize ONE ^ n = y at h2 ⊢
  generalize ONE - n = w at h2 h3 h4
  apply Nat.le_of_mul_le_mul_right (c := w) _ h4
  calc x * w ≤ p * y := h2
    _ ≤ 2 * w * y := Nat.mul_le_mul_right _ h3
    _ = 2 * y * w := by ring

/-- At the highest rate the factor of a year stays below two. -/
private theorem year_factor : (ONE + 21979553000) ^ 31536000 ≤ 2 * ONE ^ 31536000 :=
  below_of_pow (p := 1999999990442288836) (by decide +kernel) (by decide) (by decide)

/-- **C12, partial (4): a year is always safe.**  Whatever streaming fee governance has set, an accrual at most
31536000 seconds (365 days) after the last one succeeds, as long as the amounts fit 128 bits. -/
theorem C12_a_year_is_safe_partial {s : State} {now : Nat} (hr : Reachable s)
    (hle : ∀ sf, s.fee.streamingFee = some sf → sf.lastCollectedAt ≤ now)
    (hyear : ∀ sf, s.fee.streamingFee = some sf → now - sf.lastCollectedAt ≤ 365 * 24 * 60 * 60)
    (hunit : ∀ e ∈ s.indexUnits, e.2 < 2 ^ 128)
    (hcol : ∀ d u, s.indexUnits.lookup d = some u → uncollected s d + part u s.totalSupply < 2 ^ 128)
    (hcol' : ∀ d, uncollected s d < 2 ^ 128) :
    ∃ s1, collectStreamingFee s now = .ok s1 := by
  refine C12_accrual_succeeds_partial hr hle (fun sf hsf n hn => ?_) hunit hcol hcol'
  have hy := hyear sf hsf
  have hrate := (hr.inv.streamRate sf hsf).2
  have hO : ONE ≤ ONE + 21979553000 := Nat.le_add_right _ _
  have hn1 : n ≤ 31536000 := by
    rw [hn]
    exact le_trans (Nat.mod_le _ _) (le_trans hy (by norm_num))
  obtain ⟨m, hm⟩ := Nat.exists_eq_add_of_le hn1
  have hyf := year_factor
  rw [hm] at hyf
  have e : (10 : Nat) ^ 18 = ONE := rfl
  rw [e]
  have h0 : 0 < ONE := ONE_pos
  have h1 : (ONE + sf.rate) ^ n ≤ (ONE + 21979553000) ^ n := Nat.pow_le_pow_left (by
    have : MAX_STREAMING_FEE_RATE = 21979553000 := rfl
    omega) n
  refine le_trans h1 ?_
  generalize ONE + 21979553000 = x at hyf hO ⊢
  generalize ONE = o at *
  apply Nat.le_of_mul_le_mul_right (c := o ^ m) _ (Nat.pow_pos h0)
  calc x ^ n * o ^ m ≤ x ^ n * x ^ m := Nat.mul_le_mul_left _ (Nat.pow_le_pow_left hO m)
    _ = x ^ (n + m) := (pow_add _ _ _).symm
    _ ≤ 2 * o ^ (n + m) := hyf
    _ = 2 * o ^ n * o ^ m := by rw [pow_add]; ring

/-- The contract of the example after a year. -/
example : Reachable Demo.s1 ∧ (31537000 - 1000) ≤ 365 * 24 * 60 * 60 ∧
    (collectStreamingFee Demo.s1 31537000).toOption.isSome = true :=
  ⟨Demo.s1_reachable, by decide, by decide +kernel⟩

/-- And the highest rate, after a year and two days, is past the limit. -/
example : (checkedPow (ONE + 21979553000) (367 * 24 * 60 * 60)).toOption = some 2007610567430038452 := by
  decide +kernel

theorem C12_full_false : ¬ C12_full := by
  intro h
  obtain ⟨s1, h1⟩ := h Demo.s1 100001000 Demo.s1_reachable (by
    intro sf hsf; simp [Demo.s1, Demo.s0] at hsf; subst hsf; decide)
  refine collect_fails (sf := ⟨20000000000, [], false, 1000⟩) rfl rfl (by decide) (by decide)
    ⟨("uosmo", 1500000000000000000), by simp [Demo.s1, Demo.s0], by decide⟩ h1

/-! ### C13 -/

/-- **C13.** In every reachable state mint and burn fee rates are strictly between 0 and 1, and the streaming
rate is positive and at most 0.000000021979553 per second. -/
theorem C13_fee_rates_in_range {s : State} (hr : Reachable s) :
    (∀ r, s.fee.mintFee = some r → 0 < r ∧ r < 10 ^ 18) ∧
    (∀ r, s.fee.burnFee = some r → 0 < r ∧ r < 10 ^ 18) ∧
    (∀ sf, s.fee.streamingFee = some sf → 0 < sf.rate ∧ sf.rate ≤ 21979553000) :=
  ⟨hr.inv.mintRate, hr.inv.burnRate, hr.inv.streamRate⟩

example : Reachable Demo.s1 ∧ Demo.s1.fee.mintFee = some 10000000000000000 := ⟨Demo.s1_reachable, rfl⟩

/-! ### C30 -/

/-- **C30.** A successful fee update first charges the old rate up to now (units and recorded fees are those
of an accrual at now), keeps those units, and starts the new fee with nothing recorded at now; a later accrual
at `t` charges each unit `floor(u·k)` with `k` the compound interest (up to rounding) at the new rate for the
seconds from now to `t` only. -/
theorem C30_fee_update_never_retroactive {s s' : State} {env : Env} {info : Info} {p : FeePayload}
    {ms : List Msg} (hr : Reachable s)
    (h : execute s env info (.gov (.updateFeeStrategy p)) = .ok (s', ms)) :
    (∃ s1, collectStreamingFee s env.now = .ok s1 ∧ s'.indexUnits = s1.indexUnits ∧ s'.totalSupply = s.totalSupply) ∧
    s'.fee.collector = p.collector ∧ s'.fee.mintFee = p.mintFee ∧ s'.fee.burnFee = p.burnFee ∧
    s'.fee.streamingFee = p.streamingFee.map
      (fun q => { rate := q.rate, collected := [], freeze := q.freeze, lastCollectedAt := env.now }) ∧
    (∀ t s2 q, p.streamingFee = some q → q.freeze = false → collectStreamingFee s' t = .ok s2 →
      env.now ≤ t ∧
      ∃ k, (∀ d u, s'.indexUnits.lookup d = some u → ∃ u', s2.indexUnits.lookup d = some u' ∧ u' + part u k = u) ∧
        ∀ n, n = (t - env.now) % 2 ^ 32 →
          n * q.rate ≤ k ∧ (10 ^ 18 + k) * (10 ^ 18) ^ n ≤ (10 ^ 18 + q.rate) ^ n * 10 ^ 18 ∧
          (10 ^ 18 + q.rate) ^ n * (10 ^ 18 - n) ≤ (10 ^ 18 + k) * (10 ^ 18) ^ n) := by
  have hr' := hr.execute h
  obtain ⟨s1, h1, h2⟩ := execute_eq_ok.1 h
  simp only [collectsFirst, if_true] at h1
  obtain ⟨_, _, _, _, _, _, he, _⟩ := updateFee_eq_ok.1 h2
  have f := collectStreamingFee_frame h1
  refine ⟨⟨s1, h1, by rw [he], by rw [he]; exact f.2.2.1⟩, by rw [he], by rw [he], by rw [he], by rw [he], ?_⟩
  intro t s2 q hq hqf hc
  have hsf : s'.fee.streamingFee = some ⟨q.rate, [], q.freeze, env.now⟩ := by rw [he]; simp [hq]
  refine ⟨accrual_le hc _ hsf, ?_⟩
  obtain ⟨_, _, _, _, _, _, _, _, _, _, ⟨k, k1, k2, k3⟩, _⟩ := C10_accrual_conserves hr' hc
  refine ⟨k, ?_, ?_⟩
  · intro d u hu
    obtain ⟨u', a, b, _⟩ := k1 d u hu
    exact ⟨u', a, b⟩
  · exact fun n hn => k3 _ hsf hqf n hn

example : Reachable Demo.s1 ∧
    (execute Demo.s1 (Demo.env 5000) ⟨"gov", []⟩ (.gov (.updateFeeStrategy
      ⟨"collector", none, none, some ⟨10000000000, false⟩⟩))).map (fun o => (o.1.fee.streamingFee, o.1.indexUnits)) =
    .ok (some ⟨10000000000, [], false, 5000⟩,
      [("uosmo", 1499879995201072158), ("uatom", 249979999200178693)]) :=
  ⟨Demo.s1_reachable, by decide +kernel⟩

end Ibcx.Props
