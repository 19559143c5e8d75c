import Verif.Json.ZapLemmas
/-!
# Transactions of the periphery on bytes: lemmas

Not part of the model.
-/

namespace Ibcx.Json
open Ibcx Ibcx.Pool Ibcx.Core Ibcx.Periphery Ibcx.Chain Ibcx.Props Ibcx.Spec
open Ibcx.Storage (Bytes Raw textBytes CoreRep coreAt)

/-! ## What is sent fits -/

theorem searchInLoop_fits {s : Simulator} {desired : Coin} : ∀ {n : Nat} {acc r : SearchIn},
    searchInLoop s desired n acc = .ok r → r.index < U128 := by
  intro n
  induction n with
  | zero => intro acc r h; cases h
  | succ n ih =>
    intro acc r h
    unfold searchInLoop at h
    obtain ⟨acc', h1, h⟩ := bind_eq_ok.1 h
    obtain ⟨err, h2, h⟩ := bind_eq_ok.1 h
    have fit : acc'.index < U128 := by
      unfold searchInF at h1
      obtain ⟨r, _, h1⟩ := bind_eq_ok.1 h1
      obtain ⟨index, hi, h1⟩ := bind_eq_ok.1 h1
      obtain ⟨x, _, h1⟩ := bind_eq_ok.1 h1
      cases h1
      obtain ⟨hlt, rfl⟩ := mulInt_eq_ok.1 hi
      exact hlt
    split at h
    · obtain ⟨gap, _, h⟩ := bind_eq_ok.1 h
      split at h
      · cases h
        exact fit
      · exact ih h
    · exact ih h

theorem est_fits {s : Simulator} {desired : Coin} {init : Option Nat} {m : Nat} {res est : SearchIn}
    (h : estIndexForInput s desired init (some m) = .ok (res, some est)) : est.index < U128 := by
  unfold estIndexForInput at h
  obtain ⟨r, hr, h⟩ := bind_eq_ok.1 h
  have fit : r.index < U128 := by
    unfold searchForInput at hr
    obtain ⟨x, _, hr⟩ := bind_eq_ok.1 hr
    exact searchInLoop_fits hr
  obtain ⟨_, _, h⟩ := bind_eq_ok.1 h
  obtain ⟨gap, _, h⟩ := bind_eq_ok.1 h
  obtain ⟨part, _, h⟩ := bind_eq_ok.1 h
  obtain ⟨revised, hrev, h⟩ := bind_eq_ok.1 h
  obtain ⟨x, _, h⟩ := bind_eq_ok.1 h
  cases h
  obtain ⟨_, rfl⟩ := sub_eq_ok.1 hrev
  exact Nat.lt_of_le_of_lt (Nat.sub_le _ _) fit

/-- A message to the core contract that the periphery may send. -/
def Sent : Core.ExecMsg → Prop
  | .mint n _ _ => n < U128
  | .burn none => True
  | _ => False

theorem Sent.fits {m : Core.ExecMsg} (h : Sent m) : coreExecute.Fits m ∧ Texts.CoreFits m ∧ CoreSendable m := by
  match m, h with
  | .mint n r t, h => exact ⟨core_fits.1 h, h, trivial⟩
  | .burn none, h => exact ⟨trivial, trivial, trivial⟩

theorem sent_fits {p : PEnv} {info : Info} {m : PExecMsg} {ms : List PMsg} (hm : Texts.ZapFits m)
    (h : Periphery.execute p info m = .ok ms) : ∀ a c f, PMsg.core a c f ∈ ms → Sent c ∧ p.core a ≠ none := by
  have chain : ∀ {a c f} {swaps : List Msg} {rest : List PMsg}, PMsg.core a c f ∈ swaps.map PMsg.chain ++ rest →
      PMsg.core a c f ∈ rest := by
    intro a c f swaps rest hx
    rcases List.mem_append.1 hx with hx | hx
    · obtain ⟨y, _, hy⟩ := List.mem_map.1 hx
      cases hy
    · exact hx
  intro a c f hx
  cases m with
  | mintExactIn core input min si =>
    obtain ⟨infos, _, h⟩ := bind_eq_ok.1 h
    obtain ⟨_, _, _, _, _, est, _, _, hcore, _, _, _, _, hest, _, _, _, rfl⟩ := mintExactIn_spec h
    have hx := chain hx
    simp only [List.mem_cons, PMsg.core.injEq, reduceCtorEq, List.not_mem_nil, or_false] at hx
    obtain ⟨rfl, rfl, _⟩ := hx
    exact ⟨est_fits hest, by rw [hcore]; simp⟩
  | mintExactOut core output input si =>
    obtain ⟨infos, _, h⟩ := bind_eq_ok.1 h
    obtain ⟨_, _, _, _, _, _, _, _, hcore, _, _, _, _, _, _, _, _, _, rfl⟩ := mintExactOut_spec h
    have hx := chain hx
    simp only [List.mem_cons, PMsg.core.injEq, reduceCtorEq, List.not_mem_nil, or_false] at hx
    obtain ⟨rfl, rfl, _⟩ := hx
    exact ⟨hm, by rw [hcore]; simp⟩
  | burnExactIn core output min si =>
    obtain ⟨infos, _, h⟩ := bind_eq_ok.1 h
    obtain ⟨_, _, _, _, _, _, _, _, hcore, _, _, _, _, _, _, _, rfl⟩ := burnExactIn_spec h
    rcases List.mem_cons.1 hx with hx | hx
    · cases hx
      exact ⟨trivial, by rw [hcore]; simp⟩
    · have hx := chain hx
      simp at hx
  | burnExactOut core output si =>
    obtain ⟨infos, _, h⟩ := bind_eq_ok.1 h
    obtain ⟨_, _, _, _, _, _, _, _, _, _, _, _, hcore, _, _, _, _, _, _, _, _, _, _, _, rfl⟩ := burnExactOut_spec h
    rcases List.mem_cons.1 hx with hx | hx
    · cases hx
      exact ⟨trivial, by rw [hcore]; simp⟩
    · have hx := chain hx
      simp at hx
  | finishOperation refundTo asset =>
    obtain ⟨_, _, rfl⟩ := finishOperation_eq_ok.1 h
    simp at hx

/-! ## Running the messages -/

/-- What the state must satisfy for its texts to be read and written. -/
structure Good (s : Core.State) : Prop where
  reach : Core.Reachable s
  fits : StateFits s
  numbers : Texts.CoreStateFits s

theorem send_nil (b : Bank) (x y : Addr) : b.send x y [] = .ok b := by
  unfold Bank.send
  simp [amountOf]

/-- Both fail, or both succeed with the same world. -/
def Both (v : Iface.ContractVersion) {α : Type} (x : Res (WWorld × α)) (y : Res (ZWorld × α)) : Prop :=
  match x, y with
  | .error _, .error _ => True
  | .ok (w, a), .ok (z, b) => a = b ∧ Same v w z ∧ Good z.core
  | _, _ => False

theorem Both.bind {v : Iface.ContractVersion} {α β : Type} {x : Res (WWorld × α)} {y : Res (ZWorld × α)}
    {f : WWorld × α → Res (WWorld × β)} {g : ZWorld × α → Res (ZWorld × β)} (h : Both v x y)
    (hf : ∀ w z a, x = .ok (w, a) → y = .ok (z, a) → Same v w z → Good z.core → Both v (f (w, a)) (g (z, a))) :
    Both v (x >>= f) (y >>= g) := by
  cases x with
  | error e =>
    cases y with
    | error e' => exact trivial
    | ok b => exact h.elim
  | ok a =>
    cases y with
    | error e' => exact h.elim
    | ok b =>
      obtain ⟨w, a⟩ := a
      obtain ⟨z, b⟩ := b
      obtain ⟨rfl, h1, h2⟩ : a = b ∧ Same v w z ∧ Good z.core := h
      exact hf w z a rfl rfl h1 h2

section
variable {v : Iface.ContractVersion} {w : WWorld} {z : ZWorld} {env : Env} {raw : Nat → Res Bytes}
  {pool : Nat → Res (Option Pool)}

theorem core_both (hs : Same v w z) (hg : Good z.core) (ht : Texts.Number env.now) {msg : Core.ExecMsg} (hm : Sent msg)
    (funds : List Coin) (market : List Nat) :
    Both v (do
        let w ← deliverCore w env (coreExecute.toText msg) funds
        .ok (w, market))
      (do
        let z ← Chain.callCore z env z.coreAddr msg funds
        .ok (z, market)) := by
  obtain ⟨f1, f2, f3⟩ := hm.fits
  have hread : readMsg coreExecute (coreExecute.toText msg) = .ok msg := readMsg_toText coreExecute_faithful f1
  unfold deliverCore Chain.callCore
  rw [show require (z.coreAddr = z.coreAddr) .querier = .ok () from require_eq_ok.2 rfl, ok_bind]
  dsimp only
  rw [hs.bank, hs.zap, hs.coreAddr]
  cases hb : z.bank.send z.zap z.coreAddr (funds.filter fun c => c.amount ≠ 0) with
  | error e => exact trivial
  | ok b =>
    simp only [ok_bind]
    have hmt := matches_split (core_wasm_matches hs.core hg.fits.1 hg.numbers { env with contract := z.coreAddr }
      ⟨z.zap, funds.filter fun c => c.amount ≠ 0⟩ (coreExecute.toText msg) ht
      (fun m hm' => by rw [hread] at hm'; cases hm'; exact f3))
    unfold coreExecuteText at hmt
    rw [hread, ok_bind] at hmt
    cases hx : Core.execute z.core { env with contract := z.coreAddr } ⟨z.zap, funds.filter fun c => c.amount ≠ 0⟩ msg with
    | error e =>
      rw [(hmt.1 e).2 hx]
      exact trivial
    | ok o =>
      obtain ⟨s', ms⟩ := o
      obtain ⟨b', e1, e2⟩ := hmt.2 s' ms hx
      rw [e1]
      simp only [ok_bind]
      cases hr : runMsgs z.coreAddr b [] ms with
      | error e => exact trivial
      | ok b2 =>
        have hfit := fits_step hg.fits (infos_nodup hg.reach) (call := ⟨{ env with contract := z.coreAddr },
          ⟨z.zap, funds.filter fun c => c.amount ≠ 0⟩, msg⟩) f3
        simp only [Core.step, hx] at hfit
        have ht' : Texts.Number ({ env with contract := z.coreAddr } : Env).now := ht
        exact ⟨rfl, ⟨rfl, rfl, rfl, e2⟩, hg.reach.execute hx, hfit, Core.Fits.execute hg.numbers ht' f2 hx⟩

theorem chain_both (hs : Same v w z) (hg : Good z.core) (market : List Nat) (m : Msg) :
    Both v (do
        let (b, market) ← runMsg w.zap w.bank market m
        .ok ({ w with bank := b }, market))
      (do
        let (b, market) ← runMsg z.zap z.bank market m
        .ok ({ z with bank := b }, market)) := by
  rw [hs.bank, hs.zap]
  cases hb : runMsg z.zap z.bank market m with
  | error e => exact trivial
  | ok o =>
    obtain ⟨b, market'⟩ := o
    exact ⟨rfl, ⟨hs.coreAddr, rfl, rfl, hs.core⟩, hg⟩

/-- One step of `runWasm`. -/
def wstep (raw : Nat → Res Bytes) (env : Env) (depth : Nat) (st : WWorld × List Nat) (m : WMsg) : Res (WWorld × List Nat) :=
  match m with
  | .chain m => do
    let (b, market) ← runMsg st.1.zap st.1.bank st.2 m
    .ok ({ st.1 with bank := b }, market)
  | .wasm addr text funds =>
    if addr = st.1.coreAddr then do
      let w ← deliverCore st.1 env text funds
      .ok (w, st.2)
    else if addr = st.1.zap then do
      let funds := funds.filter fun c => c.amount ≠ 0
      let b ← st.1.bank.send st.1.zap st.1.zap funds
      let w := { st.1 with bank := b }
      let ms ← zapWasmExecute (w.benv env raw) ⟨w.zap, funds⟩ text
      runWasm raw env depth w st.2 ms
    else .error .querier

theorem runWasm_nil (depth : Nat) (market : List Nat) : runWasm raw env (depth + 1) w market [] = .ok (w, market) := rfl

theorem runWasm_cons (depth : Nat) (market : List Nat) (m : WMsg) (ms : List WMsg) :
    runWasm raw env (depth + 1) w market (m :: ms) = (do
      let st ← wstep raw env depth (w, market) m
      runWasm raw env (depth + 1) st.1 st.2 ms) := by
  simp only [runWasm, List.foldlM_cons]
  rfl

/-- One message. -/
theorem msg_both (hs : Same v w z) (hg : Good z.core) (ht : Texts.Number env.now) (hc : env.contract = z.zap)
    (hne : z.zap ≠ z.coreAddr) (market : List Nat) (m : PMsg) (hm : ∀ a c f, m = .core a c f → Sent c ∧ a = z.coreAddr)
    (depth : Nat) :
    Both v (wstep raw env (depth + 1) (w, market) (wire env.contract m)) (runPMsg (askPool raw) env z market m) := by
  cases m with
  | chain m => exact chain_both hs hg market m
  | core a c f =>
    obtain ⟨h1, rfl⟩ := hm a c f rfl
    have := core_both hs hg ht h1 f market
    simp only [wire, wstep, runPMsg, hs.coreAddr, if_true]
    exact this
  | finish refundTo asset =>
    simp only [wire, wstep, runPMsg, hs.coreAddr, hs.zap, hc, if_neg hne, if_true, List.filter_nil, send_nil, ok_bind]
    have hread : readMsg zapExecute (zapExecute.toText (.finishOperation refundTo asset)) = .ok (.finishOperation refundTo asset) :=
      readMsg_toText zapExecute_faithful (zap_fits.1 trivial)
    unfold zapWasmExecute
    rw [hread, ok_bind]
    have h1 := wire_execute (pool := askPool raw) (raw := raw) hs hg.numbers ht ⟨z.zap, []⟩ (.finishOperation refundTo asset)
    have hw : ({ core := w.core, coreAddr := z.coreAddr, zap := z.zap, bank := w.bank } : WWorld) = w := by
      rw [← hs.coreAddr, ← hs.zap]
    have hp : withAnswers (z.penv env (askPool raw)) raw = z.penv env (askPool raw) := rfl
    rw [hp] at h1
    have hsplit : ∀ x : Res (List WMsg), x.toOption = none → ∃ e, x = .error e := by
      intro x hx
      cases x with
      | error e => exact ⟨e, rfl⟩
      | ok a => cases hx
    cases hx : Periphery.execute (z.penv env (askPool raw)) ⟨z.zap, []⟩ (.finishOperation refundTo asset) with
    | error e =>
      rw [hx] at h1
      obtain ⟨e', h1⟩ := hsplit _ h1
      rw [hw, h1]
      exact trivial
    | ok ms =>
      rw [hx] at h1
      obtain ⟨_, _, rfl⟩ := finishOperation_eq_ok.1 hx
      rw [hw, ok_of_agree h1]
      simp only [ok_bind, List.map_cons, List.map_nil, wire, runWasm_cons]
      have hb := Both.bind (f := fun st => runWasm raw env (depth + 1) st.1 st.2 []) (g := fun st => .ok st)
        (chain_both hs hg market (.send refundTo [⟨asset, z.bank.bal z.zap asset⟩]))
        (fun w' z' a _ _ h1 h2 => ⟨rfl, h1, h2⟩)
      have hid : ∀ x : Res (ZWorld × List Nat), (x >>= fun st => .ok st) = x := by
        intro x
        cases x <;> rfl
      rw [hid] at hb
      exact hb

end

theorem runPMsg_addrs {pool : Nat → Res (Option Pool)} {env : Env} {z z' : ZWorld} {market market' : List Nat} {m : PMsg}
    (h : runPMsg pool env z market m = .ok (z', market')) : z'.zap = z.zap ∧ z'.coreAddr = z.coreAddr := by
  cases m with
  | chain m =>
    obtain ⟨⟨b, k⟩, _, h⟩ := bind_eq_ok.1 h
    cases h
    exact ⟨rfl, rfl⟩
  | core a c f =>
    obtain ⟨x, h1, h⟩ := bind_eq_ok.1 h
    cases h
    unfold Chain.callCore at h1
    obtain ⟨_, _, h1⟩ := bind_eq_ok.1 h1
    obtain ⟨_, _, h1⟩ := bind_eq_ok.1 h1
    obtain ⟨⟨_, _⟩, _, h1⟩ := bind_eq_ok.1 h1
    obtain ⟨_, _, h1⟩ := bind_eq_ok.1 h1
    cases h1
    exact ⟨rfl, rfl⟩
  | finish r d =>
    obtain ⟨ms, h1, h⟩ := bind_eq_ok.1 h
    obtain ⟨_, _, rfl⟩ := finishOperation_eq_ok.1 h1
    obtain ⟨⟨b, k⟩, _, h⟩ := bind_eq_ok.1 h
    cases h
    exact ⟨rfl, rfl⟩

/-- All messages: both runs fail, or both end in the same world. -/
theorem run_both {v : Iface.ContractVersion} {env : Env} {raw : Nat → Res Bytes} (ht : Texts.Number env.now) (depth : Nat) :
    ∀ (ms : List PMsg) {w : WWorld} {z : ZWorld} (market : List Nat), Same v w z → Good z.core → env.contract = z.zap →
      z.zap ≠ z.coreAddr → (∀ a c f, PMsg.core a c f ∈ ms → Sent c ∧ a = z.coreAddr) →
      (∀ z', runPMsgs (askPool raw) env z market ms = .ok z' →
        ∃ w' k, runWasm raw env (depth + 2) w market (ms.map (wire env.contract)) = .ok (w', k) ∧ Same v w' z') ∧
      (∀ w' k, runWasm raw env (depth + 2) w market (ms.map (wire env.contract)) = .ok (w', k) →
        ∃ z', runPMsgs (askPool raw) env z market ms = .ok z' ∧ Same v w' z') := by
  intro ms
  induction ms with
  | nil =>
    intro w z market hs hg hc hne hm
    refine ⟨fun z' h => ?_, fun w' k h => ?_⟩
    · cases h
      exact ⟨w, market, rfl, hs⟩
    · cases h
      exact ⟨z, rfl, hs⟩
  | cons m ms ih =>
    intro w z market hs hg hc hne hm
    have hb := msg_both (raw := raw) hs hg ht hc hne market m (fun a c f e => hm a c f (e ▸ List.mem_cons_self ..)) depth
    rw [List.map_cons, runWasm_cons]
    unfold runPMsgs
    cases hx : runPMsg (askPool raw) env z market m with
    | error e =>
      rw [hx] at hb
      cases hy : wstep raw env (depth + 1) (w, market) (wire env.contract m) with
      | error e' =>
        exact ⟨fun z' h => (by cases h), fun w' k h => (by cases h)⟩
      | ok o => rw [hy] at hb; exact hb.elim
    | ok o =>
      obtain ⟨z1, k1⟩ := o
      rw [hx] at hb
      cases hy : wstep raw env (depth + 1) (w, market) (wire env.contract m) with
      | error e' => rw [hy] at hb; exact hb.elim
      | ok o =>
        obtain ⟨w1, k2⟩ := o
        rw [hy] at hb
        obtain ⟨rfl, hs1, hg1⟩ : k2 = k1 ∧ Same v w1 z1 ∧ Good z1.core := hb
        obtain ⟨a1, a2⟩ := runPMsg_addrs hx
        have := ih k2 hs1 hg1 (hc.trans a1.symm) (by rw [a1, a2]; exact hne)
          (fun a c f e => by rw [a2]; exact hm a c f (List.mem_cons_of_mem _ e))
        simp only [ok_bind]
        exact this

/-- A transaction: both fail, or both end in the same world. -/
theorem tx_both {v : Iface.ContractVersion} {env : Env} {raw : Nat → Res Bytes} {w : WWorld} {z : ZWorld} (hs : Same v w z)
    (hg : Good z.core) (ht : Texts.Number env.now) (market : List Nat) (depth : Nat) (info : Info) (text : Bytes) :
    (∀ m z', readMsg zapExecute text = .ok m → zapTx z env (askPool raw) market info m = .ok z' →
      ∃ w', zapWasmTx w env raw market (depth + 2) info text = .ok w' ∧ Same v w' z') ∧
    (∀ w', zapWasmTx w env raw market (depth + 2) info text = .ok w' →
      ∃ m z', readMsg zapExecute text = .ok m ∧ zapTx z env (askPool raw) market info m = .ok z' ∧ Same v w' z') := by
  unfold zapWasmTx zapTx zapWasmExecute
  rw [hs.zap, hs.coreAddr, hs.bank]
  have key : ∀ (b : Bank) (m : PExecMsg), readMsg zapExecute text = .ok m → env.contract = z.zap → z.zap ≠ z.coreAddr →
      Same v { w with bank := b } { z with bank := b } ∧
      (byteExecute (({ w with bank := b } : WWorld).benv env raw) info m).toOption =
        (Periphery.execute (({ z with bank := b } : ZWorld).penv env (askPool raw)) info m).toOption.map
          (List.map (wire env.contract)) ∧
      ∀ ms, Periphery.execute (({ z with bank := b } : ZWorld).penv env (askPool raw)) info m = .ok ms →
        ∀ a c f, PMsg.core a c f ∈ ms → Sent c ∧ a = z.coreAddr := by
    intro b m hm h1 h2
    have hs' : Same v { w with bank := b } { z with bank := b } := ⟨hs.coreAddr, hs.zap, rfl, hs.core⟩
    refine ⟨hs', wire_execute (pool := askPool raw) hs' hg.numbers ht info m, fun ms hms a c f hx => ?_⟩
    obtain ⟨h3, h4⟩ := sent_fits ((Ibcx.Props.C99_in_range text).2.2.2 m hm) hms a c f hx
    refine ⟨h3, ?_⟩
    by_contra hne
    exact h4 (if_neg hne)
  refine ⟨fun m z' hm h => ?_, fun w' h => ?_⟩
  · obtain ⟨u, h1, h⟩ := bind_eq_ok.1 h
    obtain ⟨b, h2, h⟩ := bind_eq_ok.1 h
    obtain ⟨ms, h3, h⟩ := bind_eq_ok.1 h
    obtain ⟨c1, c2, _⟩ := require_eq_ok.1 h1
    obtain ⟨hs', k1, k2⟩ := key b m hm c1 c2
    rw [h3] at k1
    obtain ⟨w', k, r1, r2⟩ := (run_both (raw := raw) ht depth ms market hs' hg c1 c2 (k2 ms h3)).1 z' h
    refine ⟨w', ?_, r2⟩
    rw [h1, ok_bind, h2, ok_bind, hm]
    simp only [ok_bind]
    rw [hs.zap, hs.coreAddr] at k1 r1
    rw [ok_of_agree k1, ok_bind, r1]
    rfl
  · obtain ⟨u, h1, h⟩ := bind_eq_ok.1 h
    obtain ⟨b, h2, h⟩ := bind_eq_ok.1 h
    obtain ⟨ms, h3, h⟩ := bind_eq_ok.1 h
    obtain ⟨m, hm, h3⟩ := bind_eq_ok.1 h3
    obtain ⟨⟨w1, k⟩, h4, h⟩ := bind_eq_ok.1 h
    cases h
    obtain ⟨c1, c2, _⟩ := require_eq_ok.1 h1
    obtain ⟨hs', k1, k2⟩ := key b m hm c1 c2
    rw [hs.zap, hs.coreAddr, h3] at k1
    cases hx : Periphery.execute (({ z with bank := b } : ZWorld).penv env (askPool raw)) info m with
    | error e => rw [hx] at k1; cases k1
    | ok ps =>
      rw [hx] at k1
      obtain rfl : ms = ps.map (wire env.contract) := Option.some.inj k1
      obtain ⟨z', r1, r2⟩ := (run_both (raw := raw) ht depth ps market hs' hg c1 c2 (k2 ps hx)).2 w' k
        (by rw [hs.zap, hs.coreAddr]; exact h4)
      refine ⟨m, z', hm, ?_, r2⟩
      rw [h1, ok_bind, h2, ok_bind]
      dsimp only
      rw [hx]
      exact r1

end Ibcx.Json
