import Verif.Json.Zap
import Verif.Props.ByteQueries
import Verif.Props.PoolText
import Verif.Props.QueryText
/-!
# The periphery contract on bytes: lemmas

Not part of the model.
-/

namespace Ibcx.Json
open Ibcx Ibcx.Pool Ibcx.Core Ibcx.Periphery Ibcx.Chain Ibcx.Props Ibcx.Spec
open Ibcx.Storage (Bytes Raw textBytes CoreRep coreAt)

/-! ## Results up to the kind of failure -/

theorem agree_iff {α : Type} {x y : Res α} : x.toOption = y.toOption ↔ ∀ a, x = .ok a ↔ y = .ok a := by
  cases x <;> cases y <;> simp [Except.toOption, eq_comm]

theorem ok_of_agree {α : Type} {x : Res α} {a : α} (h : x.toOption = some a) : x = .ok a := by
  cases x <;> cases h
  rfl

theorem bind_wire {α β γ : Type} (w : γ → β) {x y : Res α} {f : α → Res β} {g : α → Res γ} (h : x.toOption = y.toOption)
    (hf : ∀ a, y = .ok a → (f a).toOption = (g a).toOption.map w) : (x >>= f).toOption = (y >>= g).toOption.map w := by
  cases y with
  | error e =>
    cases x with
    | error e' => rfl
    | ok a => cases h
  | ok a =>
    cases x with
    | error e' => cases h
    | ok b =>
      cases h
      exact hf a rfl

/-! ## Questions and answers -/

section
variable {v : Iface.ContractVersion} {w : WWorld} {s : Core.State} {env : Env} {raw : Nat → Res Bytes}

theorem ask_other {α : Type} {addr : Addr} (ha : addr ≠ w.coreAddr) (q : CoreQuery) (c : Codec α) :
    (askCore (w.benv env raw) addr q c).toOption = none := by
  simp only [askCore, WWorld.benv, if_neg ha]
  rfl

theorem ask_core {α : Type} {q : CoreQuery} {c : Codec α} {x : Res α} (hq : coreQuery.Fits q)
    (hx : coreWasmAnswer w.bank.bal w.core { env with contract := w.coreAddr } q = answer c x)
    (hr : ∀ a, x = .ok a → c.ofText (c.toText a) = some a) :
    (askCore (w.benv env raw) w.coreAddr q c).toOption = x.toOption := by
  simp only [askCore, WWorld.benv, if_true, coreWasmQuery]
  rw [readMsg_toText coreQuery_faithful hq, ok_bind, hx]
  cases x with
  | error e => rfl
  | ok a =>
    show (readMsg c (c.toText a)).toOption = _
    simp only [readMsg, hr a rfl]

/-- The three answers the periphery uses. -/
theorem core_asked (h : CoreRep w.core (coreAt v s)) (hn : Texts.CoreStateFits s) (ht : Texts.Number env.now) :
    (askCore (w.benv env raw) w.coreAddr (.getFee none) fee).toOption = (getFee s env none).toOption ∧
    (askCore (w.benv env raw) w.coreAddr (.getConfig none) configResp).toOption = (getConfig s env none).toOption ∧
    (askCore (w.benv env raw) w.coreAddr (.getPortfolio none) portfolioResp).toOption = (getPortfolio s env none).toOption := by
  have rd := coreReads_text hn
  obtain ⟨dec, hd, _, _, _, _, hread⟩ := C102_core_read hn
  have hdec := dec_unique hd
  subst hdec
  obtain ⟨r1, r2, r3, -, -⟩ := hread env none ht (by simp)
  refine ⟨ask_core (x := getFee s env none) ?_ ?_ ?_, ask_core (x := getConfig s env none) ?_ ?_ ?_,
    ask_core (x := getPortfolio s env none) ?_ ?_ ?_⟩
  · intro n hn
    cases hn
  · simp only [coreWasmAnswer, get_fee h rd]
    rfl
  · intro a ha
    rw [toText_shown, shown_fees]
    exact r2 a ha
  · intro n hn
    cases hn
  · simp only [coreWasmAnswer, get_config h rd]
    rfl
  · intro a ha
    rw [toText_shown, shown_config]
    exact r1 a ha
  · intro n hn
    cases hn
  · simp only [coreWasmAnswer, get_portfolio h rd]
    rfl
  · intro a ha
    rw [toText_shown, shown_portfolio]
    exact r3 a ha

theorem sim_asked (p : PEnv) (hp : p.env = env) (infos : List SwapInfo) (us : Core.Units) :
    (byteSim (w.benv env raw) infos us).toOption = (makeSim (withAnswers p raw) infos us).toOption := by
  subst hp
  have := bind_wire id (x := queryRawPools raw (fun v => (fromUtf8 v).isSome) readPool (extractPoolIds infos))
    (y := queryPools (askPool raw) (extractPoolIds infos))
    (f := fun ps => (.ok ⟨p.env, ps, infos, us⟩ : Res Simulator)) (g := fun ps => .ok ⟨p.env, ps, infos, us⟩)
    (agree_iff.2 (C107_order raw _)) (fun a _ => rfl)
  rw [Option.map_id] at this
  exact this

end

/-! ## Messages -/

/-- A message of the periphery with its text. -/
def wire (self : Addr) : PMsg → WMsg
  | .chain m => .chain m
  | .core addr msg funds => .wasm addr (coreExecute.toText msg) funds
  | .finish refundTo asset => .wasm self (zapExecute.toText (.finishOperation refundTo asset)) []

theorem wire_chain (self : Addr) (ms : List Msg) : (ms.map PMsg.chain).map (wire self) = ms.map WMsg.chain := by
  rw [List.map_map]
  rfl

section
variable {v : Iface.ContractVersion} {w : WWorld} {z : ZWorld} {env : Env} {raw : Nat → Res Bytes}
  {pool : Nat → Res (Option Pool)}

/-- The same world, once with the texts of the state and once with the state. -/
structure Same (v : Iface.ContractVersion) (w : WWorld) (z : ZWorld) : Prop where
  coreAddr : w.coreAddr = z.coreAddr
  zap : w.zap = z.zap
  bank : w.bank = z.bank
  core : CoreRep w.core (coreAt v z.core)

/-- The common beginning of the handlers: the address, and the first question. -/
theorem begin_wire {α β γ : Type} (hs : Same v w z) (f : γ → β) {coreAddr : Addr} {q : CoreQuery} {c : Codec α}
    {k : Addr → α → Res β} {g : Core.State → Res γ}
    (hk : coreAddr = w.coreAddr → (askCore (w.benv env raw) w.coreAddr q c >>= k w.coreAddr).toOption = (g z.core).toOption.map f) :
    (do
      let addr ← validate (w.benv env raw).env coreAddr
      let a ← askCore (w.benv env raw) addr q c
      k addr a).toOption =
    (do
      let core ← findCore (withAnswers (z.penv env pool) raw) coreAddr
      g core).toOption.map f := by
  unfold findCore
  show (do
      let addr ← validate env coreAddr
      let a ← askCore (w.benv env raw) addr q c
      k addr a).toOption = _
  have e : (withAnswers (z.penv env pool) raw).env = env := rfl
  rw [e]
  cases hv : validate env coreAddr with
  | error e => rfl
  | ok a =>
    obtain ⟨-, rfl⟩ := validate_eq_ok.1 hv
    simp only [ok_bind]
    have ec : (withAnswers (z.penv env pool) raw).core a = if a = z.coreAddr then some z.core else none := rfl
    rw [ec]
    by_cases ha : a = z.coreAddr
    · rw [if_pos ha]
      have hw : a = w.coreAddr := by rw [ha, hs.coreAddr]
      have := hk hw
      rw [← hw] at this
      exact this
    · rw [if_neg ha]
      have hw : a ≠ w.coreAddr := by rwa [hs.coreAddr]
      have := ask_other (env := env) (raw := raw) hw q c
      cases hx : askCore (w.benv env raw) a q c with
      | error e => rfl
      | ok b => rw [hx] at this; cases this

local macro "step" t:term : tactic => `(tactic| refine bind_wire _ $t fun _ _ => ?_)

theorem wire_execute (hs : Same v w z) (hn : Texts.CoreStateFits z.core) (ht : Texts.Number env.now) (info : Info) (m : PExecMsg) :
    (byteExecute (w.benv env raw) info m).toOption =
      (Periphery.execute (withAnswers (z.penv env pool) raw) info m).toOption.map (List.map (wire env.contract)) := by
  obtain ⟨q1, q2, q3⟩ := core_asked (raw := raw) hs.core hn ht
  have q4 : ∀ infos us, (byteSim (w.benv env raw) infos us).toOption =
      (makeSim (withAnswers (z.penv env pool) raw) infos us).toOption := sim_asked (z.penv env pool) rfl
  cases m with
  | mintExactIn core input min si =>
    refine bind_wire _ rfl fun infos _ => ?_
    refine begin_wire hs _ fun ha => ?_
    subst ha
    step q1
    step q2
    step q3
    step rfl
    step (q4 _ _)
    refine bind_wire _ rfl fun x _ => ?_
    obtain ⟨r, est⟩ := x
    cases est with
    | none => rfl
    | some est =>
      dsimp only
      step rfl
      step rfl
      step rfl
      step rfl
      step rfl
      simp only [Except.toOption, Option.map_some, List.map_append, wire_chain]
      rfl
  | mintExactOut core output input si =>
    refine bind_wire _ rfl fun infos _ => ?_
    refine begin_wire hs _ fun ha => ?_
    subst ha
    step q1
    step q2
    step q3
    step rfl
    step (q4 _ _)
    refine bind_wire _ rfl fun x _ => ?_
    obtain ⟨r, rs⟩ := x
    dsimp only
    step rfl
    step rfl
    step rfl
    step rfl
    step rfl
    simp only [Except.toOption, Option.map_some, List.map_append, wire_chain]
    rfl
  | burnExactIn core output min si =>
    refine bind_wire _ rfl fun infos _ => ?_
    refine begin_wire hs _ fun ha => ?_
    subst ha
    step q1
    step q2
    step q3
    step rfl
    step (q4 _ _)
    step rfl
    step rfl
    refine bind_wire _ rfl fun x _ => ?_
    obtain ⟨r, rs⟩ := x
    dsimp only
    step rfl
    simp only [Except.toOption, Option.map_some, List.map_append, List.map_cons, wire_chain]
    rfl
  | burnExactOut core output si =>
    refine bind_wire _ rfl fun infos _ => ?_
    refine begin_wire hs _ fun ha => ?_
    subst ha
    step q1
    step q2
    step q3
    step rfl
    step (q4 _ _)
    refine bind_wire _ rfl fun x _ => ?_
    obtain ⟨r, est⟩ := x
    dsimp only
    step rfl
    step rfl
    step rfl
    step rfl
    step rfl
    step rfl
    refine bind_wire _ rfl fun x _ => ?_
    obtain ⟨r, rs⟩ := x
    dsimp only
    step rfl
    simp only [Except.toOption, Option.map_some, List.map_append, List.map_cons, wire_chain]
    rfl
  | finishOperation refundTo asset =>
    simp only [byteExecute, Periphery.execute, byteFinishOperation, Periphery.finishOperation]
    have hb : (w.benv env raw).balance = z.bank.bal z.zap := by
      show w.bank.bal w.zap = _
      rw [hs.bank, hs.zap]
    rw [hb]
    step rfl
    step rfl
    rfl

theorem wire_answer (hs : Same v w z) (hn : Texts.CoreStateFits z.core) (ht : Texts.Number env.now) (q : ZapQuery) :
    (byteAnswer (w.benv env raw) q).toOption = (zapAnswer (withAnswers (z.penv env pool) raw) q).toOption := by
  obtain ⟨q1, -, q3⟩ := core_asked (raw := raw) hs.core hn ht
  have q4 : ∀ infos us, (byteSim (w.benv env raw) infos us).toOption =
      (makeSim (withAnswers (z.penv env pool) raw) infos us).toOption := sim_asked (z.penv env pool) rfl
  have done : ∀ {x y : Res SimResp} (c : Codec SimResp), x.toOption = y.toOption.map id →
      (answer c x).toOption = (answer c y).toOption := by
    intro x y c h
    rw [Option.map_id] at h
    cases x <;> cases y <;> cases h <;> rfl
  cases q with
  | mintExactIn core input si =>
    refine done _ (bind_wire _ rfl fun infos _ => ?_)
    refine begin_wire hs _ fun ha => ?_
    subst ha
    step q1
    step q3
    step (q4 _ _)
    refine bind_wire _ rfl fun x _ => ?_
    obtain ⟨r, est⟩ := x
    rw [Option.map_id]
    rfl
  | mintExactOut core output input si =>
    refine done _ (bind_wire _ rfl fun infos _ => ?_)
    refine begin_wire hs _ fun ha => ?_
    subst ha
    step q1
    step q3
    step (q4 _ _)
    rw [Option.map_id]
    rfl
  | burnExactIn core input output si =>
    refine done _ (bind_wire _ rfl fun infos _ => ?_)
    refine begin_wire hs _ fun ha => ?_
    subst ha
    step q1
    step q3
    step (q4 _ _)
    rw [Option.map_id]
    rfl
  | burnExactOut core output si =>
    refine done _ (bind_wire _ rfl fun infos _ => ?_)
    refine begin_wire hs _ fun ha => ?_
    subst ha
    step q1
    step q3
    step (q4 _ _)
    rw [Option.map_id]
    rfl

end
end Ibcx.Json
