import Verif.Json.History
import Verif.Airdrop.NumbersFit
import Verif.Props.MessageText
/-!
# C101: histories of arbitrary texts

Whatever texts arrive, the contracts only pass through states a history of messages passes through, and every number of
every such state fits its type.
-/

namespace Ibcx.Props
open Ibcx Ibcx.Json Ibcx.Spec

/-- The calls of a history of texts that can be read as messages of the core contract, in order, with the messages they say. -/
def coreReadable : List TextCall → List Core.Call
  | [] => []
  | t :: ts => match readMsg coreExecute t.text with
    | .ok m => ⟨t.env, t.info, m⟩ :: coreReadable ts
    | .error _ => coreReadable ts

/-- The calls of a history of texts that can be read as messages of the airdrop contract, in order, with the messages they say. -/
def dropReadable : List TextCall → List Airdrop.Call
  | [] => []
  | t :: ts => match readMsg dropExecute t.text with
    | .ok m => ⟨t.env, t.info, m⟩ :: dropReadable ts
    | .error _ => dropReadable ts

instance (n : Nat) : Decidable (Texts.Number n) := inferInstanceAs (Decidable (n < 2 ^ 64))
instance (n : Nat) : Decidable (Texts.Amount n) := inferInstanceAs (Decidable (n < 2 ^ 128))

theorem empty_created : dropInstantiateText (Storage.textBytes "{}") = .ok Airdrop.initial := by
  have : readMsg emptyMsg (Storage.textBytes "{}") = .ok () := by decide +kernel
  rw [dropInstantiateText, this]
  rfl

theorem coreTextRun_eq (s : Core.State) (ts : List TextCall) : coreTextRun s ts = Core.run s (coreReadable ts) := by
  induction ts generalizing s with
  | nil => rfl
  | cons t ts ih =>
    simp only [coreTextRun, coreReadable, coreTextStep, coreExecuteText]
    cases hm : readMsg coreExecute t.text with
    | error e => simp [ih, bind, Except.bind]
    | ok m =>
      simp only [bind, Except.bind, Core.run, Core.step]
      cases Core.execute s t.env t.info m <;> simp [ih]

theorem dropTextRun_eq (c : Airdrop.Crypto) (s : Airdrop.State) (ts : List TextCall) :
    dropTextRun c s ts = Airdrop.run c s (dropReadable ts) := by
  induction ts generalizing s with
  | nil => rfl
  | cons t ts ih =>
    simp only [dropTextRun, dropReadable, dropTextStep, dropExecuteText]
    cases hm : readMsg dropExecute t.text with
    | error e => simp [ih, bind, Except.bind]
    | ok m =>
      simp only [bind, Except.bind, Airdrop.run, Airdrop.step]
      cases Airdrop.execute c s t.env t.info m <;> simp [ih]

theorem coreTextCreate_ok {env : Env} {b : Storage.Bytes} {d : Denom} {s : Core.State} (h : coreTextCreate env b d = .ok s) :
    ∃ m s0 ms ms', readMsg coreInstantiate b = .ok m ∧ Core.instantiate env m = .ok (s0, ms) ∧
      Core.reply s0 0 (some d) = .ok (s, ms') := by
  unfold coreTextCreate coreInstantiateText at h
  obtain ⟨⟨s0, ms⟩, h1, h⟩ := bind_eq_ok.1 h
  obtain ⟨m, hm, hi⟩ := bind_eq_ok.1 h1
  obtain ⟨⟨s', ms'⟩, h2, h3⟩ := bind_eq_ok.1 h
  cases h3
  exact ⟨m, s0, ms, ms', hm, hi, h2⟩

theorem coreTextCreate_fresh {env : Env} {b : Storage.Bytes} {d : Denom} {s : Core.State}
    (h : coreTextCreate env b d = .ok s) : Core.Fresh s := by
  obtain ⟨m, s0, ms, ms', _, h1, h2⟩ := coreTextCreate_ok h
  exact ⟨env, m, s0, ms, d, ms', h1, h2⟩

theorem coreRun_fits {s : Core.State} {cs : List Core.Call} (hs : Texts.CoreStateFits s)
    (hc : ∀ c ∈ cs, Texts.Number c.env.now ∧ Texts.CoreFits c.msg) : Texts.CoreStateFits (Core.run s cs).1 := by
  induction cs generalizing s with
  | nil => exact hs
  | cons c cs ih =>
    rw [Core.run_cons]
    refine ih ?_ fun x hx => hc x (List.mem_cons_of_mem _ hx)
    unfold Core.step
    cases hx : Core.execute s c.env c.info c.msg with
    | error e => exact hs
    | ok o =>
      obtain ⟨s', ms⟩ := o
      exact Core.Fits.execute hs (hc c List.mem_cons_self).1 (hc c List.mem_cons_self).2 hx

theorem dropRun_fits {c : Airdrop.Crypto} {s : Airdrop.State} {cs : List Airdrop.Call} (hs : Texts.DropStateFits s)
    (hc : ∀ x ∈ cs, Texts.Number x.env.height ∧ (∀ k ∈ x.info.funds, Texts.Amount k.amount) ∧ Texts.DropFits x.msg) :
    Texts.DropStateFits (Airdrop.run c s cs).1 := by
  induction cs generalizing s with
  | nil => exact hs
  | cons x cs ih =>
    simp only [Airdrop.run]
    refine ih ?_ fun y hy => hc y (List.mem_cons_of_mem _ hy)
    unfold Airdrop.step
    cases hx : Airdrop.execute c s x.env x.info x.msg with
    | error e => exact hs
    | ok o =>
      obtain ⟨s', ms⟩ := o
      obtain ⟨h1, h2, h3⟩ := hc x List.mem_cons_self
      exact Airdrop.Fits.execute hs h1 h2 h3 hx

theorem coreReadable_mem {ts : List TextCall} {c : Core.Call} (h : c ∈ coreReadable ts) :
    ∃ t ∈ ts, c.env = t.env ∧ c.info = t.info ∧ readMsg coreExecute t.text = .ok c.msg := by
  induction ts with
  | nil => cases h
  | cons t ts ih =>
    unfold coreReadable at h
    cases hm : readMsg coreExecute t.text with
    | error e =>
      rw [hm] at h
      obtain ⟨u, hu, h⟩ := ih h
      exact ⟨u, List.mem_cons_of_mem _ hu, h⟩
    | ok m =>
      rw [hm] at h
      rcases List.mem_cons.1 h with rfl | h
      · exact ⟨t, List.mem_cons_self, rfl, rfl, hm⟩
      · obtain ⟨u, hu, h⟩ := ih h
        exact ⟨u, List.mem_cons_of_mem _ hu, h⟩

theorem dropReadable_mem {ts : List TextCall} {c : Airdrop.Call} (h : c ∈ dropReadable ts) :
    ∃ t ∈ ts, c.env = t.env ∧ c.info = t.info ∧ readMsg dropExecute t.text = .ok c.msg := by
  induction ts with
  | nil => cases h
  | cons t ts ih =>
    unfold dropReadable at h
    cases hm : readMsg dropExecute t.text with
    | error e =>
      rw [hm] at h
      obtain ⟨u, hu, h⟩ := ih h
      exact ⟨u, List.mem_cons_of_mem _ hu, h⟩
    | ok m =>
      rw [hm] at h
      rcases List.mem_cons.1 h with rfl | h
      · exact ⟨t, List.mem_cons_self, rfl, rfl, hm⟩
      · obtain ⟨u, hu, h⟩ := ih h
        exact ⟨u, List.mem_cons_of_mem _ hu, h⟩

/-- **C101.** A core contract created from any text and fed any texts is in a reachable state, and the messages it sent are
those of a history of messages: every theorem about reachable states and histories holds of it. -/
theorem C101_core_reachable {env : Env} {b : Storage.Bytes} {d : Denom} {s : Core.State} (ts : List TextCall)
    (h : coreTextCreate env b d = .ok s) :
    Core.Fresh s ∧ Core.Reachable (coreTextRun s ts).1 ∧ coreTextRun s ts = Core.run s (coreReadable ts) :=
  ⟨coreTextCreate_fresh h, ⟨s, coreReadable ts, coreTextCreate_fresh h, by rw [coreTextRun_eq]⟩, coreTextRun_eq s ts⟩

/-- The text the demo contract is created from. -/
def instText : Storage.Bytes := Storage.textBytes ("{\"gov\":\"gov\",\"fee\":{\"collector\":\"collector\",\"mint_fee\":\"0.01\"," ++
  "\"burn_fee\":\"0.02\",\"streaming_fee\":{\"rate\":\"0.00000002\",\"freeze\":false}},\"index_denom\":\"ibcx\"," ++
  "\"index_units\":[[\"uosmo\",\"1.5\"],[\"uatom\",\"0.25\"]],\"reserve_denom\":\"uosmo\"}")

theorem demo_created : coreTextCreate (Demo.env 1000) instText "factory/core/ibcx" = .ok Demo.s0 := by
  have : readMsg coreInstantiate instText = .ok Demo.inst := by decide +kernel
  rw [coreTextCreate, coreInstantiateText, this]
  rfl

/-- Three texts that are no messages and one mint. -/
def noisyTexts : List TextCall :=
  [⟨Demo.env 1000, ⟨"eve", []⟩, []⟩, ⟨Demo.env 1000, ⟨"eve", []⟩, Storage.textBytes "{\"mint\":{\"amount\":-1}}"⟩,
   ⟨Demo.env 1000, Demo.mintInfo, Storage.textBytes "{\"mint\":{\"amount\":\"10000\"}}"⟩,
   ⟨Demo.env 1000, ⟨"eve", []⟩, Storage.textBytes "{\"claim\":{}}"⟩]

/-- What the demo contract makes of them: only the mint counts. -/
example : Core.Reachable (coreTextRun Demo.s0 noisyTexts).1 ∧ coreTextRun Demo.s0 noisyTexts = (Demo.s1, Demo.mintMsgs) := by
  obtain ⟨_, h1, h2⟩ := C101_core_reachable noisyTexts demo_created
  refine ⟨h1, ?_⟩
  have : coreReadable noisyTexts = [⟨Demo.env 1000, Demo.mintInfo, .mint 10000 none none⟩] := by
    have e1 : readMsg coreExecute [] = .error .generic := by decide +kernel
    have e2 : readMsg coreExecute (Storage.textBytes "{\"mint\":{\"amount\":-1}}") = .error .generic := by decide +kernel
    have e3 : readMsg coreExecute (Storage.textBytes "{\"mint\":{\"amount\":\"10000\"}}") = .ok (.mint 10000 none none) := by
      decide +kernel
    have e4 : readMsg coreExecute (Storage.textBytes "{\"claim\":{}}") = .error .generic := by decide +kernel
    simp only [noisyTexts, coreReadable, e1, e2, e3, e4]
  rw [h2, this]
  simp only [Core.run, Core.step, Demo.mint_ok, List.append_nil]

/-- **C101.** An airdrop contract fed any texts is in a reachable state, and the messages it sent are those of a history of
messages. -/
theorem C101_airdrop_reachable (c : Airdrop.Crypto) {b : Storage.Bytes} {s : Airdrop.State} (ts : List TextCall)
    (h : dropInstantiateText b = .ok s) :
    s = Airdrop.initial ∧ Airdrop.Reachable c (dropTextRun c s ts).1 ∧ dropTextRun c s ts = Airdrop.run c s (dropReadable ts) := by
  have hs : s = Airdrop.initial := by
    unfold dropInstantiateText at h
    obtain ⟨_, _, h⟩ := bind_eq_ok.1 h
    cases h
    rfl
  subst hs
  exact ⟨rfl, ⟨dropReadable ts, by rw [dropTextRun_eq]⟩, dropTextRun_eq c _ ts⟩

/-- A registration and a closing as texts, with a text in between that says nothing. -/
def dropTexts : List TextCall :=
  [⟨Airdrop.Demo.env 10, ⟨"carol", [⟨"uosmo", 50⟩]⟩, dropExecute.toText Airdrop.Demo.reg.msg⟩,
   ⟨Airdrop.Demo.env 11, ⟨"eve", []⟩, Storage.textBytes "{\"close\":0}"⟩,
   ⟨Airdrop.Demo.env 13, ⟨"carol", []⟩, Storage.textBytes "{\"close\":{\"id\":0}}"⟩]

theorem dropTexts_read : dropReadable dropTexts = [Airdrop.Demo.reg, Airdrop.Demo.close] := by
  have e1 : readMsg dropExecute (dropExecute.toText Airdrop.Demo.reg.msg) = .ok Airdrop.Demo.reg.msg :=
    readMsg_toText dropExecute_faithful (drop_msg_fits.1 trivial)
  have e2 : readMsg dropExecute (Storage.textBytes "{\"close\":0}") = .error .generic := by decide +kernel
  have e3 : readMsg dropExecute (Storage.textBytes "{\"close\":{\"id\":0}}") = .ok (.close (.id 0)) := by decide +kernel
  simp only [dropTexts, dropReadable, e1, e2, e3]
  rfl

/-- They lead where the two messages lead. -/
example : Airdrop.Reachable Airdrop.Demo.crypto (dropTextRun Airdrop.Demo.crypto Airdrop.initial dropTexts).1 ∧
    dropTextRun Airdrop.Demo.crypto Airdrop.initial dropTexts =
      Airdrop.run Airdrop.Demo.crypto Airdrop.initial [Airdrop.Demo.reg, Airdrop.Demo.close] := by
  obtain ⟨_, h1, h2⟩ := C101_airdrop_reachable Airdrop.Demo.crypto dropTexts empty_created
  exact ⟨h1, by rw [h2, dropTexts_read]⟩

/-- **C101.** Whatever texts a core contract is created from and fed, every amount, decimal, time and id it stores fits its
type, as long as the clock of the chain does. -/
theorem C101_core_fits {env : Env} {b : Storage.Bytes} {d : Denom} {s : Core.State} {ts : List TextCall}
    (h : coreTextCreate env b d = .ok s) (hn : Texts.Number env.now) (ht : ∀ t ∈ ts, Texts.Number t.env.now) :
    Texts.CoreStateFits (coreTextRun s ts).1 := by
  obtain ⟨m, s0, ms, ms', hm, h1, h2⟩ := coreTextCreate_ok h
  rw [coreTextRun_eq]
  refine coreRun_fits (Core.Fits.fresh hn ((C99_in_range b).1 m hm) h1 h2) fun c hc => ?_
  obtain ⟨t, h3, h4, _, h5⟩ := coreReadable_mem hc
  exact ⟨by rw [h4]; exact ht t h3, (C99_in_range t.text).2.1 _ h5⟩

example : Texts.CoreStateFits (coreTextRun Demo.s0 noisyTexts).1 :=
  C101_core_fits demo_created (by decide) (by
    intro t ht
    simp only [noisyTexts, List.mem_cons, List.not_mem_nil, or_false] at ht
    rcases ht with rfl | rfl | rfl | rfl <;> decide)

/-- The bound on the clock is needed: creation stores the time. -/
example : ¬ Texts.CoreStateFits { Demo.s0 with
    fee := { Demo.s0.fee with
      streamingFee := some { rate := 20000000000, collected := [], freeze := false, lastCollectedAt := 2 ^ 64 } } } :=
  fun h => absurd (h.stream _ rfl).2.2 (by decide)

/-- **C101.** Whatever texts an airdrop contract is fed, every amount, height and id it stores fits its type, as long as the
heights and the coins of the chain do. -/
theorem C101_airdrop_fits (c : Airdrop.Crypto) {b : Storage.Bytes} {s : Airdrop.State} {ts : List TextCall}
    (h : dropInstantiateText b = .ok s) (ht : ∀ t ∈ ts, Texts.Number t.env.height)
    (hf : ∀ t ∈ ts, ∀ k ∈ t.info.funds, Texts.Amount k.amount) : Texts.DropStateFits (dropTextRun c s ts).1 := by
  obtain ⟨rfl, _⟩ := C101_airdrop_reachable c [] h
  rw [dropTextRun_eq]
  refine dropRun_fits Airdrop.initial_fits fun x hx => ?_
  obtain ⟨t, h3, h4, h5, h6⟩ := dropReadable_mem hx
  exact ⟨by rw [h4]; exact ht t h3, by rw [h5]; exact hf t h3, (C99_in_range t.text).2.2.1 _ h6⟩

example : Texts.DropStateFits (dropTextRun Airdrop.Demo.crypto Airdrop.initial dropTexts).1 :=
  C101_airdrop_fits Airdrop.Demo.crypto empty_created
    (by
      intro t ht
      simp only [dropTexts, List.mem_cons, List.not_mem_nil, or_false] at ht
      rcases ht with rfl | rfl | rfl <;> decide)
    (by
      intro t ht
      simp only [dropTexts, List.mem_cons, List.not_mem_nil, or_false] at ht
      rcases ht with rfl | rfl | rfl <;> decide)

/-- **C101.** A text that is not a message of the contract changes nothing and sends nothing, wherever in a history it arrives. -/
theorem C101_noise (s : Core.State) (c : Airdrop.Crypto) (a : Airdrop.State) (ts us : List TextCall) (t : TextCall) :
    ((∀ m, readMsg coreExecute t.text ≠ .ok m) → coreTextRun s (ts ++ t :: us) = coreTextRun s (ts ++ us)) ∧
    ((∀ m, readMsg dropExecute t.text ≠ .ok m) → dropTextRun c a (ts ++ t :: us) = dropTextRun c a (ts ++ us)) := by
  constructor
  · intro h
    rw [coreTextRun_eq, coreTextRun_eq]
    congr 1
    induction ts with
    | nil =>
      show coreReadable (t :: us) = coreReadable us
      unfold coreReadable
      cases hm : readMsg coreExecute t.text with
      | error e => cases us <;> rfl
      | ok m => exact absurd hm (h m)
    | cons x ts ih =>
      show coreReadable (x :: (ts ++ t :: us)) = coreReadable (x :: (ts ++ us))
      simp only [coreReadable]
      rw [ih]
  · intro h
    rw [dropTextRun_eq, dropTextRun_eq]
    congr 1
    induction ts with
    | nil =>
      show dropReadable (t :: us) = dropReadable us
      unfold dropReadable
      cases hm : readMsg dropExecute t.text with
      | error e => cases us <;> rfl
      | ok m => exact absurd hm (h m)
    | cons x ts ih =>
      show dropReadable (x :: (ts ++ t :: us)) = dropReadable (x :: (ts ++ us))
      simp only [dropReadable]
      rw [ih]

/-- A claim sent to the core contract, and a mint sent to the airdrop contract. -/
example : coreTextRun Demo.s0 [⟨Demo.env 1000, ⟨"eve", []⟩, Storage.textBytes "{\"claim\":{}}"⟩] = (Demo.s0, []) ∧
    dropTextRun Airdrop.Demo.crypto Airdrop.initial [⟨Airdrop.Demo.env 1, ⟨"eve", []⟩, Storage.textBytes "{\"mint\":{}}"⟩] =
      (Airdrop.initial, []) := by
  have e1 : readMsg coreExecute (Storage.textBytes "{\"claim\":{}}") = .error .generic := by decide +kernel
  have e2 : readMsg dropExecute (Storage.textBytes "{\"mint\":{}}") = .error .generic := by decide +kernel
  refine ⟨(C101_noise Demo.s0 Airdrop.Demo.crypto Airdrop.initial [] [] ⟨Demo.env 1000, ⟨"eve", []⟩, _⟩).1 ?_,
    (C101_noise Demo.s0 Airdrop.Demo.crypto Airdrop.initial [] [] ⟨Airdrop.Demo.env 1, ⟨"eve", []⟩, _⟩).2 ?_⟩
  · intro m h
    rw [e1] at h
    cases h
  · intro m h
    rw [e2] at h
    cases h

end Ibcx.Props
