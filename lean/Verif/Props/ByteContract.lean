import Verif.Json.Contract
import Verif.Json.StoredTextSpec
import Verif.Props.TextHistory
import Verif.Props.CoreStorageRun
import Verif.Props.StorageRun
/-!
# C103: bytes in, bytes kept

The contracts run on messages that are bytes and on a storage that holds bytes.  They do what they do on messages and states,
and the storage holds the JSON texts of the state.
-/

namespace Ibcx.Props
open Ibcx Ibcx.Json Ibcx.Spec Ibcx.Storage Ibcx.Iface

section
variable {dec : Nat → String} {v : ContractVersion} {b : Raw Bytes}

theorem core_stored_iff (hd : ∀ n, Texts.IsDecimal n (dec n)) (s : Core.State) :
    Texts.CoreStored dec v b s ↔ CoreRep b (coreAt v s) := by
  rw [dec_unique hd]
  constructor
  · rintro ⟨h1, h2, h3⟩
    exact ⟨h1, fun p hp => (h2 p hp).trans (coreCell_eq v s p).symm, h3⟩
  · rintro ⟨h1, h2, h3⟩
    exact ⟨h1, fun p hp => (h2 p hp).trans (coreCell_eq v s p), h3⟩

theorem drop_stored_iff (s : Airdrop.State) : Texts.DropStored v b s ↔ Rep b (dropAt v s) := by
  constructor
  · rintro ⟨h1, h2, h3⟩
    exact ⟨h1, fun p hp => (h2 p hp).trans (dropCell_eq v s p).symm, h3⟩
  · rintro ⟨h1, h2, h3⟩
    exact ⟨h1, fun p hp => (h2 p hp).trans (dropCell_eq v s p), h3⟩

/-- One call on the bytes and on the state. -/
theorem core_wasm_matches {s : Core.State} (h : CoreRep b (coreAt v s)) (hf : DenomFits s.config.reserveDenom)
    (hn : Texts.CoreStateFits s) (env : Env) (info : Info) (text : Bytes) (ht : Texts.Number env.now)
    (hs : ∀ m, readMsg coreExecute text = .ok m → CoreSendable m) :
    CoreMatches v (coreWasmExecute b env info text) (coreExecuteText s env info text) := by
  unfold coreWasmExecute coreExecuteText
  cases hm : readMsg coreExecute text with
  | error e => exact rfl
  | ok m =>
    exact core_execute_matches h (coreReads_text hn) hf env info m (hs m hm) fun s' h' =>
      coreReads_text (Core.Fits.collectAll hn ht h')

/-- A message that was read names small ids only. -/
theorem named_small {text : Bytes} {m : Airdrop.ExecMsg} (hm : readMsg dropExecute text = .ok m) (n : Nat)
    (hid : namedId m = some (.id n)) : n < 2 ^ 64 := by
  have hfit := (C99_in_range text).2.2.1 m hm
  cases m with
  | register p => cases hid
  | fund i =>
    simp only [namedId, Option.some.injEq] at hid
    subst hid
    exact hfit
  | close i =>
    simp only [namedId, Option.some.injEq] at hid
    subst hid
    exact hfit
  | claim p =>
    cases p <;>
    · simp only [namedId, Option.some.injEq] at hid
      subst hid
      exact hfit.1

/-- One call on the bytes and on the state. -/
theorem drop_wasm_matches {c : Airdrop.Crypto} {s : Airdrop.State} (hr : Airdrop.Reachable c s)
    (hc : ∀ e ∈ s.drops, (textBytes e.2.creator).length ≤ 0xFFFF) (h : Rep b (dropAt v s))
    (hn : Texts.DropStateFits s) (env : Env) (info : Info) (text : Bytes) (hs : (textBytes info.sender).length ≤ 0xFFFF) :
    Matches v (dropWasmExecute c b env info text) (dropExecuteText c s env info text) := by
  unfold dropWasmExecute dropExecuteText
  cases hm : readMsg dropExecute text with
  | error e => exact rfl
  | ok m =>
    exact raw_execute_matches (c := c) (drop_fits hr hc) hr.inv (drop_ids hr).1 h (dropReads_text hn) ⟨env, info, m⟩
      ⟨named_small hm, hs⟩

theorem core_text_step {s : Core.State} {t : TextCall} {s' : Core.State} {ms : List Msg}
    (h : coreExecuteText s t.env t.info t.text = .ok (s', ms)) :
    ∃ m, readMsg coreExecute t.text = .ok m ∧ (Core.step s ⟨t.env, t.info, m⟩).1 = s' := by
  unfold coreExecuteText at h
  obtain ⟨m, hm, h⟩ := bind_eq_ok.1 h
  exact ⟨m, hm, by simp only [Core.step, h]⟩

theorem drop_text_step {c : Airdrop.Crypto} {s : Airdrop.State} {t : TextCall} {s' : Airdrop.State} {ms : List Msg}
    (h : dropExecuteText c s t.env t.info t.text = .ok (s', ms)) :
    ∃ m, readMsg dropExecute t.text = .ok m ∧ (Airdrop.step c s ⟨t.env, t.info, m⟩).1 = s' := by
  unfold dropExecuteText at h
  obtain ⟨m, hm, h⟩ := bind_eq_ok.1 h
  exact ⟨m, hm, by simp only [Airdrop.step, h]⟩

theorem drop_matches_split {V : Type} [DropCell V] {v : ContractVersion} {x : Res (RawOutOf V)} {y : Res Airdrop.Out}
    (h : Matches v x y) :
    (∀ e, x = .error e ↔ y = .error e) ∧
    ∀ s' ms, y = .ok (s', ms) → ∃ m', x = .ok (m', ms) ∧ Rep m' (dropAt v s') := by
  cases x with
  | error e =>
    cases y with
    | error e' =>
      have : e = e' := h
      subst this
      exact ⟨fun _ => by simp, fun s' ms h => by cases h⟩
    | ok o => exact h.elim
  | ok o =>
    obtain ⟨m', ms'⟩ := o
    cases y with
    | error e' => exact h.elim
    | ok o =>
      obtain ⟨s', ms⟩ := o
      obtain ⟨rfl, h2⟩ := h
      refine ⟨fun _ => by simp, fun s'' ms'' h => ?_⟩
      cases h
      exact ⟨m', rfl, h2⟩

end

/-- **C103 (histories, core).** Created from bytes and fed any bytes, the contract fails and succeeds as on states, sends the
same messages, and ends with a storage that holds the texts of the state. -/
theorem C103_core_history {dec : Nat → String} (hd : ∀ n, Texts.IsDecimal n (dec n)) (v : ContractVersion) {env : Env}
    {text : Bytes} {d : Denom} (hn : Texts.Number env.now) :
    (∀ e, coreWasmCreate v env text d = .error e ↔ coreTextCreate env text d = .error e) ∧
    ∀ s, coreTextCreate env text d = .ok s → ∃ b, coreWasmCreate v env text d = .ok b ∧ Texts.CoreStored dec v b s ∧
      ∀ ts : List TextCall, DenomFits s.config.reserveDenom → (∀ t ∈ ts, Texts.Number t.env.now) →
        (∀ t ∈ ts, ∀ m, readMsg coreExecute t.text = .ok m → CoreSendable m) →
        (coreWasmRun b ts).2 = (coreTextRun s ts).2 ∧ Texts.CoreStored dec v (coreWasmRun b ts).1 (coreTextRun s ts).1 := by
  have create : (∀ e, coreWasmCreate v env text d = .error e ↔ coreTextCreate env text d = .error e) ∧
      ∀ s, coreTextCreate env text d = .ok s → ∃ b, coreWasmCreate v env text d = .ok b ∧ CoreRep b (coreAt v s) := by
    unfold coreWasmCreate coreTextCreate coreWasmInstantiate coreInstantiateText
    cases hm : readMsg Json.coreInstantiate text with
    | error e => exact ⟨fun x => (by constructor <;> intro h <;> cases h <;> rfl), fun s h => by cases h⟩
    | ok m =>
      have h1 := matches_split (core_instantiate_matches Bytes v env m)
      simp only [ok_bind]
      cases hi : Core.instantiate env m with
      | error e =>
        rw [(h1.1 e).2 hi]
        exact ⟨fun x => (by constructor <;> intro h <;> cases h <;> rfl), fun s h => by cases h⟩
      | ok o =>
        obtain ⟨s0, ms⟩ := o
        obtain ⟨m0, e0, r0⟩ := h1.2 s0 ms hi
        have hfit : Texts.CoreStateFits s0 := by
          have hx : Core.reply s0 0 (some d) = .ok ({ s0 with config := { s0.config with indexDenom := d } }, []) := rfl
          have := Core.Fits.fresh hn ((C99_in_range text).1 m hm) hi hx
          exact ⟨this.pause, this.mintFee, this.burnFee, this.stream, this.supply, this.index, this.reserve, this.targets,
            this.infos⟩
        have h2 := matches_split (core_reply_matches r0 (coreReads_text hfit) 0 (some d))
        simp only [e0, ok_bind]
        cases hrp : Core.reply s0 0 (some d) with
        | error e =>
          rw [(h2.1 e).2 hrp]
          exact ⟨fun x => (by constructor <;> intro h <;> cases h <;> rfl), fun s h => by cases h⟩
        | ok o =>
          obtain ⟨s1, ms'⟩ := o
          obtain ⟨m1, e1, r1⟩ := h2.2 s1 ms' hrp
          simp only [e1, ok_bind]
          refine ⟨fun x => (by constructor <;> intro h <;> cases h), fun s h => ?_⟩
          cases h
          exact ⟨m1, rfl, r1⟩
  refine ⟨create.1, fun s hs => ?_⟩
  obtain ⟨b, h1, h2⟩ := create.2 s hs
  refine ⟨b, h1, (core_stored_iff hd s).2 h2, fun ts hf ht hsd => ?_⟩
  have hfit : Texts.CoreStateFits s := C101_core_fits (ts := []) hs hn (by simp)
  have hsf : StateFits s := by
    obtain ⟨_, _, _, _, _, hi, hrp⟩ := coreTextCreate_ok hs
    obtain ⟨_, _, _, _, _, _, rfl, _⟩ := Core.instantiate_eq_ok.1 hi
    obtain ⟨_, _, _, rfl, _⟩ := Core.reply_eq_ok.1 hrp
    exact ⟨hf, by simp⟩
  have hr : Core.Reachable s := ⟨s, [], coreTextCreate_fresh hs, rfl⟩
  rw [core_stored_iff hd]
  clear hs h1 hf create
  induction ts generalizing b s with
  | nil => exact ⟨rfl, h2⟩
  | cons t ts ih =>
    have hm := core_wasm_matches h2 hsf.1 hfit t.env t.info t.text (ht t (by simp)) (hsd t (by simp))
    have rest := fun x hx => ht x (List.mem_cons_of_mem _ hx)
    have rest' := fun x hx => hsd x (List.mem_cons_of_mem t hx)
    cases hx : coreExecuteText s t.env t.info t.text with
    | error e =>
      have hy := ((matches_split hm).1 e).2 hx
      have := ih s b h2 rest rest' hfit hsf hr
      simpa [coreWasmRun, coreTextRun, coreWasmStep, coreTextStep, hx, hy] using this
    | ok o =>
      obtain ⟨s', ms⟩ := o
      obtain ⟨b', hy, h2'⟩ := (matches_split hm).2 s' ms hx
      obtain ⟨m, hmr, hst⟩ := core_text_step hx
      have hr' : Core.Reachable s' := by
        rw [← hst]
        exact hr.run [_]
      have hsf' : StateFits s' := by
        rw [← hst]
        exact fits_step hsf (infos_nodup hr) (hsd t (by simp) m hmr)
      have hfit' : Texts.CoreStateFits s' := by
        have hx' := hx
        unfold coreExecuteText at hx'
        rw [hmr, ok_bind] at hx'
        exact Core.Fits.execute hfit (ht t (by simp)) ((C99_in_range t.text).2.1 m hmr) hx'
      have := ih s' b' h2' rest rest' hfit' hsf' hr'
      simp only [coreWasmRun, coreTextRun, coreWasmStep, coreTextStep, hx, hy]
      exact ⟨by rw [this.1], this.2⟩

/-- What stands in the storage of the demo contract after three texts that say nothing and one mint. -/
example : ∃ b, coreWasmCreate coreVersion (Demo.env 1000) instText "factory/core/ibcx" = .ok b ∧
    (coreWasmRun b noisyTexts).2 = Demo.mintMsgs ∧
    (coreWasmRun b noisyTexts).1.get CorePlace.totalSupply.slot.bytes = some (textBytes "\"10000\"") ∧
    (coreWasmRun b noisyTexts).1.get CorePlace.indexUnits.slot.bytes =
      some (textBytes "[[\"uosmo\",\"1.5\"],[\"uatom\",\"0.25\"]]") ∧
    (coreWasmRun b noisyTexts).1.get CorePlace.config.slot.bytes =
      some (textBytes ("{\"gov\":\"gov\",\"paused\":{\"paused\":false,\"expires_at\":null}," ++
        "\"index_denom\":\"factory/core/ibcx\",\"reserve_denom\":\"uosmo\"}")) ∧
    (coreWasmRun b noisyTexts).1.get CorePlace.rebalance.slot.bytes = none := by
  obtain ⟨b, h1, _, h2⟩ := (C103_core_history decText_spec coreVersion (by decide)).2 _ demo_created
  have hrun : coreTextRun Demo.s0 noisyTexts = (Demo.s1, Demo.mintMsgs) := by
    have e1 : readMsg coreExecute [] = .error .generic := by decide +kernel
    have e2 : readMsg coreExecute (textBytes "{\"mint\":{\"amount\":-1}}") = .error .generic := by decide +kernel
    have e3 : readMsg coreExecute (textBytes "{\"mint\":{\"amount\":\"10000\"}}") = .ok (.mint 10000 none none) := by
      decide +kernel
    have e4 : readMsg coreExecute (textBytes "{\"claim\":{}}") = .error .generic := by decide +kernel
    rw [coreTextRun_eq]
    simp only [noisyTexts, coreReadable, e1, e2, e3, e4, Core.run, Core.step, Demo.mint_ok, List.append_nil]
  obtain ⟨g1, g2⟩ := h2 noisyTexts (by show DenomFits _; decide +kernel) (by
      intro t ht
      simp only [noisyTexts, List.mem_cons, List.not_mem_nil, or_false] at ht
      rcases ht with rfl | rfl | rfl | rfl <;> decide) (by
      intro t ht m hm
      have : m = .mint 10000 none none := by
        simp only [noisyTexts, List.mem_cons, List.not_mem_nil, or_false] at ht
        have e1 : readMsg coreExecute [] = .error .generic := by decide +kernel
        have e2 : readMsg coreExecute (textBytes "{\"mint\":{\"amount\":-1}}") = .error .generic := by decide +kernel
        have e3 : readMsg coreExecute (textBytes "{\"mint\":{\"amount\":\"10000\"}}") = .ok (.mint 10000 none none) := by
          decide +kernel
        have e4 : readMsg coreExecute (textBytes "{\"claim\":{}}") = .error .generic := by decide +kernel
        rcases ht with rfl | rfl | rfl | rfl
        · cases e1.symm.trans hm
        · cases e2.symm.trans hm
        · cases e3.symm.trans hm; rfl
        · cases e4.symm.trans hm
      subst this
      trivial)
  rw [hrun] at g1 g2
  refine ⟨b, h1, g1, ?_, ?_, ?_, ?_⟩
  · rw [g2.text .totalSupply trivial]; decide +kernel
  · rw [g2.text .indexUnits trivial]; decide +kernel
  · rw [g2.text .config trivial]; decide +kernel
  · rw [g2.text .rebalance trivial]; decide +kernel

/-- **C103 (one message, core).** On a storage that holds the texts of a state, a message given as bytes succeeds or fails with
the same error as on the state, sends the same messages, and leaves a storage that holds the texts of the new state. -/
theorem C103_core_message {dec : Nat → String} (hd : ∀ n, Texts.IsDecimal n (dec n)) (v : ContractVersion) {b : Raw Bytes}
    {s : Core.State} (h : Texts.CoreStored dec v b s) (hf : DenomFits s.config.reserveDenom) (hn : Texts.CoreStateFits s)
    (t : TextCall) (ht : Texts.Number t.env.now) (hs : ∀ m, readMsg coreExecute t.text = .ok m → CoreSendable m) :
    (∀ e, coreWasmExecute b t.env t.info t.text = .error e ↔ coreExecuteText s t.env t.info t.text = .error e) ∧
    ∀ s' ms, coreExecuteText s t.env t.info t.text = .ok (s', ms) →
      ∃ b', coreWasmExecute b t.env t.info t.text = .ok (b', ms) ∧ Texts.CoreStored dec v b' s' := by
  have hm := core_wasm_matches ((core_stored_iff hd s).1 h) hf hn t.env t.info t.text ht hs
  refine ⟨(matches_split hm).1, fun s' ms hx => ?_⟩
  obtain ⟨b', h1, h2⟩ := (matches_split hm).2 s' ms hx
  exact ⟨b', h1, (core_stored_iff hd s').2 h2⟩

/-- The demo contract made from its text, and governance asked by a stranger for a release: refused, on the bytes too. -/
example : ∃ b, coreWasmCreate coreVersion (Demo.env 1000) instText "factory/core/ibcx" = .ok b ∧
    Texts.CoreStored decText coreVersion b Demo.s0 ∧
    coreWasmExecute b (Demo.env 1000) ⟨"bob", []⟩ (textBytes "{\"gov\":{\"release\":{}}}") = .error .unauthorized := by
  obtain ⟨b, h1, h2, _⟩ := (C103_core_history decText_spec coreVersion (by decide)).2 _ demo_created
  refine ⟨b, h1, h2, ?_⟩
  have hm : readMsg coreExecute (textBytes "{\"gov\":{\"release\":{}}}") = .ok (.gov .release) := by decide +kernel
  have key := (C103_core_message decText_spec coreVersion h2 (by show DenomFits _; decide +kernel)
    (C101_core_fits (ts := []) demo_created (by decide) (by simp))
    ⟨Demo.env 1000, ⟨"bob", []⟩, textBytes "{\"gov\":{\"release\":{}}}"⟩ (by decide) (by
      intro m h
      cases hm.symm.trans h
      trivial)).1 .unauthorized
  exact key.2 (by
    dsimp only
    rw [coreExecuteText, hm, ok_bind]
    decide +kernel)

/-- **C103 (histories, airdrop).** Created from bytes and fed any bytes, the contract fails and succeeds as on states, sends the
same messages, and ends with a storage that holds the texts of the state. -/
theorem C103_airdrop_history (c : Airdrop.Crypto) (v : ContractVersion) (text : Bytes) :
    (∀ e, dropWasmInstantiate v text = .error e ↔ dropInstantiateText text = .error e) ∧
    ∀ s, dropInstantiateText text = .ok s → ∃ b, dropWasmInstantiate v text = .ok b ∧ Texts.DropStored v b s ∧
      ∀ ts : List TextCall, (∀ t ∈ ts, Texts.Number t.env.height) → (∀ t ∈ ts, ∀ k ∈ t.info.funds, Texts.Amount k.amount) →
        (∀ t ∈ ts, (textBytes t.info.sender).length ≤ 0xFFFF) →
        (dropWasmRun c b ts).2 = (dropTextRun c s ts).2 ∧ Texts.DropStored v (dropWasmRun c b ts).1 (dropTextRun c s ts).1 := by
  obtain ⟨m0, e0, r0⟩ := raw_instantiate_matches Bytes v
  have create : (∀ e, dropWasmInstantiate v text = .error e ↔ dropInstantiateText text = .error e) ∧
      ∀ s, dropInstantiateText text = .ok s → dropWasmInstantiate v text = .ok m0 := by
    unfold dropWasmInstantiate dropInstantiateText
    cases hm : readMsg emptyMsg text with
    | error e => exact ⟨fun x => ⟨fun h => by cases h; rfl, fun h => by cases h; rfl⟩, fun s h => by cases h⟩
    | ok u =>
      simp only [ok_bind, e0]
      exact ⟨fun x => (by constructor <;> intro h <;> cases h), fun s h => by first | rfl | trivial⟩
  refine ⟨create.1, fun s hs => ⟨m0, create.2 s hs, ?_⟩⟩
  obtain ⟨rfl, -⟩ := C101_airdrop_reachable c [] hs
  refine ⟨(drop_stored_iff _).2 r0, fun ts ht hk hsd => ?_⟩
  have hr : Airdrop.Reachable c Airdrop.initial := ⟨[], rfl⟩
  have hc : ∀ e ∈ Airdrop.initial.drops, (textBytes e.2.creator).length ≤ 0xFFFF := by simp [Airdrop.initial]
  have hfit := Airdrop.initial_fits
  rw [drop_stored_iff]
  clear hs create e0
  generalize Airdrop.initial = s at *
  induction ts generalizing m0 s with
  | nil => exact ⟨rfl, r0⟩
  | cons t ts ih =>
    have hm := drop_wasm_matches hr hc r0 hfit t.env t.info t.text (hsd t (by simp))
    have rest := fun x hx => ht x (List.mem_cons_of_mem _ hx)
    have rest' := fun x hx => hk x (List.mem_cons_of_mem t hx)
    have rest'' := fun x hx => hsd x (List.mem_cons_of_mem t hx)
    cases hx : dropExecuteText c s t.env t.info t.text with
    | error e =>
      have hy := ((drop_matches_split hm).1 e).2 hx
      have := ih m0 rest rest' rest'' s r0 hr hc hfit
      simpa [dropWasmRun, dropTextRun, dropWasmStep, dropTextStep, hx, hy] using this
    | ok o =>
      obtain ⟨s', ms⟩ := o
      obtain ⟨b', hy, h2'⟩ := (drop_matches_split hm).2 s' ms hx
      obtain ⟨m, hmr, hst⟩ := drop_text_step hx
      have hr' : Airdrop.Reachable c s' := by
        rw [← hst]
        exact hr.run [_]
      have hc' : ∀ e ∈ s'.drops, (textBytes e.2.creator).length ≤ 0xFFFF := by
        rw [← hst]
        refine creators_fit (c := c) ⟨?_, hsd t (by simp)⟩ (drops_nodup c hr).1 hc
        exact named_small hmr
      have hfit' : Texts.DropStateFits s' := by
        have hx' := hx
        unfold dropExecuteText at hx'
        rw [hmr, ok_bind] at hx'
        exact Airdrop.Fits.execute hfit (ht t (by simp)) (hk t (by simp)) ((C99_in_range t.text).2.2.1 m hmr) hx'
      have := ih b' rest rest' rest'' s' h2' hr' hc' hfit'
      simp only [dropWasmRun, dropTextRun, dropWasmStep, dropTextStep, hx, hy]
      exact ⟨by rw [this.1], this.2⟩

/-- What stands in the storage of the demo airdrop contract after the registration and the closing. -/
example : ∃ b, dropWasmInstantiate demoVersion (textBytes "{}") = .ok b ∧
    (dropWasmRun Airdrop.Demo.crypto b dropTexts).2 = [.send "carol" [⟨"uosmo", 50⟩]] ∧
    (dropWasmRun Airdrop.Demo.crypto b dropTexts).1.get (DropPlace.drop 0).slot.bytes =
      some (textBytes ("{\"open\":{\"creator\":\"carol\",\"denom\":\"uosmo\",\"total_amount\":\"50\"," ++
        "\"total_claimed\":\"0\",\"merkle_root\":\"2a2a2a2a2a2a2a2a2a2a2a2a2a2a2a2a2a2a2a2a2a2a2a2aa80b93a66fe4b2c8\"," ++
        "\"label\":\"carol/gift\",\"created_at\":10,\"closed_at\":13}}")) ∧
    (dropWasmRun Airdrop.Demo.crypto b dropTexts).1.get (DropPlace.byCreator "carol" 0).slot.bytes = some (textBytes "8") ∧
    (dropWasmRun Airdrop.Demo.crypto b dropTexts).1.get (DropPlace.byType "bearer" 0).slot.bytes = none := by
  obtain ⟨b, h1, _, h2⟩ := (C103_airdrop_history Airdrop.Demo.crypto demoVersion (textBytes "{}")).2 _ empty_created
  obtain ⟨g1, g2⟩ := h2 dropTexts
    (by
      intro t ht
      simp only [dropTexts, List.mem_cons, List.not_mem_nil, or_false] at ht
      rcases ht with rfl | rfl | rfl <;> decide)
    (by
      intro t ht
      simp only [dropTexts, List.mem_cons, List.not_mem_nil, or_false] at ht
      rcases ht with rfl | rfl | rfl <;> decide)
    (by
      intro t ht
      simp only [dropTexts, List.mem_cons, List.not_mem_nil, or_false] at ht
      rcases ht with rfl | rfl | rfl <;> decide)
  rw [dropTextRun_eq, dropTexts_read] at g1 g2
  refine ⟨b, h1, ?_, ?_, ?_, ?_⟩
  · rw [g1]; decide +kernel
  · rw [g2.text (.drop 0) (by show 0 < 2 ^ 64; decide)]; decide +kernel
  · rw [g2.text (.byCreator "carol" 0) ⟨by decide, by decide⟩]; decide +kernel
  · rw [g2.text (.byType "bearer" 0) ⟨by decide, by decide⟩]; decide +kernel

/-- The key of a bearer airdrop is stored in base64. -/
example : String.ofList (Texts.base64 [77, 97, 110, 255]) = "TWFu/w==" := by decide +kernel

/-- **C103 (one message, airdrop).** On a storage that holds the texts of a reachable state, a message given as bytes succeeds
or fails with the same error as on the state, sends the same messages, and leaves a storage that holds the texts of the new
state. -/
theorem C103_airdrop_message (c : Airdrop.Crypto) (v : ContractVersion) {b : Raw Bytes} {s : Airdrop.State}
    (h : Texts.DropStored v b s) (hr : Airdrop.Reachable c s) (hc : ∀ e ∈ s.drops, (textBytes e.2.creator).length ≤ 0xFFFF)
    (hn : Texts.DropStateFits s) (t : TextCall) (hs : (textBytes t.info.sender).length ≤ 0xFFFF) :
    (∀ e, dropWasmExecute c b t.env t.info t.text = .error e ↔ dropExecuteText c s t.env t.info t.text = .error e) ∧
    ∀ s' ms, dropExecuteText c s t.env t.info t.text = .ok (s', ms) →
      ∃ b', dropWasmExecute c b t.env t.info t.text = .ok (b', ms) ∧ Texts.DropStored v b' s' := by
  have hm := drop_wasm_matches hr hc ((drop_stored_iff s).1 h) hn t.env t.info t.text hs
  refine ⟨(drop_matches_split hm).1, fun s' ms hx => ?_⟩
  obtain ⟨b', h1, h2⟩ := (drop_matches_split hm).2 s' ms hx
  exact ⟨b', h1, (drop_stored_iff s').2 h2⟩

/-- Closing an airdrop that does not exist: refused, on the bytes too. -/
example : ∃ b, dropWasmInstantiate demoVersion (textBytes "{}") = .ok b ∧ Texts.DropStored demoVersion b Airdrop.initial ∧
    dropWasmExecute Airdrop.Demo.crypto b (Airdrop.Demo.env 11) ⟨"eve", []⟩ (textBytes "{\"close\":{\"id\":0}}") =
      .error .notFound := by
  obtain ⟨b, h1, h2, _⟩ := (C103_airdrop_history Airdrop.Demo.crypto demoVersion (textBytes "{}")).2 _ empty_created
  refine ⟨b, h1, h2, ?_⟩
  have hm : readMsg dropExecute (textBytes "{\"close\":{\"id\":0}}") = .ok (.close (.id 0)) := by decide +kernel
  have key := (C103_airdrop_message Airdrop.Demo.crypto demoVersion h2 ⟨[], rfl⟩ (by simp [Airdrop.initial])
    Airdrop.initial_fits ⟨Airdrop.Demo.env 11, ⟨"eve", []⟩, textBytes "{\"close\":{\"id\":0}}"⟩ (by decide)).1 .notFound
  exact key.2 (by
    dsimp only
    rw [dropExecuteText, hm, ok_bind]
    decide +kernel)

/-- **C103 (the texts tell the state).** Two states whose texts stand in the same storage are the same: every setting, every
balance sheet and every trade route; for the airdrop contract every airdrop, label and claim. -/
theorem C103_state_determined {dec : Nat → String} (hd : ∀ n, Texts.IsDecimal n (dec n)) (v : ContractVersion) {b : Raw Bytes} :
    (∀ s s' : Core.State, Texts.CoreStored dec v b s → Texts.CoreStored dec v b s' → Texts.CoreStateFits s →
      Texts.CoreStateFits s' →
      s.config = s'.config ∧ s.pendingGov = s'.pendingGov ∧ s.fee = s'.fee ∧ s.totalSupply = s'.totalSupply ∧
      s.indexUnits = s'.indexUnits ∧ s.rebalance = s'.rebalance ∧ s.reserveUnits = s'.reserveUnits ∧
      ∀ i o, DenomFits i → s.tradeInfos.get (i, o) = s'.tradeInfos.get (i, o)) ∧
    ∀ s s' : Airdrop.State, Texts.DropStored v b s → Texts.DropStored v b s' → Texts.DropStateFits s → Texts.DropStateFits s' →
      s.latest = s'.latest ∧ (∀ l, s.labels.get l = s'.labels.get l) ∧
      ∀ n, Texts.Number n → s.drops.get n = s'.drops.get n ∧ ∀ key, s.claims.get (n, key) = s'.claims.get (n, key) := by
  have opt : ∀ {α : Type} (f : α → Bytes) (g : Bytes → Option α) {x y : Option α}, (∀ a, x = some a → g (f a) = some a) →
      (∀ a, y = some a → g (f a) = some a) → x.map f = y.map f → x = y := by
    intro α f g x y hx hy h
    cases x with
    | none =>
      cases y with
      | none => rfl
      | some b => cases h
    | some a =>
      cases y with
      | none => cases h
      | some b =>
        have := hx a rfl
        rw [Option.some.inj h, hy b rfl] at this
        exact this.symm
  have one : ∀ {α : Type} (f : α → Bytes) (g : Bytes → Option α) {x y : α}, g (f x) = some x → g (f y) = some y →
      some (f x) = some (f y) → x = y := by
    intro α f g x y hx hy h
    rw [Option.some.inj h, hy] at hx
    exact (Option.some.inj hx).symm
  constructor
  · intro s s' h h' hf hf'
    have r := (core_stored_iff hd s).1 h
    have r' := (core_stored_iff hd s').1 h'
    have rd := coreReads_text hf
    have rd' := coreReads_text hf'
    have same : ∀ p : CorePlace, p.Fits → (coreAt v s p).map coreValText = (coreAt v s' p).map coreValText :=
      fun p hp => (r.get p hp).symm.trans (r'.get p hp)
    have e1 := one (fun c => coreValText (.config c)) _ rd.config rd'.config (same .config trivial)
    have e3 := one (fun c => coreValText (.fee c)) _ rd.fee rd'.fee (same .fee trivial)
    have e4 := one (fun c => coreValText (.totalSupply c)) _ rd.supply rd'.supply (same .totalSupply trivial)
    have e5 := one (fun c => coreValText (.units c)) _ rd.units rd'.units (same .indexUnits trivial)
    have e2 := opt (fun c => coreValText (.pendingGov c)) _ rd.pending rd'.pending (by
      simpa only [coreAt, Option.map_map, Function.comp_def] using same .pendingGov trivial)
    have e6 := opt (fun c => coreValText (.rebalance c)) _ rd.rebalance rd'.rebalance (by
      simpa only [coreAt, Option.map_map, Function.comp_def] using same .rebalance trivial)
    have e7 := opt (fun c => coreValText (.units c)) _ rd.reserve rd'.reserve (by
      simpa only [coreAt, Option.map_map, Function.comp_def] using same .reserveUnits trivial)
    refine ⟨e1, e2, e3, e4, e5, e6, e7, fun i o hi => ?_⟩
    exact opt (fun c => coreValText (.tradeInfo c)) _ (rd.info (i, o)) (rd'.info (i, o)) (by
      simpa only [coreAt, Option.map_map, Function.comp_def] using same (.tradeInfo i o) hi)
  · intro s s' h h' hf hf'
    have r := (drop_stored_iff s).1 h
    have r' := (drop_stored_iff s').1 h'
    have rd := dropReads_text hf
    have rd' := dropReads_text hf'
    have same : ∀ p : DropPlace, p.Fits → (dropAt v s p).map dropValText = (dropAt v s' p).map dropValText :=
      fun p hp => (r.get p hp).symm.trans (r'.get p hp)
    have e1 := one (fun c => dropValText (.latest c)) _ rd.latest rd'.latest (same .latest trivial)
    refine ⟨e1, fun l => ?_, fun n hn => ⟨?_, fun key => ?_⟩⟩
    · exact opt (fun c => dropValText (.label c)) _ (rd.labels l) (rd'.labels l) (by
        simpa only [dropAt, Option.map_map, Function.comp_def] using same (.label l) trivial)
    · exact opt (fun c => dropValText (.drop c)) _ (rd.drops n) (rd'.drops n) (by
        simpa only [dropAt, Option.map_map, Function.comp_def] using same (.drop n) hn)
    · exact opt (fun c => dropValText (.claim c)) _ (rd.claims (n, key)) (rd'.claims (n, key)) (by
        simpa only [dropAt, Option.map_map, Function.comp_def] using same (.claim n key) hn)

/-- The storage of the demo contract tells its supply. -/
example : ∀ b s, coreWasmCreate coreVersion (Demo.env 1000) instText "factory/core/ibcx" = .ok b →
    Texts.CoreStored decText coreVersion b s → Texts.CoreStateFits s → s.totalSupply = 0 ∧ s.config.gov = "gov" := by
  intro b s hb h hf
  obtain ⟨b', h1, h2, _⟩ := (C103_core_history decText_spec coreVersion (by decide)).2 _ demo_created
  cases h1.symm.trans hb
  obtain ⟨e1, _, _, e2, _⟩ := (C103_state_determined decText_spec coreVersion).1 _ _ h h2 hf
    (C101_core_fits (ts := []) demo_created (by decide) (by simp))
  exact ⟨e2, by rw [e1]; rfl⟩

end Ibcx.Props
