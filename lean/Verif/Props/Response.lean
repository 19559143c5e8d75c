import Verif.Json.ResponseLemmas
import Verif.Props.ByteZap
import Verif.Props.Events
import Verif.Props.EventsDrop
import Verif.Props.EventsZap
import Verif.Props.Proto
/-!
# C111: the texts of responses and replies
-/

namespace Ibcx.Props
open Ibcx Ibcx.Json Ibcx.Spec Ibcx.Spec.Response
open Ibcx.Storage (Bytes textBytes)

/-- **C111 (one meaning).** A text is a response with at most one list of messages and one list of attributes. -/
theorem C111_one_meaning {b : Bytes} {ms ms' : List (Option Nat × WMsg)} {as as' : List (String × String)}
    (h : IsResponse ms as b) (h' : IsResponse ms' as' b) : ms = ms' ∧ as = as' := by
  obtain ⟨j, h0, _, ⟨l, h1, h2⟩, ⟨k, h3, h4⟩, _⟩ := h
  obtain ⟨j', h0', _, ⟨l', h1', h2'⟩, ⟨k', h3', h4'⟩, _⟩ := h'
  cases text_unique h0 h0'
  cases under_unique _ h1 h1'
  cases under_unique _ h3 h3'
  exact ⟨forall₂_unique isSub_unique h2 h2', forall₂_unique isAttr_unique h4 h4'⟩

/-- The members in another order, and one that is not looked at. -/
example : IsResponse [] [] (toBytes (variant "ok" (.obj [("data", .null), ("more", .num 1), ("events", .arr []),
    ("attributes", .arr []), ("messages", .arr [])]))) :=
  ⟨_, text_toBytes _, ⟨_, rfl⟩, ⟨[], under_variant (under_cons (w := .arr []) (by simp) rfl), .nil⟩,
    ⟨[], under_variant (under_cons (w := .arr []) (by simp) rfl), .nil⟩,
    under_variant (under_cons (w := .arr []) (by simp) rfl), under_variant (under_cons (w := .null) (by simp) rfl)⟩

/-- **C111 (responses).** The text of a response says its messages, with the replies wanted, and its attributes, in order, and
nothing else. -/
theorem C111_response (ms : List SubMsg) (as : List (String × String)) (h : ∀ m ∈ ms, Deliverable m.msg) :
    IsResponse (ms.map fun m => (m.reply, m.msg)) as (okText ms as) := by
  have ha : ∀ a, IsAttr a (attributeJson a) := fun a => ⟨under_cons (by simp) rfl, under_cons (by simp) rfl⟩
  refine ⟨_, text_toBytes _, ⟨_, rfl⟩, ⟨ms.map subMsg, under_variant (under_cons (by simp) rfl), ?_⟩,
    ⟨as.map attributeJson, under_variant (under_cons (by simp) rfl), forall₂_map fun a _ => ha a⟩,
    under_variant (under_cons (by simp) rfl), under_variant (under_cons (by simp) rfl)⟩
  rw [List.forall₂_map_left_iff]
  exact forall₂_map fun m hm => isSub_subMsg (h m hm)

/-- A payment and a burn, as text. -/
def twoMsgs : List SubMsg := [⟨none, .chain (.send "bob" [⟨"uatom", 7⟩])⟩, ⟨some 3, .chain (.tfBurn "core" "core" ⟨"ibcx", 5⟩)⟩]

theorem twoMsgs_deliverable : ∀ m ∈ twoMsgs, Deliverable m.msg := by
  intro m hm
  simp only [twoMsgs, List.mem_cons, List.not_mem_nil, or_false] at hm
  rcases hm with rfl | rfl
  · exact ⟨trivial, fun _ _ h => (nomatch h)⟩
  · refine ⟨trivial, fun url b h => ?_⟩
    have hl : (Ibcx.Proto.stargate (.tfBurn "core" "core" ⟨"ibcx", 5⟩)).map (·.2.length) = some 23 := by decide +kernel
    rw [h] at hl
    have : b.length = 23 := Option.some.inj hl
    omega

example : IsResponse [(none, .chain (.send "bob" [⟨"uatom", 7⟩])), (some 3, .chain (.tfBurn "core" "core" ⟨"ibcx", 5⟩))]
      [("method", "burn")] (okText twoMsgs [("method", "burn")]) ∧
    write (okJson twoMsgs [("method", "burn")]) =
    ("{\"ok\":{\"messages\":[{\"id\":0,\"msg\":{\"bank\":{\"send\":{\"to_address\":\"bob\",\"amount\":[{\"denom\":\"uatom\"".toList ++
    ",\"amount\":\"7\"}]}}},\"gas_limit\":null,\"reply_on\":\"never\"},{\"id\":3,\"msg\":{\"stargate\":{\"type_url\":".toList ++
    "\"/osmosis.tokenfactory.v1beta1.MsgBurn\",\"value\":\"CgRjb3JlEgkKBGliY3gSATUaBGNvcmU=\"}},\"gas_limit\":null,".toList ++
    "\"reply_on\":\"success\"}],\"attributes\":[{\"key\":\"method\",\"value\":\"burn\"}],\"events\":[],\"data\":null}}".toList) :=
  ⟨C111_response twoMsgs _ twoMsgs_deliverable, by decide +kernel⟩

/-! ## Entry points -/

/-- **C111 (core).** A text is accepted exactly when it is read as a message that the core contract accepts; the text handed to
the chain then says the messages sent, none with a reply, and the attributes of the event. -/
theorem C111_core (s : Core.State) (env : Env) (info : Info) (b : Bytes) :
    (∀ msg o, coreExecute.ofText b = some msg → Core.execute s env info msg = .ok o →
      ∃ out, coreCall s env info b = .ok (o.1, out)) ∧
    ∀ s' out, coreCall s env info b = .ok (s', out) → ∃ msg ms as, coreExecute.ofText b = some msg ∧
      Core.execute s env info msg = .ok (s', ms) ∧ Core.executeR s env info msg = .ok ((s', ms), as) ∧
      ((∀ m ∈ ms, Deliverable (.chain m)) → IsResponse (ms.map fun m => (none, .chain m)) as out) := by
  unfold coreCall readMsg
  constructor
  · intro msg o h1 h2
    obtain ⟨as, h3⟩ := C81_every_accepted_message_has_an_event.1 h2
    rw [h1]
    simp only [ok_bind, h3]
    exact ⟨_, rfl⟩
  · intro s' out h
    cases hb : coreExecute.ofText b with
    | none => rw [hb] at h; cases h
    | some msg =>
      rw [hb] at h
      simp only [ok_bind] at h
      cases hx : Core.executeR s env info msg with
      | error e => rw [hx] at h; cases h
      | ok r =>
        obtain ⟨⟨s1, ms⟩, as⟩ := r
        rw [hx] at h
        simp only [ok_bind, Except.ok.injEq, Prod.mk.injEq] at h
        obtain ⟨rfl, rfl⟩ := h
        refine ⟨msg, ms, as, rfl, C81_every_accepted_message_has_an_event.2 ⟨as, hx⟩, hx, fun hs => ?_⟩
        have := C111_response (noReply ms) as (by
          intro m hm
          obtain ⟨c, hc, rfl⟩ := List.mem_map.1 hm
          exact hs c hc)
        rwa [noReply, List.map_map] at this

/-- What a text of a message makes the core contract hand over. -/
theorem core_hands {s : Core.State} {env : Env} {info : Info} {msg : Core.ExecMsg} {ms : List Msg} {as : List (String × String)}
    (hm : coreExecute.Fits msg)
    (h : (Core.executeR s env info msg).toOption.map (fun r => (r.1.2, r.2)) = some (ms, as))
    (hd : ∀ m ∈ ms, Deliverable (.chain m)) : ∃ s' out, coreCall s env info (coreExecute.toText msg) = .ok (s', out) ∧
      IsResponse (ms.map fun m => (none, .chain m)) as out := by
  have hb := ofText_toText coreExecute_faithful hm
  cases hx : Core.executeR s env info msg with
  | error e => rw [hx] at h; cases h
  | ok r =>
    obtain ⟨⟨s', ms'⟩, as'⟩ := r
    rw [hx] at h
    cases h
    obtain ⟨out, ho⟩ := (C111_core s env info _).1 msg _ hb (C81_every_accepted_message_has_an_event.2 ⟨_, hx⟩)
    obtain ⟨msg', ms', as', h1, _, h3, h4⟩ := (C111_core s env info _).2 _ _ ho
    cases h1.symm.trans hb
    cases h3.symm.trans hx
    exact ⟨_, out, ho, h4 hd⟩

/-- The text of a change of government and the response to it. -/
example : ∃ s' out, coreCall Demo.s1 (Demo.env 1000) ⟨"gov", []⟩ (coreExecute.toText (.gov (.updateGov "dao"))) = .ok (s', out) ∧
    IsResponse [] [("method", "gov::update_gov"), ("executor", "gov"), ("pending_gov", "dao")] out :=
  core_hands (ms := []) trivial (by decide +kernel) (by simp)

/-- **C111 (airdrop).** The same for the airdrop contract. -/
theorem C111_airdrop (c : Airdrop.Crypto) (s : Airdrop.State) (env : Env) (info : Info) (b : Bytes) :
    (∀ msg o, dropExecute.ofText b = some msg → Airdrop.execute c s env info msg = .ok o →
      ∃ out, dropCall c s env info b = .ok (o.1, out)) ∧
    ∀ s' out, dropCall c s env info b = .ok (s', out) → ∃ msg ms as, dropExecute.ofText b = some msg ∧
      Airdrop.execute c s env info msg = .ok (s', ms) ∧ Airdrop.executeR c s env info msg = .ok ((s', ms), as) ∧
      ((∀ m ∈ ms, Deliverable (.chain m)) → IsResponse (ms.map fun m => (none, .chain m)) as out) := by
  unfold dropCall readMsg
  constructor
  · intro msg o h1 h2
    obtain ⟨as, h3⟩ := C82_every_accepted_message_has_an_event.2 h2
    rw [h1]
    simp only [ok_bind, h3]
    exact ⟨_, rfl⟩
  · intro s' out h
    cases hb : dropExecute.ofText b with
    | none => rw [hb] at h; cases h
    | some msg =>
      rw [hb] at h
      simp only [ok_bind] at h
      cases hx : Airdrop.executeR c s env info msg with
      | error e => rw [hx] at h; cases h
      | ok r =>
        obtain ⟨⟨s1, ms⟩, as⟩ := r
        rw [hx] at h
        simp only [ok_bind, Except.ok.injEq, Prod.mk.injEq] at h
        obtain ⟨rfl, rfl⟩ := h
        refine ⟨msg, ms, as, rfl, C82_every_accepted_message_has_an_event.1 ⟨as, hx⟩, hx, fun hs => ?_⟩
        have := C111_response (noReply ms) as (by
          intro m hm
          obtain ⟨c, hc, rfl⟩ := List.mem_map.1 hm
          exact hs c hc)
        rwa [noReply, List.map_map] at this

/-- Alice's claim: a payment of 60, and the event. -/
example : ∃ s s' out, dropCall Airdrop.Demo.crypto s (Airdrop.Demo.env 12) ⟨"dave", []⟩ (dropExecute.toText Airdrop.Demo.claimAlice.msg) = .ok (s', out) ∧
    IsResponse [(none, .chain (.send "alice" [⟨"uosmo", 60⟩]))] [("action", "claim"), ("executor", "dave"),
      ("airdrop_type", "open"), ("airdrop_id", "0"), ("claimer", "alice"), ("amount", "60")] out := by
  have hb : dropExecute.ofText (dropExecute.toText Airdrop.Demo.claimAlice.msg) = some Airdrop.Demo.claimAlice.msg :=
    ofText_toText dropExecute_faithful (drop_msg_fits.1 ⟨by show (0 : Nat) < 2 ^ 64; decide, by show (60 : Nat) < 2 ^ 128; decide⟩)
  have h : (Airdrop.executeR Airdrop.Demo.crypto (Airdrop.run Airdrop.Demo.crypto Airdrop.initial [Airdrop.Demo.reg, Airdrop.Demo.fund]).1 (Airdrop.Demo.env 12) ⟨"dave", []⟩
      Airdrop.Demo.claimAlice.msg).toOption.map (fun r => (r.1.2, r.2)) = some ([.send "alice" [⟨"uosmo", 60⟩]], [("action", "claim"),
      ("executor", "dave"), ("airdrop_type", "open"), ("airdrop_id", "0"), ("claimer", "alice"), ("amount", "60")]) := by
    decide +kernel
  refine ⟨(Airdrop.run Airdrop.Demo.crypto Airdrop.initial [Airdrop.Demo.reg, Airdrop.Demo.fund]).1, ?_⟩
  cases hx : Airdrop.executeR Airdrop.Demo.crypto (Airdrop.run Airdrop.Demo.crypto Airdrop.initial [Airdrop.Demo.reg, Airdrop.Demo.fund]).1 (Airdrop.Demo.env 12) ⟨"dave", []⟩
      Airdrop.Demo.claimAlice.msg with
  | error e => rw [hx] at h; cases h
  | ok r =>
    obtain ⟨⟨s', ms'⟩, as'⟩ := r
    rw [hx] at h
    cases h
    obtain ⟨out, ho⟩ := (C111_airdrop _ _ _ _ _).1 _ _ hb (C82_every_accepted_message_has_an_event.1 ⟨_, hx⟩)
    obtain ⟨msg', ms', as', h1, _, h3, h4⟩ := (C111_airdrop _ _ _ _ _).2 _ _ ho
    cases h1.symm.trans hb
    cases h3.symm.trans hx
    exact ⟨_, out, ho, h4 (by
      intro m hm
      cases List.mem_singleton.1 hm
      exact ⟨trivial, fun _ _ h => (nomatch h)⟩)⟩

theorem zapMsg_sent (self : Addr) (m : Periphery.PMsg) : zapMsg self m = Texts.sent decText self m := by
  rw [← wire_sent]
  cases m <;> rfl

theorem sent_sendable {dec : Nat → String} (self : Addr) {m : Periphery.PMsg} (h : ∀ c, m = .chain c → Deliverable (.chain c)) :
    Deliverable (Texts.sent dec self m) := by
  have hb := Storage.text_lt_256
  cases m with
  | chain c => exact h c rfl
  | core a c f => exact hb _
  | finish r d => exact hb _

/-- **C111 (periphery).** The same for the periphery contract: the calls of contracts carry their texts. -/
theorem C111_periphery {dec : Nat → String} (hd : ∀ n, Texts.IsDecimal n (dec n)) (p : Periphery.PEnv) (info : Info) (b : Bytes) :
    (∀ msg ms, zapExecute.ofText b = some msg → Periphery.execute p info msg = .ok ms → ∃ out, zapCall p info b = .ok out) ∧
    ∀ out, zapCall p info b = .ok out → ∃ msg ms as, zapExecute.ofText b = some msg ∧
      Periphery.execute p info msg = .ok ms ∧ Periphery.executeR p info msg = .ok (ms, as) ∧
      ((∀ m, .chain m ∈ ms → Deliverable (.chain m)) →
        IsResponse (ms.map fun m => (none, Texts.sent dec p.env.contract m)) as out) := by
  cases dec_unique hd
  unfold zapCall readMsg
  constructor
  · intro msg o h1 h2
    obtain ⟨as, h3⟩ := C83_every_accepted_operation_has_an_event.2 h2
    rw [h1]
    simp only [ok_bind, h3]
    exact ⟨_, rfl⟩
  · intro out h
    cases hb : zapExecute.ofText b with
    | none => rw [hb] at h; cases h
    | some msg =>
      rw [hb] at h
      simp only [ok_bind] at h
      cases hx : Periphery.executeR p info msg with
      | error e => rw [hx] at h; cases h
      | ok r =>
        obtain ⟨ms, as⟩ := r
        rw [hx] at h
        simp only [ok_bind, Except.ok.injEq] at h
        subst h
        refine ⟨msg, ms, as, rfl, C83_every_accepted_operation_has_an_event.1 ⟨as, hx⟩, hx, fun hs => ?_⟩
        simp only [zapMsg_sent]
        have := C111_response (ms.map fun m => ⟨none, Texts.sent decText p.env.contract m⟩) as (by
          intro m hm
          obtain ⟨c, hc, rfl⟩ := List.mem_map.1 hm
          exact sent_sendable _ fun c' e => hs c' (e ▸ hc))
        rwa [List.map_map] at this

/-- The end of an operation: the rest goes to Bob. -/
example : ∃ p out, zapCall p ⟨"zap", []⟩ (zapExecute.toText (.finishOperation "bob" "uosmo")) = .ok out ∧
    IsResponse [(none, .chain (.send "bob" [⟨"uosmo", 0⟩]))] [("method", "finish_operation"), ("refund_to", "bob"),
      ("refund_asset", "uosmo"), ("amount", "0")] out := by
  have hb : zapExecute.ofText (zapExecute.toText (.finishOperation "bob" "uosmo")) = some (.finishOperation "bob" "uosmo") :=
    ofText_toText zapExecute_faithful (zap_fits.1 trivial)
  have h : (Periphery.executeR (zapWorld.penv zapEnv zapPools) ⟨"zap", []⟩ (.finishOperation "bob" "uosmo")).toOption =
      some ([.chain (.send "bob" [⟨"uosmo", 0⟩])], [("method", "finish_operation"), ("refund_to", "bob"),
      ("refund_asset", "uosmo"), ("amount", "0")]) := by
    decide +kernel
  refine ⟨zapWorld.penv zapEnv zapPools, ?_⟩
  cases hx : Periphery.executeR (zapWorld.penv zapEnv zapPools) ⟨"zap", []⟩ (.finishOperation "bob" "uosmo") with
  | error e => rw [hx] at h; cases h
  | ok r =>
    obtain ⟨ms', as'⟩ := r
    rw [hx] at h
    cases h
    obtain ⟨out, ho⟩ := (C111_periphery decText_spec _ _ _).1 _ _ hb (C83_every_accepted_operation_has_an_event.1 ⟨_, hx⟩)
    obtain ⟨msg', ms', as', h1, _, h3, h4⟩ := (C111_periphery decText_spec _ _ _).2 _ ho
    cases h1.symm.trans hb
    cases h3.symm.trans hx
    exact ⟨out, ho, h4 (by
      intro m hm
      cases List.mem_singleton.1 hm
      exact ⟨trivial, fun _ _ h => (nomatch h)⟩)⟩

/-- **C111 (creation).** Creation hands the chain one message, the creation of the denom, and asks for a reply with identifier
zero if it succeeds; the other two contracts send nothing when they are made. -/
theorem C111_creation (env : Env) (b : Bytes) :
    (∀ s out, coreStart env b = .ok (s, out) → ∃ msg, coreInstantiate.ofText b = some msg ∧
      Core.instantiate env msg = .ok (s, [.createDenom env.contract msg.indexDenom]) ∧
      (Deliverable (.chain (.createDenom env.contract msg.indexDenom)) →
        IsResponse [(some 0, .chain (.createDenom env.contract msg.indexDenom))] [("method", "instantiate")] out)) ∧
    (∀ msg o, coreInstantiate.ofText b = some msg → Core.instantiate env msg = .ok o → ∃ out, coreStart env b = .ok (o.1, out)) ∧
    (∀ out, dropStart b = .ok out → emptyMsg.ofText b = some () ∧ IsResponse [] [] out) ∧
    ∀ out, zapStart b = .ok out → emptyMsg.ofText b = some () ∧ IsResponse [] [("method", "instantiate")] out := by
  refine ⟨fun s out h => ?_, fun msg o h1 h2 => ?_, fun out h => ?_, fun out h => ?_⟩
  · unfold coreStart readMsg at h
    cases hb : coreInstantiate.ofText b with
    | none => rw [hb] at h; cases h
    | some msg =>
      rw [hb] at h
      simp only [ok_bind, Core.instantiateR] at h
      cases hx : Core.instantiate env msg with
      | error e => rw [hx] at h; cases h
      | ok r =>
        obtain ⟨s1, ms⟩ := r
        rw [hx] at h
        simp only [ok_bind, Except.ok.injEq, Prod.mk.injEq] at h
        obtain ⟨rfl, rfl⟩ := h
        have hm : ms = [.createDenom env.contract msg.indexDenom] := by
          exact (Core.instantiate_eq_ok.1 hx).2.2.2.2.2.2.2
        subst hm
        refine ⟨msg, rfl, hx, fun hs => ?_⟩
        exact C111_response [⟨some 0, .chain (.createDenom env.contract msg.indexDenom)⟩] _ (by simpa using hs)
  · unfold coreStart readMsg
    rw [h1]
    simp only [ok_bind, Core.instantiateR, h2]
    exact ⟨_, rfl⟩
  · unfold dropStart readMsg at h
    cases hb : emptyMsg.ofText b with
    | none => rw [hb] at h; cases h
    | some u =>
      rw [hb] at h
      cases h
      exact ⟨rfl, C111_response [] [] (by simp)⟩
  · unfold zapStart readMsg at h
    cases hb : emptyMsg.ofText b with
    | none => rw [hb] at h; cases h
    | some u =>
      rw [hb] at h
      cases h
      exact ⟨rfl, C111_response [] _ (by simp)⟩

/-- The default response of the airdrop contract. -/
example : (dropStart (toBytes (.obj []))).toOption.isSome = true ∧ (zapStart (toBytes (.arr []))).toOption = none := by
  decide +kernel

/-- The creation of the example contract. -/
example : ∃ s out, coreStart (Demo.env 1000) (coreInstantiate.toText Demo.inst) = .ok (s, out) := by
  have h : (Core.instantiate (Demo.env 1000) Demo.inst).toOption.isSome = true := by decide +kernel
  cases hx : Core.instantiate (Demo.env 1000) Demo.inst with
  | error e => rw [hx] at h; cases h
  | ok o =>
    obtain ⟨out, ho⟩ := (C111_creation (Demo.env 1000) _).2.1 _ _ (ofText_toText coreInstantiate_faithful
      (instantiate_fits.1 ⟨by simp [Texts.FeeFits, Demo.inst, Texts.Amount], by simp [Demo.inst, Texts.Amount]⟩)) hx
    exact ⟨_, _, ho⟩

/-- **C111 (reply).** The text of a reply is accepted exactly when it says, by the names in it, that the message with identifier
zero succeeded, with data that give a denom; the denom is recorded and reported. -/
theorem C111_reply (s : Core.State) (b : Bytes) :
    (∀ data d, IsReply b 0 data → Proto.Created data d →
      ∃ out, coreReplied s b = .ok ({ s with config := { s.config with indexDenom := d } }, out)) ∧
    ∀ s' out, coreReplied s b = .ok (s', out) → ∃ data d, IsReply b 0 data ∧ Proto.Created data d ∧
      s' = { s with config := { s.config with indexDenom := d } } ∧
      IsResponse [] [("method", "reply_instantiate"), ("new_denom", d)] out := by
  have lt : ∀ bs : List UInt8, ∀ x ∈ bs.map UInt8.toNat, x < 256 := by
    intro bs x hx
    obtain ⟨u, _, rfl⟩ := List.mem_map.1 hx
    exact u.toNat_lt
  constructor
  · intro data d h1 h2
    obtain ⟨bs, rfl⟩ : ∃ bs : List UInt8, data = bs.map UInt8.toNat := by
      obtain ⟨_, _, _, _, _, _, _, _, _, bs, _, _, h, _⟩ := h1
      exact ⟨bs, h⟩
    have h3 := readReply_iff.2 h1
    have h4 := (Ibcx.Proto.readDenom_iff (lt bs)).2 h2
    unfold coreReplied
    rw [h3]
    simp only [Option.bind_some, Option.map_some, h4, Core.replyR, Core.reply, if_true, ok_bind]
    exact ⟨_, rfl⟩
  · intro s' out h
    unfold coreReplied at h
    split at h
    · cases h
    · rename_i id res hr
      simp only [Core.replyR, Core.reply] at h
      split at h
      · rename_i hid
        subst hid
        cases res with
        | none => cases h
        | some d0 =>
          cases d0 with
          | none => cases h
          | some bs =>
            simp only [Option.bind_some, Option.map_some] at h
            cases hd : Ibcx.Proto.readDenom (bs.map UInt8.toNat) with
            | none => rw [hd] at h; cases h
            | some d =>
              rw [hd] at h
              cases h
              exact ⟨_, d, readReply_iff.1 hr, (Ibcx.Proto.readDenom_iff (lt bs)).1 hd, rfl, C111_response [] _ (by simp)⟩
      · cases h

/-- A reply, its members in another order and one more than needed; its data is the denom `a`. -/
example : IsReply (toBytes (.obj [("result", .obj [("ok", .obj [("data", .str "CgFh"), ("events", .arr [])])]), ("gas", .num 3),
    ("id", .num 0)])) 0 [10, 1, 97] ∧ Proto.Created [10, 1, 97] "a" := by
  refine ⟨(readReply_iff (bs := [10, 1, 97])).1 ?_, (Ibcx.Proto.readDenom_iff (by decide)).1 (by decide +kernel)⟩
  rw [ofBytes_toBytes, Option.bind_some]
  decide +kernel

end Ibcx.Props
