import Verif.Events.Airdrop
import Verif.Spec.EventsDrop
import Verif.Props.Events
import Verif.Props.AcceptDrop
/-!
# C82: what the events of the airdrop contract tell
-/

namespace Ibcx.Props
open Ibcx Ibcx.Airdrop Ibcx.Spec

theorem dropR_execute {c : Crypto} {s : Airdrop.State} {env : Env} {info : Info} {msg : Airdrop.ExecMsg}
    {o : Airdrop.Out} {as : List Airdrop.Attr} (h : Airdrop.executeR c s env info msg = .ok (o, as)) :
    Airdrop.execute c s env info msg = .ok o := by
  cases msg with
  | register p =>
    simp only [Airdrop.executeR, registerR, bind_eq_ok] at h
    obtain ⟨_, g, _, _, e⟩ := h
    cases e; exact g
  | fund id =>
    simp only [Airdrop.executeR, fundR, bind_eq_ok] at h
    obtain ⟨_, g, _, _, _, _, e⟩ := h
    cases e; exact g
  | claim p =>
    simp only [Airdrop.executeR, claimR, bind_eq_ok] at h
    obtain ⟨o', g, e⟩ := h
    suffices o' = o by subst this; exact g
    cases p with
    | openDrop id amount acc proof =>
      simp only [bind_eq_ok] at e
      obtain ⟨_, _, _, _, e⟩ := e
      cases e; rfl
    | bearer id amount acc hash sign proof =>
      simp only [bind_eq_ok] at e
      obtain ⟨_, _, ⟨n, a⟩, _, e⟩ := e
      cases hk : a.kind with
      | openAirdrop => simp [hk] at e
      | bearer x y => simp only [hk] at e; cases e; rfl
  | close id =>
    simp only [Airdrop.executeR, closeR, bind_eq_ok] at h
    obtain ⟨_, g, _, _, _, _, e⟩ := h
    cases e; exact g

/-- The text of an airdrop's type. -/
theorem kind_text (a : Drop) : a.kind.text = (seenOf a).type := by
  unfold seenOf Kind.text
  cases a.kind <;> rfl

/-- The event of an accepted open registration, word for word. -/
theorem registerR_open {c : Crypto} {s : Airdrop.State} {env : Env} {info : Info} {root : String} {denom : Denom}
    {label : Option String} {o : Airdrop.Out} (h : register c s env info (.openDrop root denom label) = .ok o) :
    ∃ amount, info.funds = [⟨denom, amount⟩] ∧
    Airdrop.executeR c s env info (.register (.openDrop root denom label)) = .ok (o,
      [("action", "register"), ("executor", info.sender), ("id", toString s.latest), ("type", "open"),
       ("merkle_root", root), ("total_amount", toString amount),
       ("label", labelText info.sender label)]) := by
  obtain ⟨s', ms⟩ := o
  obtain ⟨a, hn, _, _, rfl, rfl⟩ := register_eq_ok.1 h
  obtain ⟨h1, h2, h3, h4, ⟨h5, h6⟩, _, h8, h9, h10, h11⟩ := hn
  refine ⟨a.totalAmount, by rw [h5, h10], ?_⟩
  simp only [Airdrop.executeR, registerR, h, ok_bind]
  have : KV.load (s.drops.set s.latest a) s.latest = .ok a := by rw [KV.load_eq_ok]; simp
  rw [this]
  simp only [ok_bind, registerEvent, h8, h1, h9, h11, Kind.text]
  cases label <;> rfl

/-- The event of an accepted bearer registration, word for word. -/
theorem registerR_bearer {c : Crypto} {s : Airdrop.State} {env : Env} {info : Info} {root : String} {denom : Denom}
    {pub sig : String} {label : Option String} {o : Airdrop.Out}
    (h : register c s env info (.bearer root denom pub sig label) = .ok o) :
    ∃ amount pubBytes, info.funds = [⟨denom, amount⟩] ∧ HexOf pub pubBytes ∧
    Airdrop.executeR c s env info (.register (.bearer root denom pub sig label)) = .ok (o,
      [("action", "register"), ("executor", info.sender), ("id", toString s.latest), ("type", "bearer"),
       ("signer", c.addrOf pubBytes), ("merkle_root", root), ("total_amount", toString amount),
       ("label", labelText info.sender label)]) := by
  obtain ⟨s', ms⟩ := o
  obtain ⟨a, hn, _, _, rfl, rfl⟩ := register_eq_ok.1 h
  obtain ⟨h1, h2, h3, h4, ⟨h5, h6⟩, _, ⟨pb, sb, hp, _, h8, _⟩, h9, h10, h11⟩ := hn
  refine ⟨a.totalAmount, pb, by rw [h5, h10], hexDecode_iff.1 hp, ?_⟩
  simp only [Airdrop.executeR, registerR, h, ok_bind]
  have : KV.load (s.drops.set s.latest a) s.latest = .ok a := by rw [KV.load_eq_ok]; simp
  rw [this]
  simp only [ok_bind, registerEvent, h8, h1, h9, h11, Kind.text]
  cases label <;> rfl

/-- The event of an accepted funding, word for word. -/
theorem fundR_event {c : Crypto} {s : Airdrop.State} {env : Env} {info : Info} {id : DropId} {o : Airdrop.Out}
    (h : Airdrop.fund s info id = .ok o) :
    ∃ n a extra, target s id = some n ∧ s.drops.get n = some a ∧ info.funds = [⟨a.denom, extra⟩] ∧
    Airdrop.executeR c s env info (.fund id) = .ok (o,
      [("action", "fund"), ("executor", info.sender), ("airdrop_type", (seenOf a).type),
       ("airdrop_id", toString n), ("amount", toString extra)]) := by
  obtain ⟨s', ms⟩ := o
  obtain ⟨n, a, extra, h1, h2, _, _, h5, h6, _, rfl, rfl⟩ := fund_eq_ok.1 h
  refine ⟨n, a, extra, h1, h2, h5, ?_⟩
  simp only [Airdrop.executeR, fundR, h, ok_bind, loadAirdrop_eq_ok.2 ⟨h1, h2⟩, mustPay_eq_ok.2 ⟨h5, h6⟩, fundEvent,
    kind_text]

/-- The event of an accepted claim, word for word. -/
theorem claimR_event {c : Crypto} {s : Airdrop.State} {env : Env} {info : Info} {p : ClaimPayload}
    {o : Airdrop.Out} (h : claim c s env info p = .ok o) :
    ∃ n a, target s (claimDrop p) = some n ∧ s.drops.get n = some a ∧
    Airdrop.executeR c s env info (.claim p) = .ok (o,
      [("action", "claim"), ("executor", info.sender), ("airdrop_type", (seenOf a).type),
       ("airdrop_id", toString n)] ++
      (match (seenOf a).signer with | some x => [("signer", x)] | none => []) ++
      [("claimer", claimer info p), ("amount", toString (claimAmount p))]) := by
  obtain ⟨s', ms⟩ := o
  obtain ⟨n, a, h0, h1, h2, _, _, hp, _, _, rfl, rfl⟩ := claim_eq_ok.1 h
  refine ⟨n, a, h1, h2, ?_⟩
  cases p with
  | openDrop id amount acc proof =>
    obtain ⟨hk, _⟩ := hp
    have e1 : unwrapAddr env acc info.sender = .ok (acc.getD info.sender) := unwrapAddr_eq_ok.2 ⟨h0, rfl⟩
    have e2 : loadAirdrop s id = .ok (n, a) := loadAirdrop_eq_ok.2 ⟨h1, h2⟩
    simp only [Airdrop.executeR, claimR, h, ok_bind, e1, e2, claimOpenEvent]
    simp only [seenOf, hk, Kind.text, claimer, claimAmount]
    rfl
  | bearer id amount acc hash sign proof =>
    obtain ⟨signer, pub, _, hk, _⟩ := hp
    have e1 : unwrapAddr env acc info.sender = .ok (acc.getD info.sender) := unwrapAddr_eq_ok.2 ⟨h0, rfl⟩
    have e2 : loadAirdrop s id = .ok (n, a) := loadAirdrop_eq_ok.2 ⟨h1, h2⟩
    simp only [Airdrop.executeR, claimR, h, ok_bind, e1, e2, claimBearerEvent, hk]
    simp only [seenOf, hk, Kind.text, claimer, claimAmount]
    rfl

/-- The event of an accepted closing, word for word. -/
theorem closeR_event {c : Crypto} {s : Airdrop.State} {env : Env} {info : Info} {id : DropId} {o : Airdrop.Out}
    (h : Airdrop.close s env info id = .ok o) :
    ∃ n a, target s id = some n ∧ s.drops.get n = some a ∧
    o.2 = [.send info.sender [⟨a.denom, a.totalAmount - a.totalClaimed⟩]] ∧
    Airdrop.executeR c s env info (.close id) = .ok (o,
      [("method", "close"), ("executor", info.sender), ("airdrop_type", (seenOf a).type),
       ("airdrop_id", toString n), ("redeemed", toString (a.totalAmount - a.totalClaimed))]) := by
  obtain ⟨s', ms⟩ := o
  obtain ⟨n, a, h1, h2, h3, _, h5, rfl, rfl⟩ := close_eq_ok.1 h
  refine ⟨n, a, h1, h2, by rw [h3], ?_⟩
  simp only [Airdrop.executeR, closeR, h, ok_bind, loadAirdrop_eq_ok.2 ⟨h1, h2⟩, sub_eq_ok.2 ⟨h5, rfl⟩, closeEvent,
    kind_text]

/-- **C82 (1).** A message is accepted exactly when it yields an event, and the event changes nothing about what
the message does. -/
theorem C82_every_accepted_message_has_an_event {c : Crypto} {s : Airdrop.State} {env : Env} {info : Info}
    {msg : Airdrop.ExecMsg} {o : Airdrop.Out} :
    (∃ event, Airdrop.executeR c s env info msg = .ok (o, event)) ↔ Airdrop.execute c s env info msg = .ok o := by
  constructor
  · rintro ⟨_, h⟩; exact dropR_execute h
  · intro h
    cases msg with
    | register p =>
      cases p with
      | openDrop root denom label =>
        obtain ⟨_, _, e⟩ := registerR_open h
        exact ⟨_, e⟩
      | bearer root denom pub sig label =>
        obtain ⟨_, _, _, _, e⟩ := registerR_bearer h
        exact ⟨_, e⟩
    | fund id => obtain ⟨_, _, _, _, _, _, e⟩ := fundR_event (c := c) (env := env) h; exact ⟨_, e⟩
    | claim p => obtain ⟨_, _, _, _, e⟩ := claimR_event h; exact ⟨_, e⟩
    | close id => obtain ⟨_, _, _, _, _, e⟩ := closeR_event (c := c) h; exact ⟨_, e⟩

/-- The events of the examples. -/
def demoEvents (calls : List Call) : List (List (String × String)) := Airdrop.eventLog Demo.crypto initial calls

/-- Four accepted messages and a refused one (a second claim) give four events. -/
example : (demoEvents [Demo.reg, Demo.fund, Demo.claimAlice, Demo.claimAlice, Demo.close]).length = 4 := by
  decide +kernel

/-- **C82 (2).** The event of an accepted registration gives the sender, the next number, the type, the root as
it was sent, the attached amount and the full label (empty when there is none); a bearer registration also gives
the address of the signing key. -/
theorem C82_register_event {c : Crypto} {s : Airdrop.State} {env : Env} {info : Info} {root : String} {denom : Denom}
    {label : Option String} {o : Airdrop.Out} {event : List (String × String)} :
    (Airdrop.executeR c s env info (.register (.openDrop root denom label)) = .ok (o, event) →
      ∃ amount, info.funds = [⟨denom, amount⟩] ∧ event =
        [("action", "register"), ("executor", info.sender), ("id", toString s.latest), ("type", "open"),
         ("merkle_root", root), ("total_amount", toString amount),
         ("label", labelText info.sender label)]) ∧
    (∀ pub sig, Airdrop.executeR c s env info (.register (.bearer root denom pub sig label)) = .ok (o, event) →
      ∃ amount key, info.funds = [⟨denom, amount⟩] ∧ HexOf pub key ∧ event =
        [("action", "register"), ("executor", info.sender), ("id", toString s.latest), ("type", "bearer"),
         ("signer", c.addrOf key), ("merkle_root", root), ("total_amount", toString amount),
         ("label", labelText info.sender label)]) := by
  constructor
  · intro h
    obtain ⟨amount, hf, e⟩ := registerR_open (dropR_execute h)
    rw [e] at h
    cases h
    exact ⟨amount, hf, rfl⟩
  · intro pub sig h
    obtain ⟨amount, key, hf, hk, e⟩ := registerR_bearer (dropR_execute h)
    rw [e] at h
    cases h
    exact ⟨amount, key, hf, hk, rfl⟩

example : (demoEvents [Demo.reg]) =
    [[("action", "register"), ("executor", "carol"), ("id", "0"), ("type", "open"), ("merkle_root", Demo.root),
      ("total_amount", "50"), ("label", "carol/gift")]] := by decide +kernel

example : ((demoEvents [Demo.reg, Demo.regBearer]).map (·.map Prod.fst)) =
    [["action", "executor", "id", "type", "merkle_root", "total_amount", "label"],
     ["action", "executor", "id", "type", "signer", "merkle_root", "total_amount", "label"]] := by decide +kernel

/-- **C82 (3).** The event of an accepted funding gives the number of the airdrop its id or label leads to and
the amount attached. -/
theorem C82_fund_event {c : Crypto} {s : Airdrop.State} {env : Env} {info : Info} {id : DropId} {o : Airdrop.Out}
    {event : List (String × String)} (h : Airdrop.executeR c s env info (.fund id) = .ok (o, event)) :
    ∃ n a extra, target s id = some n ∧ s.drops.get n = some a ∧ info.funds = [⟨a.denom, extra⟩] ∧ event =
      [("action", "fund"), ("executor", info.sender), ("airdrop_type", (seenOf a).type),
       ("airdrop_id", toString n), ("amount", toString extra)] := by
  obtain ⟨n, a, x, h1, h2, h3, e⟩ := fundR_event (c := c) (env := env) (dropR_execute h)
  rw [e] at h
  cases h
  exact ⟨n, a, x, h1, h2, h3, rfl⟩

example : (demoEvents [Demo.reg, Demo.fund]).getLast? =
    some [("action", "fund"), ("executor", "carol"), ("airdrop_type", "open"), ("airdrop_id", "0"),
      ("amount", "30")] := by decide +kernel

/-- **C82 (4).** The event of an accepted claim gives the number of the airdrop, the account that is paid and the
amount it is paid, and for a bearer airdrop the signer. -/
theorem C82_claim_event {c : Crypto} {s : Airdrop.State} {env : Env} {info : Info} {p : ClaimPayload}
    {o : Airdrop.Out} {event : List (String × String)}
    (h : Airdrop.executeR c s env info (.claim p) = .ok (o, event)) :
    ∃ n a who amount, target s (claimDrop p) = some n ∧ s.drops.get n = some a ∧
      o.2 = [.send who [⟨a.denom, amount⟩]] ∧ event =
      [("action", "claim"), ("executor", info.sender), ("airdrop_type", (seenOf a).type),
       ("airdrop_id", toString n)] ++
      (match (seenOf a).signer with | some x => [("signer", x)] | none => []) ++
      [("claimer", who), ("amount", toString amount)] := by
  obtain ⟨n, a, h1, h2, e⟩ := claimR_event (dropR_execute h)
  obtain ⟨n', a', _, h1', h2', _, _, _, _, _, _, h3⟩ := (claim_eq_ok (s' := o.1) (ms := o.2)).1 (dropR_execute h)
  rw [h1] at h1'; cases h1'
  rw [h2] at h2'; cases h2'
  rw [e] at h
  cases h
  exact ⟨n, a, _, _, h1, h2, h3, rfl⟩

example : (demoEvents [Demo.reg, Demo.fund, Demo.claimAlice]).getLast? =
    some [("action", "claim"), ("executor", "dave"), ("airdrop_type", "open"), ("airdrop_id", "0"),
      ("claimer", "alice"), ("amount", "60")] := by decide +kernel

/-- **C82 (5).** The event of an accepted closing gives the number of the airdrop and the amount paid back. -/
theorem C82_close_event {c : Crypto} {s : Airdrop.State} {env : Env} {info : Info} {id : DropId}
    {o : Airdrop.Out} {event : List (String × String)}
    (h : Airdrop.executeR c s env info (.close id) = .ok (o, event)) :
    ∃ n a back, target s id = some n ∧ s.drops.get n = some a ∧ o.2 = [.send info.sender [⟨a.denom, back⟩]] ∧ event =
      [("method", "close"), ("executor", info.sender), ("airdrop_type", (seenOf a).type),
       ("airdrop_id", toString n), ("redeemed", toString back)] := by
  obtain ⟨n, a, h1, h2, h3, e⟩ := closeR_event (c := c) (dropR_execute h)
  rw [e] at h
  cases h
  exact ⟨n, a, _, h1, h2, h3, rfl⟩

example : (demoEvents [Demo.reg, Demo.fund, Demo.claimAlice, Demo.close]).getLast? =
    some [("method", "close"), ("executor", "carol"), ("airdrop_type", "open"), ("airdrop_id", "0"),
      ("redeemed", "20")] := by decide +kernel

/-! ### The observer -/

theorem seenAt_set {s : Airdrop.State} {n : Nat} {a b : Drop} {f : Seen → Seen} (h : s.drops.get n = some a)
    (hf : seenOf b = f (seenOf a)) :
    seenAt (fun i => (s.drops.get i).map seenOf) n f = fun i => ((s.drops.set n b).get i).map seenOf := by
  funext i
  unfold seenAt
  by_cases hi : i = n
  · subst hi; simp [h, hf]
  · have : ¬ n = i := fun e => hi e.symm
    simp [hi, KV.get_set, this]

theorem noteDrop_step {c : Crypto} {s : Airdrop.State} {env : Env} {info : Info} {msg : Airdrop.ExecMsg}
    {o : Airdrop.Out} {event : List (String × String)}
    (h : Airdrop.executeR c s env info msg = .ok (o, event)) :
    noteDrop (fun i => (s.drops.get i).map seenOf) event = fun i => (o.1.drops.get i).map seenOf := by
  obtain ⟨s', ms⟩ := o
  have g := dropR_execute h
  cases msg with
  | register p =>
    obtain ⟨a, hn, _, _, rfl, _⟩ := register_eq_ok.1 (show register c s env info p = .ok (s', ms) from g)
    obtain ⟨h1, h2, h3, h4, ⟨h5, h6⟩, _, h8⟩ := hn
    cases p with
    | openDrop root denom label =>
      obtain ⟨amount, hf, rfl⟩ := C82_register_event.1 h
      obtain ⟨hk, hr, hd, hl⟩ := h8
      rw [h5] at hf
      simp only [List.cons.injEq, Coin.mk.injEq, and_true] at hf
      funext i
      by_cases hi : i = s.latest
      · subst hi
        have e : saidNum "id" [("action", "register"), ("executor", info.sender), ("id", toString s.latest),
            ("type", "open"), ("merkle_root", root), ("total_amount", toString amount),
            ("label", labelText info.sender label)] = s.latest := readNum_toString _
        have e2 : saidNum "total_amount" [("action", "register"), ("executor", info.sender),
            ("id", toString s.latest),
            ("type", "open"), ("merkle_root", root), ("total_amount", toString amount),
            ("label", labelText info.sender label)] = amount := readNum_toString _
        unfold noteDrop
        rw [if_pos (by simp [said]), e, e2]
        simp only [if_true, KV.get_set, Option.map_some, seenOf, hk, hr, h1, h2, h3, hl, hf.2, Option.isSome_none]
        cases label <;> rfl
      · have : ¬ s.latest = i := fun e => hi e.symm
        have e : saidNum "id" [("action", "register"), ("executor", info.sender), ("id", toString s.latest),
            ("type", "open"), ("merkle_root", root), ("total_amount", toString amount),
            ("label", labelText info.sender label)] = s.latest :=
          readNum_toString _
        unfold noteDrop
        rw [if_pos (by simp [said]), e]
        simp [hi, KV.get_set, this]
    | bearer root denom pub sig label =>
      obtain ⟨amount, key, hf, hkey, rfl⟩ := C82_register_event.2 _ _ h
      obtain ⟨⟨pb, _, hp, _, hk, _⟩, hr, hd, hl⟩ := h8
      rw [h5] at hf
      simp only [List.cons.injEq, Coin.mk.injEq, and_true] at hf
      have hpk : pb = key := by
        have := hexDecode_iff.2 hkey
        rw [hp] at this; cases this; rfl
      subst hpk
      funext i
      by_cases hi : i = s.latest
      · subst hi
        have e : saidNum "id" [("action", "register"), ("executor", info.sender), ("id", toString s.latest),
            ("type", "bearer"), ("signer", c.addrOf pb), ("merkle_root", root), ("total_amount", toString amount),
            ("label", labelText info.sender label)] = s.latest :=
          readNum_toString _
        have e2 : saidNum "total_amount" [("action", "register"), ("executor", info.sender),
            ("id", toString s.latest),
            ("type", "bearer"), ("signer", c.addrOf pb), ("merkle_root", root), ("total_amount", toString amount),
            ("label", labelText info.sender label)] = amount :=
          readNum_toString _
        unfold noteDrop
        rw [if_pos (by simp [said]), e, e2]
        simp only [if_true, KV.get_set, Option.map_some, seenOf, hk, hr, h1, h2, h3, hl, hf.2, Option.isSome_none]
        cases label <;> rfl
      · have : ¬ s.latest = i := fun e => hi e.symm
        have e : saidNum "id" [("action", "register"), ("executor", info.sender), ("id", toString s.latest),
            ("type", "bearer"), ("signer", c.addrOf pb), ("merkle_root", root), ("total_amount", toString amount),
            ("label", labelText info.sender label)] = s.latest :=
          readNum_toString _
        unfold noteDrop
        rw [if_pos (by simp [said]), e]
        simp [hi, KV.get_set, this]
  | fund id =>
    obtain ⟨n, a, x, h1, h2, h3, rfl⟩ := C82_fund_event h
    obtain ⟨n', a', x', h1', h2', _, _, h3', _, _, rfl, _⟩ := fund_eq_ok.1 (show Airdrop.fund s info id = .ok (s', ms) from g)
    rw [h1] at h1'; cases h1'
    rw [h2] at h2'; cases h2'
    rw [h3] at h3'
    simp only [List.cons.injEq, Coin.mk.injEq, and_true, true_and] at h3'
    subst h3'
    unfold noteDrop
    rw [if_neg (by simp [said]), if_pos (by simp [said])]
    have e1 : saidNum "airdrop_id" [("action", "fund"), ("executor", info.sender), ("airdrop_type", (seenOf a).type),
       ("airdrop_id", toString n), ("amount", toString x)] = n := readNum_toString _
    have e2 : saidNum "amount" [("action", "fund"), ("executor", info.sender), ("airdrop_type", (seenOf a).type),
       ("airdrop_id", toString n), ("amount", toString x)] = x := readNum_toString _
    rw [e1, e2]
    exact seenAt_set h2 rfl
  | claim p =>
    obtain ⟨n, a, who, amount, h1, h2, h3, rfl⟩ := C82_claim_event h
    obtain ⟨n', a', _, h1', h2', _, _, _, _, _, rfl, h3'⟩ := claim_eq_ok.1 (show claim c s env info p = .ok (s', ms) from g)
    rw [h1] at h1'; cases h1'
    rw [h2] at h2'; cases h2'
    simp only at h3
    rw [h3'] at h3
    simp only [List.cons.injEq, and_true, Msg.send.injEq, Coin.mk.injEq, true_and] at h3
    obtain ⟨_, rfl⟩ := h3
    unfold noteDrop
    rw [if_neg (by simp [said]), if_neg (by simp [said]), if_pos (by simp [said])]
    cases hs : (seenOf a).signer with
    | none =>
      have e1 : saidNum "airdrop_id" ([("action", "claim"), ("executor", info.sender),
        ("airdrop_type", (seenOf a).type), ("airdrop_id", toString n)] ++ [] ++
        [("claimer", who), ("amount", toString (claimAmount p))]) = n := readNum_toString _
      have e2 : saidNum "amount" ([("action", "claim"), ("executor", info.sender),
        ("airdrop_type", (seenOf a).type), ("airdrop_id", toString n)] ++ [] ++
        [("claimer", who), ("amount", toString (claimAmount p))]) = claimAmount p := readNum_toString _
      simp only
      rw [e1, e2]
      exact seenAt_set h2 rfl
    | some x =>
      have e1 : saidNum "airdrop_id" ([("action", "claim"), ("executor", info.sender),
        ("airdrop_type", (seenOf a).type), ("airdrop_id", toString n)] ++ [("signer", x)] ++
        [("claimer", who), ("amount", toString (claimAmount p))]) = n := readNum_toString _
      have e2 : saidNum "amount" ([("action", "claim"), ("executor", info.sender),
        ("airdrop_type", (seenOf a).type), ("airdrop_id", toString n)] ++ [("signer", x)] ++
        [("claimer", who), ("amount", toString (claimAmount p))]) = claimAmount p := readNum_toString _
      simp only
      rw [e1, e2]
      exact seenAt_set h2 rfl
  | close id =>
    obtain ⟨n, a, back, h1, h2, h3, rfl⟩ := C82_close_event h
    obtain ⟨n', a', h1', h2', _, _, _, rfl, _⟩ := close_eq_ok.1 (show Airdrop.close s env info id = .ok (s', ms) from g)
    rw [h1] at h1'; cases h1'
    rw [h2] at h2'; cases h2'
    have e0 : said "action" [("method", "close"), ("executor", info.sender), ("airdrop_type", (seenOf a).type),
       ("airdrop_id", toString n), ("redeemed", toString back)] = none := rfl
    unfold noteDrop
    rw [if_neg (by rw [e0]; simp), if_neg (by rw [e0]; simp), if_neg (by rw [e0]; simp), if_pos (by simp [said])]
    have e1 : saidNum "airdrop_id" [("method", "close"), ("executor", info.sender), ("airdrop_type", (seenOf a).type),
       ("airdrop_id", toString n), ("redeemed", toString back)] = n := readNum_toString _
    rw [e1]
    exact seenAt_set h2 rfl

theorem noteDrop_run {c : Crypto} (calls : List Call) : ∀ (s : Airdrop.State),
    (Airdrop.eventLog c s calls).foldl noteDrop (fun i => (s.drops.get i).map seenOf) =
      fun i => ((run c s calls).1.drops.get i).map seenOf := by
  induction calls with
  | nil => intro s; rfl
  | cons call calls ih =>
    intro s
    cases hx : Airdrop.executeR c s call.env call.info call.msg with
    | ok r =>
      obtain ⟨o, as⟩ := r
      have g := dropR_execute hx
      have e1 : (step c s call) = o := by unfold step; rw [g]
      simp only [Airdrop.eventLog, hx, List.foldl_cons]
      rw [noteDrop_step hx, ih]
      simp only [run, e1]
    | error e =>
      have e1 : (step c s call).1 = s := by
        unfold step
        cases hy : Airdrop.execute c s call.env call.info call.msg with
        | ok o =>
          obtain ⟨as, h⟩ := C82_every_accepted_message_has_an_event.2 hy
          rw [h] at hx; cases hx
        | error e => rfl
      simp only [Airdrop.eventLog, hx]
      rw [ih]
      simp only [run, e1]

/-- **C82 (6).** An observer who starts at creation and reads only event texts always knows, for every airdrop:
creator, type, signer, root, total, claimed amount, whether it is closed, and label. -/
theorem C82_events_rebuild_the_airdrops (c : Crypto) (calls : List Call) :
    (Airdrop.eventLog c initial calls).foldl noteDrop (fun _ => none) =
      fun i => ((run c initial calls).1.drops.get i).map seenOf :=
  noteDrop_run calls initial

example : (demoEvents [Demo.reg, Demo.fund, Demo.claimAlice, Demo.close]).foldl noteDrop (fun _ => none) 0 =
    some ⟨"carol", "open", none, Demo.root, 80, 60, true, "carol/gift"⟩ := by decide +kernel

/-- Reports of all messages are found under `action`. -/
def C82_full : Prop := ∀ (c : Crypto) (s : Airdrop.State) (env : Env) (info : Info) (msg : Airdrop.ExecMsg)
  (o : Airdrop.Out) (event : List (String × String)), Reachable c s →
  Airdrop.executeR c s env info msg = .ok (o, event) → said "action" event ≠ none

/-- **C82 (7).** The full claim is false: a closing is reported under `method` and has no `action`. -/
theorem C82_full_false : ¬ C82_full := by
  intro h
  have g : (Airdrop.executeR Demo.crypto (run Demo.crypto initial [Demo.reg]).1 Demo.close.env Demo.close.info
      Demo.close.msg).toOption.map (fun r => said "action" r.2) = some none := by decide +kernel
  cases hx : Airdrop.executeR Demo.crypto (run Demo.crypto initial [Demo.reg]).1 Demo.close.env Demo.close.info
      Demo.close.msg with
  | error e => rw [hx] at g; simp [Except.toOption] at g
  | ok r =>
    rw [hx] at g
    simp only [Except.toOption, Option.map_some, Option.some.injEq] at g
    exact h _ _ _ _ _ r.1 r.2 ⟨_, rfl⟩ hx g

/-- **C82 (8).** What holds: every accepted message but a closing is reported under `action` with its own name,
a closing is reported under `method`, and all name the sender. -/
theorem C82_action_partial {c : Crypto} {s : Airdrop.State} {env : Env} {info : Info} {msg : Airdrop.ExecMsg}
    {o : Airdrop.Out} {event : List (String × String)}
    (h : Airdrop.executeR c s env info msg = .ok (o, event)) :
    said "executor" event = some info.sender ∧
    said "action" event = actionOf msg ∧
    said "method" event = closingOf msg := by
  cases msg with
  | register p =>
    cases p with
    | openDrop root denom label =>
      obtain ⟨amount, _, rfl⟩ := C82_register_event.1 h
      exact ⟨rfl, rfl, rfl⟩
    | bearer root denom pub sig label =>
      obtain ⟨amount, key, _, _, rfl⟩ := C82_register_event.2 _ _ h
      exact ⟨rfl, rfl, rfl⟩
  | fund id => obtain ⟨n, a, x, _, _, _, rfl⟩ := C82_fund_event h; exact ⟨rfl, rfl, rfl⟩
  | claim p =>
    obtain ⟨n, a, w, x, _, _, _, rfl⟩ := C82_claim_event h
    cases (seenOf a).signer <;> exact ⟨rfl, rfl, rfl⟩
  | close id => obtain ⟨n, a, x, _, _, _, rfl⟩ := C82_close_event h; exact ⟨rfl, rfl, rfl⟩

/-- The event of a registration has an action, the event of the closing a method instead. -/
example : (demoEvents [Demo.reg, Demo.close]).map (fun e => (said "executor" e, said "action" e, said "method" e)) =
    [(some "carol", some "register", none), (some "carol", none, some "close")] := by
  decide +kernel

/-- **C82 (9).** No event gives the denom: two accepted registrations that differ only in the denom (and are paid
in it) give the same event. -/
theorem C82_denom_is_not_reported {c : Crypto} {s : Airdrop.State} {env : Env} {info info' : Info} {root : String}
    {denom denom' : Denom} {amount : Nat} {label : Option String} {o o' : Airdrop.Out}
    {event event' : List (String × String)}
    (h1 : info.funds = [⟨denom, amount⟩]) (h2 : info'.funds = [⟨denom', amount⟩]) (h3 : info'.sender = info.sender)
    (h : Airdrop.executeR c s env info (.register (.openDrop root denom label)) = .ok (o, event))
    (h' : Airdrop.executeR c s env info' (.register (.openDrop root denom' label)) = .ok (o', event')) :
    event = event' := by
  obtain ⟨x, hx, rfl⟩ := C82_register_event.1 h
  obtain ⟨y, hy, rfl⟩ := C82_register_event.1 h'
  rw [h1] at hx
  rw [h2] at hy
  simp only [List.cons.injEq, Coin.mk.injEq, true_and, and_true] at hx hy
  subst hx hy
  rw [h3]

example :
    demoEvents [⟨Demo.env 10, ⟨"carol", [⟨"uosmo", 50⟩]⟩, .register (.openDrop Demo.root "uosmo" none)⟩] =
    demoEvents [⟨Demo.env 10, ⟨"carol", [⟨"uatom", 50⟩]⟩, .register (.openDrop Demo.root "uatom" none)⟩] := by
  decide +kernel

end Ibcx.Props
