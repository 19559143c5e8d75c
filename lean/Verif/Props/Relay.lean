import Verif.Spec.Relay
import Verif.Props.Response
/-!
# C130: the test-querier contract hands questions over as they are
-/

namespace Ibcx.Props
open Ibcx Ibcx.Json Ibcx.Spec Ibcx.Spec.Response Ibcx.Spec.Relay
open Ibcx.Storage (Bytes textBytes)

private theorem asVariant_obj {j : Json.Json} {n : String} {o : Json.Json} : asVariant j = some (n, some o) ↔ j = .obj [(n, o)] := by
  constructor
  · intro h
    unfold asVariant at h
    split at h <;> cases h
    rfl
  · rintro rfl
    rfl

private theorem find_iff {α : Type} : ∀ {cases : List (String × (Json.Json → Option α))}, (cases.map (·.1)).Nodup →
    ∀ {n : String} {c : String × (Json.Json → Option α)}, cases.find? (fun c => decide (c.1 = n)) = some c ↔ c ∈ cases ∧ c.1 = n
  | [], _, _, _ => by simp
  | a :: l, h, n, c => by
    rw [List.map_cons, List.nodup_cons] at h
    have ih := find_iff h.2 (n := n) (c := c)
    rw [List.find?_cons]
    by_cases e : a.1 = n
    · rw [decide_eq_true e]
      constructor
      · intro hc
        cases hc
        exact ⟨List.mem_cons_self, e⟩
      · rintro ⟨hc, e'⟩
        rcases List.mem_cons.1 hc with rfl | hc
        · rfl
        · exact absurd (List.mem_map.2 ⟨c, hc, e'.trans e.symm⟩) h.1
    · rw [decide_eq_false e]
      show l.find? _ = _ ↔ _
      rw [ih]
      constructor
      · exact fun hc => ⟨List.mem_cons_of_mem _ hc.1, hc.2⟩
      · rintro ⟨hc, e'⟩
        rcases List.mem_cons.1 hc with rfl | hc
        · exact absurd e' e
        · exact ⟨hc, e'⟩

private theorem oneOf_iff {α : Type} {cases : List (String × (Json.Json → Option α))} (h : (cases.map (·.1)).Nodup)
    {j : Json.Json} {a : α} : oneOf cases j = some a ↔ ∃ c ∈ cases, ∃ o, j = .obj [(c.1, o)] ∧ c.2 o = some a := by
  simp only [oneOf, Option.bind_eq_bind, Option.bind_eq_some_iff]
  constructor
  · rintro ⟨⟨n, body⟩, h1, o, h2, c, h3, h4⟩
    simp only at h2
    subst h2
    obtain ⟨hc, rfl⟩ := (find_iff h).1 h3
    exact ⟨c, hc, o, asVariant_obj.1 h1, h4⟩
  · rintro ⟨c, hc, o, rfl, h4⟩
    exact ⟨(c.1, some o), rfl, o, rfl, c, (find_iff h).2 ⟨hc, rfl⟩, h4⟩

private theorem open_iff {names : List String} {j : Json.Json} {fs : List (String × Json.Json)} :
    openFields names j = some fs ↔ j = .obj fs ∧ once names fs = some () := by
  cases j with
  | obj gs =>
    simp only [openFields, fields, Option.bind_eq_bind, Option.bind_some, Option.bind_eq_some_iff]
    constructor
    · rintro ⟨_, h, e⟩
      cases e
      exact ⟨rfl, h⟩
    · rintro ⟨e, h⟩
      cases e
      exact ⟨(), h, rfl⟩
  | _ => simp [openFields, fields]

private theorem req_text {names : List String} {fs : List (String × Json.Json)} {n s : String} (hn : n ∈ names)
    (h : once names fs = some ()) : req fs n text = some s ↔ Member (.obj fs) n (.str s) := by
  simp only [req, Option.bind_eq_bind, Option.bind_eq_some_iff]
  constructor
  · rintro ⟨j, h1, h2⟩
    cases text_dec.1 h2
    exact (member_field hn h).1 h1
  · exact fun h1 => ⟨_, (member_field hn h).2 h1, rfl⟩

private theorem req_binary {names : List String} {fs : List (String × Json.Json)} {n : String} {bs : List UInt8} (hn : n ∈ names)
    (h : once names fs = some ()) : req fs n binary = some bs ↔ Holds (.obj fs) n bs := by
  simp only [req, Option.bind_eq_bind, Option.bind_eq_some_iff]
  constructor
  · rintro ⟨j, h1, h2⟩
    cases j with
    | str t =>
      obtain ⟨k, hk⟩ := (binary_iff _ _).1 h2
      exact ⟨t, k, (member_field hn h).1 h1, hk⟩
    | _ => cases h2
  · rintro ⟨t, k, h1, hk⟩
    exact ⟨_, (member_field hn h).2 h1, (binary_iff _ _).2 ⟨k, hk⟩⟩

private theorem may_iff {names : List String} {fs : List (String × Json.Json)} {n : String} {o : Option String} (hn : n ∈ names)
    (h : once names fs = some ()) : Json.optional fs n text = some o ↔ MayHold (.obj fs) n o := by
  unfold Json.optional
  cases hf : field fs n with
  | none =>
    have h0 : n ∉ fs.map (·.1) := by
      intro hm
      obtain ⟨f, h1, h2⟩ := List.mem_map.1 hm
      rw [field, Option.map_eq_none_iff, List.find?_eq_none] at hf
      exact hf f h1 (by simpa using h2)
    cases o with
    | none => exact ⟨fun _ => Or.inr ⟨fs, rfl, h0⟩, fun _ => rfl⟩
    | some s =>
      constructor
      · intro e
        cases e
      · intro hm
        rw [(member_field hn h).2 hm] at hf
        cases hf
  | some j =>
    have hj := (member_field hn h).1 hf
    have hu : ∀ v, Member (.obj fs) n v → v = j := by
      intro v hv
      rw [(member_field hn h).2 hv] at hf
      exact Option.some.inj hf
    have h0 : n ∈ fs.map (·.1) := by
      rw [field, Option.map_eq_some_iff] at hf
      obtain ⟨f, h1, _⟩ := hf
      exact List.mem_map.2 ⟨f, List.mem_of_find?_eq_some h1, by simpa using List.find?_some h1⟩
    show text.opt.dec j = some o ↔ _
    cases o with
    | none =>
      constructor
      · intro e
        cases j with
        | null => exact Or.inl hj
        | _ => simp [Codec.opt, text] at e
      · rintro (hm | ⟨gs, e, hm⟩)
        · cases hu _ hm
          rfl
        · cases e
          exact absurd h0 hm
    | some s =>
      constructor
      · intro e
        cases j with
        | str t =>
          simp [Codec.opt, text] at e
          subst e
          exact hj
        | _ => simp [Codec.opt, text] at e
      · intro hm
        cases hu _ hm
        rfl

private theorem length_member {fs : List (String × Json.Json)} {n : String} {v : Json.Json} (h : Member (.obj fs) n v) :
    (fs.filter fun f => f.1 = n).length ≤ 1 := by
  obtain ⟨gs, e, h1⟩ := h
  cases e
  rw [h1]
  simp

private theorem length_may {fs : List (String × Json.Json)} {n : String} {o : Option String} (h : MayHold (.obj fs) n o) :
    (fs.filter fun f => f.1 = n).length ≤ 1 := by
  cases o with
  | some s => exact length_member h
  | none =>
    rcases h with h | ⟨gs, e, h⟩
    · exact length_member h
    · cases e
      rw [List.filter_eq_nil_iff.2 (fun f hf => by
        simp only [decide_eq_true_eq]
        exact fun e => h (List.mem_map.2 ⟨f, hf, e⟩))]
      simp

private theorem once_two {fs : List (String × Json.Json)} {a b : String} (ha : (fs.filter fun f => f.1 = a).length ≤ 1)
    (hb : (fs.filter fun f => f.1 = b).length ≤ 1) : once [a, b] fs = some () := by
  refine once_iff.2 fun n hn => ?_
  simp only [List.mem_cons, List.not_mem_nil, or_false] at hn
  rcases hn with rfl | rfl
  · exact ha
  · exact hb

private theorem once_one {fs : List (String × Json.Json)} {a : String} (ha : (fs.filter fun f => f.1 = a).length ≤ 1) :
    once [a] fs = some () := by
  refine once_iff.2 fun n hn => ?_
  simp only [List.mem_cons, List.not_mem_nil, or_false] at hn
  rcases hn with rfl
  exact ha

private theorem member_obj {j v : Json.Json} {n : String} (h : Member j n v) : ∃ fs, j = .obj fs := by
  obtain ⟨fs, e, _⟩ := h
  exact ⟨fs, e⟩

private theorem may_obj {j : Json.Json} {n : String} {o : Option String} (h : MayHold j n o) : ∃ fs, j = .obj fs := by
  cases o with
  | some s => exact member_obj h
  | none =>
    rcases h with h | ⟨fs, e, _⟩
    · exact member_obj h
    · exact ⟨fs, e⟩

/-- Two texts. -/
private theorem two_texts {α : Type} {a b : String} {j : Json.Json} {f : String → String → α} {q : α} :
    (do let fs ← openFields [a, b] j
        let x ← req fs a text
        let y ← req fs b text
        some (f x y)) = some q ↔ ∃ x y, q = f x y ∧ Member j a (.str x) ∧ Member j b (.str y) := by
  simp only [Option.bind_eq_bind, Option.bind_eq_some_iff]
  constructor
  · rintro ⟨fs, h, x, h1, y, h2, e⟩
    obtain ⟨rfl, ho⟩ := open_iff.1 h
    exact ⟨x, y, (Option.some.inj e).symm, (req_text (by simp) ho).1 h1, (req_text (by simp) ho).1 h2⟩
  · rintro ⟨x, y, rfl, h1, h2⟩
    obtain ⟨fs, rfl⟩ := member_obj h1
    have ho := once_two (length_member h1) (length_member h2)
    exact ⟨fs, open_iff.2 ⟨rfl, ho⟩, x, (req_text (by simp) ho).2 h1, y, (req_text (by simp) ho).2 h2, rfl⟩

/-- One text. -/
private theorem one_text {α : Type} {a : String} {j : Json.Json} {f : String → α} {q : α} :
    (do let fs ← openFields [a] j
        let x ← req fs a text
        some (f x)) = some q ↔ ∃ x, q = f x ∧ Member j a (.str x) := by
  simp only [Option.bind_eq_bind, Option.bind_eq_some_iff]
  constructor
  · rintro ⟨fs, h, x, h1, e⟩
    obtain ⟨rfl, ho⟩ := open_iff.1 h
    exact ⟨x, (Option.some.inj e).symm, (req_text (by simp) ho).1 h1⟩
  · rintro ⟨x, rfl, h1⟩
    obtain ⟨fs, rfl⟩ := member_obj h1
    have ho := once_one (length_member h1)
    exact ⟨fs, open_iff.2 ⟨rfl, ho⟩, x, (req_text (by simp) ho).2 h1, rfl⟩

/-- A text and bytes. -/
private theorem text_bytes {α : Type} {a b : String} {j : Json.Json} {f : String → List UInt8 → α} {q : α} :
    (do let fs ← openFields [a, b] j
        let x ← req fs a text
        let y ← req fs b binary
        some (f x y)) = some q ↔ ∃ x y, q = f x y ∧ Member j a (.str x) ∧ Holds j b y := by
  simp only [Option.bind_eq_bind, Option.bind_eq_some_iff]
  constructor
  · rintro ⟨fs, h, x, h1, y, h2, e⟩
    obtain ⟨rfl, ho⟩ := open_iff.1 h
    exact ⟨x, y, (Option.some.inj e).symm, (req_text (by simp) ho).1 h1, (req_binary (by simp) ho).1 h2⟩
  · rintro ⟨x, y, rfl, h1, h2⟩
    obtain ⟨fs, rfl⟩ := member_obj h1
    obtain ⟨t, k, h3, _⟩ := id h2
    have ho := once_two (length_member h1) (length_member h3)
    exact ⟨fs, open_iff.2 ⟨rfl, ho⟩, x, (req_text (by simp) ho).2 h1, y, (req_binary (by simp) ho).2 h2, rfl⟩

/-- A text and a text that may be missing. -/
private theorem text_may {α : Type} {a b : String} {j : Json.Json} {f : String → Option String → α} {q : α} :
    (do let fs ← openFields [a, b] j
        let x ← req fs a text
        let y ← Json.optional fs b text
        some (f x y)) = some q ↔ ∃ x y, q = f x y ∧ Member j a (.str x) ∧ MayHold j b y := by
  simp only [Option.bind_eq_bind, Option.bind_eq_some_iff]
  constructor
  · rintro ⟨fs, h, x, h1, y, h2, e⟩
    obtain ⟨rfl, ho⟩ := open_iff.1 h
    exact ⟨x, y, (Option.some.inj e).symm, (req_text (by simp) ho).1 h1, (may_iff (by simp) ho).1 h2⟩
  · rintro ⟨x, y, rfl, h1, h2⟩
    obtain ⟨fs, rfl⟩ := member_obj h1
    have ho := once_two (length_member h1) (length_may h2)
    exact ⟨fs, open_iff.2 ⟨rfl, ho⟩, x, (req_text (by simp) ho).2 h1, y, (may_iff (by simp) ho).2 h2, rfl⟩

/-- A text that may be missing. -/
private theorem one_may {α : Type} {b : String} {j : Json.Json} {f : Option String → α} {q : α} :
    (do let fs ← openFields [b] j
        let y ← Json.optional fs b text
        some (f y)) = some q ↔ ∃ y, q = f y ∧ MayHold j b y := by
  simp only [Option.bind_eq_bind, Option.bind_eq_some_iff]
  constructor
  · rintro ⟨fs, h, y, h2, e⟩
    obtain ⟨rfl, ho⟩ := open_iff.1 h
    exact ⟨y, (Option.some.inj e).symm, (may_iff (by simp) ho).1 h2⟩
  · rintro ⟨y, rfl, h2⟩
    obtain ⟨fs, rfl⟩ := may_obj h2
    have ho := once_one (length_may h2)
    exact ⟨fs, open_iff.2 ⟨rfl, ho⟩, y, (may_iff (by simp) ho).2 h2, rfl⟩

/-- Nothing. -/
private theorem no_field {α : Type} {j : Json.Json} {c q : α} :
    (do let _ ← fields j
        some c) = some q ↔ q = c ∧ IsObject j := by
  cases j <;> simp [fields, IsObject, eq_comm]

private theorem bank_iff {j : Json.Json} {q : Request} : readBank j = some q ↔
    (∃ o, j = .obj [("balance", o)] ∧ ∃ x y, q = .balance x y ∧ Member o "address" (.str x) ∧ Member o "denom" (.str y)) ∨
    ∃ o, j = .obj [("all_balances", o)] ∧ ∃ x, q = .allBalances x ∧ Member o "address" (.str x) := by
  rw [readBank, oneOf_iff (by decide)]
  simp only [List.mem_cons, List.not_mem_nil, or_false, exists_eq_or_imp, exists_eq_left, two_texts, one_text]

private theorem stargate_iff {j : Json.Json} {q : Request} : readStargate j = some q ↔
    ∃ x y, q = .stargate x y ∧ Member j "path" (.str x) ∧ Holds j "data" y := by
  rw [readStargate, text_bytes]

private theorem ibc_iff {j : Json.Json} {q : Request} : readIbc j = some q ↔
    (∃ o, j = .obj [("port_id", o)] ∧ q = .portId ∧ IsObject o) ∨
    (∃ o, j = .obj [("list_channels", o)] ∧ ∃ y, q = .listChannels y ∧ MayHold o "port_id" y) ∨
    ∃ o, j = .obj [("channel", o)] ∧ ∃ x y, q = .channel x y ∧ Member o "channel_id" (.str x) ∧ MayHold o "port_id" y := by
  rw [readIbc, oneOf_iff (by decide)]
  simp only [List.mem_cons, List.not_mem_nil, or_false, exists_eq_or_imp, exists_eq_left, text_may, one_may, no_field]

private theorem wasm_iff {j : Json.Json} {q : Request} : readWasm j = some q ↔
    (∃ o, j = .obj [("smart", o)] ∧ ∃ x y, q = .smart x y ∧ Member o "contract_addr" (.str x) ∧ Holds o "msg" y) ∨
    (∃ o, j = .obj [("raw", o)] ∧ ∃ x y, q = .raw x y ∧ Member o "contract_addr" (.str x) ∧ Holds o "key" y) ∨
    ∃ o, j = .obj [("contract_info", o)] ∧ ∃ x, q = .contractInfo x ∧ Member o "contract_addr" (.str x) := by
  rw [readWasm, oneOf_iff (by decide)]
  simp only [List.mem_cons, List.not_mem_nil, or_false, exists_eq_or_imp, exists_eq_left, text_bytes, one_text]

private theorem request_iff {j : Json.Json} {q : Request} : request.dec j = some q ↔ Asks j q := by
  show oneOf _ j = some q ↔ _
  rw [oneOf_iff (by decide)]
  simp only [List.mem_cons, List.not_mem_nil, or_false, exists_eq_or_imp, exists_eq_left, no_field, bank_iff, stargate_iff,
    ibc_iff, wasm_iff]
  constructor
  · rintro (⟨o, rfl, ⟨x, rfl, a, b, rfl, h1, h2⟩ | ⟨x, rfl, a, rfl, h1⟩⟩ | ⟨o, rfl, rfl, h⟩ | ⟨o, rfl, a, b, rfl, h1, h2⟩ |
      ⟨o, rfl, ⟨x, rfl, rfl, h⟩ | ⟨x, rfl, a, rfl, h⟩ | ⟨x, rfl, a, b, rfl, h1, h2⟩⟩ |
      ⟨o, rfl, ⟨x, rfl, a, b, rfl, h1, h2⟩ | ⟨x, rfl, a, b, rfl, h1, h2⟩ | ⟨x, rfl, a, rfl, h1⟩⟩)
    · exact ⟨x, rfl, h1, h2⟩
    · exact ⟨x, rfl, h1⟩
    · exact ⟨o, rfl, h⟩
    · exact ⟨o, rfl, h1, h2⟩
    · exact ⟨x, rfl, h⟩
    · exact ⟨x, rfl, h⟩
    · exact ⟨x, rfl, h1, h2⟩
    · exact ⟨x, rfl, h1, h2⟩
    · exact ⟨x, rfl, h1, h2⟩
    · exact ⟨x, rfl, h1⟩
  · intro h
    cases q with
    | balance a d => obtain ⟨x, rfl, h1, h2⟩ := h; exact .inl ⟨_, rfl, .inl ⟨x, rfl, a, d, rfl, h1, h2⟩⟩
    | allBalances a => obtain ⟨x, rfl, h1⟩ := h; exact .inl ⟨_, rfl, .inr ⟨x, rfl, a, rfl, h1⟩⟩
    | custom => obtain ⟨x, rfl, h1⟩ := h; exact .inr (.inl ⟨x, rfl, rfl, h1⟩)
    | stargate p d => obtain ⟨x, rfl, h1, h2⟩ := h; exact .inr (.inr (.inl ⟨x, rfl, p, d, rfl, h1, h2⟩))
    | portId => obtain ⟨x, rfl, h1⟩ := h; exact .inr (.inr (.inr (.inl ⟨_, rfl, .inl ⟨x, rfl, rfl, h1⟩⟩)))
    | listChannels p => obtain ⟨x, rfl, h1⟩ := h; exact .inr (.inr (.inr (.inl ⟨_, rfl, .inr (.inl ⟨x, rfl, p, rfl, h1⟩)⟩)))
    | channel c p =>
      obtain ⟨x, rfl, h1, h2⟩ := h
      exact .inr (.inr (.inr (.inl ⟨_, rfl, .inr (.inr ⟨x, rfl, c, p, rfl, h1, h2⟩)⟩)))
    | smart c m => obtain ⟨x, rfl, h1, h2⟩ := h; exact .inr (.inr (.inr (.inr ⟨_, rfl, .inl ⟨x, rfl, c, m, rfl, h1, h2⟩⟩)))
    | raw c m =>
      obtain ⟨x, rfl, h1, h2⟩ := h
      exact .inr (.inr (.inr (.inr ⟨_, rfl, .inr (.inl ⟨x, rfl, c, m, rfl, h1, h2⟩)⟩)))
    | contractInfo c =>
      obtain ⟨x, rfl, h1⟩ := h
      exact .inr (.inr (.inr (.inr ⟨_, rfl, .inr (.inr ⟨x, rfl, c, rfl, h1⟩)⟩)))

private theorem read_asks {b : Bytes} {q : Request} : readMsg request b = .ok q ↔ AsksText b q := by
  rw [readMsg_eq_ok]
  exact ⟨fun ⟨j, h1, h2⟩ => ⟨j, text_iff.2 h1, request_iff.1 h2⟩, fun ⟨j, h1, h2⟩ => ⟨j, text_iff.1 h1, request_iff.2 h2⟩⟩

private theorem holds_enc {fs : List (String × Json.Json)} {n : String} {bs : List UInt8}
    (h : fs.filter (fun f => f.1 = n) = [(n, binary.enc bs)]) : Holds (.obj fs) n bs := by
  refine ⟨_, 0, ⟨fs, rfl, h⟩, ?_⟩
  rw [← base64_eq]
  simp

private theorem written_asks (q : Request) : Asks (writeRequest q) q := by
  cases q with
  | balance a d => exact ⟨_, rfl, ⟨_, rfl, by simp⟩, ⟨_, rfl, by simp⟩⟩
  | allBalances a => exact ⟨_, rfl, ⟨_, rfl, by simp⟩⟩
  | custom => exact ⟨_, rfl, ⟨_, rfl⟩⟩
  | stargate p d => exact ⟨_, rfl, ⟨_, rfl, by simp⟩, holds_enc (by simp)⟩
  | portId => exact ⟨_, rfl, ⟨_, rfl⟩⟩
  | listChannels p => cases p with
    | none => exact ⟨_, rfl, .inl ⟨_, rfl, by simp [Codec.opt]⟩⟩
    | some p => exact ⟨_, rfl, ⟨_, rfl, by simp [Codec.opt, text]⟩⟩
  | channel c p => cases p with
    | none => exact ⟨_, rfl, ⟨_, rfl, by simp⟩, .inl ⟨_, rfl, by simp [Codec.opt]⟩⟩
    | some p => exact ⟨_, rfl, ⟨_, rfl, by simp⟩, ⟨_, rfl, by simp [Codec.opt, text]⟩⟩
  | smart c m => exact ⟨_, rfl, ⟨_, rfl, by simp⟩, holds_enc (by simp)⟩
  | raw c m => exact ⟨_, rfl, ⟨_, rfl, by simp⟩, holds_enc (by simp)⟩
  | contractInfo c => exact ⟨_, rfl, ⟨_, rfl, by simp⟩⟩

private theorem toText_asks (q : Request) : AsksText (request.toText q) q :=
  ⟨writeRequest q, text_iff.2 (ofBytes_toBytes _), written_asks q⟩

private theorem relay_of {b : Bytes} {q : Request} (h : AsksText b q) (chain : Bytes → Said) :
    relay chain b = match chain (request.toText q) with
      | .systemError => .error .generic
      | .contractError => .error .generic
      | .value v => .ok v := by
  have h1 := read_asks.2 h
  show ((readMsg request b).bind fun msg => _) = _
  rw [h1]
  rfl

private theorem relay_ok {b : Bytes} {q : Request} (h : AsksText b q) (chain : Bytes → Said) (v : Bytes) :
    relay chain b = .ok v ↔ chain (request.toText q) = .value v := by
  rw [relay_of h]
  cases chain (request.toText q) <;> simp

/-- A text asks one question only. -/
theorem C130_one_question {b : Bytes} {q q' : Request} (h : AsksText b q) (h' : AsksText b q') : q = q' := by
  have e := (read_asks.2 h).symm.trans (read_asks.2 h')
  injection e

/-- A text that asks for a balance, with fields in another order and one more. -/
example : AsksText (textBytes "{ \"bank\" : {\"balance\":{\"denom\":\"uosmo\",\"memo\":1,\"address\":\"osmo1a\"}}}")
    (.balance "osmo1a" "uosmo") := read_asks.1 (by decide +kernel)

/-- **C130.** The test-querier contract hands questions over as they are.  To every question there is one text that asks it, and
whichever text asks the contract the question, the contract hands this one over and answers with exactly the bytes that
the chain says to it; when the chain does not answer, the contract fails. -/
theorem C130_relay (q : Request) : ∃ t, AsksText t q ∧ ∀ (chain : Bytes → Said) (b : Bytes), AsksText b q →
    (∀ v, relay chain b = .ok v ↔ chain t = .value v) ∧
    (chain t = .systemError ∨ chain t = .contractError → relay chain b = .error .generic) := by
  refine ⟨request.toText q, toText_asks q, fun chain b h => ⟨relay_ok h chain, fun hc => ?_⟩⟩
  rw [relay_of h]
  rcases hc with hc | hc <;> rw [hc]

/-- A chain that knows one balance, asked in other words. -/
example : relay (fun b => if b = textBytes "{\"bank\":{\"balance\":{\"address\":\"osmo1a\",\"denom\":\"uosmo\"}}}" then .value [1, 2]
      else .contractError)
    (textBytes "{ \"bank\" : {\"balance\":{\"denom\":\"uosmo\",\"memo\":1,\"address\":\"osmo1a\"}}}") = .ok [1, 2] := by
  decide +kernel

/-- **C130 (nothing else).** A text that asks none of these questions is refused before the chain is asked anything. -/
theorem C130_nothing_else {b : Bytes} (h : ∀ q, ¬ AsksText b q) (chain : Bytes → Said) : relay chain b = .error .generic := by
  have h1 : readMsg request b = .error .generic := by
    cases hr : readMsg request b with
    | ok q => exact absurd (read_asks.1 hr) (h q)
    | error e =>
      rw [readMsg] at hr
      split at hr <;> cases hr
      rfl
  show ((readMsg request b).bind fun msg => _) = _
  rw [h1]
  rfl

/-- A question that the feature of the library leaves out: the supply of a denom. -/
example : ∀ q, ¬ AsksText (textBytes "{\"bank\":{\"supply\":{\"denom\":\"uosmo\"}}}") q := by
  intro q h
  have h1 := read_asks.2 h
  have h2 : readMsg request (textBytes "{\"bank\":{\"supply\":{\"denom\":\"uosmo\"}}}") = .error .generic := by decide +kernel
  rw [h2] at h1
  cases h1

/-- **C130 (asked directly).** On a chain that says the same to all texts that ask the same, the contract says to every question
what the chain itself says to it. -/
theorem C130_as_asked_directly {chain : Bytes → Said}
    (hc : ∀ b b' q, AsksText b q → AsksText b' q → chain b = chain b') {b : Bytes} {q : Request} (h : AsksText b q) (v : Bytes) :
    relay chain b = .ok v ↔ chain b = .value v := by
  rw [relay_ok h, hc _ _ q (toText_asks q) h]

/-- Such a chain: it answers everything that can be understood with the same bytes. -/
example : ∃ chain : Bytes → Said, (∀ b b' q, AsksText b q → AsksText b' q → chain b = chain b') ∧
    chain (textBytes "{\"custom\":{}}") = .value [7] :=
  ⟨fun _ => .value [7], fun _ _ _ _ _ => rfl, rfl⟩

/-- **C130 (through itself).** Handing questions over twice is handing them over once: any number of such contracts in a row say
what one of them says. -/
theorem C130_through_itself (chain : Bytes → Said) (n : Nat) (b : Bytes) :
    relay ((fun c => heard (relay c))^[n] chain) b = relay chain b := by
  induction n generalizing chain with
  | zero => rfl
  | succ n ih =>
    rw [Function.iterate_succ_apply, ih]
    by_cases h : ∃ q, AsksText b q
    · obtain ⟨q, h⟩ := h
      rw [relay_of h, relay_of h, heard, relay_of (toText_asks q)]
      cases chain (request.toText q) <;> rfl
    · have h := fun q hq => h ⟨q, hq⟩
      rw [C130_nothing_else h, C130_nothing_else h]

/-- Three in a row. -/
example : relay ((fun c => heard (relay c))^[2] fun _ => .value [7]) (textBytes "{\"custom\":{\"lost\":1}}") = .ok [7] := by
  rw [C130_through_itself]
  decide +kernel

/-- **C130 (creation).** Any text of an object creates the contract, and nothing else does; it sends no messages and has no
attributes. -/
theorem C130_creation (b : Bytes) : ((∃ r, relayStart b = .ok r) ↔ ∃ j, Text b j ∧ IsObject j) ∧
    ∀ r, relayStart b = .ok r → IsResponse [] [] r := by
  have e : ∀ r, relayStart b = .ok r ↔ (∃ j, Text b j ∧ IsObject j) ∧ r = okText [] [] := by
    intro r
    have h1 : readMsg anyEmpty b = .ok () ↔ ∃ j, Text b j ∧ IsObject j := by
      rw [readMsg_eq_ok]
      constructor
      · rintro ⟨j, h1, h2⟩
        exact ⟨j, text_iff.2 h1, (no_field.1 h2).2⟩
      · rintro ⟨j, h1, h2⟩
        exact ⟨j, text_iff.1 h1, no_field.2 ⟨rfl, h2⟩⟩
    rw [← h1]
    show ((readMsg anyEmpty b).bind fun _ => _) = _ ↔ _
    cases readMsg anyEmpty b with
    | error e => exact ⟨fun h => (by cases h), fun h => (by cases h.1)⟩
    | ok u =>
      constructor
      · intro h
        injection h with h
        exact ⟨rfl, h.symm⟩
      · rintro ⟨_, rfl⟩
        rfl
  refine ⟨⟨fun ⟨r, h⟩ => ((e r).1 h).1, fun h => ⟨_, (e _).2 ⟨h, rfl⟩⟩⟩, fun r h => ?_⟩
  rw [((e r).1 h).2]
  exact C111_response [] [] (by simp)

/-- An object with a field that nobody reads. -/
example : ∃ r, relayStart (textBytes "{\"a\":1}") = .ok r := ⟨okText [] [], by decide +kernel⟩

end Ibcx.Props
