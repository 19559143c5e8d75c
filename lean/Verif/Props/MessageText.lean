import Verif.Json.TextSpec
import Verif.Props.Demo
import Verif.Props.AirdropDemo
/-!
# C99, C100: messages as texts

The texts are those of `Verif.Spec.Texts`, written without the model of JSON.
-/

namespace Ibcx.Props
open Ibcx Ibcx.Json Ibcx.Spec

theorem amount_fits {n : Nat} (h : Texts.Amount n) : u128.Fits n := h
theorem number_fits {n : Nat} (h : Texts.Number n) : (uint 64).Fits n := h

theorem fee_fits {f : Core.FeePayload} : Texts.FeeFits f ↔ feePayload.Fits f := Iff.rfl

theorem instantiate_fits {m : Core.InstantiateMsg} : Texts.InstantiateFits m ↔ coreInstantiate.Fits m :=
  ⟨fun h => ⟨h.1, fun e he => ⟨trivial, h.2 e he⟩⟩, fun h => ⟨h.1, fun e he => (h.2 e he).2⟩⟩

theorem core_fits {m : Core.ExecMsg} : Texts.CoreFits m ↔ coreExecute.Fits m := by
  rcases m with (⟨a, r, t⟩ | r | _ | (e | _ | g | _ | _ | f | m | d | ⟨d, r, c, m⟩) |
    (⟨m, d, i⟩ | (⟨d, a, b⟩ | ⟨d, a, b⟩) | _))
  case rebalance.init =>
    exact ⟨fun h => ⟨fun e he => ⟨trivial, h.1 e he⟩, fun e he => ⟨trivial, h.2 e he⟩⟩,
      fun h => ⟨fun e he => (h.1 e he).2, fun e he => (h.2 e he).2⟩⟩
  all_goals exact Iff.rfl

theorem id_fits {i : Airdrop.DropId} : Texts.IdFits i ↔ dropId.Fits i := by
  rcases i with (n | l) <;> exact Iff.rfl

theorem drop_msg_fits {m : Airdrop.ExecMsg} : Texts.DropFits m ↔ dropExecute.Fits m := by
  rcases m with ((⟨r, d, l⟩ | ⟨r, d, p, s, l⟩) | i | (⟨i, a, c, p⟩ | ⟨i, a, c, x, y, p⟩) | i)
  · exact Iff.rfl
  · exact Iff.rfl
  · exact id_fits
  · exact and_congr id_fits Iff.rfl
  · exact and_congr id_fits Iff.rfl
  · exact id_fits

theorem zap_fits {m : Periphery.PExecMsg} : Texts.ZapFits m ↔ zapExecute.Fits m := by
  rcases m with (⟨c, i, m, s⟩ | ⟨c, o, i, s⟩ | ⟨c, o, m, s⟩ | ⟨c, o, s⟩ | ⟨r, a⟩) <;> exact Iff.rfl

theorem readMsg_toText {α : Type} {c : Codec α} (hf : c.Faithful) {a : α} (h : c.Fits a) : readMsg c (c.toText a) = .ok a := by
  rw [readMsg, ofText_toText hf h]

theorem readMsg_eq_ok {α : Type} {c : Codec α} {b : Storage.Bytes} {a : α} :
    readMsg c b = .ok a ↔ ∃ j, ofBytes b = some j ∧ c.dec j = some a := by
  unfold readMsg Codec.ofText
  cases hj : ofBytes b with
  | none => simp
  | some j =>
    cases ha : c.dec j with
    | none => simp [ha]
    | some x => simp [ha]

/-- **C99** The contracts understand the texts clients write: for every message whose numbers fit their types, the entry point
given the text of the message does what it does with the message itself. -/
theorem C99_understood : ∃ dec : Nat → String, (∀ n, Texts.IsDecimal n (dec n)) ∧
    (∀ (env : Env) (m : Core.InstantiateMsg), Texts.InstantiateFits m →
      coreInstantiateText env (Storage.textBytes (Texts.coreInstantiate dec m)) = Core.instantiate env m) ∧
    (∀ (s : Core.State) (env : Env) (info : Info) (m : Core.ExecMsg), Texts.CoreFits m →
      coreExecuteText s env info (Storage.textBytes (Texts.core dec m)) = Core.execute s env info m) ∧
    (∀ (c : Airdrop.Crypto) (s : Airdrop.State) (env : Env) (info : Info) (m : Airdrop.ExecMsg), Texts.DropFits m →
      dropExecuteText c s env info (Storage.textBytes (Texts.airdrop m)) = Airdrop.execute c s env info m) ∧
    (∀ (p : Periphery.PEnv) (info : Info) (m : Periphery.PExecMsg), Texts.ZapFits m →
      zapExecuteText p info (Storage.textBytes (Texts.periphery m)) = Periphery.execute p info m) := by
  refine ⟨decText, decText_spec, ?_, ?_, ?_, ?_⟩
  · intro env m h
    rw [← shown_coreInstantiate, ← toText_shown, coreInstantiateText,
      readMsg_toText coreInstantiate_faithful (instantiate_fits.1 h)]
    rfl
  · intro s env info m h
    rw [← shown_core, ← toText_shown, coreExecuteText, readMsg_toText coreExecute_faithful (core_fits.1 h)]
    rfl
  · intro c s env info m h
    rw [← shown_airdrop, ← toText_shown, dropExecuteText, readMsg_toText dropExecute_faithful (drop_msg_fits.1 h)]
    rfl
  · intro p info m h
    rw [← shown_periphery, ← toText_shown, zapExecuteText, readMsg_toText zapExecute_faithful (zap_fits.1 h)]
    rfl

/-- The texts look as expected: a mint of 5 with a receiver whose name has a quote in it. -/
example : Texts.core (fun _ => "") (.mint 5 (some "a\"b") none) =
    "{\"mint\":{\"amount\":\"5\",\"receiver\":\"a\\\"b\",\"refund_to\":null}}" := by decide +kernel

/-- A half is written with one digit after the point. -/
example : Texts.IsDecimal (5 * 10 ^ 17) "0.5" :=
  .inr ⟨0, ['5'], by decide, by decide, by decide, by decide, by decide, by decide +kernel⟩

/-- The execution of a mint from its text. -/
example : coreExecuteText Demo.s0 (Demo.env 10) Demo.mintInfo (Storage.textBytes
      "{\"mint\":{\"amount\":\"10000\",\"receiver\":null,\"refund_to\":null}}") =
    Core.execute Demo.s0 (Demo.env 10) Demo.mintInfo (.mint 10000 none none) := by
  have : readMsg coreExecute (Storage.textBytes "{\"mint\":{\"amount\":\"10000\",\"receiver\":null,\"refund_to\":null}}") =
      .ok (.mint 10000 none none) := by decide +kernel
  rw [coreExecuteText, this]
  rfl

/-- **C99** The contracts write exactly these texts: what one contract sends to another is the text a client would write. -/
theorem C99_written : ∃ dec : Nat → String, (∀ n, Texts.IsDecimal n (dec n)) ∧
    (∀ m, coreInstantiate.toText m = Storage.textBytes (Texts.coreInstantiate dec m)) ∧
    (∀ m, coreExecute.toText m = Storage.textBytes (Texts.core dec m)) ∧
    (∀ m, dropExecute.toText m = Storage.textBytes (Texts.airdrop m)) ∧
    (∀ m, zapExecute.toText m = Storage.textBytes (Texts.periphery m)) :=
  ⟨decText, decText_spec, fun m => by rw [toText_shown, shown_coreInstantiate], fun m => by rw [toText_shown, shown_core],
    fun m => by rw [toText_shown, shown_airdrop], fun m => by rw [toText_shown, shown_periphery]⟩

example : coreExecute.toText .realize = Storage.textBytes "{\"realize\":{}}" := by decide +kernel

/-- **C99** Different messages have different texts. -/
theorem C99_distinct : (∀ m m' : Core.ExecMsg, Texts.CoreFits m → Texts.CoreFits m' → coreExecute.toText m = coreExecute.toText m' → m = m') ∧
    (∀ m m' : Core.InstantiateMsg, Texts.InstantiateFits m → Texts.InstantiateFits m' →
      coreInstantiate.toText m = coreInstantiate.toText m' → m = m') ∧
    (∀ m m' : Airdrop.ExecMsg, Texts.DropFits m → Texts.DropFits m' → dropExecute.toText m = dropExecute.toText m' → m = m') ∧
    (∀ m m' : Periphery.PExecMsg, Texts.ZapFits m → Texts.ZapFits m' → zapExecute.toText m = zapExecute.toText m' → m = m') := by
  refine ⟨fun m m' h h' e => ?_, fun m m' h h' e => ?_, fun m m' h h' e => ?_, fun m m' h h' e => ?_⟩
  · have := ofText_toText coreExecute_faithful (core_fits.1 h)
    rw [e, ofText_toText coreExecute_faithful (core_fits.1 h')] at this
    exact (Option.some.inj this).symm
  · have := ofText_toText coreInstantiate_faithful (instantiate_fits.1 h)
    rw [e, ofText_toText coreInstantiate_faithful (instantiate_fits.1 h')] at this
    exact (Option.some.inj this).symm
  · have := ofText_toText dropExecute_faithful (drop_msg_fits.1 h)
    rw [e, ofText_toText dropExecute_faithful (drop_msg_fits.1 h')] at this
    exact (Option.some.inj this).symm
  · have := ofText_toText zapExecute_faithful (zap_fits.1 h)
    rw [e, ofText_toText zapExecute_faithful (zap_fits.1 h')] at this
    exact (Option.some.inj this).symm

example : coreExecute.toText (.mint 5 none none) ≠ coreExecute.toText (.mint 6 none none) := by decide +kernel

/-- **C99** The numbers of every message that is read fit their types: nothing a client writes can make the contract compute
with a number out of range. -/
theorem C99_in_range (b : Storage.Bytes) :
    (∀ m, readMsg coreInstantiate b = .ok m → Texts.InstantiateFits m) ∧
    (∀ m, readMsg coreExecute b = .ok m → Texts.CoreFits m) ∧
    (∀ m, readMsg dropExecute b = .ok m → Texts.DropFits m) ∧
    (∀ m, readMsg zapExecute b = .ok m → Texts.ZapFits m) := by
  refine ⟨fun m h => ?_, fun m h => ?_, fun m h => ?_, fun m h => ?_⟩ <;> obtain ⟨j, _, h⟩ := readMsg_eq_ok.1 h
  · exact instantiate_fits.2 (coreInstantiate_bounded j m h)
  · exact core_fits.2 (coreExecute_bounded j m h)
  · exact drop_msg_fits.2 (dropExecute_bounded j m h)
  · exact zap_fits.2 (zapExecute_bounded j m h)

/-- `2^128` is refused, one less is read. -/
example : readMsg coreExecute (Storage.textBytes "{\"mint\":{\"amount\":\"340282366920938463463374607431768211456\"}}") =
      .error .generic ∧
    readMsg coreExecute (Storage.textBytes "{\"mint\":{\"amount\":\"340282366920938463463374607431768211455\"}}") =
      .ok (.mint 340282366920938463463374607431768211455 none none) := by
  constructor <;> decide +kernel

/-- What a field that may be missing says: nothing if it is not there or null, else its text. -/
def Says (fs : List (String × Json.Json)) (name : String) (o : Option String) : Prop :=
  ((∀ j, (name, j) ∉ fs) ∧ o = none) ∨ ((name, .null) ∈ fs ∧ o = none) ∨ ∃ s, (name, .str s) ∈ fs ∧ o = some s

theorem field_mem {fs : List (String × Json.Json)} {name : String} {j : Json.Json} (hn : (fs.map (·.1)).Nodup) :
    field fs name = some j ↔ (name, j) ∈ fs := by
  unfold field
  induction fs with
  | nil => simp
  | cons f fs ih =>
    obtain ⟨k, x⟩ := f
    rw [List.map_cons, List.nodup_cons] at hn
    by_cases hk : k = name
    · subst hk
      have hnot : (k, j) ∉ fs := fun hm => hn.1 (List.mem_map.2 ⟨_, hm, rfl⟩)
      simp [List.find?_cons, hnot, eq_comm]
    · have : ¬ name = k := fun h => hk h.symm
      simp [List.find?_cons, hk, ih hn.2, this]

theorem field_none {fs : List (String × Json.Json)} {name : String} : field fs name = none ↔ ∀ j, (name, j) ∉ fs := by
  simp only [field, Option.map_eq_none_iff, List.find?_eq_none, decide_eq_true_eq]
  constructor
  · intro h j hm
    exact h _ hm rfl
  · rintro h ⟨k, x⟩ hm rfl
    exact h x hm

theorem optional_text {fs : List (String × Json.Json)} {name : String} {o : Option String} (hn : (fs.map (·.1)).Nodup) :
    Json.optional fs name text = some o ↔ Says fs name o := by
  unfold Json.optional Says
  cases h : field fs name with
  | none =>
    have h1 := field_none.1 h
    simp [h1, eq_comm]
  | some j =>
    have h1 := (field_mem hn).1 h
    have h2 : ∀ j', (name, j') ∈ fs → j' = j := fun j' hm => by
      rw [(field_mem hn).2 hm] at h
      exact Option.some.inj h
    have h3 : ¬ ∀ j, (name, j) ∉ fs := fun h => h j h1
    cases j with
    | null =>
      constructor
      · intro e
        cases e
        exact .inr (.inl ⟨h1, rfl⟩)
      · rintro (⟨h, _⟩ | ⟨_, rfl⟩ | ⟨s, hs, _⟩)
        · exact absurd h h3
        · rfl
        · cases h2 _ hs
    | str t =>
      constructor
      · intro e
        cases e
        exact .inr (.inr ⟨t, h1, rfl⟩)
      · rintro (⟨h, _⟩ | ⟨hs, _⟩ | ⟨s, hs, rfl⟩)
        · exact absurd h h3
        · cases h2 _ hs
        · cases h2 _ hs
          rfl
    | _ =>
      constructor
      · intro e
        cases e
      · rintro (⟨h, _⟩ | ⟨hs, _⟩ | ⟨s, hs, _⟩)
        · exact absurd h h3
        · cases h2 _ hs
        · cases h2 _ hs

theorem req_amount {fs : List (String × Json.Json)} {name : String} {n : Nat} (hn : (fs.map (·.1)).Nodup) :
    req fs name u128 = some n ↔ ∃ s, (name, .str s) ∈ fs ∧ parseU128 s.toList = some n := by
  unfold req
  cases h : field fs name with
  | none =>
    have h1 := field_none.1 h
    simp [h1]
  | some j =>
    have h1 := (field_mem hn).1 h
    have h2 : ∀ j', (name, j') ∈ fs → j' = j := fun j' hm => by
      rw [(field_mem hn).2 hm] at h
      exact Option.some.inj h
    constructor
    · intro e
      cases j with
      | str s => exact ⟨s, h1, e⟩
      | _ => cases e
    · rintro ⟨s, hs, e⟩
      cases h2 _ hs
      exact e

theorem record_some {names : List String} {j : Json.Json} {fs : List (String × Json.Json)} :
    record names j = some fs ↔ j = .obj fs ∧ (fs.map (·.1)).Nodup ∧ ∀ f ∈ fs, f.1 ∈ names := by
  cases j with
  | obj gs =>
    show ((only names gs).bind fun _ => some gs) = some fs ↔ _
    unfold only
    split_ifs with h
    · constructor
      · intro e
        cases e
        exact ⟨rfl, h⟩
      · rintro ⟨e, _⟩
        cases e
        rfl
    · constructor
      · intro e
        cases e
      · rintro ⟨e, h2⟩
        cases e
        exact absurd h2 h
  | _ =>
    constructor
    · intro e
      cases e
    · rintro ⟨e, _⟩
      cases e

/-- **C99** Which objects are read as a mint: fields in any order, none twice and none but the three; the amount as a text of
digits, which must be there; the other two may be missing or null. -/
theorem C99_mint_read (j : Json.Json) (n : Nat) (receiver refundTo : Option String) :
    coreExecute.dec j = some (.mint n receiver refundTo) ↔
      ∃ fs : List (String × Json.Json), j = .obj [("mint", .obj fs)] ∧ (fs.map (·.1)).Nodup ∧
        (∀ f ∈ fs, f.1 = "amount" ∨ f.1 = "receiver" ∨ f.1 = "refund_to") ∧
        (∃ s, ("amount", .str s) ∈ fs ∧ parseU128 s.toList = some n) ∧ Says fs "receiver" receiver ∧
        Says fs "refund_to" refundTo := by
  constructor
  · intro h
    obtain ⟨c, hc, body, rfl, h2⟩ := oneOf_some h
    clear h
    simp only [List.mem_cons, List.not_mem_nil, or_false] at hc
    rcases hc with rfl | rfl | rfl | rfl | rfl
    · refine then_fits (fun fs hfs => then_fits fun a ha => then_fits fun r hr => then_fits fun t ht e => ?_) h2
      cases e
      obtain ⟨rfl, hn, hm⟩ := record_some.1 hfs
      exact ⟨fs, rfl, hn, fun f hf => by simpa using hm f hf, (req_amount hn).1 ha, (optional_text hn).1 hr,
        (optional_text hn).1 ht⟩
    · exact then_fits (fun fs _ => then_fits fun a _ e => by cases e) h2
    · exact then_fits (fun fs _ e => by cases e) h2
    · exact then_fits (fun fs _ e => by cases e) h2
    · exact then_fits (fun fs _ e => by cases e) h2
  · rintro ⟨fs, rfl, hn, hm, ha, hr, ht⟩
    refine (oneOf_variant rfl _).trans ?_
    refine read_then (record_some.2 ⟨rfl, hn, fun f hf => by simpa using hm f hf⟩) ?_
    refine read_then ((req_amount hn).2 ha) ?_
    refine read_then ((optional_text hn).2 hr) ?_
    exact read_then ((optional_text hn).2 ht) rfl

/-- A mint whose fields are in another order, one missing, with white space between. -/
example : readMsg coreExecute (Storage.textBytes " { \"mint\" : { \"refund_to\" : \"bob\", \"amount\" : \"+07\" } } ") =
    .ok (.mint 7 none (some "bob")) := by decide +kernel

/-- Refused: a field twice, an unknown field, no amount, the amount as a number, two messages, something after the message. -/
example : ∀ t ∈ ["{\"mint\":{\"amount\":\"7\",\"amount\":\"7\"}}", "{\"mint\":{\"amount\":\"7\",\"to\":\"bob\"}}",
      "{\"mint\":{\"receiver\":\"bob\"}}", "{\"mint\":{\"amount\":7}}", "{\"mint\":{\"amount\":\"7\"},\"burn\":{}}",
      "{\"mint\":{\"amount\":\"7\"}}}", "\"realize\"", "{\"realize\":null}", ""],
    readMsg coreExecute (Storage.textBytes t) = .error .generic := by decide +kernel

/-- **C99** The amounts that are read are the numbers below `2^128` written with at least one digit, after an optional plus
sign. -/
theorem C99_amount_read (cs : List Char) (n : Nat) :
    parseU128 cs = some n ↔ ∃ ds, (cs = ds ∨ cs = '+' :: ds) ∧ ds ≠ [] ∧ (∀ c ∈ ds, c.isDigit = true) ∧
      n = Texts.digitsValue ds ∧ n < 2 ^ 128 := by
  have key : ∀ ds : List Char, ((if ds = [] then none else if ds.all Char.isDigit then
      (if ds.foldl (fun n c => 10 * n + (c.toNat - 48)) 0 < U128 then some (ds.foldl (fun n c => 10 * n + (c.toNat - 48)) 0)
        else none) else none) = some n) ↔
      (ds ≠ [] ∧ (∀ c ∈ ds, c.isDigit = true) ∧ n = Texts.digitsValue ds ∧ n < 2 ^ 128) := by
    intro ds
    unfold Texts.digitsValue
    split_ifs with h1 h2 h3
    · simp [h1]
    · rw [List.all_eq_true] at h2
      constructor
      · intro e
        cases e
        exact ⟨h1, h2, rfl, h3⟩
      · rintro ⟨_, _, rfl, _⟩
        rfl
    · constructor
      · intro e
        cases e
      · rintro ⟨_, _, rfl, h⟩
        exact absurd h h3
    · rw [List.all_eq_true] at h2
      constructor
      · intro e
        cases e
      · rintro ⟨_, h, _⟩
        exact absurd h h2
  have hplus : (dropPlus cs = cs ∧ ∀ ds, cs ≠ '+' :: ds) ∨ ∃ ds, cs = '+' :: ds ∧ dropPlus cs = ds := by
    unfold dropPlus
    split
    · exact .inr ⟨_, rfl, rfl⟩
    · rename_i h
      exact .inl ⟨rfl, fun ds e => h ds e⟩
  unfold parseU128
  dsimp only
  rw [key]
  constructor
  · rintro ⟨h1, h2, h3, h4⟩
    rcases hplus with ⟨e, _⟩ | ⟨ds, e, e2⟩
    · rw [e] at h1 h2 h3
      exact ⟨cs, .inl rfl, h1, h2, h3, h4⟩
    · rw [e2] at h1 h2 h3
      exact ⟨ds, .inr e, h1, h2, h3, h4⟩
  · rintro ⟨ds, hc, h1, h2, h3, h4⟩
    rcases hc with rfl | rfl
    · rcases hplus with ⟨e, _⟩ | ⟨es, e, e2⟩
      · rw [e]
        exact ⟨h1, h2, h3, h4⟩
      · rw [e] at h2
        exact absurd (h2 '+' (by simp)) (by decide)
    · exact ⟨h1, h2, h3, h4⟩

example : parseU128 "+0012".toList = some 12 ∧ parseU128 "".toList = none ∧ parseU128 "+".toList = none ∧
    parseU128 "-1".toList = none ∧ parseU128 "1e3".toList = none := by decide +kernel

/-! ## C100 -/

/-- The names of the messages of the core contract. -/
def coreNames : List String := ["mint", "burn", "realize", "gov", "rebalance"]
/-- The names of the messages of the airdrop contract. -/
def dropNames : List String := ["register", "fund", "claim", "close"]
/-- The names of the messages of the periphery contract. -/
def zapNames : List String :=
  ["mint_exact_amount_in", "mint_exact_amount_out", "burn_exact_amount_in", "burn_exact_amount_out", "finish_operation"]

/-- **C100** What is read as a message is an object with exactly one field, named after one of the messages of the
contract. -/
theorem C100_names (b : Storage.Bytes) :
    (∀ m, readMsg coreExecute b = .ok m → ∃ name ∈ coreNames, ∃ body, ofBytes b = some (.obj [(name, body)])) ∧
    (∀ m, readMsg dropExecute b = .ok m → ∃ name ∈ dropNames, ∃ body, ofBytes b = some (.obj [(name, body)])) ∧
    (∀ m, readMsg zapExecute b = .ok m → ∃ name ∈ zapNames, ∃ body, ofBytes b = some (.obj [(name, body)])) := by
  refine ⟨fun m h => ?_, fun m h => ?_, fun m h => ?_⟩ <;> obtain ⟨j, hj, h⟩ := readMsg_eq_ok.1 h <;>
    obtain ⟨c, hc, body, rfl, -⟩ := oneOf_some h
  · refine ⟨c.1, ?_, body, hj⟩
    have := List.mem_map_of_mem (f := Prod.fst) hc
    exact this
  · refine ⟨c.1, ?_, body, hj⟩
    have := List.mem_map_of_mem (f := Prod.fst) hc
    exact this
  · refine ⟨c.1, ?_, body, hj⟩
    have := List.mem_map_of_mem (f := Prod.fst) hc
    exact this

example : ∃ m, readMsg dropExecute (Storage.textBytes "{\"fund\":{\"id\":3}}") = .ok m := ⟨.fund (.id 3), by decide +kernel⟩

/-- **C100** No text is a message of two of the contracts: a message sent to the wrong contract is refused. -/
theorem C100_separate (b : Storage.Bytes) :
    (∀ m m', ¬ (readMsg coreExecute b = .ok m ∧ readMsg dropExecute b = .ok m')) ∧
    (∀ m m', ¬ (readMsg coreExecute b = .ok m ∧ readMsg zapExecute b = .ok m')) ∧
    (∀ m m', ¬ (readMsg dropExecute b = .ok m ∧ readMsg zapExecute b = .ok m')) := by
  obtain ⟨h1, h2, h3⟩ := C100_names b
  have key : ∀ {n n' : String} {x y : Json.Json}, ofBytes b = some (.obj [(n, x)]) → ofBytes b = some (.obj [(n', y)]) → n = n' := by
    intro n n' x y e e'
    rw [e] at e'
    cases e'
    rfl
  refine ⟨?_, ?_, ?_⟩
  · rintro m m' ⟨h, h'⟩
    obtain ⟨n, hn, x, e⟩ := h1 m h
    obtain ⟨n', hn', y, e'⟩ := h2 m' h'
    cases key e e'
    exact absurd hn' ((by decide : ∀ n ∈ coreNames, n ∉ dropNames) n hn)
  · rintro m m' ⟨h, h'⟩
    obtain ⟨n, hn, x, e⟩ := h1 m h
    obtain ⟨n', hn', y, e'⟩ := h3 m' h'
    cases key e e'
    exact absurd hn' ((by decide : ∀ n ∈ coreNames, n ∉ zapNames) n hn)
  · rintro m m' ⟨h, h'⟩
    obtain ⟨n, hn, x, e⟩ := h2 m h
    obtain ⟨n', hn', y, e'⟩ := h3 m' h'
    cases key e e'
    exact absurd hn' ((by decide : ∀ n ∈ dropNames, n ∉ zapNames) n hn)

example : readMsg coreExecute (Storage.textBytes "{\"burn\":{}}") = .ok (.burn none) ∧
    readMsg dropExecute (Storage.textBytes "{\"burn\":{}}") = .error .generic ∧
    readMsg zapExecute (Storage.textBytes "{\"burn\":{}}") = .error .generic := by decide +kernel

/-- **C100** The helper for calling the periphery contract writes messages of the core contract: whatever it is given, the
periphery contract refuses, and the core contract, were it called instead, understands. -/
theorem C100_helper_unusable (m : Core.ExecMsg) (h : Texts.CoreFits m) :
    (∀ p info, zapExecuteText p info (callPeriphery m) = .error .generic) ∧
    (∀ s env info, coreExecuteText s env info (callPeriphery m) = Core.execute s env info m) ∧
    callCore m = callPeriphery m := by
  have hr := readMsg_toText coreExecute_faithful (core_fits.1 h)
  refine ⟨fun p info => ?_, fun s env info => ?_, rfl⟩
  · unfold zapExecuteText callPeriphery
    cases hz : readMsg zapExecute (coreExecute.toText m) with
    | ok m' => exact absurd ⟨hr, hz⟩ ((C100_separate _).2.1 m m')
    | error e =>
      unfold readMsg at hz
      split at hz <;> cases hz
      rfl
  · unfold coreExecuteText callPeriphery
    rw [hr]
    rfl

example : Texts.CoreFits (.mint 5 none none) ∧
    callPeriphery (.mint 5 none none) = Storage.textBytes "{\"mint\":{\"amount\":\"5\",\"receiver\":null,\"refund_to\":null}}" :=
  ⟨by norm_num [Texts.CoreFits, Texts.Amount], by decide +kernel⟩

end Ibcx.Props
