import Verif.Json.SchemaLemmas2
import Verif.Props.QueryText
import Verif.Props.Demo
import Verif.Json.ContractQuery
/-!
# C106: exactly the messages of the tables are accepted
-/

namespace Ibcx.Props
open Ibcx Ibcx.Json Ibcx.Spec Ibcx.Spec.JsonText Ibcx.Storage

/-- A codec that follows its table reads exactly the texts of the table. -/
private theorem read_says {α : Type} {c : Codec α} {S : Schema} (hm : c.Matches S) (hf : c.Faithful) (hb : c.Bounded)
    {b : Bytes} {m : α} : readMsg c b = .ok m ↔ c.Fits m ∧ Schema.Says decText S b (shown (c.enc m)) := by
  have hw : IsText (shown (c.enc m)).toList (c.enc m) := by
    rw [shown, String.toList_ofList]
    exact (C105_json _ _).1 (read_write _)
  rw [readMsg_eq_ok]
  constructor
  · rintro ⟨j, h1, h2⟩
    obtain ⟨cs, e, ht⟩ := (C105_bytes b j).1 h1
    refine ⟨hb j m h2, cs, j, c.enc m, e, ht, (norm_iff S _ _).1 ?_, hw⟩
    rw [← hm j, h2]
    rfl
  · rintro ⟨hfit, cs, j, v, e, ht, hv, hv'⟩
    have ev : v = c.enc m := C105_one_meaning hv' hw
    subst ev
    refine ⟨j, (C105_bytes b j).2 ⟨cs, e, ht⟩, ?_⟩
    have hn := (norm_iff S _ _).2 hv
    rw [← hm j] at hn
    obtain ⟨m', hm', ee⟩ := Option.map_eq_some_iff.1 hn
    have h1 := hf m hfit
    rw [← ee, hf m' (hb j m' hm')] at h1
    rw [hm', Option.some.inj h1]

/-- **C106 (messages).** What the entry points accept is given by the tables of names and types, and nothing else is: a
byte string is read as a message exactly when the numbers of the message fit their types and the bytes are a JSON text
of the form in the table that says what the full text of the message says. -/
theorem C106_accepted : ∃ dec : Nat → String, (∀ n, Texts.IsDecimal n (dec n)) ∧
    (∀ b m, readMsg Json.coreInstantiate b = .ok m ↔
      Texts.InstantiateFits m ∧ Schema.Says dec Schema.coreInstantiate b (Texts.coreInstantiate dec m)) ∧
    (∀ b m, readMsg Json.coreExecute b = .ok m ↔ Texts.CoreFits m ∧ Schema.Says dec Schema.coreExecute b (Texts.core dec m)) ∧
    (∀ b q, readMsg Json.coreQuery b = .ok q ↔ Texts.CoreQueryFits q ∧ Schema.Says dec Schema.coreQuery b (Texts.coreQuery q)) ∧
    (∀ b m, readMsg Json.dropExecute b = .ok m ↔ Texts.DropFits m ∧ Schema.Says dec Schema.dropExecute b (Texts.airdrop m)) ∧
    (∀ b q, readMsg Json.dropQuery b = .ok q ↔ Texts.DropQueryFits q ∧ Schema.Says dec Schema.dropQuery b (Texts.dropQuery q)) ∧
    (∀ b m, readMsg Json.zapExecute b = .ok m ↔ Texts.ZapFits m ∧ Schema.Says dec Schema.zapExecute b (Texts.periphery m)) ∧
    (∀ b q, readMsg Json.zapQuery b = .ok q ↔ Texts.ZapQueryFits q ∧ Schema.Says dec Schema.zapQuery b (Texts.zapQuery q)) ∧
    (∀ b f, readMsg Json.migrateMsg b = .ok f ↔
      Schema.Says dec Schema.migrate b (Texts.obj [("force", Texts.orNull Texts.flag f)])) ∧
    (∀ b u, readMsg Json.emptyMsg b = .ok u ↔ Schema.Says dec (.record []) b "{}") := by
  refine ⟨decText, decText_spec, fun b m => ?_, fun b m => ?_, fun b m => ?_, fun b m => ?_, fun b m => ?_, fun b m => ?_,
    fun b m => ?_, fun b m => ?_, fun b m => ?_⟩
  · rw [read_says coreInstantiate_matches coreInstantiate_faithful coreInstantiate_bounded, ← instantiate_fits,
      shown_coreInstantiate]
  · rw [read_says coreExecute_matches coreExecute_faithful coreExecute_bounded, ← core_fits, shown_core]
  · rw [read_says coreQuery_matches coreQuery_faithful coreQuery_bounded, ← core_query_fits, shown_coreQuery]
  · rw [read_says dropExecute_matches dropExecute_faithful dropExecute_bounded, ← drop_msg_fits, shown_airdrop]
  · rw [read_says dropQuery_matches dropQuery_faithful dropQuery_bounded, ← drop_query_fits, shown_dropQuery]
  · rw [read_says zapExecute_matches zapExecute_faithful zapExecute_bounded, ← zap_fits, shown_periphery]
  · rw [read_says zapQuery_matches zapQuery_faithful zapQuery_bounded, ← zap_query_fits, shown_zapQuery]
  · rw [read_says migrateMsg_matches migrateMsg_faithful (fun _ _ _ => trivial)]
    have e : shown (migrateMsg.enc m) = Texts.obj [("force", Texts.orNull Texts.flag m)] := by
      rcases m with _ | (_ | _) <;> decide +kernel
    rw [e]
    exact ⟨fun h => h.2, fun h => ⟨trivial, h⟩⟩
  · rw [read_says emptyMsg_matches emptyMsg_faithful (fun _ _ _ => trivial)]
    exact ⟨fun h => h.2, fun h => ⟨trivial, h⟩⟩

/-- A mint whose fields come in another order, with white space, without one of the options and with a plus sign. -/
example : readMsg Json.coreExecute (textBytes " {\"mint\": {\"refund_to\": null, \"amount\": \"+0010000\"}}\n") =
    .ok (.mint 10000 none none) := by decide +kernel

/-- Refused: an unknown field, a field twice, an amount as a number, an amount left out, an amount of 2^128, two variants,
a bare name, a variant of another message. -/
example : ∀ t ∈ ["{\"mint\":{\"amount\":\"1\",\"memo\":\"\"}}", "{\"mint\":{\"amount\":\"1\",\"amount\":\"1\"}}",
      "{\"mint\":{\"amount\":1}}", "{\"mint\":{}}", "{\"mint\":{\"amount\":\"340282366920938463463374607431768211456\"}}",
      "{\"realize\":{},\"burn\":{}}", "\"realize\"", "{\"pause\":{}}", "{\"realize\":null}"],
    readMsg Json.coreExecute (textBytes t) = .error .generic := by decide +kernel

/-- Unknown fields of a coin are ignored; known ones may not come twice. -/
example : readMsg Json.coreQuery (textBytes
      "{\"simulate_mint\":{\"amount\":\"5\",\"funds\":[{\"x\":1,\"x\":2,\"amount\":\"7\",\"denom\":\"uatom\"}]}}") =
      .ok (.simulateMint 5 (some [⟨"uatom", 7⟩]) none) ∧
    readMsg Json.coreQuery (textBytes
      "{\"simulate_mint\":{\"amount\":\"5\",\"funds\":[{\"amount\":\"7\",\"amount\":\"7\",\"denom\":\"uatom\"}]}}") =
      .error .generic := by decide +kernel

private theorem read_cases {α β : Type} {c : Codec α} {b : Bytes} (f : α → Res β) :
    (∃ m, readMsg c b = .ok m ∧ (readMsg c b >>= f) = f m) ∨
      ((∀ m, readMsg c b ≠ .ok m) ∧ (readMsg c b >>= f) = .error .generic) := by
  unfold readMsg
  cases c.ofText b with
  | none => exact .inr ⟨fun m h => (by cases h), rfl⟩
  | some a => exact .inl ⟨a, rfl, rfl⟩

private theorem read_entry {α β : Type} {c : Codec α} {P : Bytes → α → Prop} (h : ∀ b m, readMsg c b = .ok m ↔ P b m)
    (b : Bytes) (f : α → Res β) :
    (∀ m, P b m → (readMsg c b >>= f) = f m) ∧ ((∀ m, ¬ P b m) → (readMsg c b >>= f) = .error .generic) := by
  constructor
  · intro m hm
    rw [(h b m).2 hm]
    rfl
  · intro hn
    rcases read_cases (c := c) (b := b) f with ⟨m, hm, _⟩ | ⟨_, e⟩
    · exact absurd ((h b m).1 hm) (hn m)
    · exact e

/-- **C106 (entry points).** On any bytes: if they are a message of the table, the entry point does what the handler does
with that message; if they are not, it fails, and neither the storage nor any account changes. -/
theorem C106_entry : ∃ dec : Nat → String, (∀ n, Texts.IsDecimal n (dec n)) ∧
    (∀ (m : Raw Bytes) (env : Env) (info : Info) (b : Bytes),
      (∀ msg, Texts.CoreFits msg ∧ Schema.Says dec Schema.coreExecute b (Texts.core dec msg) →
        coreWasmExecute m env info b = Storage.coreExecute m env info msg) ∧
      ((∀ msg, ¬ (Texts.CoreFits msg ∧ Schema.Says dec Schema.coreExecute b (Texts.core dec msg))) →
        coreWasmExecute m env info b = .error .generic ∧ coreWasmStep m ⟨env, info, b⟩ = (m, []))) ∧
    (∀ (c : Airdrop.Crypto) (m : Raw Bytes) (env : Env) (info : Info) (b : Bytes),
      (∀ msg, Texts.DropFits msg ∧ Schema.Says dec Schema.dropExecute b (Texts.airdrop msg) →
        dropWasmExecute c m env info b = rawExecute c m env info msg) ∧
      ((∀ msg, ¬ (Texts.DropFits msg ∧ Schema.Says dec Schema.dropExecute b (Texts.airdrop msg))) →
        dropWasmExecute c m env info b = .error .generic ∧ dropWasmStep c m ⟨env, info, b⟩ = (m, []))) ∧
    (∀ (p : Periphery.PEnv) (info : Info) (b : Bytes),
      (∀ msg, Texts.ZapFits msg ∧ Schema.Says dec Schema.zapExecute b (Texts.periphery msg) →
        zapExecuteText p info b = Periphery.execute p info msg) ∧
      ((∀ msg, ¬ (Texts.ZapFits msg ∧ Schema.Says dec Schema.zapExecute b (Texts.periphery msg))) →
        zapExecuteText p info b = .error .generic)) := by
  obtain ⟨dec, hdec, _, h1, _, h2, _, h3, _⟩ := C106_accepted
  refine ⟨dec, hdec, fun m env info b => ?_, fun c m env info b => ?_, fun p info b => ?_⟩
  · have e := read_entry h1 b (Storage.coreExecute m env info)
    refine ⟨e.1, fun hn => ?_⟩
    have e2 : coreWasmExecute m env info b = .error .generic := e.2 hn
    refine ⟨e2, ?_⟩
    unfold coreWasmStep
    dsimp only
    rw [e2]
  · have e := read_entry h2 b (rawExecute c m env info)
    refine ⟨e.1, fun hn => ?_⟩
    have e2 : dropWasmExecute c m env info b = .error .generic := e.2 hn
    refine ⟨e2, ?_⟩
    unfold dropWasmStep
    dsimp only
    rw [e2]
  · exact read_entry h3 b (Periphery.execute p info)

/-- Both cases occur: bytes that are not a message of the core contract, and bytes that are. -/
example : coreWasmExecute [] (Demo.env 10) Demo.mintInfo (textBytes "{\"mint\":{}}") = .error .generic ∧
    readMsg Json.coreExecute (textBytes "{\"realize\":{}}") = .ok .realize := by
  refine ⟨?_, by decide +kernel⟩
  have : readMsg Json.coreExecute (textBytes "{\"mint\":{}}") = .error .generic := by decide +kernel
  rw [coreWasmExecute, this]
  rfl

end Ibcx.Props
