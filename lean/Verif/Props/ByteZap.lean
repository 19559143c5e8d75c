import Verif.Json.ZapLemmas2
/-!
# C108: the periphery contract on bytes

With bytes at every border — the message, the questions to the core contract and its answers, the answers about pools, the
calls it sends, the storage of the core contract — a zap does what it does on messages and states.
-/

namespace Ibcx.Spec.Texts
open Ibcx Ibcx.Periphery Ibcx.Json
open Ibcx.Storage (Bytes Raw textBytes)

/-- A message of the periphery with the texts of the calls in it; `self` is the address of the periphery. -/
def sent (dec : Nat → String) (self : Addr) : PMsg → WMsg
  | .chain m => .chain m
  | .core addr m funds => .wasm addr (textBytes (core dec m)) funds
  | .finish refundTo asset => .wasm self (textBytes (periphery (.finishOperation refundTo asset))) []

/-- The same addresses and bank, and a storage of the core contract that holds the texts of its state. -/
structure SameWorld (dec : Nat → String) (v : Iface.ContractVersion) (w : WWorld) (z : Chain.ZWorld) : Prop where
  coreAddr : w.coreAddr = z.coreAddr
  zap : w.zap = z.zap
  bank : w.bank = z.bank
  core : CoreStored dec v w.core z.core

end Ibcx.Spec.Texts

namespace Ibcx.Props
open Ibcx Ibcx.Json Ibcx.Spec Ibcx.Storage Ibcx.Iface Ibcx.Chain Ibcx.Periphery

theorem same_iff {dec : Nat → String} (hd : ∀ n, Texts.IsDecimal n (dec n)) {v : ContractVersion} {w : WWorld} {z : ZWorld} :
    Texts.SameWorld dec v w z ↔ Same v w z :=
  ⟨fun h => ⟨h.coreAddr, h.zap, h.bank, (core_stored_iff hd z.core).1 h.core⟩,
    fun h => ⟨h.coreAddr, h.zap, h.bank, (core_stored_iff hd z.core).2 h.core⟩⟩

theorem wire_sent (self : Addr) (m : PMsg) : wire self m = Texts.sent decText self m := by
  cases m with
  | chain m => rfl
  | core a c f => rw [wire, Texts.sent, toText_shown, shown_core]
  | finish r d => rw [wire, Texts.sent, toText_shown, shown_periphery]

/-- Bob's purchase of 40000 index tokens. -/
def buyMsg : PExecMsg := .mintExactOut "core" 40000 "uosmo" [⟨"uosmo,uatom", ["1066,uosmo"]⟩]

/-- The storage of the example contract, in the world of the zap examples. -/
theorem zap_bytes : ∃ w : WWorld, Texts.SameWorld decText coreVersion w zapWorld := by
  obtain ⟨b, _, h2, _⟩ := (C103_core_history decText_spec coreVersion (by decide)).2 _ demo_created
  exact ⟨⟨b, "core", "zap", zapWorld.bank⟩, rfl, rfl, rfl, h2⟩

theorem zap_good : Core.Reachable zapWorld.core ∧ StateFits zapWorld.core ∧ Texts.CoreStateFits zapWorld.core :=
  ⟨⟨Demo.s0, [], Demo.s0_fresh, rfl⟩, ⟨by decide +kernel, by decide +kernel⟩,
    C101_core_fits (ts := []) demo_created (by decide) (by simp)⟩

theorem buy_read : readMsg zapExecute (zapExecute.toText buyMsg) = .ok buyMsg :=
  readMsg_toText zapExecute_faithful (zap_fits.1 (by show Texts.Amount 40000; decide +kernel))

/-- **C108 (zaps).** On a chain where both contracts are called with bytes, a text makes a successful zap exactly when it can be
read as a message whose zap succeeds on states; both end with the same bank, and the storage of the core contract holds the
texts of its new state.  Calls to itself may go two deep or deeper. -/
theorem C108_zap {dec : Nat → String} (hd : ∀ n, Texts.IsDecimal n (dec n)) {v : ContractVersion} {w : WWorld} {z : ZWorld}
    (h : Texts.SameWorld dec v w z) (hr : Core.Reachable z.core) (hf : StateFits z.core) (hn : Texts.CoreStateFits z.core)
    (env : Env) (ht : Texts.Number env.now) (raw : Nat → Res Bytes) (market : List Nat) (depth : Nat) (hdepth : 2 ≤ depth)
    (info : Info) (text : Bytes) :
    (∀ m z', readMsg zapExecute text = .ok m → zapTx z env (askPool raw) market info m = .ok z' →
      ∃ w', zapWasmTx w env raw market depth info text = .ok w' ∧ Texts.SameWorld dec v w' z') ∧
    (∀ w', zapWasmTx w env raw market depth info text = .ok w' →
      ∃ m z', readMsg zapExecute text = .ok m ∧ zapTx z env (askPool raw) market info m = .ok z' ∧
        Texts.SameWorld dec v w' z') := by
  obtain ⟨k, rfl⟩ : ∃ k, depth = k + 2 := ⟨depth - 2, by omega⟩
  simp only [same_iff hd] at h ⊢
  exact tx_both h ⟨hr, hf, hn⟩ ht market k info text

/-- The purchase as bytes, over a concentrated pool about which the chain answers with its text. -/
example : ∃ w w', Texts.SameWorld decText coreVersion w zapWorld ∧
    zapWasmTx w zapEnv (fun _ => .ok (toBytes pool1066)) [10003] 2 ⟨"bob", [⟨"uosmo", 80000⟩]⟩
      (textBytes (Texts.periphery buyMsg)) = .ok w' ∧
    (w'.bank.bal "bob" "factory/core/ibcx", w'.bank.bal "bob" "uosmo", w'.bank.bal "zap" "uosmo") = (39600, 29997, 0) := by
  obtain ⟨w, h⟩ := zap_bytes
  obtain ⟨g1, g2, g3⟩ := zap_good
  have hz : (zapTx zapWorld zapEnv (askPool fun _ => .ok (toBytes pool1066)) [10003] ⟨"bob", [⟨"uosmo", 80000⟩]⟩ buyMsg).map
      (fun w => (w.bank.bal "bob" "factory/core/ibcx", w.bank.bal "bob" "uosmo", w.bank.bal "zap" "uosmo")) =
      .ok (39600, 29997, 0) := by decide +kernel
  cases hx : zapTx zapWorld zapEnv (askPool fun _ => .ok (toBytes pool1066)) [10003] ⟨"bob", [⟨"uosmo", 80000⟩]⟩ buyMsg with
  | error e => rw [hx] at hz; cases hz
  | ok z' =>
    rw [hx] at hz
    obtain ⟨w', e1, e2⟩ := (C108_zap decText_spec h g1 g2 g3 zapEnv (by decide) (fun _ => .ok (toBytes pool1066)) [10003] 2
      (le_refl _) ⟨"bob", [⟨"uosmo", 80000⟩]⟩ (zapExecute.toText buyMsg)).1 buyMsg z' buy_read hx
    rw [toText_shown, shown_periphery] at e1
    refine ⟨w, w', h, e1, ?_⟩
    rw [e2.bank]
    exact Except.ok.inj hz

/-- A text that is no message of the periphery does nothing. -/
example : ∃ w, Texts.SameWorld decText coreVersion w zapWorld ∧
    ∀ raw market w', zapWasmTx w zapEnv raw market 2 ⟨"bob", []⟩ (textBytes "{\"realize\":{}}") ≠ .ok w' := by
  obtain ⟨w, h⟩ := zap_bytes
  obtain ⟨g1, g2, g3⟩ := zap_good
  refine ⟨w, h, fun raw market w' hx => ?_⟩
  obtain ⟨m, z', hm, _⟩ := (C108_zap decText_spec h g1 g2 g3 zapEnv (by decide) raw market 2 (le_refl _) ⟨"bob", []⟩ _).2 w' hx
  have : readMsg zapExecute (textBytes "{\"realize\":{}}") = .error .generic := by decide +kernel
  cases this.symm.trans hm

/-- **C108 (messages).** Called with bytes, the periphery sends exactly the messages it sends on states, with the texts of the
calls in them. -/
theorem C108_messages {dec : Nat → String} (hd : ∀ n, Texts.IsDecimal n (dec n)) {v : ContractVersion} {w : WWorld} {z : ZWorld}
    (h : Texts.SameWorld dec v w z) (hn : Texts.CoreStateFits z.core) (env : Env) (ht : Texts.Number env.now)
    (raw : Nat → Res Bytes) (info : Info) (text : Bytes) (ws : List WMsg) :
    zapWasmExecute (w.benv env raw) info text = .ok ws ↔
      ∃ m ms, readMsg zapExecute text = .ok m ∧ Periphery.execute (z.penv env (askPool raw)) info m = .ok ms ∧
        ws = ms.map (Texts.sent dec env.contract) := by
  obtain rfl := dec_unique hd
  have he : Texts.sent decText env.contract = wire env.contract := funext fun m => (wire_sent _ m).symm
  rw [he]
  unfold zapWasmExecute
  cases hm : readMsg zapExecute text with
  | error e => simp [Bind.bind, Except.bind]
  | ok m =>
    have hw := wire_execute (pool := askPool raw) (raw := raw) ((same_iff decText_spec).1 h) hn ht info m
    have hp : withAnswers (z.penv env (askPool raw)) raw = z.penv env (askPool raw) := rfl
    rw [hp] at hw
    simp only [ok_bind, Except.ok.injEq, exists_and_left, exists_eq_left']
    cases hx : Periphery.execute (z.penv env (askPool raw)) info m with
    | error e =>
      rw [hx] at hw
      cases hy : byteExecute (w.benv env raw) info m with
      | error e' => simp
      | ok a => rw [hy] at hw; cases hw
    | ok ms =>
      rw [hx] at hw
      rw [ok_of_agree hw]
      simp [eq_comm]

/-- What the purchase sends. -/
example : ∃ w, Texts.SameWorld decText coreVersion w zapWorld ∧
    zapWasmExecute (w.benv zapEnv fun _ => .ok (toBytes pool1066)) ⟨"bob", [⟨"uosmo", 80000⟩]⟩
      (textBytes (Texts.periphery buyMsg)) =
    .ok [.chain (.swapExactOut "zap" [⟨1066, "uosmo"⟩] ⟨"uatom", 10000⟩ 11428),
      .wasm "core" (textBytes "{\"mint\":{\"amount\":\"40000\",\"receiver\":\"bob\",\"refund_to\":\"bob\"}}")
        [⟨"uatom", 10000⟩, ⟨"uosmo", 60000⟩],
      .wasm "zap" (textBytes "{\"finish_operation\":{\"refund_to\":\"bob\",\"refund_asset\":\"uosmo\"}}") []] := by
  obtain ⟨w, h⟩ := zap_bytes
  obtain ⟨_, _, g3⟩ := zap_good
  refine ⟨w, h, (C108_messages decText_spec h g3 zapEnv (by decide) _ _ _ _).2
    ⟨buyMsg, [.chain (.swapExactOut "zap" [⟨1066, "uosmo"⟩] ⟨"uatom", 10000⟩ 11428),
      .core "core" (.mint 40000 (some "bob") (some "bob")) [⟨"uatom", 10000⟩, ⟨"uosmo", 60000⟩], .finish "bob" "uosmo"], ?_, ?_, ?_⟩⟩
  · rw [← shown_periphery, ← toText_shown]
    exact buy_read
  · decide +kernel
  · simp only [List.map_cons, List.map_nil, Texts.sent]
    decide +kernel

/-- **C108 (queries).** Asked with bytes, the periphery answers, byte for byte, what it answers on states. -/
theorem C108_query {dec : Nat → String} (hd : ∀ n, Texts.IsDecimal n (dec n)) {v : ContractVersion} {w : WWorld} {z : ZWorld}
    (h : Texts.SameWorld dec v w z) (hn : Texts.CoreStateFits z.core) (env : Env) (ht : Texts.Number env.now)
    (raw : Nat → Res Bytes) (text a : Bytes) :
    zapWasmQuery (w.benv env raw) text = .ok a ↔ zapQueryText (z.penv env (askPool raw)) text = .ok a := by
  unfold zapWasmQuery zapQueryText
  cases hm : readMsg zapQuery text with
  | error e => simp [Bind.bind, Except.bind]
  | ok q =>
    simp only [ok_bind]
    exact agree_iff.1 (wire_answer (pool := askPool raw) (raw := raw) ((same_iff hd).1 h) hn ht q) a

/-- A question for a price. -/
def priceQuery : ZapQuery := .mintExactOut "core" 40000 "uosmo" [⟨"uosmo,uatom", ["1066,uosmo"]⟩]

/-- A price in index tokens, asked for and answered with bytes. -/
example : ∃ w, Texts.SameWorld decText coreVersion w zapWorld ∧
    ∃ a, zapWasmQuery (w.benv zapEnv fun _ => .ok (toBytes pool1066)) (zapQuery.toText priceQuery) = .ok a := by
  obtain ⟨w, h⟩ := zap_bytes
  obtain ⟨_, _, g3⟩ := zap_good
  have e : readMsg zapQuery (zapQuery.toText priceQuery) = .ok priceQuery :=
    readMsg_toText zapQuery_faithful (zap_query_fits.1 (by show Texts.Amount 40000; decide +kernel))
  have hz : (zapAnswer (zapWorld.penv zapEnv (askPool fun _ => .ok (toBytes pool1066))) priceQuery).isOk = true := by
    decide +kernel
  cases hx : zapAnswer (zapWorld.penv zapEnv (askPool fun _ => .ok (toBytes pool1066))) priceQuery with
  | error e => rw [hx] at hz; cases hz
  | ok a =>
    refine ⟨w, h, a, (C108_query decText_spec h g3 zapEnv (by decide) _ _ a).2 ?_⟩
    rw [zapQueryText, e, ok_bind]
    exact hx

/-- **C108 (version).** The periphery is made by any JSON object without fields and then stores only its name and version;
it migrates exactly when the message can be read and either asks for force or the new code has the same name and a greater
version, and then stores the new name and version and leaves every other entry.  Without a stored version only force works. -/
theorem C108_version (v new : ContractVersion) (text : Bytes) :
    (∀ b, zapWasmInstantiate v text = .ok b ↔
      readMsg Json.emptyMsg text = .ok () ∧ b = [(textBytes "contract_info", textBytes (Texts.version v))]) ∧
    (∀ b : Raw Bytes, b.get (textBytes "contract_info") = some (textBytes (Texts.version v)) →
      ∀ b', zapWasmMigrate parseVersion new b text = .ok b' ↔
        (∃ f, readMsg migrateMsg text = .ok f ∧ Migrates f v new) ∧
          b' = KV.set b (textBytes "contract_info") (textBytes (Texts.version new))) ∧
    (∀ b : Raw Bytes, b.get (textBytes "contract_info") = none →
      ∀ b', zapWasmMigrate parseVersion new b text = .ok b' ↔
        readMsg migrateMsg text = .ok (some true) ∧
          b' = KV.set b (textBytes "contract_info") (textBytes (Texts.version new))) := by
  have hv : ∀ v : ContractVersion, versionRecord.toText v = textBytes (Texts.version v) := fun v => by
    rw [toText_shown, shown_version]
  have hread : readMsg versionRecord (textBytes (Texts.version v)) = .ok v := by
    rw [← hv]
    exact readMsg_toText versionRecord_faithful trivial
  refine ⟨fun b => ?_, fun b hb b' => ?_, fun b hb b' => ?_⟩
  · unfold zapWasmInstantiate
    rw [hv]
    cases readMsg Json.emptyMsg text with
    | error e => simp [Bind.bind, Except.bind]
    | ok u =>
      simp only [ok_bind, Except.ok.injEq, true_and, KV.set, versionKey]
      exact eq_comm
  · unfold zapWasmMigrate versionKey
    simp only [hv, hb, hread]
    cases hm : readMsg migrateMsg text with
    | error e => simp [Bind.bind, Except.bind]
    | ok f =>
      simp only [ok_bind, Except.ok.injEq, exists_eq_left']
      rw [← migrates_iff]
      unfold migrate storeVersion
      split
      · simp only [require]
        by_cases hc : v.contract = new.contract
        · cases hp : parseVersion v.version with
          | none => simp [hc, Bind.bind, Except.bind]
          | some cv =>
            cases hq : parseVersion new.version with
            | none => simp [hc, Bind.bind, Except.bind]
            | some nv =>
              by_cases hlt : cmpVersion cv nv = .lt
              · simp [hc, hlt, Bind.bind, Except.bind, eq_comm]
              · simp [hc, hlt, Bind.bind, Except.bind]
        · simp [hc, Bind.bind, Except.bind]
      · simp [eq_comm]
  · unfold zapWasmMigrate versionKey
    simp only [hv, hb]
    cases hm : readMsg migrateMsg text with
    | error e => simp [Bind.bind, Except.bind]
    | ok f =>
      simp only [ok_bind, Except.ok.injEq]
      match f with
      | none => simp
      | some false => simp
      | some true => simp [eq_comm]

/-- The stored record of the example. -/
def periphery (version : String) : Json.Json := .obj [("contract", .str "crates.io:ibcx-periphery"), ("version", .str version)]

/-- Version `0.2.0` may follow `0.1.0`. -/
example : zapWasmInstantiate ⟨"crates.io:ibcx-periphery", "0.1.0"⟩ (textBytes " { } ") =
      .ok [(textBytes "contract_info", toBytes (periphery "0.1.0"))] ∧
    zapWasmInstantiate ⟨"crates.io:ibcx-periphery", "0.1.0"⟩ (textBytes "{\"a\":1}") = .error .generic ∧
    zapWasmMigrate parseVersion ⟨"crates.io:ibcx-periphery", "0.2.0"⟩
      [(textBytes "contract_info", toBytes (periphery "0.1.0"))] (textBytes "{}") =
      .ok [(textBytes "contract_info", toBytes (periphery "0.2.0"))] ∧
    zapWasmMigrate parseVersion ⟨"crates.io:ibcx-periphery", "0.1.0"⟩
      [(textBytes "contract_info", toBytes (periphery "0.1.0"))] (textBytes "{}") = .error .generic := by decide +kernel

end Ibcx.Props
